import Verif.Spec.Gives
import Verif.Model.Ops
import Mathlib.Algebra.Order.Ring.Defs
import Mathlib.Algebra.Field.Defs

/-
Vocabulary for the properties of operations on whole arrays.
-/

namespace Spp.Spec

/-- The elements of the object, in linear (row-major) order, are computed without failure and are
`l`. -/
def Elems {σ α : Type} (d : Dim) (a : Acc σ α) (s : σ) (l : List α) : Prop :=
  ∃ X : Sem α d, Den d a s X ∧ X.flat = l.map Res.ok

/-- `v` is the smallest element of `l`, and `k` the first place where it occurs. -/
def FirstLeast {α : Type} [LE α] [LT α] (l : List α) (k : Nat) (v : α) : Prop :=
  l[k]? = some v ∧ (∀ x ∈ l, v ≤ x) ∧ ∀ j < k, ∀ x, l[j]? = some x → v < x

/-- `v` is the largest element of `l`, and `k` the first place where it occurs. -/
def FirstGreatest {α : Type} [LE α] [LT α] (l : List α) (k : Nat) (v : α) : Prop :=
  l[k]? = some v ∧ (∀ x ∈ l, x ≤ v) ∧ ∀ j < k, ∀ x, l[j]? = some x → x < v

/-- Exact arithmetic and comparison in an ordered field; powers and roots are given. -/
def exactS (K : Type) [Field K] [LinearOrder K] (pow : K → K → K) (sqrt : K → K) : Scalar K where
  zero := 0
  one := 1
  add x y := .ok (x + y)
  sub x y := .ok (x - y)
  mul x y := .ok (x * y)
  div x y := .ok (x / y)
  ofIndex i := .ok (i : K)
  neg x := .ok (-x)
  lt x y := decide (x < y)
  le x y := decide (x ≤ y)
  eq x y := decide (x = y)
  pow x y := .ok (pow x y)
  sqrt x := .ok (sqrt x)

/-- The comparisons of the scalar type are those of the order: no NaN. -/
structure Ordered {α : Type} [LinearOrder α] (sc : Scalar α) : Prop where
  lt : ∀ x y, sc.lt x y = true ↔ x < y
  le : ∀ x y, sc.le x y = true ↔ x ≤ y
  eq : ∀ x y, sc.eq x y = true ↔ x = y

end Spp.Spec

namespace Spp.Spec

/-- The object has `sh.1` rows and `sh.2` columns (a list: one column) and the elements `l`. -/
def Shaped {σ α : Type} (d : Dim) (a : Acc σ α) (s : σ) (sh : Nat × Nat) (l : List α) : Prop :=
  ∃ X : Sem α d, Den d a s X ∧ X.dims = sh ∧ X.flat = l.map Res.ok

/-- Results of additions and multiplications, when there are any, are those of the ring: true of exact
arithmetic and of signed integers, where an operation that overflows has no result. -/
structure Faithful {R : Type} [CommRing R] (ar : Arith R) : Prop where
  zero : ar.zero = 0
  add : ∀ x y z, ar.add x y = .ok z → z = x + y
  mul : ∀ x y z, ar.mul x y = .ok z → z = x * y

/-- Signed integers of a given type. -/
def signedInts (b : Build) (t : IntTy) : Arith Int :=
  ⟨0, 1, SInt.add t, SInt.sub t, SInt.mul t, SInt.div b t,
   fun i => if t.Holds i then .ok i else .ub⟩

end Spp.Spec

namespace Spp.Spec

/-- What `std::sort` demands of the comparison: a strict weak order on the elements. -/
structure StrictWeak {α : Type} (f : α → α → Bool) (l : List α) : Prop where
  irrefl : ∀ x ∈ l, f x x = false
  trans : ∀ x ∈ l, ∀ y ∈ l, ∀ z ∈ l, f x y = true → f y z = true → f x z = true
  -- "neither smaller" is transitive
  incomp : ∀ x ∈ l, ∀ y ∈ l, ∀ z ∈ l,
    f x y = false → f y x = false → f y z = false → f z y = false → f x z = false

/-- What the standard says about `std::sort`: with a strict weak order on the elements the result is a
sorted rearrangement of them. -/
def StdSort {α : Type} (srt : (α → α → Bool) → List α → List α) : Prop :=
  ∀ f l, StrictWeak f l → (srt f l).Perm l ∧ (srt f l).Pairwise (fun x y => f y x = false)

end Spp.Spec
