import Verif.Spec.Ops

/-
Vocabulary for the algebraic laws of sums, products and inner products of whole arrays (C114).
-/

namespace Spp.Spec

/-- Whenever an operation of the number type has a result, that result - seen through `φ` - is the one
of the ring.  With `φ` the identity this is exact arithmetic, or arithmetic that fails instead of
returning a wrong result (signed integers); with `φ` the residue modulo `2^bits` it is unsigned
arithmetic as well. -/
structure Through {α R : Type} [CommRing R] (φ : α → R) (ar : Arith α) : Prop where
  zero : φ ar.zero = 0
  one : φ ar.one = 1
  add : ∀ x y z, ar.add x y = .ok z → φ z = φ x + φ y
  sub : ∀ x y z, ar.sub x y = .ok z → φ z = φ x - φ y
  mul : ∀ x y z, ar.mul x y = .ok z → φ z = φ x * φ y
  ofIndex : ∀ i z, ar.ofIndex i = .ok z → φ z = (i : R)

/-- The call `sum(t)`, made while the arrays hold `s`, returns `v`. -/
def SumIs {α : Type} {d : Dim} (b : Build) (ar : Arith α) (s : Store α) (t : Tm α d) (v : α) : Prop :=
  ∃ a, t.build b s = .ok a ∧ Ops.sum ar a s ar.zero = .ok v

/-- The call `prod(t)` returns `v`.  (Without elements it returns zero.) -/
def ProdIs {α : Type} {d : Dim} (b : Build) (ar : Arith α) (s : Store α) (t : Tm α d) (v : α) : Prop :=
  ∃ a, t.build b s = .ok a ∧ Ops.prod ar a s ar.zero = .ok v

/-- The call `dot_prod(t, u)` returns `v`. -/
def DotIs {α : Type} {d : Dim} (b : Build) (ar : Arith α) (s : Store α) (t u : Tm α d) (v : α) : Prop :=
  ∃ a1 a2, t.build b s = .ok a1 ∧ u.build b s = .ok a2 ∧ Ops.dotProd b d ar a1 a2 s ar.zero = .ok v

/-- Element number `k` of the one-dimensional object `t` is `v`. -/
def ElemIs {α : Type} (b : Build) (s : Store α) (t : Tm α .one) (k : Nat) (v : α) : Prop :=
  ∃ a, t.build b s = .ok a ∧ (k : Int) < a.rows s ∧ a.un s k = .ok v

/-- A list as a one-dimensional object. -/
def listAcc {α : Type} (l : List (Res α)) : Acc Unit α :=
  Acc.oneD (fun _ => (l.length : Int)) (fun _ i => pick l i)

/-- `sum`, as the function handed to `row_reduce` and `col_reduce`. -/
def sumFn {α : Type} (ar : Arith α) (l : List (Res α)) : Res α := Ops.sum ar (listAcc l) () ar.zero

/-- `t` is accepted while the arrays hold `s`: every view in it is in range, operands have matching
sizes, and all sizes are values of `index_t`. -/
def Accepted {α : Type} {d : Dim} (s : Store α) (t : Tm α d) : Prop := t.Sound s ∧ t.Valid s

end Spp.Spec
