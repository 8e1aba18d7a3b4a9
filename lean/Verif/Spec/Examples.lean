import Verif.Spec.Ops
import Verif.Model.Ops
import Mathlib.Data.List.OfFn
import Mathlib.Algebra.BigOperators.Fin
import Mathlib.Algebra.Order.Group.Unbundled.Abs

/-
What the example programs compute, without arrays: functions on lists and on families of numbers.
-/

namespace Spp.Spec

/-- An arithmetic in which every operation has a result: floating-point numbers, for instance, or exact numbers. -/
structure TotalArith (α : Type) where
  zero : α
  one : α
  add : α → α → α
  sub : α → α → α
  mul : α → α → α
  div : α → α → α
  ofIndex : Int → α
  neg : α → α
  lt : α → α → Bool
  le : α → α → Bool
  eq : α → α → Bool
  pow : α → α → α
  sqrt : α → α

namespace TotalArith

variable {α : Type} (P : TotalArith α)

/-- The same operations, as the library sees them. -/
def scalar : Scalar α where
  zero := P.zero
  one := P.one
  add x y := .ok (P.add x y)
  sub x y := .ok (P.sub x y)
  mul x y := .ok (P.mul x y)
  div x y := .ok (P.div x y)
  ofIndex i := .ok (P.ofIndex i)
  neg x := .ok (P.neg x)
  lt := P.lt
  le := P.le
  eq := P.eq
  pow x y := .ok (P.pow x y)
  sqrt x := .ok (P.sqrt x)

/-- The absolute value. -/
def abs (x : α) : α := if P.lt P.zero x then x else P.neg x

/-- The larger of two numbers. -/
def max (x y : α) : α := if P.lt y x then x else y

/-- The sum of a list, from left to right. -/
def total : List α → α
  | [] => P.zero
  | x :: xs => xs.foldl P.add x

/-- The inner product of two lists, from left to right. -/
def dot (u v : List α) : α := P.total (List.zipWith P.mul u v)

/-- The inner product as a matrix-vector product computes it: the products are added to zero. -/
def dot0 (u v : List α) : α := (List.zipWith P.mul u v).foldl P.add P.zero

/-- Two numbers agree up to a relative error. -/
def close (tol nearZero x y : α) : Bool :=
  P.le (P.max (P.abs x) (P.abs y)) nearZero || P.le (P.div (P.abs (P.sub x y)) (P.max (P.abs x) (P.abs y))) tol

/-- Solves equation `i`, with coefficients `row` and right side `r`, for unknown `i`, given the others. -/
def solveFor (row : List α) (r : α) (i : Nat) (x : List α) : α :=
  P.div (P.sub r (P.dot (row.eraseIdx i) (x.eraseIdx i))) (row.getD i P.zero)

/-- One step of the Jacobi method for the system with the given rows and right sides: every equation is solved for its
unknown with the old values of the other unknowns. -/
def step (M : List (List α)) (rhs x : List α) : List α :=
  (List.range M.length).map (fun i => P.solveFor (M.getD i []) (rhs.getD i P.zero) i x)

/-- The vector after `k` steps from zero. -/
def iterate (M : List (List α)) (rhs : List α) : Nat → List α
  | 0 => List.replicate M.length P.zero
  | k + 1 => P.step M rhs (iterate M rhs k)

/-- The left side of every equation is close to its right side. -/
def solves (M : List (List α)) (rhs : List α) (tol nearZero : α) (x : List α) : Bool :=
  (List.zip M rhs).all (fun e => P.close tol nearZero (P.dot0 e.1 x) e.2)

/-- The first of the vectors number `0`, ..., `100 N` that solves the system, with its number. -/
def firstSolution (M : List (List α)) (rhs : List α) (tol nearZero : α) : Option (List α × Nat) :=
  ((List.range (100 * M.length + 1)).find? (fun k => P.solves M rhs tol nearZero (P.iterate M rhs k))).map
    (fun k => (P.iterate M rhs k, k))

/-- Every diagonal element is increased by `two` times the sum of its row. -/
def raised (two : α) (M : List (List α)) : List (List α) :=
  M.mapIdx (fun i r => r.set i (P.add (r.getD i P.zero) (P.mul two (P.total r))))

/-- One step of the trapezoidal rule for `y' = y` with step width `h`. -/
def trapezoid (two h y : α) : α :=
  P.div (P.add y (P.div (P.mul y h) two)) (P.sub P.one (P.div h two))

/-- The value after `i` steps. -/
def trapezoids (two h y : α) : Nat → α
  | 0 => y
  | i + 1 => P.trapezoid two h (trapezoids two h y i)

end TotalArith

/-- `N` rows of `N` coefficients and `N` right sides, with few enough coefficients for `index_t`. -/
structure Square {α : Type} (M : List (List α)) (rhs : List α) : Prop where
  rows : ∀ r ∈ M, r.length = M.length
  rhs : rhs.length = M.length
  small : ((M.length * M.length : Nat) : Int) < 2 ^ 63 - 1

/-- The two-dimensional array with the given rows. -/
def matrixOf {α : Type} (M : List (List α)) : Arr2 α := ⟨M.length, M.length, M.flatten⟩

/-- The rows of a family of coefficients. -/
def rowsOf {K : Type} {n : Nat} (a : Fin n → Fin n → K) : List (List K) := List.ofFn fun i => List.ofFn (a i)

section exact

variable {K : Type} [Field K] [LinearOrder K]

/-- Exact arithmetic. -/
def exactN (K : Type) [Field K] [LinearOrder K] (pow : K → K → K) (sqrt : K → K) : TotalArith K where
  zero := 0
  one := 1
  add := (· + ·)
  sub := (· - ·)
  mul := (· * ·)
  div := (· / ·)
  ofIndex i := i
  neg := Neg.neg
  lt x y := decide (x < y)
  le x y := decide (x ≤ y)
  eq x y := decide (x = y)
  pow := pow
  sqrt := sqrt

/-- Floating-point arithmetic: the exact result of every operation is rounded once. -/
def roundedN (rn : ℚ → ℚ) (pow : ℚ → ℚ → ℚ) (sqrt : ℚ → ℚ) : TotalArith ℚ where
  zero := 0
  one := 1
  add x y := rn (x + y)
  sub x y := rn (x - y)
  mul x y := rn (x * y)
  div x y := rn (x / y)
  ofIndex i := rn i
  neg := Neg.neg
  lt x y := decide (x < y)
  le x y := decide (x ≤ y)
  eq x y := decide (x = y)
  pow := pow
  sqrt := sqrt

/-- The iterates of the Jacobi method in exact arithmetic, from zero: the `i`-th equation is solved for the `i`-th
unknown. -/
def jacobiX {n : Nat} (a : Fin n → Fin n → K) (c : Fin n → K) : Nat → Fin n → K
  | 0 => fun _ => 0
  | k + 1 => fun i => (c i - ∑ j with j ≠ i, a i j * jacobiX a c k j) / a i i

/-- In every row the entries beside the diagonal add up to at most `ρ` times the one on the diagonal, which is not
zero. -/
def Dominant {n : Nat} (ρ : K) (a : Fin n → Fin n → K) : Prop :=
  ∀ i, a i i ≠ 0 ∧ ∑ j with j ≠ i, |a i j| ≤ ρ * |a i i|

/-- The vector `x` satisfies every equation up to the tolerances: the two sides are both nearly zero, or they differ
by at most `tol` times the larger of the two. -/
def Residual {n : Nat} (a : Fin n → Fin n → K) (c : Fin n → K) (tol nearZero : K) (x : Fin n → K) : Prop :=
  ∀ i, (|∑ j, a i j * x j| ≤ nearZero ∧ |c i| ≤ nearZero) ∨
    |∑ j, a i j * x j - c i| ≤ tol * Max.max |∑ j, a i j * x j| |c i|

end exact

end Spp.Spec
