import Verif.Model.StableOps
import Verif.Spec.Ops
import Mathlib.Algebra.Order.Field.Rat
import Mathlib.Algebra.Order.Ring.Abs
import Mathlib.Algebra.Order.Field.Power

/-
Binary floating-point arithmetic with round-to-nearest, as a specification: numbers are rationals, an
operation returns a representable number nearest to the exact result.  Nothing is said about how ties
are broken, so the theorems hold for every rule.  There is no largest exponent: overflow is excluded.
Gradual underflow is included.
-/

namespace Spp.Spec

/-- `x` is a binary floating-point number with `p` significant digits and least exponent `emin`: for
IEEE `double`, `p = 53` and `emin = -1074`. -/
def Rep (p : Nat) (emin : Int) (x : ℚ) : Prop :=
  ∃ m e : Int, |m| < 2 ^ p ∧ emin ≤ e ∧ x = m * 2 ^ e

/-- `rn` rounds every number to a nearest floating-point number. -/
structure Nearest (p : Nat) (emin : Int) (rn : ℚ → ℚ) : Prop where
  rep : ∀ x, Rep p emin (rn x)
  near : ∀ x y, Rep p emin y → |x - rn x| ≤ |x - y|

/-- The same format without a least exponent: neither overflow nor underflow. -/
def RepX (p : Nat) (x : ℚ) : Prop := ∃ m e : Int, |m| < 2 ^ p ∧ x = m * 2 ^ e

/-- `rn` rounds every number to a nearest number of that format. -/
structure NearestX (p : Nat) (rn : ℚ → ℚ) : Prop where
  rep : ∀ x, RepX p (rn x)
  near : ∀ x y, RepX p y → |x - rn x| ≤ |x - y|

/-- Floating-point arithmetic: the exact result of every operation is rounded once; `fma` rounds once;
changing the sign is exact.  Powers and square roots are given. -/
def rounded (rn : ℚ → ℚ) (pow : ℚ → ℚ → ℚ) (sqrt : ℚ → ℚ) : FScalar ℚ where
  zero := 0
  one := 1
  add x y := .ok (rn (x + y))
  sub x y := .ok (rn (x - y))
  mul x y := .ok (rn (x * y))
  div x y := .ok (rn (x / y))
  ofIndex i := .ok (rn i)
  neg x := .ok (-x)
  lt x y := decide (x < y)
  le x y := decide (x ≤ y)
  eq x y := decide (x = y)
  pow x y := .ok (pow x y)
  sqrt x := .ok (sqrt x)
  fma x y z := .ok (rn (x * y + z))

/-- The unit roundoff `2^-p`. -/
def unit (p : Nat) : ℚ := (2 ^ p)⁻¹

/-- The running sum of `l`, starting from `acc`, rounded after every addition. -/
def runningSum (rn : ℚ → ℚ) (acc : ℚ) : List ℚ → ℚ
  | [] => acc
  | x :: l => runningSum rn (rn (acc + x)) l

/-- The exact rounding errors of the additions of `runningSum`. -/
def sumErrors (rn : ℚ → ℚ) (acc : ℚ) : List ℚ → List ℚ
  | [] => []
  | x :: l => (acc + x - rn (acc + x)) :: sumErrors rn (rn (acc + x)) l

/-- The corrections of a compensated inner product: for each addition the rounding error of the sum
plus the rounding error of the product, rounded. -/
def corrections (rn : ℚ → ℚ) (xys : List ℚ) : List ℚ :=
  List.zipWith (fun q r => rn (q + r)) (sumErrors rn 0 (xys.map rn)) (xys.map (fun v => v - rn v))

/-- The consecutive full blocks of `k` elements of `l`. -/
def blocks {α : Type} (k : Nat) (l : List α) : List (List α) :=
  (List.range (l.length / k)).map fun i => (l.drop (k * i)).take k

/-- The elements after the last full block. -/
def afterBlocks {α : Type} (k : Nat) (l : List α) : List α := l.drop (k * (l.length / k))

/-- The running product of `l`, starting from `acc`, rounded after every multiplication. -/
def runningProd (rn : ℚ → ℚ) (acc : ℚ) : List ℚ → ℚ
  | [] => acc
  | x :: l => runningProd rn (rn (acc * x)) l

/-- The exact rounding errors of the multiplications of `runningProd`. -/
def prodErrors (rn : ℚ → ℚ) (acc : ℚ) : List ℚ → List ℚ
  | [] => []
  | x :: l => (acc * x - rn (acc * x)) :: prodErrors rn (rn (acc * x)) l

/-- The contributions of errors to a product: the `i`-th pair holds an error and the factor it still has
to be multiplied with for the pairs after it, every multiplication rounded. -/
def contributions (rn : ℚ → ℚ) (w : ℚ) : List (ℚ × ℚ) → List ℚ
  | [] => []
  | (e, a) :: q => rn (w * e) :: contributions rn (rn (w * a)) q

/-- Exact arithmetic in an ordered field with an exact fused multiply-add. -/
def exactF (K : Type) [Field K] [LinearOrder K] (pow : K → K → K) (sqrt : K → K) : FScalar K where
  toScalar := exactS K pow sqrt
  fma x y z := .ok (x * y + z)

end Spp.Spec
