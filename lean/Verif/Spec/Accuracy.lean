import Verif.Spec.Float
import Mathlib.Analysis.Real.Sqrt
import Mathlib.Analysis.SpecialFunctions.Pow.Real

/-
Accuracy of the elementary functions: what a theorem on rounding errors assumes about `std::sqrt` and `std::pow`.
-/

namespace Spp.Spec

/-- The square root has a relative error of at most one unit roundoff (IEEE 754 requires more: the nearest number). -/
def AccurateSqrt (p : Nat) (sqrt : ℚ → ℚ) : Prop := ∀ x : ℚ, 0 ≤ x → |(sqrt x : ℝ) - √(x : ℝ)| ≤ unit p * √(x : ℝ)

/-- Powers with natural exponents have a relative error of at most `k` roundings. -/
def AccuratePow (p k : Nat) (pow : ℚ → ℚ → ℚ) : Prop :=
  ∀ (x : ℚ) (n : Nat), |pow x n - x ^ n| ≤ ((1 + unit p) ^ k - 1) * |x| ^ n

/-- Powers of numbers that are not negative, with positive exponents, have a relative error of at most `k` roundings;
`x ^ r` is the power of real numbers. -/
def AccurateRoot (p k : Nat) (pow : ℚ → ℚ → ℚ) : Prop :=
  ∀ x r : ℚ, 0 ≤ x → 0 < r → |(pow x r : ℝ) - (x : ℝ) ^ (r : ℝ)| ≤ ((1 + unit p : ℚ) ^ k - 1) * (x : ℝ) ^ (r : ℝ)

/-- The norm `(Σ |x|^q)^(1/q)` of real numbers. -/
noncomputable def lpNorm (q : Nat) (l : List ℚ) : ℝ := (((l.map (fun x => |x| ^ q)).sum : ℚ) : ℝ) ^ (1 / (q : ℝ))

end Spp.Spec
