import Verif.Spec.Accuracy

/-
C119: what a correctly rounded square root is.
-/

namespace Spp.Spec

/-- The square root of a number that is not negative is a number with `p` binary digits nearest to the true root, as
IEEE 754 requires of `sqrt`. -/
structure NearestSqrt (p : Nat) (sqrt : ℚ → ℚ) : Prop where
  rep : ∀ x : ℚ, 0 ≤ x → RepX p (sqrt x)
  near : ∀ x : ℚ, 0 ≤ x → ∀ y : ℚ, RepX p y → |√(x : ℝ) - (sqrt x : ℚ)| ≤ |√(x : ℝ) - y|

/-- `l` and `l'` have the same length, and no element of `l` is larger in magnitude than its partner. -/
def Smaller (l l' : List ℚ) : Prop := List.Forall₂ (fun x y => |x| ≤ |y|) l l'

end Spp.Spec
