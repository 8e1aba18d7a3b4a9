import Mathlib.Algebra.Order.AbsoluteValue.Basic
import Mathlib.Algebra.Order.Ring.Rat

/-
What it means that a number is a measured relative error.
-/

namespace Spp.Spec

/-- The number `r` is the relative error of `v` as an approximation of `exact`, up to two roundings of relative size `w`
and up to a reference value that may be wrong by `B`. -/
def Measures (w B exact v r : ℚ) : Prop :=
  (1 - w) ^ 2 * (|v - exact| - B) / (|exact| + B) ≤ r ∧ r ≤ (1 + w) ^ 2 * (|v - exact| + B) / (|exact| - B)

end Spp.Spec
