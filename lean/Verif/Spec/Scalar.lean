import Mathlib.Data.Rat.Floor

/- Specification vocabulary for bitwise operators and conversions. -/

namespace Spp.Spec

/-- Digit `i` of `x` in binary; for negative `x`, in two's complement (the digit of any `x + 2^k` with
`k` large enough). -/
def bit (i : Nat) (x : Int) : Bool := decide (x / 2 ^ i % 2 = 1)

/-- `v` is `x` without its fractional part. -/
structure TruncOf (x : ℚ) (v : Int) : Prop where
  /-- not farther from zero than `x`, on the same side -/
  sign : (0 ≤ x → 0 ≤ (v : ℚ) ∧ (v : ℚ) ≤ x) ∧ (x ≤ 0 → (v : ℚ) ≤ 0 ∧ x ≤ (v : ℚ))
  /-- less than one away -/
  near : |x - v| < 1

end Spp.Spec
