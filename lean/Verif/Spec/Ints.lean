import Verif.Model.StrictInt

/- Specification vocabulary for integer properties; independent of the operators being specified. -/

namespace Spp.Spec

/-- `v` is a value of an integer type with the given width and signedness. -/
def Fits (t : IntTy) (v : Int) : Prop :=
  (t.signed = true → -(2 ^ (t.bits - 1)) ≤ v ∧ v < 2 ^ (t.bits - 1)) ∧
  (t.signed = false → 0 ≤ v ∧ v < 2 ^ t.bits)

/-- Division truncated toward zero: `q` and `r` are quotient and remainder of `x` by `y`. -/
structure TruncDiv (x y q r : Int) : Prop where
  eq : x = q * y + r
  small : r.natAbs < y.natAbs
  sign_pos : 0 ≤ x → 0 ≤ r
  sign_neg : x ≤ 0 → r ≤ 0

/-- `v` and `w` are the same number modulo 2^bits. -/
def SameMod (t : IntTy) (v w : Int) : Prop := ∃ k : Int, v = w + k * 2 ^ t.bits

/-- The two operands for which signed division overflows. -/
def MinOverMinusOne (t : IntTy) (x y : Int) : Prop :=
  t.signed = true ∧ x = -(2 ^ (t.bits - 1)) ∧ y = -1

end Spp.Spec
