import Verif.Spec.IO
import Verif.Spec.Float

/- Decimal floating-point literals, without digit separators. -/

namespace Spp.Spec

/-- `t` is the exponent of a literal, `e` its value: nothing, or `e` or `E`, a sign or none, and at least
one digit. -/
def ExponentText (t : List Char) (e : Int) : Prop :=
  (t = [] ∧ e = 0) ∨
  ∃ c ds, (c = 'e' ∨ c = 'E') ∧ ds ≠ [] ∧ (∀ d ∈ ds, d.isDigit = true) ∧
    ((t = c :: ds ∧ e = digitsValue ds) ∨ (t = c :: '+' :: ds ∧ e = digitsValue ds) ∨
      (t = c :: '-' :: ds ∧ e = -(digitsValue ds : Int)))

/-- `w` is a decimal literal, `x` its value: digits, perhaps a point and digits, and an exponent; there is
a digit before or after the point. -/
def DecimalText (w : List Char) (x : ℚ) : Prop :=
  ∃ ip fp t e, (∀ d ∈ ip, d.isDigit = true) ∧ (∀ d ∈ fp, d.isDigit = true) ∧ ip ++ fp ≠ [] ∧
    ExponentText t e ∧ (w = ip ++ '.' :: (fp ++ t) ∨ (fp = [] ∧ w = ip ++ t)) ∧
    x = digitsValue (ip ++ fp) * (10 : ℚ) ^ (e - fp.length)

/-- `w` looks like a binary or octal integer literal: `0b...`, `0B...` or `0` followed by an octal
digit. -/
def LooksOctal (w : List Char) : Prop :=
  ∃ c t, w = '0' :: c :: t ∧ (c = 'b' ∨ c = 'B' ∨ ('0'.toNat ≤ c.toNat ∧ c.toNat ≤ '7'.toNat))

/-- No number of the format lies strictly between `x` and `v`. -/
def Neighbour (p : Nat) (emin : Int) (x v : ℚ) : Prop :=
  Rep p emin v ∧ ∀ y, Rep p emin y → ¬ (x < y ∧ y < v) ∧ ¬ (v < y ∧ y < x)

end Spp.Spec
