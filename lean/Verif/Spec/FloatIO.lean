import Verif.Spec.Print
import Verif.Spec.Float

/- Decimal texts of numbers. -/

namespace Spp.Spec

/-- A sign. -/
def signed (neg : Bool) (x : ℚ) : ℚ := if neg then -x else x

/-- The character of a sign. -/
def signChar (neg : Bool) : Char := if neg then '-' else '+'

/-- `w` is a number in scientific notation with `P` digits after the point, `D` its value: a sign, one
digit, the point, `P` digits, `e`, a sign and at least two digits. -/
def Scientific (P : Nat) (w : List Char) (D : ℚ) : Prop :=
  ∃ (neg eneg : Bool) (d : Char) (ds es : List Char),
    (∀ c ∈ d :: ds, c.isDigit = true) ∧ (∀ c ∈ es, c.isDigit = true) ∧ ds.length = P ∧ 2 ≤ es.length ∧
    w = signChar neg :: d :: '.' :: (ds ++ 'e' :: signChar eneg :: es) ∧
    D = signed neg (digitsValue (d :: ds) * 10 ^ ((if eneg then -(digitsValue es : Int) else digitsValue es) - P))

/-- `w` is a number in fixed notation with `P` digits after the point, `D` its value: a sign, at least
one digit, the point and `P` digits. -/
def Fixed (P : Nat) (w : List Char) (D : ℚ) : Prop :=
  ∃ (neg : Bool) (is ds : List Char),
    (∀ c ∈ is, c.isDigit = true) ∧ (∀ c ∈ ds, c.isDigit = true) ∧ is ≠ [] ∧ ds.length = P ∧
    w = signChar neg :: (is ++ '.' :: ds) ∧ D = signed neg (digitsValue (is ++ ds) / 10 ^ P)

end Spp.Spec
