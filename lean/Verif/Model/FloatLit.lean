import Verif.Model.FloatIO

/-
Floating-point literals: strictpp/StrictCommon/strict_literals.hpp.

The operand of `_sf`, `_sd` and `_sl` is a `long double`: the compiler rounds the number written to that
format (`rl`), and the operator converts it to the type of the literal (`rt`).  As in Model/FloatIO.lean
the numbers are rationals and there is no largest exponent.
-/

namespace Spp.Literal

/-- `_sf`, strict_literals.hpp:38-40, and `_SF`, 91-93: `x` is the number written. -/
def sf (rl rf : ℚ → ℚ) (x : ℚ) : ℚ := rf (rl x)

/-- `_sd`, strict_literals.hpp:43-45, and `_SD`, 96-98. -/
def sd (rl rd : ℚ → ℚ) (x : ℚ) : ℚ := rd (rl x)

/-- `_sl` with a floating-point operand, strict_literals.hpp:48-50, and `_SL`, 101-103. -/
def sld (rl : ℚ → ℚ) (x : ℚ) : ℚ := rl x

/-- The check for binary and octal literals, strict_literals.hpp:60-63: two characters at least, the
first `0`, the second `b`, `B` or between `0` and `7`. -/
def binaryOrOctal (s : List Char) : Bool :=
  decide (2 ≤ s.length) && s[0]? == some '0' &&
    (s[1]? == some 'b' || s[1]? == some 'B' ||
      (match s[1]? with
        | some c => decide ('0' ≤ c) && decide (c ≤ '7')
        | none => false))

/-- `_sq`, strict_literals.hpp:54-68, and `_SQ`, 107-112, on the characters of the literal.
`strtoflt128` converts the longest beginning that is a number and ignores the rest.  Simplification:
hexadecimal numbers are not modelled. -/
def sq (b : Build) (rq : ℚ → ℚ) (s : List Char) : Res ℚ := do
  assertAlways b (!(binaryOrOctal s))
  pure (IO.scanFloat rq s).val

end Spp.Literal
