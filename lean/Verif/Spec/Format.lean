import Verif.Model.Format
import Verif.Spec.FloatIO
import Verif.Spec.Print
import Verif.Spec.FloatLit

/- What the settings for printing numbers are, and which things are `Strict` numbers. -/

namespace Spp.Spec

open Spp.IO

/-- The call gives the precision of the type `ty` the value `n`. -/
def SetsPrecision (ty : FTy) (n : Int) (s : Setting) : Prop := s = .precision n ∨ s = .precisionOf ty n

/-- The call changes the precision of the type `ty`. -/
def TouchesPrecision (ty : FTy) (s : Setting) : Prop := s = .reset ∨ ∃ n, SetsPrecision ty n s

/-- The call chooses between scientific and fixed format. -/
def TouchesNotation (s : Setting) : Prop := s = .reset ∨ ∃ b, s = .scientific b

/-- The argument of the call, if it is a number of digits, is at least zero and less than `2^31`. -/
def GoodDigits : Setting → Prop
  | .precision n => 0 ≤ n ∧ n < 2 ^ 31
  | .precisionOf _ n => 0 ≤ n ∧ n < 2 ^ 31
  | _ => True

/-- The digits of each type with the settings at the start of the program. -/
def startDigits : FTy → Int
  | .float => 7
  | .double => 16
  | .longDouble => 19
  | .quad => 33

/-- The text of a `Strict` number that is not of quadruple precision, with the settings `fmt`. -/
def StrictText (fmt : NumFormat) : Item → List Char → Prop
  | .sint t x, w => w = written t x
  | .sbool x, w => w = if x then "true".toList else "false".toList
  | .sfloat t x, w => t ≠ .quad ∧ w = showFloat fmt.scientific (fmt.precision t).toNat x
  | _, _ => False

/-- `w` is a decimal number with or without a sign, `x` its value. -/
def NumberText (w : List Char) (x : ℚ) : Prop :=
  ∃ u y, DecimalText u y ∧ ((w = u ∧ x = y) ∨ (w = '+' :: u ∧ x = y) ∨ (w = '-' :: u ∧ x = -y))

/-- The text, perhaps after a sign, begins with `i`, `n` (small or capital) or `0x`, `0X`: an infinity, a NaN or a
hexadecimal number may follow. -/
def SpecialText (w : List Char) : Prop :=
  ∃ s u, (s = [] ∨ s = ['+'] ∨ s = ['-']) ∧ w = s ++ u ∧
    ((∃ c t, u = c :: t ∧ (c = 'i' ∨ c = 'I' ∨ c = 'n' ∨ c = 'N')) ∨
      ∃ c t, u = '0' :: c :: t ∧ (c = 'x' ∨ c = 'X'))

/-- The text with a capital letter before the exponent. -/
def capitalE (w : List Char) : List Char := w.map (fun c => if c = 'e' then 'E' else c)

/-- The magnitude of every quadruple-precision number other than zero is in this range. -/
def QuadRange (x : ℚ) : Prop := x = 0 ∨ ((10 : ℚ) ^ (-5000 : Int) ≤ |x| ∧ |x| < 10 ^ (5000 : Int))

end Spp.Spec
