import Verif.Model.IO
import Mathlib.Algebra.Order.Field.Rat
import Mathlib.Data.Rat.Floor
import Mathlib.Data.Int.Log

/-
Printing and reading floating-point numbers: strictpp/StrictCommon/strict_IO.hpp.

The numbers are rationals; infinities, NaN and the sign of zero are not modelled.  The conversions of
the C++ library are those of IEEE 754: the decimal printed is the one nearest to the number, ties to the
even last digit; a decimal read is rounded (`rn`) to a number of the type.
-/

namespace Spp.IO

/-- `std::numeric_limits<T>::digits10` of a binary type with `p` significant digits: the number of
decimal digits that survive, `floor((p - 1) log10 2)`.
The C++ library, as strict_IO.hpp:181-188 and 207-216 use it. -/
def digits10 (p : Nat) : Nat := Nat.log 10 (2 ^ (p - 1))

/-- The initial precision for `float`, `double` and `long double`, strict_IO.hpp:153-155. -/
def defaultPrecision (p : Nat) : Nat := digits10 p + 1

/-- The initial precision for `float128`, strict_IO.hpp:156. -/
def quadPrecision : Nat := 33

/-- The nearest natural number, ties to even. The C++ library, as strict_IO.hpp:181-188 and 207-216 use it. -/
def roundEven (x : ℚ) : Nat :=
  let f := ⌊x⌋.toNat
  if x - f < 1 / 2 then f
  else if 1 / 2 < x - f then f + 1
  else if f % 2 = 0 then f else f + 1

/-- Decimal digits and exponent of a positive number in scientific notation with `P` digits after the
point: the value printed is `n * 10^(e - P)`. The C++ library, as strict_IO.hpp:181-188 and 207-216 use it. -/
def sciParts (P : Nat) (x : ℚ) : Nat × Int :=
  let e := Int.log 10 x
  let n := roundEven (x * 10 ^ ((P : Int) - e))
  if n = 10 ^ (P + 1) then (10 ^ P, e + 1) else (n, e)

/-- An exponent has at least two digits. The C++ library, as strict_IO.hpp:181-188 and 207-216 use it. -/
def twoDigits (n : Nat) : List Char := if n < 10 then '0' :: digits n else digits n

/-- `os << std::showpos << std::scientific << std::showpoint << std::setprecision(P) << x`,
strict_IO.hpp:207-212. -/
def showSci (P : Nat) (x : ℚ) : List Char :=
  let ds := if x = 0 then List.replicate (P + 1) '0' else digits (sciParts P |x|).1
  let e := if x = 0 then 0 else (sciParts P |x|).2
  (if x < 0 then '-' else '+') :: (ds.take 1 ++ '.' :: (ds.drop 1 ++ 'e' ::
    (if e < 0 then '-' else '+') :: twoDigits e.natAbs))

/-- `os << std::showpos << std::fixed << std::showpoint << std::setprecision(P) << x`,
strict_IO.hpp:213-214. -/
def showFixed (P : Nat) (x : ℚ) : List Char :=
  let n := roundEven (|x| * 10 ^ P)
  let f := digits (n % 10 ^ P)
  (if x < 0 then '-' else '+') :: (digits (n / 10 ^ P) ++ '.' ::
    (if P = 0 then [] else List.replicate (P - f.length) '0' ++ f))

/-- `operator<<` for floating-point numbers, strict_IO.hpp:207-216: `format.scientific_` and
`format.precision_` of the type. -/
def showFloat (scientific : Bool) (P : Nat) (x : ℚ) : List Char :=
  if scientific then showSci P x else showFixed P x

/-- The exponent after the letter `e`: an optional sign and digits; `none` if there is no digit.
The C++ library, as strict_IO.hpp:181-188 and 207-216 use it. -/
def scanExponent (u : List Char) : Option Int × List Char :=
  let neg := u.head? == some '-'
  let v := if neg || u.head? == some '+' then u.tail else u
  let ds := v.takeWhile Char.isDigit
  let rest := v.dropWhile Char.isDigit
  if ds.isEmpty then (none, rest)
  else (some (if neg then -(decimal ds : Int) else decimal ds), rest)

/-- The value of the digits `ip`, the point, the digits `fp` and the exponent `e`.
The C++ library, as strict_IO.hpp:181-188 and 207-216 use it. -/
def floatValue (neg : Bool) (ip fp : List Char) (e : Int) : ℚ :=
  let v : ℚ := (decimal (ip ++ fp) : ℚ) * 10 ^ (e - fp.length)
  if neg then -v else v

/-- A number after its sign: digits, a point, digits and, if there was a digit, an exponent.
The C++ library, as strict_IO.hpp:181-188 and 207-216 use it. -/
def scanUnsigned (rn : ℚ → ℚ) (neg : Bool) (u : List Char) : Scan ℚ :=
  let ip := u.takeWhile Char.isDigit
  let u1 := u.dropWhile Char.isDigit
  let point := u1.head? == some '.'
  let fp := if point then u1.tail.takeWhile Char.isDigit else []
  let u2 := if point then u1.tail.dropWhile Char.isDigit else u1
  if ip.isEmpty && fp.isEmpty then ⟨0, false, u2, u2.isEmpty⟩
  else if u2.head? == some 'e' || u2.head? == some 'E' then
    match scanExponent u2.tail with
    | (none, rest) => ⟨0, false, rest, rest.isEmpty⟩
    | (some e, rest) => ⟨rn (floatValue neg ip fp e), true, rest, rest.isEmpty⟩
  else ⟨rn (floatValue neg ip fp 0), true, u2, u2.isEmpty⟩

/-- `std::num_get` for floating-point types: an optional sign, digits, a point, digits and, if there was
a digit, an exponent.  It fails when there is no digit, or no digit in the exponent.  Simplification:
there is no largest exponent, so that no number is out of range.
The C++ library, as strict_IO.hpp:181-188 and 207-216 use it. -/
def scanFloat (rn : ℚ → ℚ) : Scanner ℚ := fun s =>
  if s.head? == some '-' then scanUnsigned rn true s.tail
  else if s.head? == some '+' then scanUnsigned rn false s.tail
  else scanUnsigned rn false s

end Spp.IO
