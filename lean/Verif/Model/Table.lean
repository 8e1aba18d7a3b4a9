import Verif.Model.FloatIO
import Verif.Model.Ieee

/-
Field widths of printed tables: strictpp/array_IO.hpp:200-218, 267-298.

`std::log10` is a parameter: `lg x` is its result for a finite positive argument (for integers, after the conversion
to `double`).
-/

namespace Spp.IO

open FVal

/-- `static_cast<int>(x)` of a finite floating-point number: the fraction is dropped; the conversion is undefined if the
rest is no `int`. The C++ library, as array_IO.hpp:200-218 uses it. -/
def toInt (x : ℚ) : Res Int := IntTy.int.arith (if 0 ≤ x then ⌊x⌋ else ⌈x⌉)

/-- `std::log10(x)`. The C++ library, as array_IO.hpp:200-218 uses it. -/
def log10V (lg : ℚ → ℚ) : FVal → FVal
  | nan => nan
  | inf s => if s then nan else inf false
  | fin s m => if m = 0 then inf true else if s then nan else fin (decide (lg m < 0)) |lg m|

/-- `count_digit(x)` of a floating-point number, array_IO.hpp:200-205.  Converting an infinity or NaN to `int` is
undefined. -/
def countDigitV (lg : ℚ → ℚ) (x : FVal) : Res Int :=
  if FVal.eq x (fin false 0) then .ok 1
  else match log10V lg x with
    | fin s m => do
      let k ← toInt (fin s m).val
      IntTy.int.arith (k + 1)
    | _ => .ub

/-- `count_digit(n)` of an integer that is not negative, array_IO.hpp:200-205.  (The `int` result does not overflow:
logarithms of integers are less than 20.) -/
def countDigitI (lg : ℚ → ℚ) (n : Int) : Int :=
  if n = 0 then 1 else (if 0 ≤ lg n then ⌊lg n⌋ else ⌈lg n⌉) + 1

/-- `abss(x)`, strict_math.hpp:25-32: `x > 0 ? x : -x`. -/
def absVal (x : FVal) : FVal := if lt (fin false 0) x then x else neg x

/-- `max_if_needed(A)` for floating-point numbers, array_IO.hpp:267-280: `max(abs(A.view1D()))`, array_ops.hpp:362-371. -/
def maxAbsV : List FVal → FVal
  | [] => fin false 0
  | x :: xs => xs.foldl (fun acc y => if lt acc (absVal y) then absVal y else acc) (absVal x)

/-- The field width for floating-point elements, array_IO.hpp:216-218, 291-296; `std::setw(0)` has the effect of no
`setw`. -/
def floatWidth (lg : ℚ → ℚ) (scientific : Bool) (P : Int) (l : List FVal) : Res Int :=
  let m := maxAbsV l
  if scientific then .ok 0
  else do
    let c ← countDigitV lg m
    let t ← IntTy.int.arith (c + P)
    IntTy.int.arith (t + 2)

/-- `os << x` for a floating-point number, strict_IO.hpp:207-216, with the precision `P`: as for numbers in
Model/FloatIO.lean, with the sign of the number, also if it is zero.  The sign of NaN is not modelled. -/
def showVal (scientific : Bool) (P : Nat) : FVal → List Char
  | nan => "+nan".toList
  | inf s => (if s then '-' else '+') :: "inf".toList
  | fin s m => (if s then '-' else '+') :: (showFloat scientific P m).tail

end Spp.IO
