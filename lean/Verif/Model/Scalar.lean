import Verif.Model.StrictInt
import Verif.Model.Index
import Mathlib.Data.Rat.Floor
import Mathlib.Algebra.Order.Round

/-
More of the scalar types: bitwise compound assignment, strict booleans, conversions between the
built-in types, literals and the named argument types.  strictpp/StrictCommon/strict_val.hpp,
strict_literals.hpp and auxiliary_types.hpp.
-/

namespace Spp

namespace SInt

/-- operator&=, strict_val.hpp:212-216. -/
def bandAssign (t : IntTy) (x : Int) : Op Int Unit := do
  let v ← Op.get
  Op.set (band t v x)
/-- operator|=, strict_val.hpp:218-222. -/
def borAssign (t : IntTy) (x : Int) : Op Int Unit := do
  let v ← Op.get
  Op.set (bor t v x)
/-- operator^=, strict_val.hpp:224-228. -/
def bxorAssign (t : IntTy) (x : Int) : Op Int Unit := do
  let v ← Op.get
  Op.set (bxor t v x)

/-- operator==, strict_val.hpp:474-477, and `equal`, 480-483. -/
def eq (x y : Int) : Bool := decide (x = y)
/-- operator!=, strict_val.hpp:486-489. -/
def ne (x y : Int) : Bool := decide (x ≠ y)
/-- operator<, strict_val.hpp:492-495. -/
def lt (x y : Int) : Bool := decide (x < y)
/-- operator<=, strict_val.hpp:498-501. -/
def le (x y : Int) : Bool := decide (x ≤ y)
/-- operator>, strict_val.hpp:504-507. -/
def gt (x y : Int) : Bool := decide (x > y)
/-- operator>=, strict_val.hpp:510-513. -/
def ge (x y : Int) : Bool := decide (x ≥ y)

end SInt

/-! ### Strict booleans

An operand is the computation that gives it.  The operators are functions (overloaded operators), so
both operands are evaluated before the body; overloaded `&&` and `||` evaluate the left one first
([over.match.oper]/2 and [expr.log.and]); for `^` the order is not specified and the left-to-right
order is modelled. -/

namespace SBool

/-- operator!, strict_val.hpp:65-67. -/
def not (x : Res Bool) : Res Bool := do
  let a ← x
  pure (!a)
/-- operator^ of booleans, strict_val.hpp:454-457. -/
def xor (x y : Res Bool) : Res Bool := do
  let a ← x
  let c ← y
  pure (Bool.xor a c)
/-- operator&&, strict_val.hpp:461-464. -/
def and (x y : Res Bool) : Res Bool := do
  let a ← x
  let c ← y
  pure (a && c)
/-- operator||, strict_val.hpp:467-470. -/
def or (x y : Res Bool) : Res Bool := do
  let a ← x
  let c ← y
  pure (a || c)
/-- `bool{x} && bool{y}`: the built-in operator, which the library uses where it needs the second
operand to be guarded (ArrayCommon/valid.hpp:138). -/
def builtinAnd (x y : Res Bool) : Res Bool := do
  let a ← x
  if a then y else pure false

end SBool

/-! ### Conversions

`strict_cast`, `builtin_cast`, `real_cast`, `whole`, the members `sb` ... `sld`, strict_val.hpp:230-265,
333-378, 516-559: all are `static_cast`.  Floating-point values are rationals (no NaN, no infinities), `rn` is the
rounding of the target format. -/

namespace Conv

/-- To an integer type from an integer type: `SInt.cast`. strict_val.hpp:333-378 (`static_cast`). -/
def intToInt (t : IntTy) (x : Int) : Int := SInt.cast t x
/-- To an integer type from `bool`. strict_val.hpp:333-378 (`static_cast`). -/
def boolToInt (t : IntTy) (x : Bool) : Int := t.wrap (if x then 1 else 0)
/-- To `bool` from an integer type. strict_val.hpp:333-378 (`static_cast`). -/
def intToBool (x : Int) : Bool := decide (x ≠ 0)
/-- To `bool` from a floating-point type. strict_val.hpp:333-378 (`static_cast`). -/
def floatToBool (x : ℚ) : Bool := decide (x ≠ 0)
/-- To a floating-point type from `bool`. strict_val.hpp:333-378 (`static_cast`). -/
def boolToFloat (x : Bool) : ℚ := if x then 1 else 0
/-- To a floating-point type from an integer type ([conv.fpint]/2; correctly rounded, IEEE 754).
strict_val.hpp:333-378 (`static_cast`). -/
def intToFloat (rn : ℚ → ℚ) (x : Int) : ℚ := rn x
/-- To a floating-point type from another one ([conv.double]; correctly rounded).
strict_val.hpp:333-378 (`static_cast`). -/
def floatToFloat (rn : ℚ → ℚ) (x : ℚ) : ℚ := rn x
/-- The fractional part is discarded. strict_val.hpp:333-378 (`static_cast`). -/
def trunc (x : ℚ) : Int := if x < 0 then ⌈x⌉ else ⌊x⌋
/-- To an integer type from a floating-point type ([conv.fpint]/1): undefined when the truncated value
is not representable. strict_val.hpp:333-378 (`static_cast`). -/
def floatToInt (t : IntTy) (x : ℚ) : Res Int :=
  if t.Holds (trunc x) then .ok (trunc x) else .ub
/-- `to_size_t`, strict_val.hpp:309-318: conversion to `unsigned long`. -/
def toSizeT (x : Int) : Int := SInt.cast IntTy.ulong x
/-- `to_index_t`, strict_val.hpp:321-330: conversion to `long`. -/
def toIndexT (x : Int) : Int := SInt.cast IntTy.long x

end Conv

/-! ### Literals

The operand of a literal operator is an `unsigned long long`.  The operators are `consteval`: a failing
check is a compilation error, modelled as a trap. -/

namespace Literal

/-- `_si`, strict_literals.hpp:16-19, and `_SI`, 71-73. -/
def si (b : Build) (x : Int) : Res Int := do
  assertDebug b (decide (x ≤ IntTy.int.hi))
  pure (SInt.cast IntTy.int x)
/-- `_sl`, strict_literals.hpp:22-25, and `_SL`, 76-78. -/
def sl (b : Build) (x : Int) : Res Int := do
  assertDebug b (decide (x ≤ IntTy.long.hi))
  pure (SInt.cast IntTy.long x)
/-- `_sui`, strict_literals.hpp:28-30, and `_SUI`, 81-83: no check. -/
def sui (x : Int) : Int := SInt.cast IntTy.uint x
/-- `_sul`, strict_literals.hpp:33-35, and `_SUL`, 86-88: no check. -/
def sul (x : Int) : Int := SInt.cast IntTy.ulong x

end Literal

/-! ### Named arguments -/

/-- `Size`, `Rows`, `Pos`, `Count`, ... (`nonNeg`) and `Stride`, `ImplicitInt` (not): conversion to the
index type and a check, auxiliary_types.hpp:37-65, 125-135.  `x` is a value of a signed integer type. -/
def named (b : Build) (nonNeg : Bool) (x : Int) : Res Int := do
  let v := SInt.cast IntTy.long x
  if nonNeg then assertDebug b (decide (v > -1))
  pure v

end Spp
