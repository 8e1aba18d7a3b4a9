import Verif.Core

/-
Strict integers: strictpp/StrictCommon/strict_val.hpp:97-451 instantiated at the four integer types
allowed by strictpp/StrictCommon/strict_traits.hpp:30-35 (int, long, unsigned, unsigned long).

A value of an integer type is the mathematical integer it represents; the type gives its width and
signedness.  The built-in C++20 operators that the library calls are modelled by their standard
semantics: unsigned arithmetic is modulo 2^bits, signed overflow is undefined, division truncates
and is undefined for a zero divisor or an unrepresentable quotient, shift counts outside
[0, bits) are undefined, << is modulo 2^bits, signed >> is arithmetic.
-/

namespace Spp

/-- A built-in integer type.  strict_traits.hpp:30-35 and the size requirements 25-26. -/
structure IntTy where
  signed : Bool
  bits : Nat
  pos : 0 < bits

namespace IntTy

/-- `int` (strict_traits.hpp:25 requires at least 4 bytes; 32 bits on the usual platforms). -/
def int : IntTy := ⟨true, 32, by decide⟩
/-- `long int` = `index_t::value_type` (strict_traits.hpp:26, 69). -/
def long : IntTy := ⟨true, 64, by decide⟩
/-- `unsigned int` The built-in operators that strict_val.hpp:128-228, 382-451 calls. -/
def uint : IntTy := ⟨false, 32, by decide⟩
/-- `unsigned long int` The built-in operators that strict_val.hpp:128-228, 382-451 calls. -/
def ulong : IntTy := ⟨false, 64, by decide⟩

/-- Smallest value of the type. The built-in operators that strict_val.hpp:128-228, 382-451 calls. -/
def lo (t : IntTy) : Int := if t.signed then -(2 ^ (t.bits - 1)) else 0
/-- Largest value of the type. The built-in operators that strict_val.hpp:128-228, 382-451 calls. -/
def hi (t : IntTy) : Int := if t.signed then 2 ^ (t.bits - 1) - 1 else 2 ^ t.bits - 1

/-- `x` is a value of type `t`. The built-in operators that strict_val.hpp:128-228, 382-451 calls. -/
def Holds (t : IntTy) (x : Int) : Prop := t.lo ≤ x ∧ x ≤ t.hi

/-- The built-in operators that strict_val.hpp:128-228, 382-451 calls. -/
instance (t : IntTy) (x : Int) : Decidable (t.Holds x) := inferInstanceAs (Decidable (_ ∧ _))

/-- Conversion to the type (C++20 [conv.integral]): the value congruent modulo 2^bits.
The built-in operators that strict_val.hpp:128-228, 382-451 calls. -/
def wrap (t : IntTy) (v : Int) : Int :=
  if t.signed then Int.bmod v (2 ^ t.bits) else v % 2 ^ t.bits

/-- Result of a built-in arithmetic operator whose mathematical result is `v`.
The built-in operators that strict_val.hpp:128-228, 382-451 calls. -/
def arith (t : IntTy) (v : Int) : Res Int :=
  if t.signed then (if t.Holds v then .ok v else .ub) else .ok (v % 2 ^ t.bits)

end IntTy

namespace SInt

open IntTy

/-- operator+, strict_val.hpp:382-385. -/
def add (t : IntTy) (x y : Int) : Res Int := t.arith (x + y)
/-- operator-, strict_val.hpp:388-391. -/
def sub (t : IntTy) (x y : Int) : Res Int := t.arith (x - y)
/-- operator*, strict_val.hpp:394-397. -/
def mul (t : IntTy) (x y : Int) : Res Int := t.arith (x * y)
/-- unary operator-, strict_val.hpp:128-132 (static_assert: not for unsigned types). -/
def neg (t : IntTy) (x : Int) : Res Int := t.arith (-x)

/-- Built-in x / y. The built-in operators that strict_val.hpp:128-228, 382-451 calls. -/
def builtinDiv (t : IntTy) (x y : Int) : Res Int :=
  if y = 0 then .ub else t.arith (x.tdiv y)
/-- Built-in x % y (undefined when the quotient is not representable, [expr.mul]/4).
The built-in operators that strict_val.hpp:128-228, 382-451 calls. -/
def builtinRem (t : IntTy) (x y : Int) : Res Int :=
  if y = 0 then .ub
  else if t.Holds (x.tdiv y) then .ok (x.tmod y) else .ub

/-- operator/, strict_val.hpp:400-406 (integer branch). -/
def div (b : Build) (t : IntTy) (x y : Int) : Res Int := do
  assertDebug b (y != 0)
  builtinDiv t x y
/-- operator%, strict_val.hpp:409-413. -/
def rem (b : Build) (t : IntTy) (x y : Int) : Res Int := do
  assertDebug b (y != 0)
  builtinRem t x y

/-- Built-in x << y (C++20: modulo 2^bits; undefined count outside [0, bits)).
The built-in operators that strict_val.hpp:128-228, 382-451 calls. -/
def builtinShl (t : IntTy) (x y : Int) : Res Int :=
  if y < 0 ∨ (t.bits : Int) ≤ y then .ub else .ok (t.wrap (x * 2 ^ y.toNat))
/-- Built-in x >> y (arithmetic for signed types).
The built-in operators that strict_val.hpp:128-228, 382-451 calls. -/
def builtinShr (t : IntTy) (x y : Int) : Res Int :=
  if y < 0 ∨ (t.bits : Int) ≤ y then .ub else .ok (x / 2 ^ y.toNat)

/-- The two checks of operator<< and operator>>, strict_val.hpp:418-421, 428-431. -/
def shiftChecks (b : Build) (t : IntTy) (x y : Int) : Res Unit :=
  if t.signed then do
    assertDebug b (decide (x > -1))
    assertDebug b (decide (y > -1))
  else .ok ()

/-- operator<<, strict_val.hpp:416-423. -/
def shl (b : Build) (t : IntTy) (x y : Int) : Res Int := do
  shiftChecks b t x y
  builtinShl t x y
/-- operator>>, strict_val.hpp:426-433. -/
def shr (b : Build) (t : IntTy) (x y : Int) : Res Int := do
  shiftChecks b t x y
  builtinShr t x y

/-- operator&, strict_val.hpp:436-439, on the two's complement bit patterns. -/
def band (t : IntTy) (x y : Int) : Int :=
  t.wrap ((BitVec.ofInt t.bits x &&& BitVec.ofInt t.bits y).toNat)
/-- operator|, strict_val.hpp:442-445. -/
def bor (t : IntTy) (x y : Int) : Int :=
  t.wrap ((BitVec.ofInt t.bits x ||| BitVec.ofInt t.bits y).toNat)
/-- operator^, strict_val.hpp:448-451. -/
def bxor (t : IntTy) (x y : Int) : Int :=
  t.wrap ((BitVec.ofInt t.bits x ^^^ BitVec.ofInt t.bits y).toNat)
/-- operator~, strict_val.hpp:134-137. -/
def bnot (t : IntTy) (x : Int) : Int :=
  t.wrap ((~~~ BitVec.ofInt t.bits x).toNat)

/-- strict_cast / builtin_cast between integer types, strict_val.hpp:333-366. -/
def cast (t : IntTy) (x : Int) : Int := t.wrap x

/-! Modifying operators act on the stored value; the state is that value. -/

/-- operator++ (prefix), strict_val.hpp:139-142. -/
def preInc (t : IntTy) : Op Int Int := do
  let v ← Op.get
  let r ← Op.lift (t.arith (v + 1))
  Op.set r
  pure r
/-- operator-- (prefix), strict_val.hpp:144-147. -/
def preDec (t : IntTy) : Op Int Int := do
  let v ← Op.get
  let r ← Op.lift (t.arith (v - 1))
  Op.set r
  pure r
/-- operator++ (postfix), strict_val.hpp:149-153: returns the old value. -/
def postInc (t : IntTy) : Op Int Int := do
  let old ← Op.get
  let r ← Op.lift (t.arith (old + 1))
  Op.set r
  pure old
/-- operator-- (postfix), strict_val.hpp:155-159. -/
def postDec (t : IntTy) : Op Int Int := do
  let old ← Op.get
  let r ← Op.lift (t.arith (old - 1))
  Op.set r
  pure old

/-- operator+=, strict_val.hpp:161-164. -/
def addAssign (t : IntTy) (x : Int) : Op Int Unit := do
  let v ← Op.get
  let r ← Op.lift (t.arith (v + x))
  Op.set r
/-- operator-=, strict_val.hpp:166-169. -/
def subAssign (t : IntTy) (x : Int) : Op Int Unit := do
  let v ← Op.get
  let r ← Op.lift (t.arith (v - x))
  Op.set r
/-- operator*=, strict_val.hpp:171-174. -/
def mulAssign (t : IntTy) (x : Int) : Op Int Unit := do
  let v ← Op.get
  let r ← Op.lift (t.arith (v * x))
  Op.set r
/-- operator/=, strict_val.hpp:176-183. -/
def divAssign (b : Build) (t : IntTy) (x : Int) : Op Int Unit := do
  Op.lift (assertDebug b (x != 0))
  let v ← Op.get
  let r ← Op.lift (builtinDiv t v x)
  Op.set r
/-- operator%=, strict_val.hpp:185-190. -/
def remAssign (b : Build) (t : IntTy) (x : Int) : Op Int Unit := do
  Op.lift (assertDebug b (x != 0))
  let v ← Op.get
  let r ← Op.lift (builtinRem t v x)
  Op.set r
/-- operator<<=, strict_val.hpp:192-200. -/
def shlAssign (b : Build) (t : IntTy) (x : Int) : Op Int Unit := do
  let v ← Op.get
  Op.lift (shiftChecks b t v x)
  let r ← Op.lift (builtinShl t v x)
  Op.set r
/-- operator>>=, strict_val.hpp:202-210. -/
def shrAssign (b : Build) (t : IntTy) (x : Int) : Op Int Unit := do
  let v ← Op.get
  Op.lift (shiftChecks b t v x)
  let r ← Op.lift (builtinShr t v x)
  Op.set r

end SInt

end Spp
