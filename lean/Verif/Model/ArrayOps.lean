import Verif.Model.Scalar
import Verif.Model.StrictMath
import Verif.Model.Assign
import Verif.Spec.ArrayOps

/-
Operators between arrays, between arrays and numbers, and compound assignment, for arrays of integers
and booleans: strictpp/Expr/functors.hpp, unary.hpp, binary.hpp and derived_base.hpp.  Those of
floating-point arrays are in Model/FloatOps.lean.
-/

namespace Spp

open Spec

/-! ### Functors -/

namespace Functor

/-- `UnaryPlus`, functors.hpp:14-19. -/
def unaryPlus (x : Int) : Res Int := .ok x
/-- `UnaryMinus`, functors.hpp:22-30 (signed types only). -/
def unaryMinus (t : IntTy) (x : Int) : Res Int := SInt.neg t x
/-- `UnaryBitwiseNot`, functors.hpp:33-38. -/
def unaryBitwiseNot (t : IntTy) (x : Int) : Res Int := .ok (SInt.bnot t x)
/-- `UnaryLogicalNot`, functors.hpp:41-46. -/
def unaryLogicalNot (x : Bool) : Res Bool := SBool.not (.ok x)
/-- `UnaryAbs`, functors.hpp:49-54. -/
def unaryAbs (t : IntTy) (x : Int) : Res Int := abss t x
/-- `UnaryCast<T>`, functors.hpp:166-172, for integer types. -/
def unaryCast (t : IntTy) (x : Int) : Res Int := .ok (SInt.cast t x)

/-- `BinaryPlus`, functors.hpp:176-181. -/
def binaryPlus (t : IntTy) (x y : Int) : Res Int := SInt.add t x y
/-- `BinaryMinus`, functors.hpp:184-189. -/
def binaryMinus (t : IntTy) (x y : Int) : Res Int := SInt.sub t x y
/-- `BinaryMult`, functors.hpp:192-197. -/
def binaryMult (t : IntTy) (x y : Int) : Res Int := SInt.mul t x y
/-- `BinaryDivide`, functors.hpp:200-205. -/
def binaryDivide (b : Build) (t : IntTy) (x y : Int) : Res Int := SInt.div b t x y
/-- `BinaryModulo`, functors.hpp:208-213. -/
def binaryModulo (b : Build) (t : IntTy) (x y : Int) : Res Int := SInt.rem b t x y
/-- `BinaryRightShift`, functors.hpp:216-221: the functor of this name shifts to the left. -/
def binaryRightShift (b : Build) (t : IntTy) (x y : Int) : Res Int := SInt.shl b t x y
/-- `BinaryLeftShift`, functors.hpp:224-229: the functor of this name shifts to the right. -/
def binaryLeftShift (b : Build) (t : IntTy) (x y : Int) : Res Int := SInt.shr b t x y
/-- `BinaryBitwiseAnd`, functors.hpp:232-237. -/
def binaryBitwiseAnd (t : IntTy) (x y : Int) : Res Int := .ok (SInt.band t x y)
/-- `BinaryBitwiseOr`, functors.hpp:240-245. -/
def binaryBitwiseOr (t : IntTy) (x y : Int) : Res Int := .ok (SInt.bor t x y)
/-- `BinaryBitwiseXor`, functors.hpp:248-253. -/
def binaryBitwiseXor (t : IntTy) (x y : Int) : Res Int := .ok (SInt.bxor t x y)
/-- `BinaryBooleanAnd`, functors.hpp:256-261. -/
def binaryBooleanAnd (x y : Bool) : Res Bool := SBool.and (.ok x) (.ok y)
/-- `BinaryBooleanOr`, functors.hpp:264-269. -/
def binaryBooleanOr (x y : Bool) : Res Bool := SBool.or (.ok x) (.ok y)
/-- `BinaryBooleanXor`, functors.hpp:272-277. -/
def binaryBooleanXor (x y : Bool) : Res Bool := SBool.xor (.ok x) (.ok y)

end Functor

/-! ### Operators -/

namespace ArrOp

open Functor

/-- The functor each binary operator of integer arrays passes to `generate`: binary.hpp:465-522 (two
arrays), 558-615 (number on the left), 637-694 (number on the right); all three use the same one. -/
def fn (b : Build) (t : IntTy) : IntOp → Int → Int → Res Int
  | .add => binaryPlus t
  | .sub => binaryMinus t
  | .mul => binaryMult t
  | .div => binaryDivide b t
  | .rem => binaryModulo b t
  | .shl => binaryRightShift b t
  | .shr => binaryLeftShift b t
  | .band => binaryBitwiseAnd t
  | .bor => binaryBitwiseOr t
  | .bxor => binaryBitwiseXor t

/-- `A1 op A2`, binary.hpp:465-522. -/
def arrays (b : Build) (t : IntTy) (op : IntOp) (A1 A2 : Tm Int d) : Tm Int d :=
  .binary (fn b t op) A1 A2
/-- `x op A`, binary.hpp:558-615: `generate(generate_const(A, x), A, f)`. -/
def left (b : Build) (t : IntTy) (op : IntOp) (x : Int) (A : Tm Int d) : Tm Int d :=
  .scalarL (fn b t op) x A
/-- `A op x`, binary.hpp:637-694: `generate(A, generate_const(A, x), f)`. -/
def right (b : Build) (t : IntTy) (op : IntOp) (A : Tm Int d) (x : Int) : Tm Int d :=
  .scalarR (fn b t op) A x

/-- The functor of the unary operators, unary.hpp:232-259. -/
def fn1 (t : IntTy) : IntOp1 → Int → Res Int
  | .plus => unaryPlus
  | .minus => unaryMinus t
  | .not => unaryBitwiseNot t
  | .abs => unaryAbs t

/-- `+A`, `-A`, `~A`, `abs(A)`, unary.hpp:232-259. -/
def one (t : IntTy) (op : IntOp1) (A : Tm Int d) : Tm Int d := .unary (fn1 t op) A
/-- `array_cast<T>(A)` between integer types, unary.hpp:340-343. -/
def cast (t : IntTy) (A : Tm Int d) : Tm Int d := .unary (unaryCast t) A

/-- The functor of the boolean operators, binary.hpp:525-540, 618-633, 697-712. -/
def fnBool : BoolOp → Bool → Bool → Res Bool
  | .and => binaryBooleanAnd
  | .or => binaryBooleanOr
  | .xor => binaryBooleanXor

/-- `A1 op A2` for booleans, binary.hpp:525-540. -/
def arraysBool (op : BoolOp) (A1 A2 : Tm Bool d) : Tm Bool d := .binary (fnBool op) A1 A2
/-- `x op A` for booleans, binary.hpp:618-633. -/
def leftBool (op : BoolOp) (x : Bool) (A : Tm Bool d) : Tm Bool d := .scalarL (fnBool op) x A
/-- `A op x` for booleans, binary.hpp:697-712. -/
def rightBool (op : BoolOp) (A : Tm Bool d) (x : Bool) : Tm Bool d := .scalarR (fnBool op) A x
/-- `!A`, unary.hpp:250-253. -/
def notBool (A : Tm Bool d) : Tm Bool d := .unary unaryLogicalNot A

/-- The value stored by a modifying operator applied to `u`. The operators are strict_val.hpp:161-228. -/
def stored (op : Op Int Unit) (u : Int) : Res Int := do
  (op u).1
  .ok (op u).2

/-- The lambdas `un(i) op= x` and `un(i) op= A.un(i)` of derived_base.hpp:56-207. -/
def assignFn (b : Build) (t : IntTy) : IntOp → Int → Int → Res Int
  | .add => fun u x => stored (SInt.addAssign t x) u          -- 56-60, 129-135
  | .sub => fun u x => stored (SInt.subAssign t x) u          -- 62-66, 137-143
  | .mul => fun u x => stored (SInt.mulAssign t x) u          -- 68-72, 145-151
  | .div => fun u x => stored (SInt.divAssign b t x) u        -- 74-78, 153-159
  | .rem => fun u x => stored (SInt.remAssign b t x) u        -- 80-86, 161-167
  | .shl => fun u x => stored (SInt.shlAssign b t x) u        -- 88-94, 169-175
  | .shr => fun u x => stored (SInt.shrAssign b t x) u        -- 96-102, 177-183
  | .band => fun u x => stored (SInt.bandAssign t x) u        -- 104-110, 185-191
  | .bor => fun u x => stored (SInt.borAssign t x) u          -- 112-118, 193-199
  | .bxor => fun u x => stored (SInt.bxorAssign t x) u        -- 120-126, 201-207

/-- `l op= A`, derived_base.hpp:129-207. -/
def assign (b : Build) (t : IntTy) (op : IntOp) (l : Lv d) (A : Tm Int d) : AStmt Int :=
  .compound (assignFn b t op) l A
/-- `l op= x`, derived_base.hpp:56-126. -/
def assignX (b : Build) (t : IntTy) (op : IntOp) (l : Lv d) (x : Int) : AStmt Int :=
  .compoundX (assignFn b t op) l x

end ArrOp

end Spp
