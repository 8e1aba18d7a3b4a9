import Verif.Model.Ieee
import Verif.Model.Assign
import Verif.Model.StrictMath
import Verif.Spec.FloatOps

/-
Operators and functions of arrays of floating-point numbers: strictpp/Expr/functors.hpp, unary.hpp, binary.hpp
and derived_base.hpp, for an element type `fs`.

Simplifications.  The functions of the mathematical library are given.  The functors that hold an exponent convert
it when they are made; here the conversion is part of every application, which does not change any value.
`pow_prod`, whose second array has another element type, is modelled for one element.
-/

namespace Spp

open Spec

/-- The functions of the mathematical library for one element type: `exps`, `logs`, `log2s`, `log10s`, `cbrts`,
`sins`, `coss`, `tans`, strict_math.hpp:54-107, 124-177, which call `std::exp` and so on. -/
abbrev MathLib (α : Type) := LibFn → α → Res α

namespace FloatFunctor

variable {α : Type} (fs : FScalar α) (lib : MathLib α)

/-- `UnaryPlus`, functors.hpp:14-19. -/
def unaryPlus (x : α) : Res α := .ok x
/-- `UnaryMinus`, functors.hpp:22-30. -/
def unaryMinus (x : α) : Res α := fs.neg x
/-- `UnaryAbs`, functors.hpp:49-54. -/
def unaryAbs (x : α) : Res α := fs.abss x
/-- `UnaryExp`, functors.hpp:57-62. -/
def unaryExp (x : α) : Res α := lib .exp x
/-- `UnaryLog`, functors.hpp:65-70. -/
def unaryLog (x : α) : Res α := lib .log x
/-- `UnaryLog2`, functors.hpp:73-78. -/
def unaryLog2 (x : α) : Res α := lib .log2 x
/-- `UnaryLog10`, functors.hpp:81-86. -/
def unaryLog10 (x : α) : Res α := lib .log10 x
/-- `UnarySqrt`, functors.hpp:89-94. -/
def unarySqrt (x : α) : Res α := fs.sqrt x
/-- `UnaryCbrt`, functors.hpp:97-102. -/
def unaryCbrt (x : α) : Res α := lib .cbrt x
/-- `UnarySin`, functors.hpp:105-110. -/
def unarySin (x : α) : Res α := lib .sin x
/-- `UnaryCos`, functors.hpp:113-118. -/
def unaryCos (x : α) : Res α := lib .cos x
/-- `UnaryTan`, functors.hpp:121-126. -/
def unaryTan (x : α) : Res α := lib .tan x
/-- `UnaryPow`, functors.hpp:129-140. -/
def unaryPow (p : α) (x : α) : Res α := fs.pow x p
/-- `UnaryFastPowInt`, functors.hpp:143-155. -/
def unaryFastPowInt (p : Int) (x : α) : Res α := fastPowsInt fs.mul fs.div fs.one x p
/-- `UnaryInv`, functors.hpp:158-163. -/
def unaryInv (x : α) : Res α := fs.invs x
/-- `BinaryPlus`, functors.hpp:176-181. -/
def binaryPlus (x y : α) : Res α := fs.add x y
/-- `BinaryMinus`, functors.hpp:184-189. -/
def binaryMinus (x y : α) : Res α := fs.sub x y
/-- `BinaryMult`, functors.hpp:192-197. -/
def binaryMult (x y : α) : Res α := fs.mul x y
/-- `BinaryDivide`, functors.hpp:200-205. -/
def binaryDivide (x y : α) : Res α := fs.div x y
/-- `BinaryTwoProdFirst`, functors.hpp:280-285. -/
def binaryTwoProdFirst (x y : α) : Res α := do
  let r ← fs.twoProds x y
  .ok r.1
/-- `BinaryTwoProdSecond`, functors.hpp:288-293. -/
def binaryTwoProdSecond (x y : α) : Res α := do
  let r ← fs.twoProds x y
  .ok r.2
/-- `BinaryPowProdFirst`, functors.hpp:296-301. -/
def binaryPowProdFirst (b : Build) (x : α) (y : Int) : Res α := do
  let r ← fs.powProds b x y
  .ok r.1
/-- `BinaryPowProdSecond`, functors.hpp:304-309. -/
def binaryPowProdSecond (b : Build) (x : α) (y : Int) : Res α := do
  let r ← fs.powProds b x y
  .ok r.2

end FloatFunctor

namespace FloatArr

open FloatFunctor

variable {α : Type} {d : Dim} (fs : FScalar α) (lib : MathLib α)

/-- The functor each operator passes to `generate`: binary.hpp:465-486 (two arrays), 558-579 (number on the
left), 637-658 (number on the right); all three use the same one. -/
def fn : FloatOp → α → α → Res α
  | .add => binaryPlus fs
  | .sub => binaryMinus fs
  | .mul => binaryMult fs
  | .div => binaryDivide fs

/-- `A1 op A2`, binary.hpp:465-486. -/
def arrays (op : FloatOp) (A1 A2 : Tm α d) : Tm α d := .binary (fn fs op) A1 A2
/-- `x op A`, binary.hpp:558-579. -/
def left (op : FloatOp) (x : α) (A : Tm α d) : Tm α d := .scalarL (fn fs op) x A
/-- `A op x`, binary.hpp:637-658. -/
def right (op : FloatOp) (A : Tm α d) (x : α) : Tm α d := .scalarR (fn fs op) A x

/-- The functor of `+A`, `-A`, `abs(A)`, `inv(A)`, `sqrt(A)`: unary.hpp:232-241, 256-259, 286-289, 334-337. -/
def fn1 : FloatOp1 → α → Res α
  | .plus => unaryPlus
  | .minus => unaryMinus fs
  | .abs => unaryAbs fs
  | .inv => unaryInv fs
  | .sqrt => unarySqrt fs

/-- `+A`, `-A`, `abs(A)`, `inv(A)`, `sqrt(A)`: unary.hpp:232-241, 256-259, 286-289, 334-337. -/
def one (op : FloatOp1) (A : Tm α d) : Tm α d := .unary (fn1 fs op) A

/-- The functor of `exp(A)` and so on, unary.hpp:262-283, 292-313. -/
def libFn : LibFn → α → Res α
  | .exp => unaryExp lib
  | .log => unaryLog lib
  | .log2 => unaryLog2 lib
  | .log10 => unaryLog10 lib
  | .cbrt => unaryCbrt lib
  | .sin => unarySin lib
  | .cos => unaryCos lib
  | .tan => unaryTan lib

/-- `exp(A)`, `log(A)`, `log2(A)`, `log10(A)`, `cbrt(A)`, `sin(A)`, `cos(A)`, `tan(A)`, unary.hpp:262-283,
292-313. -/
def libArr (f : LibFn) (A : Tm α d) : Tm α d := .unary (libFn lib f) A

/-- `pow(A, pw)`, unary.hpp:316-319. -/
def pow (A : Tm α d) (pw : α) : Tm α d := .unary (unaryPow fs pw) A
/-- `pow_int(A, pw)`, unary.hpp:322-325: the exponent is converted to the element type. -/
def powInt (A : Tm α d) (pw : Int) : Tm α d :=
  .unary (fun x => do
    let e ← fs.ofIndex pw
    unaryPow fs e x) A
/-- `fast_pow_int(A, pw)`, unary.hpp:328-331. -/
def fastPowInt (A : Tm α d) (pw : Int) : Tm α d := .unary (unaryFastPowInt fs pw) A

/-- `two_prod(A1, A2).first`, binary.hpp:543-547. -/
def twoProdFirst (A1 A2 : Tm α d) : Tm α d := .binary (binaryTwoProdFirst fs) A1 A2
/-- `two_prod(A1, A2).second`, binary.hpp:543-547. -/
def twoProdSecond (A1 A2 : Tm α d) : Tm α d := .binary (binaryTwoProdSecond fs) A1 A2

/-- The lambdas `un(i) op= x` and `un(i) op= A.un(i)` of derived_base.hpp:56-78, 129-159 with the compound
assignments of numbers, strict_val.hpp:161-183: the new value is the result of the operator. -/
def assignFn : FloatOp → α → α → Res α
  | .add => fun u x => fs.add u x
  | .sub => fun u x => fs.sub u x
  | .mul => fun u x => fs.mul u x
  | .div => fun u x => fs.div u x

/-- `l op= A`, derived_base.hpp:129-159. -/
def assign (op : FloatOp) (l : Lv d) (A : Tm α d) : AStmt α := .compound (assignFn fs op) l A
/-- `l op= x`, derived_base.hpp:56-78. -/
def assignX (op : FloatOp) (l : Lv d) (x : α) : AStmt α := .compoundX (assignFn fs op) l x

end FloatArr

namespace FScalar

variable {α : Type} (fs : FScalar α)

/-- `pows_int(x, p)`, strict_val_ops.hpp:63-66. -/
def powsInt (x : α) (p : Int) : Res α := do
  let e ← fs.ofIndex p
  fs.pow x e

/-- `exps_int<T>(p)`, strict_val_ops.hpp:87-90. -/
def expsInt (lib : MathLib α) (p : Int) : Res α := do
  let e ← fs.ofIndex p
  lib .exp e

end FScalar

end Spp
