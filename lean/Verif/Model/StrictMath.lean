import Verif.Model.StrictInt

/-
Scalar functions: strictpp/StrictCommon/strict_math.hpp and strict_val_ops.hpp.
-/

namespace Spp

/-! ### Integer power, strict_math.hpp:267-282 -/

/-- The loop of `pows`, strict_math.hpp:271-280, with `pr` the remaining exponent (non-negative).
Each iteration: `if(pr & 1) res *= xr; pr >>= 1; if(!pr) break; xr *= xr;`. -/
def powsLoop (t : IntTy) (res xr : Int) (pr : Nat) : Res Int := do
  let res' ← (if pr % 2 = 1 then SInt.mul t res xr else .ok res)
  if pr / 2 = 0 then .ok res'
  else do
    let xr' ← SInt.mul t xr xr
    powsLoop t res' xr' (pr / 2)
termination_by pr

/-- `pows(Strict<T> x, Strict<T> pw)` for integers, strict_math.hpp:267-282.  For a negative
exponent that is not trapped the loop never reaches `pr == 0` (arithmetic shift), which is
undefined behaviour (a loop without side effects that does not terminate, or an overflow). -/
def pows (b : Build) (t : IntTy) (x pw : Int) : Res Int := do
  assertDebug b (decide (pw ≥ 0))
  if pw < 0 then .ub else powsLoop t 1 x pw.toNat

/-! ### factorial, strict_val_ops.hpp:24-28 -/

/-- The recursion of `factorial` on non-negative arguments (the assertion holds on every level).
strict_val_ops.hpp:24-28. -/
def factorialRec : Nat → Res Int
  | 0 => .ok 1
  | k + 1 => do
    let r ← factorialRec k
    SInt.mul IntTy.long ((k : Int) + 1) r

/-- `factorial(ImplicitInt n)`, strict_val_ops.hpp:24-28.  A negative argument that is not trapped
recurses without end (undefined behaviour). -/
def factorial (b : Build) (n : Int) : Res Int := do
  assertDebug b (decide (n > -1))
  if n < 0 then .ub else factorialRec n.toNat

/-! ### binom_coeff, strict_val_ops.hpp:31-42 -/

/-- The loop of `binom_coeff`, strict_val_ops.hpp:38-40; `m` is the bound `d1 + d2`. -/
def binomLoop (b : Build) (m f1 f2 prod : Int) : Res Int :=
  if f1 ≤ m then do
    let p ← SInt.mul IntTy.long prod f1
    let q ← SInt.div b IntTy.long p f2
    let _ ← SInt.add IntTy.long f1 1
    let _ ← SInt.add IntTy.long f2 1
    binomLoop b m (f1 + 1) (f2 + 1) q
  else .ok prod
termination_by (m + 1 - f1).toNat
decreasing_by omega

/-- `binom_coeff(ImplicitInt n, ImplicitInt k)`, strict_val_ops.hpp:31-42. -/
def binomCoeff (b : Build) (n k : Int) : Res Int := do
  assertDebug b (decide (k > -1))
  assertDebug b (decide (n ≥ k))
  let d1 ← SInt.sub IntTy.long n k
  let d2 := k
  let f1 ← SInt.add IntTy.long d1 1
  let m ← SInt.add IntTy.long d1 d2
  binomLoop b m f1 1 1

/-! ### sign, absolute value, minimum, maximum, clamp -/

/-- `signs` on integers, strict_math.hpp:19-22: `(0 < x) - (x < 0)`. -/
def signs (x : Int) : Int :=
  (if 0 < x then 1 else 0) - (if x < 0 then 1 else 0)

/-- `abss` on integers, strict_math.hpp:25-32. -/
def abss (t : IntTy) (x : Int) : Res Int :=
  if t.signed then (if x > 0 then .ok x else SInt.neg t x) else .ok x

/-- `mins`, strict_math.hpp:35-38. -/
def mins [LT α] [DecidableLT α] (x y : α) : α := if x < y then x else y
/-- `maxs`, strict_math.hpp:41-44. -/
def maxs [LT α] [DecidableLT α] (x y : α) : α := if y < x then x else y

/-- `std::clamp(x, low, high)` as used by strict_val_ops.hpp:53. -/
def stdClamp [LT α] [DecidableLT α] (x low high : α) : α :=
  if x < low then low else if high < x then high else x

/-- `clamps`, strict_val_ops.hpp:45-54 (values that are not NaN).  `std::clamp` demands that `high < low` is
false. -/
def clamps [LT α] [DecidableLT α] [LE α] [DecidableLE α] (b : Build) (x low high : α) : Res α := do
  assertDebug b (decide (low ≤ high))
  if high < low then .ub else .ok (stdClamp x low high)

/-- `in_open`, strict_val_ops.hpp:93-97. -/
def inOpen [LT α] [DecidableLT α] [LE α] [DecidableLE α] (b : Build) (x low high : α) :
    Res Bool := do
  assertDebug b (decide (low ≤ high))
  .ok (decide (low < x) && decide (x < high))

/-- `in_closed`, strict_val_ops.hpp:106-110. -/
def inClosed [LE α] [DecidableLE α] (b : Build) (x low high : α) : Res Bool := do
  assertDebug b (decide (low ≤ high))
  .ok (decide (low ≤ x) && decide (x ≤ high))

/-- `squares`, strict_math.hpp:255-258, with the multiplication `mul` of the element type. -/
def squares (mul : α → α → Res α) (x : α) : Res α := mul x x
/-- `cubes`, strict_math.hpp:261-264: `x * x * x`. -/
def cubes (mul : α → α → Res α) (x : α) : Res α := do
  let y ← mul x x
  mul y x

/-! ### fast_pows_int, strict_val_ops.hpp:69-84 -/

/-- The loop of `fast_pows_int`, strict_val_ops.hpp:73-82, with the multiplication `mul` of the element
type. -/
def fastPowsLoop (mul : α → α → Res α) (res x : α) (power : Nat) : Res α := do
  let res' ← if power % 2 = 1 then mul res x else .ok res
  if power / 2 = 0 then .ok res' else do
    let x' ← mul x x
    fastPowsLoop mul res' x' (power / 2)
termination_by power

/-- `fast_pows_int(x, p)`, strict_val_ops.hpp:69-84, with the operations `mul` and `div` of the element
type.  `abss(p)` overflows for the most negative `long`. -/
def fastPowsInt (mul div : α → α → Res α) (one x : α) (p : Int) : Res α := do
  let power ← abss IntTy.long p
  let res ← fastPowsLoop mul one x power.toNat
  if p ≥ 0 then .ok res else div one res

end Spp
