import Verif.Model.StableOps
import Mathlib.Algebra.Order.Field.Rat
import Mathlib.Algebra.Order.Group.Abs

/-
Floating-point numbers with NaN, infinities and signed zeros.  `Strict<T>` applies the built-in operators
to the value it holds (strictpp/StrictCommon/strict_val.hpp:128-132, 382-513), so what they do with such
values is what IEEE 754 says.  The result of an operation on finite numbers is the exact result rounded
once, or an infinity if the rounded number is larger than the largest finite number.

Simplifications.  There is one NaN: payloads and signs of NaNs are not modelled, neither are the flags of
the floating-point environment.  The rounding direction is the same for both signs (as it is when
rounding to nearest).
-/

namespace Spp

/-- A floating-point number: not a number, an infinity, or a sign and a magnitude (so there are two
zeros).  `neg` is true for a negative sign.
IEEE 754, as strict_val.hpp:128-132, 161-183, 382-406 and 474-513 use it. -/
inductive FVal where
  | nan
  | inf (neg : Bool)
  | fin (neg : Bool) (m : ℚ)
deriving DecidableEq, Repr

/-- A floating-point format: how magnitudes are rounded, the largest finite number, square roots of
magnitudes and `pow`. IEEE 754, as strict_val.hpp:128-132, 161-183, 382-406 and 474-513 use it. -/
structure Fmt where
  rn : ℚ → ℚ
  top : ℚ
  sqrt : ℚ → ℚ
  pow : FVal → FVal → FVal

namespace FVal

/-- The number a finite floating-point number stands for.
IEEE 754, as strict_val.hpp:128-132, 161-183, 382-406 and 474-513 use it. -/
def val : FVal → ℚ
  | fin true m => -m
  | fin false m => m
  | _ => 0

/-- `isnans`, strict_math.hpp:224-236. -/
def isNan : FVal → Bool
  | nan => true
  | _ => false

/-- `isinfs`, strict_math.hpp:209-221. -/
def isInf : FVal → Bool
  | inf _ => true
  | _ => false

/-- `isfinites`, strict_math.hpp:239-251. -/
def isFinite : FVal → Bool
  | fin _ _ => true
  | _ => false

/-- The magnitude `m` with the sign `s`, rounded.
IEEE 754, as strict_val.hpp:128-132, 161-183, 382-406 and 474-513 use it. -/
def round (F : Fmt) (s : Bool) (m : ℚ) : FVal :=
  if F.top < F.rn m then inf s else fin s (F.rn m)

/-- `-x`, strict_val.hpp:128-132: only the sign changes. -/
def neg : FVal → FVal
  | nan => nan
  | inf s => inf (!s)
  | fin s m => fin (!s) m

/-- `x + y`, strict_val.hpp:381-384.  A sum that is exactly zero is `+0` unless both are negative. -/
def add (F : Fmt) : FVal → FVal → FVal
  | nan, _ => nan
  | _, nan => nan
  | inf s, inf t => if s = t then inf s else nan
  | inf s, fin _ _ => inf s
  | fin _ _, inf t => inf t
  | fin s m, fin t n =>
      let v := val (fin s m) + val (fin t n)
      if v = 0 then fin (s && t) 0 else round F (decide (v < 0)) |v|

/-- `x - y`, strict_val.hpp:387-390. -/
def sub (F : Fmt) (x y : FVal) : FVal := add F x (neg y)

/-- The exact product: zero times infinity is not a number.
IEEE 754, as strict_val.hpp:128-132, 161-183, 382-406 and 474-513 use it. -/
def exactMul : FVal → FVal → FVal
  | nan, _ => nan
  | _, nan => nan
  | inf s, inf t => inf (s != t)
  | inf s, fin t n => if n = 0 then nan else inf (s != t)
  | fin s m, inf t => if m = 0 then nan else inf (s != t)
  | fin s m, fin t n => fin (s != t) (m * n)

/-- Rounds a finite number. IEEE 754, as strict_val.hpp:128-132, 161-183, 382-406 and 474-513 use it. -/
def roundV (F : Fmt) : FVal → FVal
  | fin s m => round F s m
  | x => x

/-- `x * y`, strict_val.hpp:393-396. -/
def mul (F : Fmt) (x y : FVal) : FVal := roundV F (exactMul x y)

/-- `x / y`, strict_val.hpp:399-405. -/
def div (F : Fmt) : FVal → FVal → FVal
  | nan, _ => nan
  | _, nan => nan
  | inf _, inf _ => nan
  | inf s, fin t _ => inf (s != t)
  | fin s _, inf t => fin (s != t) 0
  | fin s m, fin t n =>
      if n = 0 then (if m = 0 then nan else inf (s != t)) else round F (s != t) (m / n)

/-- `fmas(x, y, z)`, strict_math.hpp:299-310: the exact product and one rounding. -/
def fma (F : Fmt) (x y z : FVal) : FVal := add F (exactMul x y) z

/-- `sqrts(x)`, strict_math.hpp:110-121. -/
def sqrt (F : Fmt) : FVal → FVal
  | nan => nan
  | inf true => nan
  | inf false => inf false
  | fin s m => if m = 0 then fin s 0 else if s then nan else round F false (F.sqrt m)

/-- `x < y`, strict_val.hpp:492-495. -/
def lt : FVal → FVal → Bool
  | nan, _ => false
  | _, nan => false
  | inf s, inf t => s && !t
  | inf s, fin _ _ => s
  | fin _ _, inf t => !t
  | fin s m, fin t n => decide (val (fin s m) < val (fin t n))

/-- `x <= y`, strict_val.hpp:498-501. -/
def le : FVal → FVal → Bool
  | nan, _ => false
  | _, nan => false
  | inf s, inf t => s || !t
  | inf s, fin _ _ => s
  | fin _ _, inf t => !t
  | fin s m, fin t n => decide (val (fin s m) ≤ val (fin t n))

/-- `x == y`, strict_val.hpp:474-477. -/
def eq : FVal → FVal → Bool
  | nan, _ => false
  | _, nan => false
  | inf s, inf t => s == t
  | inf _, fin _ _ => false
  | fin _ _, inf _ => false
  | fin s m, fin t n => decide (val (fin s m) = val (fin t n))

end FVal

/-- `Strict<T>` for a floating-point type, as an element type of the operations on arrays.
IEEE 754, as strict_val.hpp:128-132, 161-183, 382-406 and 474-513 use it. -/
def Fmt.scalar (F : Fmt) : FScalar FVal where
  zero := .fin false 0
  one := .fin false 1
  add x y := .ok (FVal.add F x y)
  sub x y := .ok (FVal.sub F x y)
  mul x y := .ok (FVal.mul F x y)
  div x y := .ok (FVal.div F x y)
  ofIndex i := .ok (FVal.round F (decide (i < 0)) |(i : ℚ)|)
  neg x := .ok (FVal.neg x)
  lt := FVal.lt
  le := FVal.le
  eq := FVal.eq
  pow x y := .ok (F.pow x y)
  sqrt x := .ok (FVal.sqrt F x)
  fma x y z := .ok (FVal.fma F x y z)

namespace Scalar

variable {α : Type}

/-- `signs` on floating-point numbers, strict_math.hpp:19-22: the difference of two `bool`s, converted. -/
def signs (sc : Scalar α) (x : α) : Res α :=
  sc.ofIndex ((if sc.lt sc.zero x then 1 else 0) - (if sc.lt x sc.zero then 1 else 0))

/-- `clamps` on floating-point numbers, strict_val_ops.hpp:45-54, with `std::clamp` comparing as the
standard says: `v < lo ? lo : hi < v ? hi : v`, which demands that `hi < lo` is false. -/
def clamps (b : Build) (sc : Scalar α) (isnan : α → Bool) (x low high : α) : Res α := do
  assertDebug b (sc.le low high)
  assertDebug b (!isnan x)
  assertDebug b (!isnan low)
  assertDebug b (!isnan high)
  if sc.lt high low then .ub
  else .ok (if sc.lt x low then low else if sc.lt high x then high else x)

/-- `in_open`, strict_val_ops.hpp:93-97. -/
def inOpen (b : Build) (sc : Scalar α) (x low high : α) : Res Bool := do
  assertDebug b (sc.le low high)
  .ok (sc.lt low x && sc.lt x high)

/-- `in_closed`, strict_val_ops.hpp:106-110. -/
def inClosed (b : Build) (sc : Scalar α) (x low high : α) : Res Bool := do
  assertDebug b (sc.le low high)
  .ok (sc.le low x && sc.le x high)

end Scalar

end Spp
