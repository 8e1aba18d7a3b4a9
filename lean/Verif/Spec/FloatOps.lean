import Verif.Spec.Ieee

/- What the operators on floating-point numbers give, operator by operator, special values included. -/

namespace Spp.Spec

open FVal

/-- `+ - * /`. -/
inductive FloatOp where
  | add | sub | mul | div
  deriving DecidableEq

/-- `+ - abs inv sqrt`. -/
inductive FloatOp1 where
  | plus | minus | abs | inv | sqrt
  deriving DecidableEq

/-- The functions of the mathematical library that are applied element by element. -/
inductive LibFn where
  | exp | log | log2 | log10 | cbrt | sin | cos | tan
  deriving DecidableEq

/-- `z` is the number `v` rounded to the format; zero has the sign `s`. -/
def Rounded (F : Fmt) (v : ℚ) (s : Bool) (z : FVal) : Prop :=
  (v ≠ 0 → RoundsTo F v z) ∧ (v = 0 → z = fin s 0)

/-- The exclusive or of the signs: the sign of products and quotients. -/
def signOf (x y : FVal) : Bool := negative x != negative y

/-- `z` is the result of `x op y`. -/
def FloatOp.Result (F : Fmt) (x y z : FVal) : FloatOp → Prop
  | .add =>
      (x.isFinite = true → y.isFinite = true → Rounded F (x.val + y.val) (negative x && negative y) z) ∧
      (x = nan ∨ y = nan → z = nan) ∧
      (∀ s, x = inf s → (y.isFinite = true ∨ y = inf s → z = inf s) ∧ (y = inf (!s) → z = nan)) ∧
      (∀ s, y = inf s → x.isFinite = true → z = inf s)
  | .sub =>
      (x.isFinite = true → y.isFinite = true → Rounded F (x.val - y.val) (negative x && !negative y) z) ∧
      (x = nan ∨ y = nan → z = nan) ∧
      (∀ s, x = inf s → (y.isFinite = true ∨ y = inf (!s) → z = inf s) ∧ (y = inf s → z = nan)) ∧
      (∀ s, y = inf s → x.isFinite = true → z = inf (!s))
  | .mul =>
      (x.isFinite = true → y.isFinite = true → Rounded F (x.val * y.val) (signOf x y) z) ∧
      (x = nan ∨ y = nan → z = nan) ∧
      (x.isInf = true → y.isFinite = true → y.val = 0 → z = nan) ∧
      (y.isInf = true → x.isFinite = true → x.val = 0 → z = nan) ∧
      (x.isInf = true → y.isInf = true ∨ (y.isFinite = true ∧ y.val ≠ 0) → z = inf (signOf x y)) ∧
      (y.isInf = true → x.isFinite = true → x.val ≠ 0 → z = inf (signOf x y))
  | .div =>
      (x.isFinite = true → y.isFinite = true →
        (y.val ≠ 0 → Rounded F (x.val / y.val) (signOf x y) z) ∧
        (x.val ≠ 0 → y.val = 0 → z = inf (signOf x y)) ∧
        (x.val = 0 → y.val = 0 → z = nan)) ∧
      (x = nan ∨ y = nan ∨ (x.isInf = true ∧ y.isInf = true) → z = nan) ∧
      (x.isInf = true → y.isFinite = true → z = inf (signOf x y)) ∧
      (x.isFinite = true → y.isInf = true → z = fin (signOf x y) 0)

/-- `z` is the result of a unary operator or of `abs`, `inv`, `sqrt`; `root` is the square root of a positive
number, to be rounded.  `abs` changes the sign of everything that is not greater than zero, so it exchanges the
two zeros. -/
def FloatOp1.Result (F : Fmt) (x z : FVal) : FloatOp1 → Prop
  | .plus => z = x
  | .minus => (x = nan → z = nan) ∧ (∀ s, x = inf s → z = inf (!s)) ∧ (∀ s m, x = fin s m → z = fin (!s) m)
  | .abs => (x = nan → z = nan) ∧ (x.isInf = true → z = inf false) ∧
      (x.isFinite = true → z.isFinite = true ∧ z.val = |x.val| ∧
        (x.val ≠ 0 → negative z = false) ∧ (x.val = 0 → negative z = !negative x))
  | .inv => (x = nan → z = nan) ∧ (∀ s, x = inf s → z = fin s 0) ∧
      (x.isFinite = true → x.val = 0 → z = inf (negative x)) ∧
      (x.isFinite = true → x.val ≠ 0 → RoundsTo F (1 / x.val) z)
  | .sqrt => (x = nan → z = nan) ∧ (x = inf true → z = nan) ∧ (x = inf false → z = inf false) ∧
      (x.isFinite = true → x.val = 0 → z = x) ∧ (x.isFinite = true → x.val < 0 → z = nan) ∧
      (x.isFinite = true → 0 < x.val → RoundsTo F (F.sqrt x.val) z)

end Spp.Spec
