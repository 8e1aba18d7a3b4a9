import Verif.Core
import Verif.Spec.Ints
import Verif.Spec.Scalar

/- What the operators on integers and booleans give, operator by operator. -/

namespace Spp.Spec

/-- `+ - * / % << >> & | ^`. -/
inductive IntOp where
  | add | sub | mul | div | rem | shl | shr | band | bor | bxor
  deriving DecidableEq

/-- `+ - ~ abs`. -/
inductive IntOp1 where
  | plus | minus | not | abs
  deriving DecidableEq

/-- `&& || ^`. -/
inductive BoolOp where
  | and | or | xor
  deriving DecidableEq

/-- The exact value `v` for signed types, the value congruent to it for unsigned types. -/
def Exact (t : IntTy) (v r : Int) : Prop :=
  (t.signed = true → r = v) ∧ (t.signed = false → SameMod t r v)

/-- `r` is the result of `x op y`. -/
def IntOp.Result (t : IntTy) (x y r : Int) : IntOp → Prop
  | .add => Exact t (x + y) r
  | .sub => Exact t (x - y) r
  | .mul => Exact t (x * y) r
  | .div => ∃ m, TruncDiv x y r m
  | .rem => ∃ q, TruncDiv x y q r
  | .shl => SameMod t r (x * 2 ^ y.toNat)
  | .shr => 2 ^ y.toNat * r ≤ x ∧ x < 2 ^ y.toNat * (r + 1)
  | .band => ∀ i < t.bits, bit i r = (bit i x && bit i y)
  | .bor => ∀ i < t.bits, bit i r = (bit i x || bit i y)
  | .bxor => ∀ i < t.bits, bit i r = (bit i x != bit i y)

/-- `x op y` is rejected in debug builds. -/
def IntOp.Rejected (t : IntTy) (x y : Int) : IntOp → Prop
  | .div | .rem => y = 0
  | .shl | .shr => t.signed = true ∧ (x < 0 ∨ y < 0)
  | _ => False

/-- C++ does not define `x op y`. -/
def IntOp.Undefined (t : IntTy) (x y : Int) : IntOp → Prop
  | .add => t.signed = true ∧ ¬ Fits t (x + y)
  | .sub => t.signed = true ∧ ¬ Fits t (x - y)
  | .mul => t.signed = true ∧ ¬ Fits t (x * y)
  | .div | .rem => y = 0 ∨ MinOverMinusOne t x y
  | .shl | .shr => y < 0 ∨ (t.bits : Int) ≤ y
  | .band | .bor | .bxor => False

/-- The outcome of `x op y` in the build `b`. -/
def IntOp.Outcome (b : Build) (t : IntTy) (x y : Int) (op : IntOp) (r : Res Int) : Prop :=
  (b.Checked ∧ op.Rejected t x y ∧ r = .trap b.kind) ∨
  (¬ (b.Checked ∧ op.Rejected t x y) ∧ op.Undefined t x y ∧ r = .ub) ∨
  (¬ (b.Checked ∧ op.Rejected t x y) ∧ ¬ op.Undefined t x y ∧
    ∃ v, r = .ok v ∧ Fits t v ∧ op.Result t x y v)

/-- The outcome of a unary operator; `-` and `abs` overflow for the smallest number of a signed type. -/
def IntOp1.Outcome (t : IntTy) (x : Int) (r : Res Int) : IntOp1 → Prop
  | .plus => r = .ok x
  | .minus => (Fits t (-x) → r = .ok (-x)) ∧ (¬ Fits t (-x) → r = .ub)
  | .not => ∃ v, r = .ok v ∧ Fits t v ∧ ∀ i < t.bits, bit i v = !bit i x
  | .abs => (Fits t |x| → r = .ok |x|) ∧ (¬ Fits t |x| → r = .ub)

/-- The truth tables. -/
def BoolOp.table (x y : Bool) : BoolOp → Bool
  | .and => if x then y else false
  | .or => if x then true else y
  | .xor => if x then !y else y

end Spp.Spec
