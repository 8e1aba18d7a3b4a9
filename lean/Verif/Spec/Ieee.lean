import Verif.Model.Ieee
import Verif.Spec.Float

/-
What is meant by a floating-point format with a largest number, and by special values in a list.
-/

namespace Spp.Spec

/-- The format has `p` significant digits and least exponent `emin`; magnitudes are rounded to nearest, in
the same way for both signs; the largest finite number is a floating-point number and at least one. -/
structure IsFmt (p : Nat) (emin : Int) (F : Fmt) : Prop where
  near : Nearest p emin F.rn
  odd : ∀ x, F.rn (-x) = -F.rn x
  top : Rep p emin F.top
  one : 1 ≤ F.top

/-- A value a variable of the format can hold: NaN, an infinity, or a floating-point number that is not
larger than the largest one. -/
def Held (p : Nat) (emin : Int) (F : Fmt) : FVal → Prop
  | .nan => True
  | .inf _ => True
  | .fin _ m => 0 ≤ m ∧ m ≤ F.top ∧ Rep p emin m

/-- The sign bit; NaN has none. -/
def negative : FVal → Bool
  | .nan => false
  | .inf s => s
  | .fin s _ => s

/-- `z` is the nonzero number `v` rounded to the format: an infinity if the rounded number is beyond the largest
one, and in both cases with the sign of `v` (also when it is rounded to zero). -/
def RoundsTo (F : Fmt) (v : ℚ) (z : FVal) : Prop :=
  negative z = decide (v < 0) ∧
  (|F.rn v| ≤ F.top → z.isFinite = true ∧ z.val = F.rn v) ∧
  (F.top < |F.rn v| → z.isInf = true)

/-- The sum of the list from left to right, every addition by the rules for special values. -/
def total (F : Fmt) : FVal → List FVal → FVal
  | acc, [] => acc
  | acc, x :: l => total F (FVal.add F acc x) l

/-- The operation yields a value.  If that value is finite, then all elements are finite and the operation on the
numbers they stand for, with the same rounding but without a largest number, yields the number it stands for. -/
def IfFinite (r : Res FVal) (l : List FVal) (r' : Res ℚ) : Prop :=
  ∃ v, r = .ok v ∧ (v.isFinite = true → (∀ x ∈ l, x.isFinite = true) ∧ r' = .ok v.val)

end Spp.Spec
