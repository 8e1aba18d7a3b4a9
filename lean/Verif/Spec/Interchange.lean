import Verif.Model.EProg

/-
Statements that may be replaced by each other.
-/

namespace Spp.Spec

variable {α : Type} [Inhabited α]

/-- Executed while the arrays hold `s`, both statements succeed and leave the same arrays, in every build, or both are
rejected by every build with checks and leave all arrays as they are. -/
def Interchangeable (s : Store α) (c c' : EStmt α) : Prop :=
  (∃ s', ∀ b, estmtRun b c s = (.ok (), s') ∧ estmtRun b c' s = (.ok (), s')) ∨
  ∀ b : Build, b.Checked → (∃ k, estmtRun b c s = (.trap k, s)) ∧ ∃ k, estmtRun b c' s = (.trap k, s)

/-- The expression that names a one-dimensional array. -/
def array1 (i : Nat) : Tm α .one := .lv (.arr1 i)

/-- The expression that names a two-dimensional array. -/
def array2 (i : Nat) : Tm α .two := .lv (.arr2 i)

/-- The numbers `pos, pos + 1, ..., pos + count - 1`. -/
def numbers (pos count : Int) : List Int := (List.range count.toNat).map fun k : Nat => pos + k

end Spp.Spec
