import Verif.Spec.FloatIO
import Verif.Model.Ieee

/- The shape of printed tables. -/

namespace Spp.Spec

instance : Inhabited FVal := ⟨.nan⟩

/-- `M` is the largest absolute value of the finite numbers `l` (0 if there are none). -/
def Largest (l : List FVal) (M : ℚ) : Prop :=
  (∀ x ∈ l, ∃ s m, x = .fin s m ∧ 0 ≤ m ∧ m ≤ M) ∧ ((l = [] ∧ M = 0) ∨ ∃ s, FVal.fin s M ∈ l)

/-- `c` is the number of digits before the point: the least that is at least one and suffices. -/
def DigitsBefore (M : ℚ) (c : Nat) : Prop := 1 ≤ c ∧ M < 10 ^ c ∧ (c = 1 ∨ 10 ^ (c - 1) ≤ M)

/-- All texts are equally long. -/
def SameLength (ts : List (List Char)) : Prop := ∀ t ∈ ts, ∀ u ∈ ts, t.length = u.length

end Spp.Spec
