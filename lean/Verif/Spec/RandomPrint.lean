import Verif.Model.Ieee

/- Numbers between two bounds. -/

namespace Spp.Spec

/-- `x` is a finite floating-point number between `lo` and `hi`. -/
def InBounds (lo hi : ℚ) (x : FVal) : Prop :=
  ∃ s m, x = .fin s m ∧ 0 ≤ m ∧ lo ≤ (if s then -m else m) ∧ (if s then -m else m) ≤ hi

end Spp.Spec
