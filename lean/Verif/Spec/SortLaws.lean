import Verif.Spec.Algorithm

/- When two states differ in the order of some elements only. -/

namespace Spp.Spec

variable {α : Type}

/-- The two states differ at most in the order of the elements at the places `cs`. -/
def Rearranged (cs : List Loc) (t u : Store α) : Prop :=
  SameSizes t u ∧ (∃ xs ys : List α, cs.map t.read = xs.map Res.ok ∧ cs.map u.read = ys.map Res.ok ∧ xs.Perm ys) ∧
  ∀ c, c ∉ cs → t.read c = u.read c

end Spp.Spec
