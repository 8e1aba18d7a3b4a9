import Verif.Model.Idioms
import Verif.Spec.Expr

/-
Chains of slices that select the same elements.
-/

namespace Spp.Spec

/-- `A(r1)(r2)...` and `A(q1)(q2)...` are both accepted and have the same elements in the same order. -/
def SameSlices {σ β : Type} (b : Build) (a : Acc σ β) (s : σ) (rs qs : List SliceReq) : Prop :=
  ∃ v w L, View.chain b a s rs = .ok v ∧ View.chain b a s qs = .ok w ∧ Den .one v s L ∧ Den .one w s L

end Spp.Spec
