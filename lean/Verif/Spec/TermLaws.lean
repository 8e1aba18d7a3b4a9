import Verif.Spec.Gives

/-
Expressions that mean the same thing.
-/

namespace Spp.Spec

/-- Both texts are accepted while the arrays hold `s0`, and from then on, whatever the arrays contain
(as long as their sizes stay the same), both objects have the same size and the same elements. -/
def SameTerms {α : Type} {d : Dim} (b : Build) (s0 : Store α) (t u : Tm α d) : Prop :=
  ∃ x : Store α → Sem α d, Gives b s0 t x ∧ Gives b s0 u x

end Spp.Spec
