import Verif.Spec.Expr

/-
Objects of different kinds and extents with the same elements.
-/

namespace Spp.Spec

variable {σ τ α : Type}

/-- The two objects have the same elements in the same order, row by row if the object is two-dimensional.  An element
may be a failure (an expression that divides by zero somewhere): then it is the same failure. -/
def SameSequence (d : Dim) (a : Acc σ α) (s : σ) (d' : Dim) (a' : Acc τ α) (t : τ) : Prop :=
  ∃ (X : Sem α d) (Y : Sem α d'), Den d a s X ∧ Den d' a' t Y ∧ X.flat = Y.flat

/-- The same for pairs of operands; the operands of a pair have the same extents. -/
def SamePairs (d : Dim) (a1 a2 : Acc σ α) (s : σ) (d' : Dim) (a1' a2' : Acc τ α) (t : τ) : Prop :=
  ∃ (X1 X2 : Sem α d) (Y1 Y2 : Sem α d'), Den d a1 s X1 ∧ Den d a2 s X2 ∧ Den d' a1' t Y1 ∧ Den d' a2' t Y2 ∧
    X1.dims = X2.dims ∧ Y1.dims = Y2.dims ∧ X1.flat = Y1.flat ∧ X2.flat = Y2.flat

end Spp.Spec
