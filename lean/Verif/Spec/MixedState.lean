import Verif.Model.Mixed

/- When memory is in a state of lists and matrices. -/

namespace Spp.Spec

variable {α : Type} [Inhabited α]

/-- The memory `h` realises the state `st`: storage is owned properly, exactly the arrays in scope exist, they have their
types, dimensions and elements, and so many requests for memory were made. -/
structure MRealises (Γ : MCtx) (h : MHeap α) (st : MState α) : Prop where
  owned : Owned h.heap
  live : ∀ i, (h.heap.objs i).map Obj.af = (Γ i).map Prod.snd
  elems : ∀ i, view h.heap i = (Γ i).map fun _ => (st.2 i).list
  gone : ∀ i, Γ i = none → st.2 i = .vec [] ∧ h.dims i = none
  vector : ∀ i, Γ.Is .vector i → (∃ l, st.2 i = .vec l) ∧ h.dims i = none
  matrix : ∀ i, Γ.Is .matrix i → ∃ M, st.2 i = .mat M ∧ (M.m = 0 ↔ M.n = 0) ∧ h.dims i = some ((M.m : Int), (M.n : Int))
  requests : h.heap.requests = st.1

end Spp.Spec
