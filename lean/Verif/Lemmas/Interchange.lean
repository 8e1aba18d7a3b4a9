import Verif.Spec.Interchange
import Verif.Lemmas.EProg

/- Lemmas for C134. -/

set_option linter.unusedSectionVars false

namespace Spp
open Spec Props

variable {α : Type} [Inhabited α]

/-- Whatever the rules allow for the statement in this state is a rejection without effect. -/
def Rejects (s : Store α) (c : EStmt α) : Prop :=
  ∀ (k0 : Kind) (r : Res Unit) (s' : Store α), Does (some k0) c s r s' → s' = s ∧ ∃ k, r = .trap k

theorem interchange {s : Store α} {c c' : EStmt α} (hF : c.Fits s) (hF' : c'.Fits s)
    (h : (∃ s', Does none c s (.ok ()) s' ∧ Does none c' s (.ok ()) s') ∨ (Rejects s c ∧ Rejects s c')) :
    Interchangeable s c c' := by
  rcases h with ⟨s', h1, h2⟩ | ⟨h1, h2⟩
  · exact .inl ⟨s', fun b => ⟨run_of_does b hF h1, run_of_does b hF' h2⟩⟩
  · refine .inr fun b hb => ⟨?_, ?_⟩
    · obtain ⟨e, k, e'⟩ := h1 _ _ _ (does_of_run hb hF)
      exact ⟨k, Prod.ext e' e⟩
    · obtain ⟨e, k, e'⟩ := h2 _ _ _ (does_of_run hb hF')
      exact ⟨k, Prod.ext e' e⟩

theorem list_rejects {s : Store α} {c : Stmt α} (h : c.meaning s.a1 = none) : Rejects s (.list c) := by
  intro k0 r s' hd
  cases hd with
  | list h' => rw [h] at h'; cases h'
  | listRejected _ _ => exact ⟨rfl, _, rfl⟩

theorem use1_rejects {s : Store α} {i : Nat} {u : Use1} {t : Tm α .one} (h : ¬ t.Valid s) : Rejects s (.use1 i u t) := by
  intro k0 r s' hd
  cases hd with
  | use1 hV => exact absurd hV h
  | use1Rejected hV => exact absurd hV h
  | use1Invalid _ _ => exact ⟨rfl, _, rfl⟩

theorem res_ok_inj {xs ys : List α} (h : xs.map (Res.ok : α → Res α) = ys.map Res.ok) : xs = ys :=
  List.map_inj_right (fun _ _ h => Res.ok.inj h) |>.1 h

theorem use1_position_rejects {s : Store α} {i : Nat} {u : Use1} {t : Tm α .one} {xs : List α}
    (hm : t.meaning s = xs.map Res.ok) (h : u.meaning (s.a1 i) xs = none) : Rejects s (.use1 i u t) := by
  intro k0 r s' hd
  cases hd with
  | use1 hV hx hu =>
    cases res_ok_inj (hm.symm.trans hx)
    rw [h] at hu; cases hu
  | use1Rejected hV => exact ⟨rfl, _, rfl⟩
  | use1Invalid _ _ => exact ⟨rfl, _, rfl⟩

theorem array1_meaning (s : Store α) (i : Nat) : (array1 i : Tm α .one).meaning s = (s.a1 i).map Res.ok := by
  show List.map _ (List.map _ (List.range _)) = _
  rw [List.map_map]
  refine List.ext_getElem (by simp) (fun k h1 h2 => ?_)
  simp only [List.length_map, List.length_range] at h1
  simp only [List.getElem_map, List.getElem_range, Function.comp, Res.ok_bind]
  exact rd_nat h1

theorem array1_dims (s : Store α) (i : Nat) : ((array1 i : Tm α .one).meaning s).dims.1 = (s.a1 i).length := by
  rw [array1_meaning]
  show ((s.a1 i).map Res.ok).length = _
  rw [List.length_map]

theorem firstN_pick {β : Type} (l : List (Res β)) (k : Int) :
    (selection (l.length : Int) (.firstN k)).map (pick l) = l.take k.toNat := by
  show ((upto _).take _).map _ = _
  rw [List.map_take, map_pick_upto rfl]

theorem lastN_pick {β : Type} (l : List (Res β)) (k : Int) :
    (selection (l.length : Int) (.lastN k)).map (pick l) = l.drop (l.length - k).toNat := by
  show ((upto _).drop _).map _ = _
  rw [List.map_drop, map_pick_upto rfl]

theorem first_meaning (s : Store α) (i : Nat) (k : Int) :
    Tm.meaning s (.view (.slice (.firstN k)) (array1 i)) = ((s.a1 i).take k.toNat).map Res.ok := by
  show (selection (List.length ((array1 i : Tm α .one).meaning s) : Int) (.firstN k)).map (pick _) = _
  rw [array1_meaning]
  exact (firstN_pick _ k).trans (List.map_take ..).symm

theorem last_meaning (s : Store α) (i : Nat) (k : Int) :
    Tm.meaning s (.view (.slice (.lastN k)) (array1 i)) = ((s.a1 i).drop ((s.a1 i).length - k).toNat).map Res.ok := by
  show (selection (List.length ((array1 i : Tm α .one).meaning s) : Int) (.lastN k)).map (pick _) = _
  rw [array1_meaning]
  refine (lastN_pick _ k).trans ?_
  rw [List.length_map, List.map_drop]

theorem complement_meaning (s : Store α) (i : Nat) (idx : List Int) :
    Tm.meaning s (.view (.slice (.complement idx)) (array1 i)) = (withoutPositions (s.a1 i) idx).map Res.ok := by
  show (selection (List.length ((array1 i : Tm α .one).meaning s) : Int) (.complement idx)).map (pick _) = _
  rw [array1_meaning]
  generalize s.a1 i = l
  show ((upto ((l.map Res.ok).length : Int)).filter (fun i => i ∉ idx)).map (pick (l.map Res.ok)) = _
  unfold withoutPositions upto
  rw [List.length_map, Int.toNat_natCast, List.filter_map, List.map_map]
  have e : ((fun i : Int => decide (i ∉ idx)) ∘ Int.ofNat) = fun k : Nat => decide ((k : Int) ∉ idx) := rfl
  rw [e]
  have hk : ∀ k ∈ (List.range l.length).filter (fun k : Nat => decide ((k : Int) ∉ idx)), k < l.length := by
    intro k hk
    exact List.mem_range.1 (List.mem_filter.1 hk).1
  revert hk
  generalize (List.range l.length).filter (fun k : Nat => decide ((k : Int) ∉ idx)) = ks
  intro hk
  induction ks with
  | nil => rfl
  | cons k ks ih =>
    have h := hk k (List.mem_cons_self ..)
    rw [List.map_cons, ih fun x hx => hk x (List.mem_cons_of_mem _ hx), List.filterMap_cons,
      List.getElem?_eq_getElem h]
    simp [pick, List.getElem?_map, List.getElem?_eq_getElem h]

theorem first_valid {s : Store α} {i : Nat} {k : Int} :
    (Tm.view (.slice (.firstN k)) (array1 i) : Tm α .one).Valid s ↔ 0 ≤ k ∧ k ≤ (s.a1 i).length := by
  show (True ∧ 0 ≤ k ∧ k ≤ (((array1 i : Tm α .one).meaning s).dims.1 : Int)) ↔ _
  rw [array1_dims, true_and]

theorem last_valid {s : Store α} {i : Nat} {k : Int} :
    (Tm.view (.slice (.lastN k)) (array1 i) : Tm α .one).Valid s ↔ 0 ≤ k ∧ k ≤ (s.a1 i).length := by
  show (True ∧ 0 ≤ k ∧ k ≤ (((array1 i : Tm α .one).meaning s).dims.1 : Int)) ↔ _
  rw [array1_dims, true_and]

theorem merge_meaning {s : Store α} {t u : Tm α .one} {xs ys : List α} (h1 : t.meaning s = xs.map Res.ok)
    (h2 : u.meaning s = ys.map Res.ok) : Tm.meaning s (.merge t u) = (xs ++ ys).map Res.ok := by
  show List.append (t.meaning s) (u.meaning s) = _
  rw [h1, h2, List.map_append]; rfl

theorem append_meaning {s : Store α} {t : Tm α .one} {xs : List α} {x : α} (h1 : t.meaning s = xs.map Res.ok) :
    Tm.meaning s (.append t x) = (xs ++ [x]).map Res.ok := by
  show List.append (t.meaning s) [Res.ok x] = _
  rw [h1, List.map_append]; rfl

theorem moderate_of_modest {x : Int} (h : Modest x) : Stmt.Moderate.Mod x := by
  unfold Modest at h; unfold Stmt.Moderate.Mod; omega

theorem ok_elements {t : Tm α .one} {s : Store α} {xs : List α} (h : t.meaning s = xs.map Res.ok) :
    ∀ r ∈ (t.meaning s).flat, ∃ x, r = .ok x := by
  intro r hr
  rw [h] at hr
  obtain ⟨x, _, rfl⟩ := List.mem_map.1 (show r ∈ xs.map Res.ok from hr)
  exact ⟨x, rfl⟩

end Spp
