import Verif.Spec.Idioms
import Verif.Lemmas.View
import Verif.Lemmas.Assign
import Verif.Props.Slice

namespace Spp.Idioms
open Spec Props

variable {σ β : Type}

/-- The elements selected by one selection out of another. -/
def compose (I J : List Int) : List Int := J.map (fun j => I.getD j.toNat 0)

theorem chain_one (b : Build) {a : Acc σ β} {s : σ} {l : List (Res β)} (h : Den .one a s l)
    (hn : (l.length : Int) < 2 ^ 63 - 1) {r : SliceReq} (ha : r.Args) (hv : r.Valid l.length) :
    ∃ v, View.chain b a s [r] = .ok v ∧ Den .one v s ((selection l.length r).map (pick l)) := by
  obtain ⟨v, h1, h2⟩ := mkSlice1_ok b (a := a) (s0 := s) h.1 hn ha hv
  exact ⟨v, by simp [View.chain, h1], h2 s l rfl ⟨h.2.1, h.2.2⟩⟩

theorem chain_two (b : Build) {a : Acc σ β} {s : σ} {l : List (Res β)} (h : Den .one a s l)
    (hn : (l.length : Int) < 2 ^ 63 - 1) {r q : SliceReq} (ha : r.Args) (hv : r.Valid l.length)
    (hm : ((selection l.length r).length : Int) < 2 ^ 63 - 1)
    (ha' : q.Args) (hv' : q.Valid (selection l.length r).length) :
    ∃ v, View.chain b a s [r, q] = .ok v ∧ Den .one v s
      ((compose (selection l.length r) (selection (selection l.length r).length q)).map (pick l)) := by
  obtain ⟨v, h1, h2⟩ := mkSlice1_ok b (a := a) (s0 := s) h.1 hn ha hv
  have h3 := h2 s l rfl ⟨h.2.1, h.2.2⟩
  have hlen : ((selection l.length r).map (pick l)).length = (selection l.length r).length := by simp
  obtain ⟨w, h4, h5⟩ := mkSlice1_ok b (a := v) (s0 := s) (n := (selection l.length r).length)
    (by rw [h3.1]; congr 1) hm ha' hv'
  refine ⟨w, by simp [View.chain, h1, h4], ?_⟩
  have h6 := h5 s _ hlen ⟨h3.2.1, h3.2.2⟩
  have e : (selection (selection l.length r).length q).map (pick ((selection l.length r).map (pick l))) =
      (compose (selection l.length r) (selection (selection l.length r).length q)).map (pick l) := by
    unfold compose
    rw [List.map_map]
    apply List.map_congr_left
    intro j hj
    obtain ⟨k, rfl, hk⟩ := inRange_nat (selection_inRange hm ha' hv' j hj)
    simp only [Function.comp, Int.toNat_natCast]
    rw [pick_nat, List.getD_eq_getElem?_getD, List.getElem?_map, List.getElem?_eq_getElem hk,
      List.getD_eq_getElem?_getD, List.getElem?_eq_getElem hk]
    rfl
  rw [e] at h6
  exact h6

theorem compose_progression {s1 t1 s2 t2 : Int} {m1 m2 : Nat}
    (h : ∀ x ∈ progression s2 t2 m2, InRange m1 x) :
    compose (progression s1 t1 m1) (progression s2 t2 m2) = progression (s1 + s2 * t1) (t2 * t1) m2 := by
  unfold compose
  apply List.ext_getElem
  · simp
  · intro i h1 h2
    simp only [List.length_map, progression_length] at h1
    simp only [List.getElem_map, getElem_progression]
    have hi := h (s2 + i * t2) (mem_progression.2 ⟨i, h1, rfl⟩)
    obtain ⟨k, hk, hk'⟩ := inRange_nat hi
    rw [hk, Int.toNat_natCast, List.getD_eq_getElem?_getD, List.getElem?_eq_getElem (by simpa using hk'),
      Option.getD_some, getElem_progression, ← hk]
    rw [Int.add_mul, Int.mul_assoc, Int.add_assoc]

theorem sel_all {n : Nat} : selection n .all = progression 0 1 n := by
  show upto n = _
  rw [upto_eq_progression, Int.toNat_natCast]

theorem sel_even {n : Nat} : selection n .even = progression 0 2 ((n + 1) / 2) := by
  show (upto n).filter (fun i => i % 2 = 0) = _
  rw [filter_mod_upto (by omega) (by omega)]
  congr 1; omega

theorem sel_odd {n : Nat} : selection n .odd = progression 1 2 (n / 2) := by
  show (upto n).filter (fun i => i % 2 = 1) = _
  rw [filter_odd_upto (by omega)]
  congr 1

theorem sel_reverse {n : Nat} : selection n .reverse = progression (n - 1) (-1) n := by
  show (upto n).reverse = _
  rw [reverse_upto (by omega), Int.toNat_natCast]

theorem sel_skipN {n : Nat} {k : Nat} (hk : 0 < k) :
    selection n (.skipN k) = progression 0 k ((n + k - 1) / k) := by
  show (upto n).filter (fun i => i % (k : Int) = 0) = _
  rw [filter_mod_upto (by omega) (by omega)]
  congr 1
  have : (n : Int) + k - 1 = ((n + k - 1 : Nat) : Int) := by omega
  rw [this, ← Int.natCast_ediv, Int.toNat_natCast]

theorem sel_firstN {n k : Nat} (hk : k ≤ n) : selection n (.firstN k) = progression 0 1 k := by
  show (upto n).take (k : Int).toNat = _
  rw [take_upto (by omega) (by omega), Int.toNat_natCast]

theorem sel_lastN {n k : Nat} (hk : k ≤ n) :
    selection n (.lastN k) = progression (n - k) 1 k := by
  show (upto n).drop ((n : Int) - k).toNat = _
  rw [drop_upto (by omega) (by omega), Int.toNat_natCast]

theorem sel_seqN {n : Nat} {s t : Int} {m : Nat} : selection n (.seqN s m t) = progression s t m := by
  show progression s t (m : Int).toNat = _
  rw [Int.toNat_natCast]

end Spp.Idioms
