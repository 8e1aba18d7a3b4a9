import Verif.Spec.Slice
import Verif.Lemmas.Index

namespace Spp
open Spec

/-! ### Lists of element numbers -/

theorem sorted_ext {l1 l2 : List Int} (h1 : Increasing l1) (h2 : Increasing l2)
    (h : ∀ x, x ∈ l1 ↔ x ∈ l2) : l1 = l2 := by
  induction l1 generalizing l2 with
  | nil =>
    cases l2 with
    | nil => rfl
    | cons y l => exact absurd ((h y).2 (by simp)) (by simp)
  | cons x l1 ih =>
    cases l2 with
    | nil => exact absurd ((h x).1 (by simp)) (by simp)
    | cons y l2 =>
      have a := List.pairwise_cons.1 h1
      have b := List.pairwise_cons.1 h2
      have hxy : x = y := by
        have m1 := (h x).1 (by simp)
        have m2 := (h y).2 (by simp)
        rcases List.mem_cons.1 m1 with e | e
        · exact e
        · rcases List.mem_cons.1 m2 with e' | e'
          · exact e'.symm
          · have := a.1 _ e'; have := b.1 _ e; omega
      subst hxy
      congr 1
      apply ih a.2 b.2
      intro z
      constructor
      · intro hz
        rcases List.mem_cons.1 ((h z).1 (List.mem_cons_of_mem _ hz)) with e | e
        · subst e; have := a.1 _ hz; omega
        · exact e
      · intro hz
        rcases List.mem_cons.1 ((h z).2 (List.mem_cons_of_mem _ hz)) with e | e
        · subst e; have := b.1 _ hz; omega
        · exact e

theorem mem_upto {n x : Int} : x ∈ upto n ↔ InRange n x := by
  simp only [upto, List.mem_map, List.mem_range, InRange]
  constructor
  · rintro ⟨a, h, rfl⟩; simp; omega
  · rintro ⟨h1, h2⟩; exact ⟨x.toNat, by omega, by simp; omega⟩

theorem upto_increasing (n : Int) : Increasing (upto n) := by
  unfold upto Increasing
  rw [List.pairwise_map]
  exact List.Pairwise.imp (fun h => by simpa using h) List.pairwise_lt_range

@[simp] theorem upto_length (n : Int) : (upto n).length = n.toNat := by simp [upto]

@[simp] theorem getElem_upto {n : Int} {i : Nat} (h : i < (upto n).length) :
    (upto n)[i] = i := by simp [upto]

@[simp] theorem progression_length (s st : Int) (m : Nat) : (progression s st m).length = m := by
  simp [progression]

@[simp] theorem getElem_progression {s st : Int} {m i : Nat} (h : i < (progression s st m).length) :
    (progression s st m)[i] = s + i * st := by simp [progression]

theorem mem_progression {s st x : Int} {m : Nat} :
    x ∈ progression s st m ↔ ∃ i : Nat, i < m ∧ x = s + i * st := by
  simp only [progression, List.mem_map, List.mem_range]
  exact ⟨fun ⟨i, h, e⟩ => ⟨i, h, e.symm⟩, fun ⟨i, h, e⟩ => ⟨i, h, e.symm⟩⟩

theorem progression_increasing {s st : Int} (h : 0 < st) (m : Nat) :
    Increasing (progression s st m) := by
  unfold progression Increasing
  rw [List.pairwise_map]
  refine List.Pairwise.imp ?_ List.pairwise_lt_range
  intro a b hab
  have : (a : Int) * st < (b : Int) * st := Int.mul_lt_mul_of_pos_right (by omega) h
  omega

theorem upto_eq_progression (n : Int) : upto n = progression 0 1 n.toNat := by
  apply List.ext_getElem <;> simp

/-! ### seqN -/

theorem between {n s st m i : Int} (h1 : InRange n s) (h2 : InRange n (s + st * (m - 1)))
    (hi : 0 ≤ i) (him : i < m) : InRange n (s + i * st) := by
  unfold InRange at *
  by_cases hst : 0 ≤ st
  · have a : 0 ≤ i * st := Int.mul_nonneg hi hst
    have b : i * st ≤ (m - 1) * st := Int.mul_le_mul_of_nonneg_right (by omega) hst
    rw [Int.mul_comm (m - 1) st] at b
    omega
  · have a : 0 ≤ i * (-st) := Int.mul_nonneg hi (by omega)
    have b : i * (-st) ≤ (m - 1) * (-st) := Int.mul_le_mul_of_nonneg_right (by omega) (by omega)
    rw [Int.mul_comm (m - 1) (-st), Int.neg_mul] at b
    rw [Int.mul_neg] at a b
    omega

theorem seqNValid_ok {n s m st : Int} (hm : m ≠ 0) (h1 : IsIndex (m - 1))
    (h2 : IsIndex (st * (m - 1))) (h3 : IsIndex (s + st * (m - 1))) :
    seqNValid n s m st = .ok (validIndex n s && validIndex n (s + st * (m - 1))) := by
  simp [seqNValid, hm, isub_ok h1, imul_ok h2, iadd_ok h3]

theorem seqNValid_eq_ok {n s m st : Int} {c : Bool} (h : seqNValid n s m st = .ok c) :
    c = true ↔ (m ≠ 0 → InRange n s ∧ InRange n (s + st * (m - 1))) := by
  by_cases hm : m = 0
  · subst hm; simp [seqNValid] at h; simp [← h]
  · simp only [seqNValid, ne_eq, hm, not_false_eq_true, if_true, Res.bind_eq_ok] at h
    obtain ⟨a, h1, b, h2, d, h3, h4⟩ := h
    have := isub_eq_ok h1; subst this
    have := imul_eq_ok h2; subst this
    have := iadd_eq_ok h3; subst this
    simp at h4; subst h4
    simp [validIndex_iff, hm]

theorem seqNValid_not_trap {n s m st : Int} {k : Kind} : seqNValid n s m st ≠ .trap k := by
  unfold seqNValid
  split
  · rcases isub_cases m 1 with ⟨_, e⟩ | ⟨_, e⟩ <;> rw [e] <;> simp
    rcases imul_cases st (m - 1) with ⟨_, e⟩ | ⟨_, e⟩ <;> rw [e] <;> simp
    rcases iadd_cases s (st * (m - 1)) with ⟨_, e⟩ | ⟨_, e⟩ <;> rw [e] <;> simp
  · simp

/-- An in-range seqN passes the validity check, without overflow. -/
theorem seqNValid_of_inRange {n s m st : Int} (hn : IsIndex n) (hm0 : 0 ≤ m) (hm : IsIndex m)
    (h : m ≠ 0 → InRange n s ∧ InRange n (s + st * (m - 1))) :
    seqNValid n s m st = .ok true := by
  by_cases hz : m = 0
  · simp [seqNValid, hz]
  · obtain ⟨h1, h2⟩ := h hz
    rw [seqNValid_ok hz]
    · simp [validIndex_iff.2 h1, validIndex_iff.2 h2]
    all_goals unfold InRange IsIndex at *; omega

theorem reads_seqN {n s m st : Int} (hn : IsIndex n) (hm0 : 0 ≤ m)
    (h : m ≠ 0 → InRange n s ∧ InRange n (s + st * (m - 1))) :
    Reads (.seqN s m st) (progression s st m.toNat) := by
  refine ⟨by simp [Slice.size]; omega, ?_⟩
  intro i hi
  simp only [progression_length] at hi
  obtain ⟨h1, h2⟩ := h (by omega)
  have hb := between (i := i) h1 h2 (by omega) (by omega)
  have e1 : IsIndex ((i : Int) * st) := by unfold InRange IsIndex at *; omega
  have e2 : IsIndex (s + (i : Int) * st) := by unfold InRange IsIndex at *; omega
  simp [Slice.map, imul_ok e1, iadd_ok e2]

theorem reads_vec (l : List Int) : Reads (.vec l) l :=
  ⟨rfl, fun i h => by simp [Slice.map, rd_nat h]⟩

theorem reads_unique {sl : Slice} {l1 l2 : List Int} (h1 : Reads sl l1) (h2 : Reads sl l2) :
    l1 = l2 := by
  have hl : l1.length = l2.length := by have a := h1.1; have b := h2.1; omega
  apply List.ext_getElem hl
  intro i hi1 hi2
  have a := h1.2 i hi1; have b := h2.2 i hi2
  rw [a] at b; simpa using b

/-! ### A resolved slice that passes the validity check -/

/-- `sl` is non-negative in size and selects only elements of an object of extent `n`. -/
def Slice.Ok (n : Int) (sl : Slice) : Prop := 0 ≤ sl.size ∧ sl.valid n = .ok true

theorem slice_ok_map {n : Int} {sl : Slice} (hn : IsIndex n) (h : sl.Ok n) {i : Int}
    (hi : InRange sl.size i) : ∃ j, sl.map i = .ok j ∧ InRange n j := by
  obtain ⟨h0, hv⟩ := h
  cases sl with
  | seqN s m st =>
    have hr := (seqNValid_eq_ok hv).1 rfl
    simp only [Slice.size] at hi h0
    obtain ⟨a, c⟩ := hr (by unfold InRange at hi; omega)
    have hb := between a c hi.1 hi.2
    have hR := reads_seqN hn h0 hr
    have := hR.2 i.toNat (by simp; unfold InRange at hi; omega)
    simp only [getElem_progression] at this
    rw [show ((i.toNat : Nat) : Int) = i by unfold InRange at hi; omega] at this
    exact ⟨_, this, hb⟩
  | vec idx =>
    simp only [Slice.size] at hi
    obtain ⟨hlt, he⟩ := rd_ok hi
    simp only [Slice.valid, Res.ok.injEq, List.all_eq_true] at hv
    exact ⟨_, he, validIndex_iff.1 (hv _ (List.getElem_mem hlt))⟩

/-- The list of elements a valid slice reads. -/
theorem slice_ok_reads {n : Int} {sl : Slice} (hn : IsIndex n) (h : sl.Ok n) :
    ∃ l, Reads sl l ∧ ∀ x ∈ l, InRange n x := by
  cases sl with
  | seqN s m st =>
    have hr := (seqNValid_eq_ok h.2).1 rfl
    refine ⟨_, reads_seqN hn h.1 hr, ?_⟩
    intro x hx
    obtain ⟨i, hi, rfl⟩ := mem_progression.1 hx
    have := h.1
    simp only [Slice.size] at this
    obtain ⟨a, c⟩ := hr (by omega)
    exact between a c (by omega) (by omega)
  | vec idx =>
    refine ⟨idx, reads_vec _, ?_⟩
    have := h.2
    simp only [Slice.valid, Res.ok.injEq, List.all_eq_true] at this
    intro x hx; exact validIndex_iff.1 (this x hx)

theorem valid_not_trap {n : Int} {sl : Slice} {k : Kind} : sl.valid n ≠ .trap k := by
  cases sl with
  | seqN s m st => exact seqNValid_not_trap
  | vec idx => simp [Slice.valid]

theorem mkSeqN_eq_ok {b : Build} {s m st : Int} {sl : Slice} (h : mkSeqN b s m st = .ok sl) :
    sl = .seqN s m st := by
  simp only [mkSeqN, Res.bind_eq_ok] at h
  obtain ⟨_, _, _, _, h3⟩ := h
  simpa using h3.symm

theorem assertDebug_ok_checked {b : Build} (hb : b.Checked) {c : Bool}
    (h : assertDebug b c = .ok ()) : c = true := by
  cases c
  · rw [assertDebug_false hb] at h; simp at h
  · rfl

theorem mkSeqN_checked {b : Build} (hb : b.Checked) {s m st : Int} {sl : Slice}
    (h : mkSeqN b s m st = .ok sl) : sl = .seqN s m st ∧ 0 ≤ s ∧ 0 ≤ m := by
  refine ⟨mkSeqN_eq_ok h, ?_⟩
  simp only [mkSeqN, Res.bind_eq_ok] at h
  obtain ⟨_, h1, _, h2, h3⟩ := h
  have := assertDebug_ok_checked hb h1
  have := assertDebug_ok_checked hb h2
  simp at *; omega

theorem mkSeqN_ok (b : Build) {s m : Int} (st : Int) (h1 : 0 ≤ s) (h2 : 0 ≤ m) :
    mkSeqN b s m st = .ok (.seqN s m st) := by
  have e1 : decide (s > -1) = true := by simp; omega
  have e2 : decide (m > -1) = true := by simp; omega
  simp [mkSeqN, e1, e2]

/-- In a checked build whatever comes out of resolving a request has non-negative size. -/
theorem get_size_nonneg {b : Build} (hb : b.Checked) {n : Int} {emp : Bool} {r : SliceReq}
    {sl : Slice} (hc : r.construct b = .ok ()) (h : r.get b n emp = .ok sl) : 0 ≤ sl.size := by
  cases r with
  | seqN s m st =>
    simp only [SliceReq.construct, Res.bind_eq_ok] at hc
    obtain ⟨_, _, h2⟩ := hc
    have := assertDebug_ok_checked hb h2
    simp only [SliceReq.get, Res.bind_eq_ok] at h
    obtain ⟨_, _, h⟩ := h
    simp at h this; subst h; simp [Slice.size]; omega
  | seq f l st =>
    simp only [SliceReq.get, Res.bind_eq_ok, seqToSlice] at h
    obtain ⟨_, _, _, _, h⟩ := h
    split at h
    · simp only [Res.bind_eq_ok] at h
      obtain ⟨_, _, _, _, _, _, h⟩ := h
      obtain ⟨e, _, h3⟩ := mkSeqN_checked hb h
      subst e; exact h3
    · obtain ⟨e, _, h3⟩ := mkSeqN_checked hb h
      subst e; exact h3
  | all =>
    obtain ⟨e, _, h3⟩ := mkSeqN_checked hb h
    subst e; exact h3
  | even =>
    simp only [SliceReq.get, Res.bind_eq_ok] at h
    obtain ⟨_, _, _, _, h⟩ := h
    obtain ⟨e, _, h3⟩ := mkSeqN_checked hb h
    subst e; exact h3
  | odd =>
    simp only [SliceReq.get, Res.bind_eq_ok] at h
    obtain ⟨_, _, h⟩ := h
    obtain ⟨e, _, h3⟩ := mkSeqN_checked hb h
    subst e; exact h3
  | reverse =>
    simp only [SliceReq.get, Res.bind_eq_ok] at h
    obtain ⟨_, _, h⟩ := h
    obtain ⟨e, _, h3⟩ := mkSeqN_checked hb h
    subst e; exact h3
  | skipN k =>
    simp only [SliceReq.get, Res.bind_eq_ok] at h
    obtain ⟨_, _, _, _, _, _, h⟩ := h
    obtain ⟨e, _, h3⟩ := mkSeqN_checked hb h
    subst e; exact h3
  | firstN k =>
    simp only [SliceReq.get, Res.bind_eq_ok] at h
    obtain ⟨_, _, h⟩ := h
    obtain ⟨e, _, h3⟩ := mkSeqN_checked hb h
    subst e; exact h3
  | lastN k =>
    simp only [SliceReq.get, Res.bind_eq_ok] at h
    obtain ⟨_, _, _, _, h⟩ := h
    obtain ⟨e, _, h3⟩ := mkSeqN_checked hb h
    subst e; exact h3
  | vec idx => simp only [SliceReq.get, Res.ok.injEq] at h; subst h; simp [Slice.size]
  | complement idx =>
    simp only [SliceReq.get, Res.bind_eq_ok] at h
    obtain ⟨v, _, h⟩ := h
    simp at h; subst h; simp [Slice.size]

/-- In a checked build the validity check has passed. -/
theorem assertDebugM_ok_checked {b : Build} (hb : b.Checked) {c : Res Bool}
    (h : assertDebugM b c = .ok ()) : c = .ok true := by
  rw [assertDebugM_checked hb, Res.bind_eq_ok] at h
  obtain ⟨a, h1, h2⟩ := h
  cases a
  · rw [assertAlways_false hb.2] at h2; simp at h2
  · exact h1

theorem mkSlice_checked {b : Build} (hb : b.Checked) {n : Int} {emp : Bool} {r : SliceReq}
    {sl : Slice} (h : mkSlice b n emp r = .ok sl) : sl.Ok n := by
  simp only [mkSlice, Res.bind_eq_ok] at h
  obtain ⟨⟨⟩, h1, sl', h2, _, h3, h4⟩ := h
  simp at h4; subst h4
  exact ⟨get_size_nonneg hb h1 h2, assertDebugM_ok_checked hb h3⟩

/-- Resolving with all checks passing, in any build. -/
theorem mkSlice_of {b : Build} {n : Int} {emp : Bool} {r : SliceReq} {sl : Slice}
    (h1 : r.construct b = .ok ()) (h2 : r.get b n emp = .ok sl) (h3 : sl.valid n = .ok true) :
    mkSlice b n emp r = .ok sl := by
  simp [mkSlice, h1, h2, h3]

/-! ### complement -/

theorem increasing_iff {l : List Int} : increasing l = true ↔ Increasing l := by
  induction l with
  | nil => simp [increasing, Increasing]
  | cons x l ih =>
    cases l with
    | nil => simp [increasing, Increasing]
    | cons y l =>
      simp only [increasing, Bool.and_eq_true, ih, Bool.not_eq_true', decide_eq_false_iff_not,
        Int.not_le]
      unfold Increasing
      constructor
      · rintro ⟨h1, h2⟩
        rw [List.pairwise_cons]
        refine ⟨?_, h2⟩
        intro z hz
        rcases List.mem_cons.1 hz with rfl | hz
        · exact h1
        · have := (List.pairwise_cons.1 h2).1 z hz; omega
      · intro h
        have := List.pairwise_cons.1 h
        exact ⟨this.1 y (by simp), this.2⟩

theorem increasing_le_getLast {x : Int} {l : List Int} (h : Increasing (x :: l)) :
    ∀ y ∈ x :: l, x ≤ y ∧ y ≤ (x :: l).getLast (by simp) := by
  induction l generalizing x with
  | nil => simp
  | cons z l ih =>
    have hp := List.pairwise_cons.1 h
    have hxz := hp.1 z (by simp)
    have ih' := ih hp.2
    intro y hy
    rw [List.getLast_cons (by simp)]
    rcases List.mem_cons.1 hy with rfl | hy
    · exact ⟨by omega, by have := (ih' z (by simp)).2; omega⟩
    · have := ih' y hy; omega

theorem validComplement_iff {n : Int} {idx : List Int} :
    validComplement n idx = true ↔ Increasing idx ∧ ∀ x ∈ idx, InRange n x := by
  cases idx with
  | nil => simp [validComplement, Increasing]
  | cons x l =>
    have hb : validComplement n (x :: l) =
        if !validIndex n x || !validIndex n ((x :: l).getLast (by simp)) then false
        else increasing (x :: l) := rfl
    rw [hb]
    split
    · rename_i h
      simp only [Bool.or_eq_true, Bool.not_eq_true', validIndex_false] at h
      simp only [Bool.false_eq_true, false_iff, not_and]
      intro _ hall
      rcases h with h | h
      · exact h (hall x (by simp))
      · exact h (hall _ (List.getLast_mem _))
    · rename_i h
      simp only [Bool.or_eq_true, Bool.not_eq_true', not_or, Bool.not_eq_false, validIndex_iff] at h
      rw [increasing_iff]
      constructor
      · intro hi
        refine ⟨hi, ?_⟩
        intro y hy
        have a := increasing_le_getLast hi y hy
        have b1 := h.1.1; have b2 := h.2.2
        exact ⟨by omega, by omega⟩
      · exact fun h => h.1

/-- Invariant of the complement loop: `cnt` counts the members below `i`. -/
theorem complement_loop {n : Nat} {idx : List Int} (hs : Increasing idx)
    (hr : ∀ x ∈ idx, InRange n x) :
    ∃ st, foldN n (complementStep idx) (0, []) = .ok st ∧
      st.2 = (upto n).filter (fun i => i ∉ idx) := by
  have key := foldN_inv (f := complementStep idx) (init := (0, []))
    (fun i st => st.1 ≤ idx.length ∧ (∀ x ∈ idx.take st.1, x < (i : Int)) ∧
      (∀ x ∈ idx.drop st.1, (i : Int) ≤ x) ∧ st.2 = (upto i).filter (fun j => j ∉ idx)) n
    (by
      refine ⟨by simp, by simp, ?_, by simp [upto]⟩
      intro x hx; exact (hr x (by simpa using hx)).1)
    (by
      rintro k ⟨cnt, c⟩ hk ⟨h1, h2, h3, h4⟩
      simp only at h1 h2 h3 h4
      have hup : upto ((k + 1 : Nat) : Int) = upto (k : Int) ++ [(k : Int)] := by
        simp [upto, List.range_succ]
      by_cases hc : idx[cnt]? = some (k : Int)
      · refine ⟨(cnt + 1, c), by simp [complementStep, hc], ?_, ?_, ?_, ?_⟩
        · have := (List.getElem?_eq_some_iff.1 hc).1; simp; omega
        · intro x hx
          obtain ⟨hlt, he⟩ := List.getElem?_eq_some_iff.1 hc
          simp only at hx
          rw [List.take_succ, List.mem_append] at hx
          rcases hx with hx | hx
          · have := h2 x hx; omega
          · simp [hc] at hx; omega
        · intro x hx
          obtain ⟨hlt, he⟩ := List.getElem?_eq_some_iff.1 hc
          have hd : idx.drop cnt = (k : Int) :: idx.drop (cnt + 1) := by
            rw [← he]; exact List.drop_eq_getElem_cons hlt
          have hs' : Increasing (idx.drop cnt) := List.Pairwise.sublist (List.drop_sublist _ _) hs
          rw [hd] at hs'
          have := (List.pairwise_cons.1 hs').1 x hx
          omega
        · have hm : (k : Int) ∈ idx := List.mem_of_getElem? hc
          rw [hup, List.filter_append]
          simp [hm, h4]
      · refine ⟨(cnt, c ++ [(k : Int)]), by simp [complementStep, hc], h1, ?_, ?_, ?_⟩
        · intro x hx; have := h2 x hx; omega
        · intro x hx
          replace hx : x ∈ idx.drop cnt := hx
          have hk' := h3 x hx
          have hne : x ≠ (k : Int) := by
            intro e; subst e
            obtain ⟨j, hj, he⟩ := List.mem_iff_getElem.1 hx
            rcases Nat.eq_zero_or_pos j with hj0 | hj0
            · subst hj0
              apply hc
              simp only [List.getElem_drop, Nat.add_zero] at he
              simp only [List.length_drop] at hj
              rw [List.getElem?_eq_getElem (by omega), he]
            · have hs' : Increasing (idx.drop cnt) :=
                List.Pairwise.sublist (List.drop_sublist _ _) hs
              have h00 := List.pairwise_iff_getElem.1 hs' 0 j (by omega) hj hj0
              have := h3 _ (List.getElem_mem (l := idx.drop cnt) (n := 0) (by omega))
              omega
          omega
        · have hm : (k : Int) ∉ idx := by
            intro hm
            rw [← List.take_append_drop cnt idx, List.mem_append] at hm
            rcases hm with hm | hm
            · have := h2 _ hm; omega
            · obtain ⟨j, hj, he⟩ := List.mem_iff_getElem.1 hm
              rcases Nat.eq_zero_or_pos j with hj0 | hj0
              · subst hj0
                apply hc
                simp only [List.getElem_drop, Nat.add_zero] at he
                simp only [List.length_drop] at hj
                rw [List.getElem?_eq_getElem (by omega), he]
              · have hs' : Increasing (idx.drop cnt) :=
                  List.Pairwise.sublist (List.drop_sublist _ _) hs
                have h00 := List.pairwise_iff_getElem.1 hs' 0 j (by omega) hj hj0
                have := h3 _ (List.getElem_mem (l := idx.drop cnt) (n := 0) (by omega))
                omega
          rw [hup, List.filter_append]
          simp [hm, h4])
  obtain ⟨st, h1, _, _, _, h5⟩ := key
  exact ⟨st, h1, h5⟩

/-- A strictly increasing list inside `[0, n)` has at most `n` members. -/
theorem increasing_length_le {n : Int} {idx : List Int} (hs : Increasing idx)
    (hr : ∀ x ∈ idx, InRange n x) : (idx.length : Int) ≤ max n 0 := by
  have key : ∀ (l : List Int) (lo : Int), Increasing l → (∀ x ∈ l, lo ≤ x ∧ x < n) →
      (l.length : Int) ≤ max (n - lo) 0 := by
    intro l
    induction l with
    | nil => intro lo _ _; simp; omega
    | cons x l ih =>
      intro lo hs h
      have hx := h x (by simp)
      have := ih (x + 1) (List.pairwise_cons.1 hs).2 (fun y hy => by
        have a := (List.pairwise_cons.1 hs).1 y hy
        have b := h y (List.mem_cons_of_mem _ hy)
        omega)
      simp only [List.length_cons]; omega
  have := key idx 0 hs (fun x hx => hr x hx)
  simpa using this

theorem complementVec_ok (b : Build) {n : Int} (hn : 0 ≤ n) {idx : List Int} (hs : Increasing idx)
    (hr : ∀ x ∈ idx, InRange n x) :
    complementVec b n idx = .ok ((upto n).filter (fun i => i ∉ idx)) := by
  have hv := validComplement_iff.2 ⟨hs, hr⟩
  have hl := increasing_length_le hs hr
  have hlt : ¬ n < (idx.length : Int) := by omega
  have hnn : ((n.toNat : Nat) : Int) = n := by omega
  obtain ⟨st, h1, h2⟩ := complement_loop (n := n.toNat) hs (by rw [hnn]; exact hr)
  rw [hnn] at h2
  simp [complementVec, hv, hlt, h1, h2]

end Spp
