import Verif.Lemmas.Slice

/- Properties C14 - C17, C19, C42. -/

namespace Spp.Props
open Spec

/-! ### C14: seqN -/

/-- C14 (accepted only if in range): if a checked build accepts `A(seqN(start, size, stride))` then
every element number `start + i*stride`, `0 <= i < size`, lies inside `A`, and the slice reads
exactly these elements in order. -/
theorem C14_seqN_accepted {b : Build} (hb : b.Checked) {n s m st : Int} {emp : Bool} {sl : Slice}
    (hn : IsIndex n) (h : mkSlice b n emp (.seqN s m st) = .ok sl) :
    0 ≤ s ∧ 0 ≤ m ∧ Reads sl (progression s st m.toNat) ∧
    ∀ i : Int, 0 ≤ i → i < m → InRange n (s + i * st) := by
  have hok := mkSlice_checked hb h
  simp only [mkSlice, Res.bind_eq_ok] at h
  obtain ⟨⟨⟩, h1, sl', h2, _, h3, h4⟩ := h
  simp only [Res.pure_eq, Res.ok.injEq] at h4; subst h4
  simp only [SliceReq.construct, Res.bind_eq_ok] at h1
  obtain ⟨⟨⟩, hs, hm⟩ := h1
  have hs' := assertDebug_ok_checked hb hs
  have hm' := assertDebug_ok_checked hb hm
  simp only [SliceReq.get, Res.bind_eq_ok, Res.pure_eq, Res.ok.injEq] at h2
  obtain ⟨_, _, rfl⟩ := h2
  simp only [gt_iff_lt, decide_eq_true_eq] at hs' hm'
  have hr := (seqNValid_eq_ok hok.2).1 rfl
  refine ⟨by omega, by omega, reads_seqN hn (by omega) hr, ?_⟩
  intro i h1 h2
  obtain ⟨a, c⟩ := hr (by omega)
  exact between a c h1 h2

/-- C14 (in-range requests are accepted, in every build, without overflow). -/
theorem C14_seqN_in_range (b : Build) {n s m st : Int} (emp : Bool)
    (hn : IsIndex n) (hs : 0 ≤ s) (hm : 0 ≤ m) (hm' : IsIndex m)
    (h : ∀ i : Int, 0 ≤ i → i < m → InRange n (s + i * st)) :
    ∃ sl, mkSlice b n emp (.seqN s m st) = .ok sl ∧ Reads sl (progression s st m.toNat) := by
  have hr : m ≠ 0 → InRange n s ∧ InRange n (s + st * (m - 1)) := by
    intro h0
    refine ⟨by simpa using h 0 (by omega) (by omega), ?_⟩
    have := h (m - 1) (by omega) (by omega)
    rwa [Int.mul_comm] at this
  have hv := seqNValid_of_inRange hn hm hm' hr
  refine ⟨.seqN s m st, mkSlice_of ?_ ?_ hv, reads_seqN hn hm hr⟩
  · have e1 : decide (s > -1) = true := by simp; omega
    have e2 : decide (m > -1) = true := by simp; omega
    simp only [SliceReq.construct, e1, e2, assertDebug_true, Res.ok_bind]
  · simp [SliceReq.get, hv]

/-- C14 (all other requests trap in a checked build), provided the position of the last element is
computable in `index_t`. -/
theorem C14_seqN_rejected {b : Build} (hb : b.Checked) {n s m st : Int} (emp : Bool)
    (hm : IsIndex m) (hp : IsIndex (st * (m - 1))) (he : IsIndex (s + st * (m - 1)))
    (h : s < 0 ∨ m < 0 ∨ ∃ i : Int, 0 ≤ i ∧ i < m ∧ ¬ InRange n (s + i * st)) :
    mkSlice b n emp (.seqN s m st) = .trap b.kind := by
  by_cases hs : s < 0
  · have e1 : decide (s > -1) = false := by simp; omega
    simp [mkSlice, SliceReq.construct, e1, assertDebug_false hb]
  by_cases hm0 : m < 0
  · have e1 : decide (s > -1) = true := by simp; omega
    have e2 : decide (m > -1) = false := by simp; omega
    simp only [mkSlice, SliceReq.construct, e1, e2, assertDebug_false hb, assertDebug_true,
      Res.ok_bind, Res.trap_bind]
  have e1 : decide (s > -1) = true := by simp; omega
  have e2 : decide (m > -1) = true := by simp; omega
  obtain ⟨i, hi1, hi2, hi3⟩ : ∃ i : Int, 0 ≤ i ∧ i < m ∧ ¬ InRange n (s + i * st) := by
    rcases h with h | h | h
    · omega
    · omega
    · exact h
  have hv : seqNValid n s m st = .ok false := by
    rw [seqNValid_ok (by omega) (by unfold IsIndex at *; omega) hp he]
    congr 1
    rw [Bool.and_eq_false_iff, validIndex_false, validIndex_false]
    by_cases hh : InRange n s
    · right; intro h2; exact hi3 (between hh h2 hi1 hi2)
    · left; exact hh
  simp only [mkSlice, SliceReq.construct, SliceReq.get, e1, e2, assertDebug_true, Res.ok_bind, hv,
    assertDebugM_ok, assertDebug_false hb, Res.trap_bind]

/-- C14 (what a checked build does with any request): a negative start or size traps.  Otherwise, if the size is not zero
and the position of the last element is not computable in `index_t`, the check itself is undefined behaviour.  Otherwise
the request is accepted exactly if all its elements lie inside the object, and traps if not. -/
theorem C14_seqN_outcome {b : Build} (hb : b.Checked) {n s m st : Int} (emp : Bool) (hn : IsIndex n) (hm : IsIndex m) :
    (s < 0 ∨ m < 0 → mkSlice b n emp (.seqN s m st) = .trap b.kind) ∧
    (0 ≤ s → 0 < m → ¬ (IsIndex (st * (m - 1)) ∧ IsIndex (s + st * (m - 1))) →
      mkSlice b n emp (.seqN s m st) = .ub) ∧
    (0 ≤ s → 0 ≤ m → (m ≠ 0 → IsIndex (st * (m - 1)) ∧ IsIndex (s + st * (m - 1))) →
      ((∀ i : Int, 0 ≤ i → i < m → InRange n (s + i * st)) →
        ∃ sl, mkSlice b n emp (.seqN s m st) = .ok sl ∧ Reads sl (progression s st m.toNat)) ∧
      (¬ (∀ i : Int, 0 ≤ i → i < m → InRange n (s + i * st)) →
        mkSlice b n emp (.seqN s m st) = .trap b.kind)) := by
  refine ⟨fun h => ?_, fun hs hm0 h => ?_, fun hs hm0 h => ⟨fun hr => C14_seqN_in_range b emp hn hs hm0 hm hr, fun hr => ?_⟩⟩
  · by_cases hs : s < 0
    · have e1 : decide (s > -1) = false := by simp; omega
      simp [mkSlice, SliceReq.construct, e1, assertDebug_false hb]
    · have e1 : decide (s > -1) = true := by simp; omega
      have e2 : decide (m > -1) = false := by simp; omega
      simp only [mkSlice, SliceReq.construct, e1, e2, assertDebug_false hb, assertDebug_true, Res.ok_bind, Res.trap_bind]
  · have e1 : decide (s > -1) = true := by simp; omega
    have e2 : decide (m > -1) = true := by simp; omega
    have hv : seqNValid n s m st = .ub := by
      have h1 : IsIndex (m - 1) := by unfold IsIndex at *; omega
      simp only [seqNValid, ne_eq, show m ≠ 0 by omega, not_false_eq_true, if_true, isub_ok h1, Res.ok_bind]
      rcases imul_cases st (m - 1) with ⟨h2, h3⟩ | ⟨h2, h3⟩
      · rw [h3, Res.ok_bind]
        rcases iadd_cases s (st * (m - 1)) with ⟨h4, h5⟩ | ⟨h4, h5⟩
        · exact absurd ⟨h2, h4⟩ h
        · rw [h5, Res.ub_bind]
      · rw [h3, Res.ub_bind]
    simp only [mkSlice, SliceReq.construct, SliceReq.get, e1, e2, assertDebug_true, Res.ok_bind, hv,
      assertDebugM_checked hb, Res.ub_bind]
  · have hz : m ≠ 0 := fun hz => hr fun i h1 h2 => by omega
    refine C14_seqN_rejected hb emp hm (h hz).1 (h hz).2 (.inr (.inr ?_))
    exact Classical.byContradiction fun hc =>
      hr fun i h1 h2 => Classical.byContradiction fun h3 => hc ⟨i, h1, h2, h3⟩

/-- The three kinds of outcome. -/
example : mkSlice ⟨false, true, false⟩ 5 false (.seqN 1 2 3) = .ok (.seqN 1 2 3) ∧
    mkSlice ⟨false, true, false⟩ 5 false (.seqN 1 2 4) = .trap .exception ∧
    mkSlice ⟨false, true, false⟩ 5 false (.seqN 1 2 (2 ^ 63 - 1)) = .ub := by decide

/-- C14 (no accepted slice of any kind leaves its base): in a checked build, for every kind of
request, every element of an accepted slice is an element of the sliced object. -/
theorem C14_accepted_slices_in_range {b : Build} (hb : b.Checked) {n : Int} {emp : Bool}
    {r : SliceReq} {sl : Slice} (hn : IsIndex n) (h : mkSlice b n emp r = .ok sl) :
    0 ≤ sl.size ∧ ∀ i, InRange sl.size i → ∃ j, sl.map i = .ok j ∧ InRange n j :=
  have hok := mkSlice_checked hb h
  ⟨hok.1, fun _ hi => slice_ok_map hn hok hi⟩

/-- C14 (defect): the check itself multiplies without an overflow guard, so a checked build executes
undefined behaviour for `A(seqN(1, 2, LONG_MAX))` instead of trapping - and although the same request
is harmless at this point with checks off. -/
theorem C14_check_overflows (e : Bool) (n : Int) :
    mkSlice ⟨false, true, e⟩ n false (.seqN 1 2 (2 ^ 63 - 1)) = .ub ∧
    mkSlice ⟨true, true, e⟩ n false (.seqN 1 2 (2 ^ 63 - 1)) = .ok (.seqN 1 2 (2 ^ 63 - 1)) := by
  constructor <;> rfl

example : IsIndex 10 ∧ mkSlice ⟨false, true, false⟩ 10 false (.seqN 8 4 (-2)) = .ok (.seqN 8 4 (-2))
    ∧ mkSlice ⟨false, true, false⟩ 10 false (.seqN 8 6 (-2)) = .trap .exception
    ∧ progression 8 (-2) 4 = [8, 6, 4, 2] := by
  refine ⟨?_, by decide, by decide, by decide⟩; simp [IsIndex]

/-! ### C15: seq -/

theorem inclusive_tdiv {f l st : Int} (h : Consistent f l st) (h0 : st ≠ 0) :
    0 ≤ (l - f).tdiv st ∧ InclusiveRange f l st ((l - f).tdiv st + 1).toNat ∧
    (0 < st → f ≤ f + st * (l - f).tdiv st ∧ f + st * (l - f).tdiv st ≤ l) ∧
    (st < 0 → l ≤ f + st * (l - f).tdiv st ∧ f + st * (l - f).tdiv st ≤ f) := by
  rcases h with ⟨h1, h2⟩ | ⟨h1, h2⟩ | ⟨h1, h2⟩
  · have e : (l - f).tdiv st = (l - f) / st := tdiv_eq_ediv (by omega)
    rw [e]
    have q0 : 0 ≤ (l - f) / st := Int.ediv_nonneg (by omega) (by omega)
    have q1 : (l - f) / st * st ≤ l - f := Int.ediv_mul_le _ h0
    have q2 : l - f < ((l - f) / st + 1) * st := Int.lt_ediv_add_one_mul_self _ h1
    generalize hq : (l - f) / st = q at *
    have q3 : 0 ≤ q * st := Int.mul_nonneg q0 (by omega)
    refine ⟨q0, ⟨by omega, ?_, ?_, by omega⟩, ?_, by omega⟩
    · intro i hi
      refine ⟨fun _ => ?_, by omega⟩
      have : (i : Int) * st ≤ q * st := Int.mul_le_mul_of_nonneg_right (by omega) (by omega)
      omega
    · rintro _ ⟨h3, _⟩
      have := h3 h1
      rw [show (((q + 1).toNat : Nat) : Int) = q + 1 by omega] at this
      omega
    · intro _; rw [Int.mul_comm st q]; constructor <;> omega
  · have e : (l - f).tdiv st = (f - l) / (-st) := by
      rw [← tdiv_eq_ediv (by omega), show f - l = -(l - f) by omega, Int.tdiv_neg, Int.neg_tdiv,
        Int.neg_neg]
    rw [e]
    have q0 : 0 ≤ (f - l) / (-st) := Int.ediv_nonneg (by omega) (by omega)
    have q1 : (f - l) / (-st) * (-st) ≤ f - l := Int.ediv_mul_le _ (by omega)
    have q2 : f - l < ((f - l) / (-st) + 1) * (-st) := Int.lt_ediv_add_one_mul_self _ (by omega)
    generalize hq : (f - l) / (-st) = q at *
    have q3 : 0 ≤ q * (-st) := Int.mul_nonneg q0 (by omega)
    rw [Int.mul_neg] at q1 q2 q3
    refine ⟨q0, ⟨by omega, ?_, ?_, by omega⟩, by omega, ?_⟩
    · intro i hi
      refine ⟨by omega, fun _ => ?_⟩
      have : (i : Int) * (-st) ≤ q * (-st) := Int.mul_le_mul_of_nonneg_right (by omega) (by omega)
      rw [Int.mul_neg, Int.mul_neg] at this
      omega
    · rintro _ ⟨_, h3⟩
      have := h3 h1
      rw [show (((q + 1).toNat : Nat) : Int) = q + 1 by omega] at this
      omega
    · intro _; rw [Int.mul_comm st q]; constructor <;> omega
  · omega

theorem construct_seq_ok (b : Build) {f l st : Int} (hf : 0 ≤ f) (hl : 0 ≤ l)
    (h : Consistent f l st) : (SliceReq.seq f l st).construct b = .ok () := by
  have e1 : decide (f > -1) = true := by simp; omega
  have e2 : decide (l > -1) = true := by simp; omega
  have e3 : ((decide (st > 0) && decide (f ≤ l)) || (decide (st < 0) && decide (f ≥ l))
      || (st == 0 && f == l)) = true := by
    unfold Consistent at h
    simp only [Bool.or_eq_true, Bool.and_eq_true, decide_eq_true_eq, beq_iff_eq]
    omega
  simp only [SliceReq.construct, e1, e2, e3, assertDebug_true, Res.ok_bind]

/-- C15: `A(seq(first, last, stride))` with in-range end points and a direction that leads from
first to last selects the inclusive range, in every build. -/
theorem C15_seq_selects (b : Build) {n f l st : Int} (hn : IsIndex n) (hst : IsIndex st)
    (hf : InRange n f) (hl : InRange n l) (h : Consistent f l st) :
    ∃ sl m, mkSlice b n false (.seq f l st) = .ok sl ∧ InclusiveRange f l st m ∧
      Reads sl (progression f st m) := by
  have hc := construct_seq_ok b hf.1 hl.1 h
  have hvf := validIndex_iff.2 hf
  have hvl := validIndex_iff.2 hl
  by_cases h0 : st = 0
  · subst h0
    have hv : seqNValid n f 1 0 = .ok true :=
      seqNValid_of_inRange hn (by omega) (by simp [IsIndex]) (fun _ => ⟨hf, by simpa using hf⟩)
    refine ⟨.seqN f 1 0, 1, mkSlice_of hc ?_ hv, ⟨by omega, ?_, by omega, by omega⟩, ?_⟩
    · simp [SliceReq.get, hvf, hvl, seqToSlice, mkSeqN_ok b 0 hf.1 (show (0 : Int) ≤ 1 by omega)]
    · intro i hi; refine ⟨by omega, by omega⟩
    · exact reads_seqN hn (by omega) (fun _ => ⟨hf, by simpa using hf⟩)
  · obtain ⟨q0, hI, b1, b2⟩ := inclusive_tdiv h h0
    generalize hq : (l - f).tdiv st = q at *
    have hd : IsIndex (l - f) := by unfold IsIndex InRange at *; omega
    have hdm : l - f ≠ -(2 ^ 63) := by unfold IsIndex InRange at *; omega
    have hqle : q ≤ max (l - f) (f - l) := by
      have := natAbs_tdiv_le (l - f) st; rw [hq] at this; omega
    have hq1 : IsIndex (q + 1) := by unfold IsIndex InRange at *; omega
    have hend : InRange n (f + st * (q + 1 - 1)) := by
      rw [show q + 1 - 1 = q by omega]
      unfold InRange at *
      by_cases hp : 0 < st
      · have := b1 hp; omega
      · have := b2 (by omega); omega
    have hr : q + 1 ≠ 0 → InRange n f ∧ InRange n (f + st * (q + 1 - 1)) := fun _ => ⟨hf, hend⟩
    have hv : seqNValid n f (q + 1) st = .ok true := seqNValid_of_inRange hn (by omega) hq1 hr
    refine ⟨.seqN f (q + 1) st, (q + 1).toNat, mkSlice_of hc ?_ hv, hI,
      reads_seqN hn (by omega) hr⟩
    simp only [SliceReq.get, hvf, hvl, seqToSlice, ne_eq, h0, not_false_eq_true, if_true,
      Bool.not_false, assertDebug_true, Res.ok_bind, Bool.and_self, isub_ok hd,
      idiv_tdiv b hd hst h0 hdm, hq, iadd_ok hq1, mkSeqN_ok b st hf.1 (show 0 ≤ q + 1 by omega)]

/-- C15 (everything else traps in a checked build): an empty object, an end point outside the
object, or a stride leading away from `last`. -/
theorem C15_seq_rejected {b : Build} (hb : b.Checked) {n f l st : Int} {emp : Bool}
    (h : emp = true ∨ ¬ InRange n f ∨ ¬ InRange n l ∨ ¬ Consistent f l st) :
    mkSlice b n emp (.seq f l st) = .trap b.kind := by
  by_cases hf : f < 0
  · have e1 : decide (f > -1) = false := by simp; omega
    simp [mkSlice, SliceReq.construct, e1, assertDebug_false hb]
  have e1 : decide (f > -1) = true := by simp; omega
  by_cases hl : l < 0
  · have e2 : decide (l > -1) = false := by simp; omega
    simp only [mkSlice, SliceReq.construct, e1, e2, assertDebug_false hb, assertDebug_true,
      Res.ok_bind, Res.trap_bind]
  have e2 : decide (l > -1) = true := by simp; omega
  by_cases hc : Consistent f l st
  · have hcon := construct_seq_ok b (show 0 ≤ f by omega) (show 0 ≤ l by omega) hc
    have key : (SliceReq.seq f l st).get b n emp = .trap b.kind := by
      cases emp with
      | true => simp [SliceReq.get, assertDebug_false hb]
      | false =>
        have hv : (validIndex n f && validIndex n l) = false := by
          rw [Bool.and_eq_false_iff, validIndex_false, validIndex_false]
          rcases h with h | h | h | h
          · simp at h
          · exact .inl h
          · exact .inr h
          · exact absurd hc h
        simp [SliceReq.get, hv, assertDebug_false hb]
    simp [mkSlice, hcon, key]
  · have e3 : ((decide (st > 0) && decide (f ≤ l)) || (decide (st < 0) && decide (f ≥ l))
        || (st == 0 && f == l)) = false := by
      rw [← Bool.not_eq_true]
      simp only [Bool.or_eq_true, Bool.and_eq_true, decide_eq_true_eq, beq_iff_eq]
      unfold Consistent at hc
      omega
    simp only [mkSlice, SliceReq.construct, e1, e2, e3, assertDebug_false hb, assertDebug_true,
      Res.ok_bind, Res.trap_bind]

/-- The number of points of an inclusive range is determined by the specification. -/
theorem C15_range_unique {f l st : Int} {m m' : Nat} (h : InclusiveRange f l st m)
    (h' : InclusiveRange f l st m') : m = m' := by
  by_cases h0 : st = 0
  · rw [h.once h0, h'.once h0]
  · have key : ∀ {a c : Nat}, InclusiveRange f l st a → InclusiveRange f l st c → ¬ a < c := by
      intro a c ha hc hac
      exact ha.maximal h0 (hc.inside a hac)
    have a := key h h'; have b := key h' h; omega

example : ∃ sl m, mkSlice ⟨false, true, false⟩ 10 false (.seq 1 8 3) = .ok sl ∧
    InclusiveRange 1 8 3 m ∧ Reads sl (progression 1 3 m) :=
  C15_seq_selects _ (by simp [IsIndex]) (by simp [IsIndex]) (by simp [InRange]) (by simp [InRange])
    (by simp [Consistent])
example : mkSlice ⟨false, true, false⟩ 10 false (.seq 1 8 3) = .ok (.seqN 1 3 3) ∧
    mkSlice ⟨false, true, false⟩ 10 false (.seq 8 1 (-3)) = .ok (.seqN 8 3 (-3)) ∧
    mkSlice ⟨false, true, false⟩ 10 false (.seq 8 1 3) = .trap .exception := by decide

/-! ### C16: named slices -/

/-- Every k-th element: as a progression. -/
theorem filter_mod_upto {n k : Int} (hn : 0 ≤ n) (hk : 0 < k) :
    (upto n).filter (fun i => i % k = 0) = progression 0 k ((n + k - 1) / k).toNat := by
  apply sorted_ext
  · exact List.Pairwise.sublist List.filter_sublist (upto_increasing n)
  · exact progression_increasing hk _
  · intro x
    simp only [List.mem_filter, mem_upto, mem_progression, decide_eq_true_eq, InRange]
    have hq0 : 0 ≤ (n + k - 1) / k := Int.ediv_nonneg (by omega) (by omega)
    have hq1 : (n + k - 1) / k * k ≤ n + k - 1 := Int.ediv_mul_le _ (by omega)
    have hq2 : n + k - 1 < ((n + k - 1) / k + 1) * k := Int.lt_ediv_add_one_mul_self _ hk
    generalize (n + k - 1) / k = q at *
    constructor
    · rintro ⟨⟨h1, h2⟩, h3⟩
      refine ⟨(x / k).toNat, ?_, ?_⟩
      · have hx0 : 0 ≤ x / k := Int.ediv_nonneg h1 (by omega)
        have hx : x / k * k = x := by
          have := Int.emod_add_mul_ediv x k; rw [Int.mul_comm] at this; omega
        have : x / k < q := by
          by_cases hh : x / k < q
          · exact hh
          · have h5 : q * k ≤ x / k * k := Int.mul_le_mul_of_nonneg_right (by omega) (by omega)
            rw [Int.add_mul] at hq2; omega
        omega
      · have hx0 : 0 ≤ x / k := Int.ediv_nonneg h1 (by omega)
        have := Int.emod_add_mul_ediv x k
        rw [show (((x / k).toNat : Nat) : Int) = x / k by omega, Int.mul_comm (x / k) k]; omega
    · rintro ⟨i, hi, rfl⟩
      have h5 : 0 ≤ (i : Int) * k := Int.mul_nonneg (by omega) (by omega)
      have h6 : ((i : Int) + 1) * k ≤ q * k := Int.mul_le_mul_of_nonneg_right (by omega) (by omega)
      rw [Int.add_mul] at h6
      refine ⟨⟨by omega, by omega⟩, ?_⟩
      rw [Int.zero_add]; exact Int.mul_emod_left _ _

theorem filter_odd_upto {n : Int} (hn : 0 ≤ n) :
    (upto n).filter (fun i => i % 2 = 1) = progression 1 2 (n / 2).toNat := by
  apply sorted_ext
  · exact List.Pairwise.sublist List.filter_sublist (upto_increasing n)
  · exact progression_increasing (by omega) _
  · intro x
    simp only [List.mem_filter, mem_upto, mem_progression, decide_eq_true_eq, InRange]
    constructor
    · rintro ⟨⟨h1, h2⟩, h3⟩
      exact ⟨(x / 2).toNat, by omega, by omega⟩
    · rintro ⟨i, hi, rfl⟩; omega

theorem reverse_upto {n : Int} (hn : 0 ≤ n) :
    (upto n).reverse = progression (n - 1) (-1) n.toNat := by
  apply List.ext_getElem
  · simp
  · intro i h1 h2
    simp only [progression_length] at h2
    rw [List.getElem_reverse]
    simp only [getElem_upto, getElem_progression, upto_length]
    omega

theorem take_upto {n k : Int} (hk : 0 ≤ k) (hkn : k ≤ n) :
    (upto n).take k.toNat = progression 0 1 k.toNat := by
  apply List.ext_getElem
  · simp; omega
  · intro i h1 h2; simp

theorem drop_upto {n k : Int} (hk : 0 ≤ k) (hkn : k ≤ n) :
    (upto n).drop (n - k).toNat = progression (n - k) 1 k.toNat := by
  apply List.ext_getElem
  · simp; omega
  · intro i h1 h2; simp; omega

/-- Common final step: a slice object with the right progression. -/
theorem finish_seqN {b : Build} {n s m st : Int} {emp : Bool} {r : SliceReq} (hn : IsIndex n)
    (hm : 0 ≤ m) (hmI : IsIndex m)
    (hc : r.construct b = .ok ()) (hg : r.get b n emp = .ok (.seqN s m st))
    (h : m ≠ 0 → InRange n s ∧ InRange n (s + st * (m - 1))) :
    ∃ sl, mkSlice b n emp r = .ok sl ∧ Reads sl (progression s st m.toNat) :=
  ⟨_, mkSlice_of hc hg (seqNValid_of_inRange hn hm hmI h), reads_seqN hn hm h⟩

/-- C16: in every build and for every extent (including 0), `all`, `even`, `odd` and `reverse` are
accepted and select the documented elements in the documented order. -/
theorem C16_all_even_odd_reverse (b : Build) {n : Int} (hn0 : 0 ≤ n) (hn : n < 2 ^ 63 - 1)
    {r : SliceReq} (hr : r = .all ∨ r = .even ∨ r = .odd ∨ r = .reverse) :
    ∃ sl, mkSlice b n (n == 0) r = .ok sl ∧ Reads sl (selected n r) := by
  have hI : IsIndex n := by unfold IsIndex; omega
  rcases hr with rfl | rfl | rfl | rfl
  · simp only [selected, upto_eq_progression]
    refine finish_seqN hI hn0 hI rfl (mkSeqN_ok b 1 (by omega) hn0) ?_
    intro _; unfold InRange; omega
  · have hI1 : IsIndex (n + 1) := by unfold IsIndex; omega
    have hf := filter_mod_upto hn0 (show (0 : Int) < 2 by omega)
    rw [show n + 2 - 1 = n + 1 by omega] at hf
    simp only [selected, hf]
    refine finish_seqN hI (by omega) (by unfold IsIndex; omega) rfl ?_ ?_
    · simp only [SliceReq.get, iadd_ok hI1, Res.ok_bind,
        idiv_ok b (show 0 ≤ n + 1 by omega) hI1 (show (0 : Int) < 2 by omega)]
      exact mkSeqN_ok b 2 (by omega) (by omega)
    · intro _; unfold InRange; omega
  · have hf := filter_odd_upto hn0
    simp only [selected, hf]
    refine finish_seqN hI (by omega) (by unfold IsIndex; omega) rfl ?_ ?_
    · simp only [SliceReq.get, Res.ok_bind, idiv_ok b hn0 hI (show (0 : Int) < 2 by omega)]
      exact mkSeqN_ok b 2 (by omega) (by omega)
    · intro _; unfold InRange; omega
  · simp only [selected, reverse_upto hn0]
    by_cases h0 : n = 0
    · subst h0
      refine ⟨.seqN 0 0 (-1), mkSlice_of rfl ?_ rfl, ⟨rfl, ?_⟩⟩
      · simp [SliceReq.get, mkSeqN_ok b (-1) (show (0 : Int) ≤ 0 by omega)
          (show (0 : Int) ≤ 0 by omega)]
      · intro i hi; simp at hi
    · have hI1 : IsIndex (n - 1) := by unfold IsIndex; omega
      have hne : (n == 0) = false := by simpa using h0
      refine finish_seqN hI hn0 hI rfl ?_ ?_
      · simp only [SliceReq.get, hne, Bool.false_eq_true, if_false, isub_ok hI1, Res.ok_bind]
        exact mkSeqN_ok b (-1) (by omega) (by omega)
      · intro _; unfold InRange; omega

/-- C16 (skipN): every `k`-th element starting with element 0. -/
theorem C16_skipN (b : Build) {n k : Int} (hn0 : 0 ≤ n) (hk : 0 < k) (hs : n + k < 2 ^ 63) :
    ∃ sl, mkSlice b n (n == 0) (.skipN k) = .ok sl ∧ Reads sl (selected n (.skipN k)) := by
  have hI : IsIndex n := by unfold IsIndex; omega
  have hI1 : IsIndex (n + k) := by unfold IsIndex; omega
  have hI2 : IsIndex (n + k - 1) := by unfold IsIndex; omega
  simp only [selected, filter_mod_upto hn0 hk]
  have hq0 : 0 ≤ (n + k - 1) / k := Int.ediv_nonneg (by omega) (by omega)
  have hq1 : (n + k - 1) / k * k ≤ n + k - 1 := Int.ediv_mul_le _ (by omega)
  have hq3 : (n + k - 1) / k ≤ n + k - 1 := Int.ediv_le_self _ (by omega)
  refine finish_seqN hI hq0 (by unfold IsIndex at *; omega) ?_ ?_ ?_
  · have e : decide (k > 0) = true := by simpa using hk
    simp only [SliceReq.construct, e, assertDebug_true]
  · simp only [SliceReq.get, iadd_ok hI1, isub_ok hI2, Res.ok_bind,
      idiv_ok b (show 0 ≤ n + k - 1 by omega) hI2 hk]
    exact mkSeqN_ok b k (by omega) hq0
  · intro hne
    generalize (n + k - 1) / k = q at *
    have h1 : 0 ≤ k * (q - 1) := Int.mul_nonneg (by omega) (by omega)
    rw [Int.mul_comm q k] at hq1
    rw [Int.mul_sub, Int.mul_one] at *
    have h2 : k * 1 ≤ k * q := Int.mul_le_mul_of_nonneg_left (by omega) (by omega)
    unfold InRange; constructor <;> constructor <;> omega

/-- C16 (firstN, lastN): the first and the last `k` elements. -/
theorem C16_firstN_lastN (b : Build) {n k : Int} (hn : IsIndex n) (hk : 0 ≤ k) (hkn : k ≤ n) :
    (∃ sl, mkSlice b n (n == 0) (.firstN k) = .ok sl ∧ Reads sl (selected n (.firstN k))) ∧
    (∃ sl, mkSlice b n (n == 0) (.lastN k) = .ok sl ∧ Reads sl (selected n (.lastN k))) := by
  have e1 : decide (k > -1) = true := by simp; omega
  have e2 : decide (k ≤ n) = true := by simpa using hkn
  have hkI : IsIndex k := by unfold IsIndex at *; omega
  have hI : IsIndex (n - k) := by unfold IsIndex at *; omega
  constructor
  · simp only [selected, take_upto hk hkn]
    refine finish_seqN hn hk hkI ?_ ?_ ?_
    · simp only [SliceReq.construct, e1, assertDebug_true]
    · simp only [SliceReq.get, e2, assertDebug_true, Res.ok_bind]
      exact mkSeqN_ok b 1 (by omega) hk
    · intro _; unfold InRange; omega
  · simp only [selected, drop_upto hk hkn]
    refine finish_seqN hn hk hkI ?_ ?_ ?_
    · simp only [SliceReq.construct, e1, assertDebug_true]
    · simp only [SliceReq.get, e2, assertDebug_true, Res.ok_bind, isub_ok hI]
      exact mkSeqN_ok b 1 (by omega) hk
    · intro _; unfold InRange; omega

/-- C16 (rejections): a non-positive skip, a negative count or a count above the size trap. -/
theorem C16_rejected {b : Build} (hb : b.Checked) {n k : Int} {emp : Bool} :
    (k ≤ 0 → mkSlice b n emp (.skipN k) = .trap b.kind) ∧
    (k < 0 ∨ n < k → mkSlice b n emp (.firstN k) = .trap b.kind ∧
      mkSlice b n emp (.lastN k) = .trap b.kind) := by
  constructor
  · intro h
    have e : decide (k > 0) = false := by simpa using h
    simp only [mkSlice, SliceReq.construct, e, assertDebug_false hb, Res.trap_bind]
  · intro h
    by_cases h1 : k < 0
    · have e : decide (k > -1) = false := by simp; omega
      simp only [mkSlice, SliceReq.construct, e, assertDebug_false hb, Res.trap_bind, and_self]
    · have e : decide (k > -1) = true := by simp; omega
      have e2 : decide (k ≤ n) = false := by simp; omega
      simp only [mkSlice, SliceReq.construct, SliceReq.get, e, e2, assertDebug_true, Res.ok_bind,
        assertDebug_false hb, Res.trap_bind, and_self]

example : selected 5 .even = [0, 2, 4] ∧ selected 5 .odd = [1, 3] ∧
    selected 3 .reverse = [2, 1, 0] ∧ selected 7 (.skipN 3) = [0, 3, 6] ∧
    selected 5 (.lastN 2) = [3, 4] ∧ selected 0 .reverse = [] := by decide

/-! ### Index vectors -/

/-- C14 (index vectors): `A({i, j, ...})` is accepted exactly when every listed index is in range
(checked build), and then selects the listed elements in the listed order, repetitions included. -/
theorem C14_index_vector {b : Build} (hb : b.Checked) {n : Int} {emp : Bool} (idx : List Int) :
    ((∀ x ∈ idx, InRange n x) → ∃ sl, mkSlice b n emp (.vec idx) = .ok sl ∧ Reads sl idx) ∧
    ((∃ x ∈ idx, ¬ InRange n x) → mkSlice b n emp (.vec idx) = .trap b.kind) := by
  constructor
  · intro h
    refine ⟨.vec idx, mkSlice_of rfl rfl ?_, reads_vec idx⟩
    simp only [Slice.valid, Res.ok.injEq, List.all_eq_true]
    exact fun x hx => validIndex_iff.2 (h x hx)
  · rintro ⟨x, hx, h⟩
    have : idx.all (validIndex n) = false := by
      rw [List.all_eq_false]
      exact ⟨x, hx, by simp [validIndex_false.2 h]⟩
    simp [mkSlice, SliceReq.construct, SliceReq.get, Slice.valid, this, assertDebug_false hb]

/-- `implicit_vector_sequence(size, start, incr)` is `start, start+incr, ...`. -/
theorem C14_implicit_vector_sequence (b : Build) {m start incr : Int} (hm : 0 ≤ m)
    (h1 : ∀ i : Int, 0 ≤ i → i < m → IsIndex (i * incr) ∧ IsIndex (start + i * incr)) :
    implicitVectorSequence b m start incr = .ok (progression start incr m.toNat) := by
  have e : decide (m > -1) = true := by simp; omega
  simp only [implicitVectorSequence, e, assertDebug_true, Res.ok_bind]
  refine foldN_ok (fun k => progression start incr k) m.toNat rfl ?_
  intro k hk
  obtain ⟨a, c⟩ := h1 k (by omega) (by omega)
  simp [imul_ok a, iadd_ok c, progression, List.range_succ]

example : implicitVectorSequence ⟨false, true, false⟩ 3 5 (-2) = .ok [5, 3, 1] := by decide

/-! ### C17: complement -/

/-- C17: the complement of a strictly increasing in-range index vector selects, in increasing order,
exactly the other elements - in every build. -/
theorem C17_complement (b : Build) {n : Int} (hn : 0 ≤ n) (emp : Bool) {idx : List Int}
    (hs : Increasing idx) (hr : ∀ x ∈ idx, InRange n x) :
    ∃ sl, mkSlice b n emp (.complement idx) = .ok sl ∧ Reads sl (selected n (.complement idx)) := by
  refine ⟨.vec ((upto n).filter (fun i => i ∉ idx)), mkSlice_of rfl ?_ ?_, reads_vec _⟩
  · simp [SliceReq.get, complementVec_ok b hn hs hr]
  · simp only [Slice.valid, Res.ok.injEq, List.all_eq_true]
    intro x hx
    exact validIndex_iff.2 (mem_upto.1 (List.mem_filter.1 hx).1)

/-- C17 (other vectors trap in a checked build). -/
theorem C17_rejected {b : Build} (hb : b.Checked) {n : Int} {emp : Bool} {idx : List Int}
    (h : ¬ Increasing idx ∨ ∃ x ∈ idx, ¬ InRange n x) :
    mkSlice b n emp (.complement idx) = .trap b.kind := by
  have hv : validComplement n idx = false := by
    rw [← Bool.not_eq_true, validComplement_iff]
    rintro ⟨h1, h2⟩
    rcases h with h | ⟨x, hx, hn⟩
    · exact h h1
    · exact hn (h2 x hx)
  simp [mkSlice, SliceReq.construct, SliceReq.get, complementVec, hv, assertDebug_false hb]

/-- C17 (partition): an index vector and its complement together list every element number of
`[0, n)` exactly once. -/
theorem C17_partition {n : Int} {idx : List Int} (hs : Increasing idx)
    (hr : ∀ x ∈ idx, InRange n x) :
    (∀ x, InRange n x ↔ (x ∈ idx ∨ x ∈ selected n (.complement idx))) ∧
    (∀ x, ¬ (x ∈ idx ∧ x ∈ selected n (.complement idx))) ∧
    Increasing (selected n (.complement idx)) ∧
    (0 ≤ n → (idx.length : Int) + (selected n (.complement idx)).length = n) := by
  refine ⟨?_, ?_, ?_, ?_⟩
  · intro x
    simp only [selected, List.mem_filter, mem_upto, decide_eq_true_eq]
    constructor
    · intro h; by_cases hx : x ∈ idx
      · exact .inl hx
      · exact .inr ⟨h, hx⟩
    · rintro (h | h)
      · exact hr x h
      · exact h.1
  · intro x ⟨h1, h2⟩
    simp [selected, h1] at h2
  · exact List.Pairwise.sublist List.filter_sublist (upto_increasing n)
  · intro h0
    have h1 : idx = (upto n).filter (fun i => decide (i ∈ idx)) := by
      apply sorted_ext hs (List.Pairwise.sublist List.filter_sublist (upto_increasing n))
      intro x
      simp only [List.mem_filter, mem_upto, decide_eq_true_eq]
      exact ⟨fun h => ⟨hr x h, h⟩, fun h => h.2⟩
    have h2 := List.length_eq_countP_add_countP (l := upto n) (fun i => decide (i ∈ idx))
    rw [List.countP_eq_length_filter, List.countP_eq_length_filter] at h2
    have h3 : (upto n).length = n.toNat := upto_length n
    have h4 : (List.filter (fun i => decide ¬ decide (i ∈ idx) = true) (upto n)) =
        selected n (.complement idx) := by
      simp [selected]
    rw [h4, ← h1] at h2
    omega

example : selected 6 (.complement [1, 4]) = [0, 2, 3, 5] ∧
    mkSlice ⟨false, true, false⟩ 6 false (.complement [1, 4]) = .ok (.vec [0, 2, 3, 5]) ∧
    mkSlice ⟨false, true, false⟩ 6 false (.complement [4, 1]) = .trap .exception ∧
    mkSlice ⟨false, true, false⟩ 6 false (.complement [1, 1]) = .trap .exception := by decide
example : Increasing [1, 4] := by simp [Increasing]

/-! ### C19: nesting -/

/-- `Selects n rs l`: applying the requests one after the other (each to the result of the previous
one) selects the base elements `l`. -/
inductive Selects : Int → List Slice → List Int → Prop
  | nil (n : Int) : Selects n [] (upto n)
  | cons {n : Int} {sl : Slice} {rest : List Slice} {l1 l2 l : List Int} :
      Reads sl l1 → (∀ x ∈ l1, InRange n x) → Selects sl.size rest l2 →
      l.length = l2.length →
      (∀ (i : Nat) (h2 : i < l2.length), ∃ h1 : (l2[i]).toNat < l1.length,
        l[i]? = some l1[(l2[i]).toNat]) →
      Selects n (sl :: rest) l


theorem Selects.inRange {n : Int} {sls : List Slice} {l : List Int} (h : Selects n sls l) :
    ∀ x ∈ l, InRange n x := by
  cases h with
  | nil n => intro x hx; exact mem_upto.1 hx
  | cons hR hr _ hl hg =>
    intro x hx
    obtain ⟨i, hi, rfl⟩ := List.mem_iff_getElem.1 hx
    obtain ⟨h1, h2⟩ := hg i (by omega)
    rw [List.getElem?_eq_getElem hi] at h2
    simp only [Option.some.injEq] at h2
    rw [h2]; exact hr _ (List.getElem_mem h1)

/-- C19: nested slicing `A(r1)(r2)...(rk)`, to any depth and for any kinds of requests: if a checked
build accepts it, there is a list `l` of element numbers of `A`, obtained by composing the selections
of the individual slices, such that element `i` of the nested slice is element `l[i]` of `A`; so only
elements of `A` are touched. -/
theorem C19_nested_slices {b : Build} (hb : b.Checked) (rs : List SliceReq) (n : Int)
    (hn : IsIndex n) (sls : List Slice)
    (hsz : ∀ sl ∈ sls, IsIndex sl.size)
    (h : mkNested b n rs = .ok sls) :
    ∃ l, Selects n sls l ∧ (∀ x ∈ l, InRange n x) ∧
      ∀ (i : Nat) (hi : i < l.length), nestedMap sls i = .ok l[i] := by
  induction rs generalizing n sls with
  | nil =>
    simp only [mkNested, Res.ok.injEq] at h; subst h
    refine ⟨upto n, .nil n, fun x hx => mem_upto.1 hx, ?_⟩
    intro i hi; simp [nestedMap]
  | cons r rs ih =>
    simp only [mkNested, Res.bind_eq_ok] at h
    obtain ⟨sl, h1, rest, h2, h3⟩ := h
    simp only [Res.pure_eq, Res.ok.injEq] at h3; subst h3
    have hok := mkSlice_checked hb h1
    obtain ⟨l1, hR, hr⟩ := slice_ok_reads hn hok
    obtain ⟨l2, hS, hr2, hmap⟩ := ih sl.size (hsz sl (by simp)) rest
      (fun s hs => hsz s (by simp [hs])) h2
    have hs1 := hR.1
    have hlt : ∀ (i : Nat) (h : i < l2.length), (l2[i]).toNat < l1.length := by
      intro i hi
      have hx := hr2 _ (List.getElem_mem hi)
      unfold InRange at hx; rw [hs1] at hx; omega
    have hSel : Selects n (sl :: rest) (l2.map (fun i => l1[i.toNat]?.getD 0)) := by
      refine .cons hR hr hS (by simp) ?_
      intro i h2
      refine ⟨hlt i h2, ?_⟩
      simp [List.getElem?_eq_getElem h2, List.getElem?_eq_getElem (hlt i h2)]
    refine ⟨_, hSel, hSel.inRange, ?_⟩
    intro i hi
    simp only [List.length_map] at hi
    have hx := hr2 _ (List.getElem_mem hi)
    have hmr := hR.2 _ (hlt i hi)
    rw [show (((l2[i]).toNat : Nat) : Int) = l2[i] by unfold InRange at hx; omega] at hmr
    simp [nestedMap, hmap i hi, hmr, List.getElem?_eq_getElem (hlt i hi)]

-- An example is in Props/Nested.lean.

/-! ### C42: two-dimensional slices -/

/-- C42: every accepted 2D slice has `rows = 0` iff `cols = 0`; if no row or no column is selected it
is 0x0; otherwise the two factors are the row and column slices; all element pairs are in range. -/
theorem C42_slice2 {b : Build} (hb : b.Checked) {m n : Int} {emp : Bool} {r1 r2 : SliceReq}
    {s1 s2 : Slice} (hm : IsIndex m) (hn : IsIndex n)
    (h : mkSlice2 b m n emp r1 r2 = .ok (s1, s2)) :
    (s1.size = 0 ↔ s2.size = 0) ∧
    (∀ i j, InRange s1.size i → InRange s2.size j →
      ∃ i' j', s1.map i = .ok i' ∧ s2.map j = .ok j' ∧ InRange m i' ∧ InRange n j') ∧
    ∃ t1 t2, mkSlice b m emp r1 = .ok t1 ∧ mkSlice b n emp r2 = .ok t2 ∧
      (t1.size = 0 ∨ t2.size = 0 → s1.size = 0 ∧ s2.size = 0) ∧
      (t1.size ≠ 0 → t2.size ≠ 0 → s1 = t1 ∧ s2 = t2) := by
  simp only [mkSlice2, Res.bind_eq_ok] at h
  obtain ⟨⟨⟩, c1, ⟨⟩, c2, t1, g1, t2, g2, ⟨⟩, v1, ⟨⟩, v2, h⟩ := h
  have v1' := assertDebugM_ok_checked hb v1
  have v2' := assertDebugM_ok_checked hb v2
  have k1 := mkSlice_of c1 g1 v1'
  have k2 := mkSlice_of c2 g2 v2'
  have o1 : t1.Ok m := mkSlice_checked hb k1
  have o2 : t2.Ok n := mkSlice_checked hb k2
  simp only [Res.pure_eq, Res.ok.injEq] at h
  have d : ∀ t : Slice, t.default.size = 0 := by intro t; cases t <;> rfl
  have hmap : ∀ i j, InRange s1.size i → InRange s2.size j → s1 = t1 ∧ s2 = t2 := by
    intro i j hi hj
    split at h
    · rename_i hz; cases h; rw [hz] at hi; unfold InRange at hi; omega
    · split at h
      · rename_i _ hz; cases h; rw [d] at hi; unfold InRange at hi; omega
      · cases h; exact ⟨rfl, rfl⟩
  refine ⟨?_, ?_, t1, t2, k1, k2, ?_, ?_⟩
  · split at h
    · rename_i hz; cases h; simp [d, hz]
    · split at h
      · rename_i hz; cases h; simp [d, hz]
      · rename_i h1 h2; cases h; simp [h1, h2]
  · intro i j hi hj
    obtain ⟨rfl, rfl⟩ := hmap i j hi hj
    obtain ⟨i', a, b⟩ := slice_ok_map hm o1 hi
    obtain ⟨j', a', b'⟩ := slice_ok_map hn o2 hj
    exact ⟨i', j', a, a', b, b'⟩
  · intro hz
    split at h
    · rename_i hz; cases h; simp [d, hz]
    · split at h
      · rename_i hz; cases h; simp [d, hz]
      · rename_i h1 h2; cases h; simp_all
  · intro hz1 hz2
    rw [if_neg hz1, if_neg hz2] at h; cases h; exact ⟨rfl, rfl⟩

example : mkSlice2 ⟨false, true, false⟩ 3 4 false (.firstN 0) .all =
    .ok (.seqN 0 0 1, .seqN 0 0 1) ∧
    mkSlice2 ⟨false, true, false⟩ 3 4 false .reverse (.vec [3, 0]) =
    .ok (.seqN 2 3 (-1), .vec [3, 0]) := by decide

end Spp.Props
