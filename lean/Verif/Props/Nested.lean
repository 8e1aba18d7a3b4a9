import Verif.Spec.Nested
import Verif.Props.Slice

/-
C19, continued: slices of slices, in terms of the requests.  C42, continued: every outcome of slicing rows and columns.
-/

namespace Spp.Props

open Spp.Spec

/-- One request, all cases. -/
theorem slice_outcome {n : Int} {r : SliceReq} (h0 : 0 ≤ n) (hn : n < 2 ^ 63 - 1) (hM : MachineReq n r) :
    (Meaningful n r → ∃ l, Asks n r l ∧ (∀ x ∈ l, InRange n x) ∧
      ∀ b : Build, ∃ sl, mkSlice b n (n == 0) r = .ok sl ∧ Reads sl l) ∧
    (¬ Meaningful n r → ∀ b : Build, b.Checked → mkSlice b n (n == 0) r = .trap b.kind) := by
  have hI : IsIndex n := by unfold IsIndex; omega
  cases r with
  | seqN s m st =>
    constructor
    · rintro ⟨h1, h2, h3⟩
      refine ⟨_, rfl, ?_, fun b => C14_seqN_in_range b _ hI h1 h2 hM.1 h3⟩
      intro x hx
      obtain ⟨i, hi, rfl⟩ := mem_progression.1 hx
      exact h3 i (by omega) (by omega)
    · intro h b hb
      by_cases hs : s < 0 ∨ m < 0
      · exact (C14_seqN_outcome hb _ hI hM.1).1 hs
      · have hs' : 0 ≤ s ∧ 0 ≤ m := by omega
        exact ((C14_seqN_outcome hb _ hI hM.1).2.2 hs'.1 hs'.2 hM.2).2 fun h3 => h ⟨hs'.1, hs'.2, h3⟩
  | seq f l st =>
    constructor
    · rintro ⟨h1, h2, h3⟩
      have he : (n == 0) = false := by
        unfold InRange at h1
        have : n ≠ 0 := by omega
        simpa using this
      obtain ⟨sl, m, -, e2, -⟩ := C15_seq_selects ⟨false, true, false⟩ hI hM h1 h2 h3
      refine ⟨_, ⟨m, e2, rfl⟩, ?_, fun b => ?_⟩
      · intro x hx
        obtain ⟨i, hi, rfl⟩ := mem_progression.1 hx
        have hp := e2.inside i hi
        have h0' : st = 0 → m = 1 := e2.once
        unfold NotPast at hp
        unfold InRange at *
        rcases Int.lt_trichotomy st 0 with hst | hst | hst
        · have : (i : Int) * st ≤ 0 := Int.mul_nonpos_of_nonneg_of_nonpos (by omega) (by omega)
          have := hp.2 hst
          omega
        · subst hst
          simp
          exact h1
        · have : 0 ≤ (i : Int) * st := Int.mul_nonneg (by omega) (by omega)
          have := hp.1 hst
          omega
      · rw [he]
        obtain ⟨sl', m', e1', e2', e3'⟩ := C15_seq_selects b hI hM h1 h2 h3
        rw [C15_range_unique e2 e2']
        exact ⟨sl', e1', e3'⟩
    · intro h b hb
      refine C15_seq_rejected hb ?_
      by_cases h1 : InRange n f
      · by_cases h2 : InRange n l
        · exact Or.inr (Or.inr (Or.inr fun h3 => h ⟨h1, h2, h3⟩))
        · exact Or.inr (Or.inr (Or.inl h2))
      · exact Or.inr (Or.inl h1)
  | all =>
    refine ⟨fun _ => ⟨_, rfl, fun x hx => mem_upto.1 hx, fun b => C16_all_even_odd_reverse b h0 hn (by simp)⟩,
      fun h => absurd trivial h⟩
  | even =>
    refine ⟨fun _ => ⟨_, rfl, fun x hx => mem_upto.1 (List.mem_filter.1 hx).1,
      fun b => C16_all_even_odd_reverse b h0 hn (by simp)⟩, fun h => absurd trivial h⟩
  | odd =>
    refine ⟨fun _ => ⟨_, rfl, fun x hx => mem_upto.1 (List.mem_filter.1 hx).1,
      fun b => C16_all_even_odd_reverse b h0 hn (by simp)⟩, fun h => absurd trivial h⟩
  | reverse =>
    refine ⟨fun _ => ⟨_, rfl, fun x hx => mem_upto.1 (List.mem_reverse.1 hx),
      fun b => C16_all_even_odd_reverse b h0 hn (by simp)⟩, fun h => absurd trivial h⟩
  | skipN k =>
    refine ⟨fun h => ⟨_, rfl, fun x hx => mem_upto.1 (List.mem_filter.1 hx).1, fun b => C16_skipN b h0 h hM⟩,
      fun h b hb => (C16_rejected hb).1 (by unfold Meaningful at h; omega)⟩
  | firstN k =>
    refine ⟨fun h => ⟨_, rfl, fun x hx => mem_upto.1 (List.mem_of_mem_take hx),
      fun b => (C16_firstN_lastN b hI h.1 h.2).1⟩,
      fun h b hb => ((C16_rejected hb).2 (by unfold Meaningful at h; omega)).1⟩
  | lastN k =>
    refine ⟨fun h => ⟨_, rfl, fun x hx => mem_upto.1 (List.mem_of_mem_drop hx),
      fun b => (C16_firstN_lastN b hI h.1 h.2).2⟩,
      fun h b hb => ((C16_rejected hb).2 (by unfold Meaningful at h; omega)).2⟩
  | vec idx =>
    refine ⟨fun h => ⟨idx, rfl, h, fun b => ⟨.vec idx, mkSlice_of rfl rfl ?_, reads_vec idx⟩⟩, fun h b hb => ?_⟩
    · simp only [Slice.valid, Res.ok.injEq, List.all_eq_true]
      exact fun x hx => validIndex_iff.2 (h x hx)
    · refine (C14_index_vector hb idx).2 ?_
      unfold Meaningful at h
      simpa using h
  | complement idx =>
    refine ⟨fun h => ⟨_, rfl, fun x hx => mem_upto.1 (List.mem_filter.1 hx).1,
      fun b => C17_complement b h0 _ h.1 h.2⟩, fun h b hb => C17_rejected hb ?_⟩
    by_cases h1 : Increasing idx
    · right
      have : ¬ ∀ x ∈ idx, InRange n x := fun h2 => h ⟨h1, h2⟩
      simpa using this
    · exact Or.inl h1

theorem asks_unique {n : Int} {r : SliceReq} {l l' : List Int} (h : Asks n r l) (h' : Asks n r l') : l = l' := by
  cases r with
  | seq f e st =>
    obtain ⟨m, h1, rfl⟩ := h
    obtain ⟨m', h1', rfl⟩ := h'
    rw [C15_range_unique h1 h1']
  | _ => exact Eq.trans h (Eq.symm h')

/-- C19: what `A(r1)(r2)...(rk)` does, in terms of the requests.  If every request makes sense for the extent of what it is
applied to, then in every build element `i` of the result is the element of `A` found by composing the requests, and the
size of the result is the number of those elements.  If some request does not, a checked build traps. -/
theorem C19_requests {n : Int} {rs : List SliceReq} {o : Option (List Int)} (h : Nested n rs o) :
    (∀ l, o = some l → (∀ x ∈ l, InRange n x) ∧ ∀ b : Build, ∃ sls, mkNested b n rs = .ok sls ∧
      (∀ sl, sls.getLast? = some sl → sl.size = l.length) ∧
      ∀ (i : Nat) (hi : i < l.length), nestedMap sls i = .ok l[i]) ∧
    (o = none → ∀ b : Build, b.Checked → mkNested b n rs = .trap b.kind) := by
  induction h with
  | nil n =>
    refine ⟨fun l hl => ?_, fun hl => by simp at hl⟩
    cases hl
    refine ⟨fun x hx => mem_upto.1 hx, fun b => ⟨[], rfl, fun sl hsl => by simp at hsl, ?_⟩⟩
    intro i hi
    simp [nestedMap]
  | bad h0 hn hM hm =>
    refine ⟨fun l hl => by simp at hl, fun _ b hb => ?_⟩
    rw [mkNested, (slice_outcome h0 hn hM).2 hm b hb]
    rfl
  | cons h0 hn hM hm hA _ ih =>
    rename_i n r rs l1 o _
    obtain ⟨l1', a1, a2, a3⟩ := (slice_outcome h0 hn hM).1 hm
    obtain rfl := asks_unique hA a1
    refine ⟨fun l hl => ?_, fun hl b hb => ?_⟩
    · cases o with
      | none => simp at hl
      | some l2 =>
        simp only [Option.map_some, Option.some.injEq] at hl
        subst hl
        obtain ⟨i1, i2⟩ := ih.1 l2 rfl
        have hlt : ∀ x ∈ l2, x.toNat < l1.length := fun x hx => by
          have := i1 x hx
          unfold InRange at this
          omega
        have hget : ∀ x ∈ l2, ∃ hx : x.toNat < l1.length, l1.getD x.toNat 0 = l1[x.toNat] := fun x hx =>
          ⟨hlt x hx, by simp [List.getD, List.getElem?_eq_getElem (hlt x hx)]⟩
        refine ⟨fun x hx => ?_, fun b => ?_⟩
        · obtain ⟨y, hy, rfl⟩ := List.mem_map.1 hx
          obtain ⟨hy', e⟩ := hget y hy
          rw [e]
          exact a2 _ (List.getElem_mem hy')
        · obtain ⟨sl, e1, e2⟩ := a3 b
          obtain ⟨sls, g1, g2, g3⟩ := i2 b
          refine ⟨sl :: sls, ?_, ?_, ?_⟩
          · rw [mkNested, e1, Res.ok_bind, e2.1, g1]
            rfl
          · intro s hs
            rw [List.length_map]
            cases sls with
            | nil =>
              simp only [List.getLast?_singleton, Option.some.injEq] at hs
              subst hs
              cases rs with
              | nil =>
                rename_i hN
                cases hN
                rw [e2.1]
                simp
              | cons r' rs' =>
                rw [mkNested] at g1
                simp only [Res.bind_eq_ok] at g1
                obtain ⟨_, _, _, _, g⟩ := g1
                simp at g
            | cons s' sls' => exact g2 s (by rwa [List.getLast?_cons_cons] at hs)
          · intro i hi
            rw [List.length_map] at hi
            have hx := i1 _ (List.getElem_mem hi)
            obtain ⟨hy', e⟩ := hget _ (List.getElem_mem hi)
            have hmr := e2.2 _ hy'
            rw [show (((l2[i]).toNat : Nat) : Int) = l2[i] by unfold InRange at hx; omega] at hmr
            rw [nestedMap, g3 i hi, Res.ok_bind, hmr, List.getElem_map, e]
    · cases o with
      | some l2 => simp at hl
      | none =>
        obtain ⟨sl, e1, e2⟩ := a3 b
        rw [mkNested, e1, Res.ok_bind, e2.1, ih.2 rfl b hb]
        rfl

example : mkNested ⟨false, true, false⟩ 10 [.even, .reverse, .firstN 3] =
    .ok [.seqN 0 5 2, .seqN 4 5 (-1), .seqN 0 3 1] ∧
    nestedMap [.seqN 0 5 2, .seqN 4 5 (-1), .seqN 0 3 1] 1 = .ok 6 := by decide

-- every other element of 0..9, backwards, the first three: 8, 6, 4
example : Nested 10 [.even, .reverse, .firstN 3] (some [8, 6, 4]) := by
  refine Nested.cons (l1 := [0, 2, 4, 6, 8]) (o := some [4, 3, 2]) (by decide) (by decide) trivial trivial
      (by unfold Asks; decide +kernel)
    (Nested.cons (l1 := [4, 3, 2, 1, 0]) (o := some [0, 1, 2]) (by decide) (by decide) trivial trivial
      (by unfold Asks; decide +kernel)
    (Nested.cons (l1 := [0, 1, 2]) (o := some [0, 1, 2]) (by decide) (by decide) trivial ⟨by decide, by decide⟩
      (by unfold Asks; decide +kernel) (.nil 3)))

-- the last six of every other element: there are five only
example : Nested 10 [.even, .lastN 6] none :=
  Nested.cons (l1 := [0, 2, 4, 6, 8]) (o := none) (by decide) (by decide) trivial trivial (by unfold Asks; decide +kernel)
    (.bad (by decide) (by decide) trivial fun h => absurd h.2 (by decide))

/-- C42: `A(r1, r2)` is decided by the two requests: it is accepted if both are, with the two slices unless one of them
is empty and then both; and it traps in a checked build if one of them does. -/
theorem C42_outcome (b : Build) (m n : Int) (emp : Bool) (r1 r2 : SliceReq) :
    (∀ t1 t2, mkSlice b m emp r1 = .ok t1 → mkSlice b n emp r2 = .ok t2 →
      mkSlice2 b m n emp r1 r2 = .ok (if t1.size = 0 then (t1, t2.default) else if t2.size = 0 then (t1.default, t2)
        else (t1, t2))) ∧
    (∀ t1, mkSlice b m emp r1 = .ok t1 → mkSlice b n emp r2 = .trap b.kind →
      mkSlice2 b m n emp r1 r2 = .trap b.kind) ∧
    (∀ t2, mkSlice b m emp r1 = .trap b.kind → mkSlice b n emp r2 = .ok t2 →
      mkSlice2 b m n emp r1 r2 = .trap b.kind) := by
  unfold mkSlice2 mkSlice
  refine ⟨fun t1 t2 h1 h2 => ?_, fun t1 h1 h2 => ?_, fun t2 h1 h2 => ?_⟩
  · simp only [Res.bind_eq_ok] at h1 h2
    obtain ⟨⟨⟩, c1, s1, g1, ⟨⟩, v1, e1⟩ := h1
    obtain ⟨⟨⟩, c2, s2, g2, ⟨⟩, v2, e2⟩ := h2
    cases e1; cases e2
    rw [c1, Res.ok_bind, c2, Res.ok_bind, g1, Res.ok_bind, g2, Res.ok_bind, v1, Res.ok_bind, v2]
    rfl
  · simp only [Res.bind_eq_ok] at h1
    obtain ⟨⟨⟩, c1, s1, g1, ⟨⟩, v1, e1⟩ := h1
    rw [c1, Res.ok_bind]
    cases c2 : r2.construct b with
    | ub => rw [c2] at h2; simp at h2
    | trap k => rw [c2] at h2; simpa using h2
    | ok u =>
      rw [c2, Res.ok_bind] at h2
      rw [Res.ok_bind, g1, Res.ok_bind]
      cases g2 : r2.get b n emp with
      | ub => rw [g2] at h2; simp at h2
      | trap k => rw [g2] at h2; simpa using h2
      | ok s2 =>
        rw [g2, Res.ok_bind] at h2
        rw [Res.ok_bind, v1, Res.ok_bind]
        cases v2 : assertDebugM b (s2.valid n) with
        | ub => rw [v2] at h2; simp at h2
        | trap k => rw [v2] at h2; simpa using h2
        | ok u => rw [v2] at h2; simp at h2
  · simp only [Res.bind_eq_ok] at h2
    obtain ⟨⟨⟩, c2, s2, g2, ⟨⟩, v2, e2⟩ := h2
    cases c1 : r1.construct b with
    | ub => rw [c1] at h1; simp at h1
    | trap k => rw [c1] at h1; simpa using h1
    | ok u =>
      rw [c1, Res.ok_bind] at h1
      rw [Res.ok_bind, c2, Res.ok_bind]
      cases g1 : r1.get b m emp with
      | ub => rw [g1] at h1; simp at h1
      | trap k => rw [g1] at h1; simpa using h1
      | ok s1 =>
        rw [g1, Res.ok_bind] at h1
        rw [Res.ok_bind, g2, Res.ok_bind]
        cases v1 : assertDebugM b (s1.valid m) with
        | ub => rw [v1] at h1; simp at h1
        | trap k => rw [v1] at h1; simpa using h1
        | ok u => rw [v1] at h1; simp at h1

example : mkSlice ⟨false, true, false⟩ 3 false .all = .ok (.seqN 0 3 1) ∧
    mkSlice ⟨false, true, false⟩ 4 false (.firstN 5) = .trap .exception ∧
    mkSlice2 ⟨false, true, false⟩ 3 4 false .all (.firstN 5) = .trap .exception := by decide

end Spp.Props
