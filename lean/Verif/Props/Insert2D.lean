import Verif.Props.Array2D

/- C36 (index sets), C37, C38, C39: more about rows and columns of two-dimensional arrays. -/

set_option linter.unusedSectionVars false

namespace Spp.Props
open Spec Arr2

variable {α : Type} [Inhabited α]

/-! ### C36: removal of index sets -/

theorem kept_eq (n : Nat) (idx : List Int) :
    (upto n).filter (fun i => i ∉ idx) =
      ((List.range n).filter (fun k : Nat => (k : Int) ∉ idx)).map Int.ofNat := by
  unfold upto
  rw [List.filter_map]
  rfl

theorem kept_rd {K : List Nat} {i : Nat} (hi : i < K.length) :
    rd (K.map Int.ofNat) i = .ok ((K.getD i 0 : Nat) : Int) := by
  rw [rd_nat (by simpa using hi)]
  simp [List.getD_eq_getElem?_getD, List.getElem?_eq_getElem hi]

theorem kept_lt {n i : Nat} {p : Nat → Bool} (hi : i < ((List.range n).filter p).length) :
    ((List.range n).filter p).getD i 0 < n := by
  have : ((List.range n).filter p).getD i 0 ∈ (List.range n).filter p := by
    rw [List.getD_eq_getElem?_getD, List.getElem?_eq_getElem hi]
    exact List.getElem_mem hi
  exact List.mem_range.1 (List.mem_filter.1 this).1

theorem kept_length_le {n : Nat} {p : Nat → Bool} : ((List.range n).filter p).length ≤ n := by
  have := List.length_filter_le p (List.range n)
  simpa using this

/-- C36: `remove_rows(indices)` deletes exactly the listed rows. -/
theorem C36_remove_rows_indices (b : Build) {a : Arr2 α} {M : Mat α} (h : IsMat a M) (hM : Fits2 M)
    {idx : List Int} (hi : Increasing idx) (hr : ∀ x ∈ idx, InRange M.m x) :
    ∃ a', removeRowsVec b idx a = (.ok (), a') ∧ IsMat a' (M.removeRowsAt idx) := by
  have h1 := h.rows; have h2 := h.cols
  unfold removeRowsVec
  by_cases he : idx.isEmpty = true
  · have : idx = [] := by simpa using he
    subst this
    refine ⟨a, rfl, isMat_ext h ?_⟩
    have hf : (List.range M.m).filter (fun k : Nat => (k : Int) ∉ ([] : List Int)) = List.range M.m :=
      List.filter_eq_self.2 (by simp)
    unfold Mat.removeRowsAt
    simp only [hf, List.length_range]
    refine ⟨rfl, ?_, fun i j hi _ => ?_⟩
    · simp only
      have := h.zero
      split <;> omega
    · simp [List.getD_eq_getElem?_getD, List.getElem?_range hi]
  · rw [if_neg he]
    simp only [Op.get_bind]
    rw [h1, complementVec_ok b (by omega) hi hr, kept_eq, Op.lift_ok_bind]
    have hK : len (((List.range M.m).filter (fun k : Nat => (k : Int) ∉ idx)).map Int.ofNat) =
        ((List.range M.m).filter (fun k : Nat => (k : Int) ∉ idx)).length := by simp [len]
    rw [hK]
    have hle : ((List.range M.m).filter (fun k : Nat => decide ((k : Int) ∉ idx))).length ≤ M.m :=
      kept_length_le
    have hltK : ∀ i, i < ((List.range M.m).filter (fun k : Nat => decide ((k : Int) ∉ idx))).length →
      ((List.range M.m).filter (fun k : Nat => decide ((k : Int) ∉ idx))).getD i 0 < M.m :=
      fun i hi => kept_lt hi
    unfold Mat.removeRowsAt
    generalize (List.range M.m).filter (fun k : Nat => decide ((k : Int) ∉ idx)) = K at *
    obtain ⟨t, e1, e2⟩ := make_ok (α := α) b (m := (K.length : Int))
      (n := if (K.length : Int) = 0 then 0 else a.cols) (by omega) (by split <;> omega)
      (by
        constructor
        · intro h0; rw [if_pos h0]
        · intro h0
          split at h0
          · assumption
          · have := h.zero; omega)
      (by
        have h3 := sub_fits (k := M.m - K.length) hM
        rw [show M.m - (M.m - K.length) = K.length by omega] at h3
        split
        · simp
        · rw [h2]; exact h3)
    have ht1 : t.rows.toNat = K.length := by rw [e2.rows]; simp [Mat.const]
    have ht2 : t.cols.toNat = if K.length = 0 then 0 else M.n := by
      rw [e2.cols]; simp only [Mat.const, h2]
      by_cases h0 : K.length = 0
      · simp [h0]
      · rw [if_neg (by omega), if_neg h0]; omega
    obtain ⟨t', e3, e4⟩ := block_loop' (r := 0) (c := 0) e2 (m := t.rows.toNat) (n := t.cols.toNat)
      (f := fun i j => M.el (K.getD i 0) j)
      (body := fun i j t => do
        let k ← rd (K.map Int.ofNat) i
        let v ← rd2 a k j
        wr2 t i j v)
      (by
        right; right
        rw [ht1, ht2]
        simp only [Mat.const, h2]
        constructor
        · omega
        · by_cases h0 : K.length = 0
          · simp [h0]
          · rw [if_neg h0, if_neg (by omega)]; omega)
      (by
        intro i j t hi hj
        rw [ht1] at hi
        have hj' : j < M.n := by rw [ht2] at hj; split at hj <;> omega
        rw [kept_rd hi, Res.ok_bind, rd2_ok h (hltK i hi) hj', Res.ok_bind]
        simp)
    refine ⟨t', ?_, isMat_ext e4 ⟨?_, ?_, ?_⟩⟩
    · simp only [e1, Op.lift_ok_bind, e3, Op.set_run]
    · simp [Mat.block, Mat.const]
    · simp only [Mat.block, Mat.const, h2]
      by_cases h0 : K.length = 0
      · simp [h0]
      · rw [if_neg (by omega), if_neg h0]; omega
    · intro i j hi hj
      simp only [Mat.block, Mat.const] at hi hj ⊢
      rw [if_pos]
      · simp
      · rw [ht1, ht2]
        refine ⟨by omega, by omega, by omega, ?_⟩
        by_cases h0 : (K.length : Int) = 0
        · rw [if_pos h0] at hj; simp at hj
        · rw [if_neg h0] at hj; rw [if_neg (by omega)]; omega

/-- C36: `remove_cols(indices)` deletes exactly the listed columns. -/
theorem C36_remove_cols_indices (b : Build) {a : Arr2 α} {M : Mat α} (h : IsMat a M) (hM : Fits2 M)
    {idx : List Int} (hi : Increasing idx) (hr : ∀ x ∈ idx, InRange M.n x) :
    ∃ a', removeColsVec b idx a = (.ok (), a') ∧ IsMat a' (M.removeColsAt idx) := by
  have h1 := h.rows; have h2 := h.cols
  unfold removeColsVec
  by_cases he : idx.isEmpty = true
  · have : idx = [] := by simpa using he
    subst this
    refine ⟨a, rfl, isMat_ext h ?_⟩
    have hf : (List.range M.n).filter (fun k : Nat => (k : Int) ∉ ([] : List Int)) = List.range M.n :=
      List.filter_eq_self.2 (by simp)
    unfold Mat.removeColsAt
    simp only [hf, List.length_range]
    refine ⟨?_, rfl, fun i j _ hj => ?_⟩
    · simp only
      have := h.zero
      split <;> omega
    · simp [List.getD_eq_getElem?_getD, List.getElem?_range hj]
  · rw [if_neg he]
    simp only [Op.get_bind]
    rw [h2, complementVec_ok b (by omega) hi hr, kept_eq, Op.lift_ok_bind]
    have hK : len (((List.range M.n).filter (fun k : Nat => (k : Int) ∉ idx)).map Int.ofNat) =
        ((List.range M.n).filter (fun k : Nat => (k : Int) ∉ idx)).length := by simp [len]
    rw [hK]
    have hle : ((List.range M.n).filter (fun k : Nat => decide ((k : Int) ∉ idx))).length ≤ M.n :=
      kept_length_le
    have hltK : ∀ i, i < ((List.range M.n).filter (fun k : Nat => decide ((k : Int) ∉ idx))).length →
      ((List.range M.n).filter (fun k : Nat => decide ((k : Int) ∉ idx))).getD i 0 < M.n :=
      fun i hi => kept_lt hi
    unfold Mat.removeColsAt
    generalize (List.range M.n).filter (fun k : Nat => decide ((k : Int) ∉ idx)) = K at *
    obtain ⟨t, e1, e2⟩ := make_ok (α := α) b (m := if (K.length : Int) = 0 then 0 else a.rows)
      (n := (K.length : Int)) (by split <;> omega) (by omega)
      (by
        constructor
        · intro h0
          split at h0
          · assumption
          · have := h.zero; omega
        · intro h0; rw [if_pos h0])
      (by
        have hM' : (M.n : Int) * M.m < 2 ^ 63 := by rw [Int.mul_comm]; exact hM
        have h3 := sub_fits (k := M.n - K.length) hM'
        rw [show M.n - (M.n - K.length) = K.length by omega] at h3
        split
        · simp
        · rw [h1, Int.mul_comm]; exact h3)
    have ht2 : t.cols.toNat = K.length := by rw [e2.cols]; simp [Mat.const]
    have ht1 : t.rows.toNat = if K.length = 0 then 0 else M.m := by
      rw [e2.rows]; simp only [Mat.const, h1]
      by_cases h0 : K.length = 0
      · simp [h0]
      · rw [if_neg (by omega), if_neg h0]; omega
    obtain ⟨t', e3, e4⟩ := block_loop' (r := 0) (c := 0) e2 (m := t.rows.toNat) (n := t.cols.toNat)
      (f := fun i j => M.el i (K.getD j 0))
      (body := fun i j t => do
        let k ← rd (K.map Int.ofNat) j
        let v ← rd2 a i k
        wr2 t i j v)
      (by
        right; right
        rw [ht1, ht2]
        simp only [Mat.const, h1]
        constructor
        · by_cases h0 : K.length = 0
          · simp [h0]
          · rw [if_neg h0, if_neg (by omega)]; omega
        · omega)
      (by
        intro i j t hi hj
        rw [ht2] at hj
        have hi' : i < M.m := by rw [ht1] at hi; split at hi <;> omega
        rw [kept_rd hj, Res.ok_bind, rd2_ok h hi' (hltK j hj), Res.ok_bind]
        simp)
    refine ⟨t', ?_, isMat_ext e4 ⟨?_, ?_, ?_⟩⟩
    · simp only [e1, Op.lift_ok_bind, e3, Op.set_run]
    · simp only [Mat.block, Mat.const, h1]
      by_cases h0 : K.length = 0
      · simp [h0]
      · rw [if_neg (by omega), if_neg h0]; omega
    · simp [Mat.block, Mat.const]
    · intro i j hi hj
      simp only [Mat.block, Mat.const] at hi hj ⊢
      rw [if_pos]
      · simp
      · rw [ht1, ht2]
        refine ⟨by omega, ?_, by omega, by omega⟩
        by_cases h0 : (K.length : Int) = 0
        · rw [if_pos h0] at hi; simp at hi
        · rw [if_neg h0] at hi; rw [if_neg (by omega)]; omega

/-- C36/C30: other index vectors are rejected; the array is unchanged. -/
theorem C36_remove_indices_rejected {b : Build} (hb : b.Checked) (a : Arr2 α) {idx : List Int} :
    ((¬ Increasing idx ∨ ∃ x ∈ idx, ¬ InRange a.rows x) →
      removeRowsVec b idx a = (.trap b.kind, a)) ∧
    ((¬ Increasing idx ∨ ∃ x ∈ idx, ¬ InRange a.cols x) →
      removeColsVec b idx a = (.trap b.kind, a)) := by
  have he : ∀ n, (¬ Increasing idx ∨ ∃ x ∈ idx, ¬ InRange n x) →
      idx.isEmpty = false ∧ validComplement n idx = false := by
    intro n h
    constructor
    · rcases h with h | ⟨x, hx, _⟩
      · cases idx with
        | nil => exact absurd List.Pairwise.nil h
        | cons => rfl
      · cases idx with
        | nil => simp at hx
        | cons => rfl
    · rw [← Bool.not_eq_true, validComplement_iff]
      rintro ⟨h1, h2⟩
      rcases h with h | ⟨x, hx, hn⟩
      · exact h h1
      · exact hn (h2 x hx)
  constructor
  · intro h
    obtain ⟨h1, h2⟩ := he _ h
    simp [removeRowsVec, h1, complementVec, h2, assertDebug_false hb]
  · intro h
    obtain ⟨h1, h2⟩ := he _ h
    simp [removeColsVec, h1, complementVec, h2, assertDebug_false hb]

example : (removeRowsVec ⟨false, true, false⟩ [0, 2] ⟨3, 1, [1, 2, 3]⟩ : Res Unit × Arr2 Int) =
    (.ok (), ⟨1, 1, [2]⟩) := by decide
example : (removeColsVec ⟨false, true, false⟩ [0, 2] ⟨1, 3, [1, 2, 3]⟩ : Res Unit × Arr2 Int) =
    (.ok (), ⟨1, 1, [2]⟩) := by decide

/-! ### C37: `last - k` -/

/-- C37, the argument is ignored: `remove_row(last - 1)` of a two-row array removes the last row and
not the one before it; the same for columns. -/
theorem C37_last_ignored :
    (removeRowLast ⟨false, true, false⟩ 1 (⟨2, 1, [10, 20]⟩ : Arr2 Int)).2 = ⟨1, 1, [10]⟩ ∧
    ¬ IsMat (removeRowLast ⟨false, true, false⟩ 1 (⟨2, 1, [10, 20]⟩ : Arr2 Int)).2
      (Mat.removeRows ⟨2, 1, fun i _ => if i = 0 then 10 else 20⟩ (2 - 1 - 1) 1) ∧
    (removeColLast ⟨false, true, false⟩ 1 (⟨1, 2, [10, 20]⟩ : Arr2 Int)).2 = ⟨1, 1, [10]⟩ ∧
    ¬ IsMat (removeColLast ⟨false, true, false⟩ 1 (⟨1, 2, [10, 20]⟩ : Arr2 Int)).2
      (Mat.removeCols ⟨1, 2, fun _ j => if j = 0 then 10 else 20⟩ (2 - 1 - 1) 1) := by
  refine ⟨by decide, ?_, by decide, ?_⟩
  · rw [show (removeRowLast ⟨false, true, false⟩ 1 (⟨2, 1, [10, 20]⟩ : Arr2 Int)).2 =
      ⟨1, 1, [10]⟩ by decide]
    intro h
    have := h.el 0 0 (by decide) (by decide)
    revert this
    decide
  · rw [show (removeColLast ⟨false, true, false⟩ 1 (⟨1, 2, [10, 20]⟩ : Arr2 Int)).2 =
      ⟨1, 1, [10]⟩ by decide]
    intro h
    have := h.el 0 0 (by decide) (by decide)
    revert this
    decide

/-- C37: whatever `k` is, the last row (column) is removed and the others stay in order. -/
theorem C37_remove_last (b : Build) {a : Arr2 α} {M : Mat α} (h : IsMat a M)
    (hM : Fits2 M) (hm : 0 < M.m) (k : Int) :
    (∃ a', removeRowLast b k a = (.ok (), a') ∧ IsMat a' (M.removeRows (M.m - 1) 1)) ∧
    (∃ a', removeColLast b k a = (.ok (), a') ∧ IsMat a' (M.removeCols (M.n - 1) 1)) := by
  obtain ⟨d1, d2⟩ := dims_le M h.zero hM
  have hn : 0 < M.n := by have := h.zero; omega
  have h1 := h.rows; have h2 := h.cols
  obtain ⟨s1, s2, _⟩ := C36_remove_special b h hM
  constructor
  · have := s1 (M.m - 1) (by omega)
    unfold removeRowLast
    rw [Op.get_bind, h1, isub_ok (by unfold IsIndex; omega), Op.lift_ok_bind]
    rw [show ((M.m : Int) - 1) = ((M.m - 1 : Nat) : Int) by omega]
    exact this
  · have := s2 (M.n - 1) (by omega)
    unfold removeColLast
    rw [Op.get_bind, h2, isub_ok (by unfold IsIndex; omega), Op.lift_ok_bind]
    rw [show ((M.n : Int) - 1) = ((M.n - 1 : Nat) : Int) by omega]
    exact this

/-- C37: an empty array has no last row (column): the call traps in debug builds and changes
nothing. -/
theorem C37_remove_last_empty {b : Build} (hb : b.Checked) {a : Arr2 α}
    (h0 : a.rows = 0 ∧ a.cols = 0) (k : Int) :
    removeRowLast b k a = (.trap b.kind, a) ∧ removeColLast b k a = (.trap b.kind, a) := by
  obtain ⟨h1, h2⟩ := h0
  constructor
  · unfold removeRowLast
    rw [Op.get_bind, h1, isub_ok (by unfold IsIndex; omega), Op.lift_ok_bind]
    exact ((C36_remove_rejected hb a (pos := 0 - 1) (count := 1) (by unfold IsIndex; omega)).1 (by omega))
  · unfold removeColLast
    rw [Op.get_bind, h2, isub_ok (by unfold IsIndex; omega), Op.lift_ok_bind]
    exact ((C36_remove_rejected hb a (pos := 0 - 1) (count := 1) (by unfold IsIndex; omega)).2 (by omega))

example : (removeRowLast ⟨false, true, false⟩ 5 ⟨3, 1, [1, 2, 3]⟩ : Res Unit × Arr2 Int) =
    (.ok (), ⟨2, 1, [1, 2]⟩) := by decide
example : (removeColLast ⟨false, true, false⟩ 0 ⟨0, 0, []⟩ : Res Unit × Arr2 Int).2 =
    ⟨0, 0, []⟩ := by decide

/-! ### C38: insertion of rows and columns -/

/-- `resize_and_assign`: the array becomes the operand. -/
theorem C38_resize_and_assign (b : Build) {a : Arr2 α} {N : Mat α} {src : Src2 (Arr2 α) α}
    (hd : Denotes2 src a N) (hf : Fits2 N) :
    ∃ a', resizeAndAssign b src a = (.ok (), a') ∧ IsMat a' N := by
  have hd' : ∀ s, Denotes2 ({ src with un := fun _ => src.un a, un2 := fun _ => src.un2 a } :
      Src2 (Arr2 α) α) s N := fun s =>
    ⟨hd.rows, hd.cols, hd.zero, hd.un2, hd.un⟩
  obtain ⟨t, e1, e2⟩ := makeFrom_ok b hd' hf
  refine ⟨t, ?_, e2⟩
  unfold resizeAndAssign
  simp only [Op.get_bind, e1, Op.lift_ok_bind, Op.set_run]

/-- C38: `insert_rows(pos, A)`; `A` may be any operand, including the array itself. -/
theorem C38_insert_rows (b : Build) {a : Arr2 α} {M N : Mat α} {src : Src2 (Arr2 α) α}
    (h : IsMat a M) (hd : Denotes2 src a N) (hne : M.m ≠ 0) (hc : N.n = M.n)
    (hf : ((M.m + N.m : Nat) : Int) * M.n < 2 ^ 63) {pos : Int} (h0 : 0 ≤ pos) (hp : pos ≤ M.m) :
    ∃ a', insertRows b pos src a = (.ok (), a') ∧ IsMat a' (M.insertRows N pos.toNat) := by
  have h1 := h.rows; have h2 := h.cols
  have g1 := hd.rows; have g2 := hd.cols
  have hz := h.zero
  have hnn : M.n ≠ 0 := fun e => hne (hz.2 e)
  have hfit : Fits2 (⟨M.m + N.m, M.n, M.el⟩ : Mat α) := hf
  obtain ⟨d1, d2⟩ := dims_le _ (by simp only; omega) hfit
  simp only at d1 d2
  have c1 : (decide (pos ≥ 0) && decide (pos ≤ a.rows)) = true := by
    rw [Bool.and_eq_true]; exact ⟨decide_eq_true h0, decide_eq_true (by omega)⟩
  have c2 : (src.cols == a.cols) = true := by rw [g2, h2, hc]; simp
  have s1 : iadd a.rows src.rows = .ok (a.rows + src.rows) := iadd_ok (by unfold IsIndex; omega)
  obtain ⟨t, e1, e2⟩ := make_ok (α := α) b (m := a.rows + src.rows) (n := a.cols) (by omega)
    (by omega) (by omega)
    (by rw [h1, g1, h2]; push_cast at hf; exact hf)
  obtain ⟨t1, e3, e4⟩ := copyRows_ok e2 (src := rd2 a) (cols := a.cols) (s1 := 0) (s2 := 0)
    (n := pos) (f := M.el) (by omega) (by right; simp only [Mat.const]; omega)
    (by
      intro i j hi hj
      rw [Int.add_zero]
      exact rd2_ok h (by omega) (by omega))
  obtain ⟨t2, e5, e6⟩ := copyRows_ok e4 (src := src.un2 a) (cols := src.cols) (s1 := 0)
    (s2 := pos) (n := src.rows) (f := N.el) h0 (by right; simp only [Mat.const, Mat.block]; omega)
    (by
      intro i j hi hj
      rw [Int.add_zero]
      exact hd.un2 i j (by omega) (by omega))
  obtain ⟨t3, e7, e8⟩ := copyRows_ok e6 (src := rd2 a) (cols := a.cols) (s1 := pos)
    (s2 := pos + src.rows) (n := a.rows - pos) (f := fun i j => M.el (i + pos.toNat) j)
    (by omega) (by right; simp only [Mat.const, Mat.block]; omega)
    (by
      intro i j hi hj
      rw [show (i : Int) + pos = ((i + pos.toNat : Nat) : Int) by omega]
      exact rd2_ok h (by omega) (by omega))
  refine ⟨t3, ?_, isMat_ext e8 ⟨?_, ?_, ?_⟩⟩
  · unfold insertRows
    simp only [Op.get_bind, c1, assertDebug_true, Op.lift_ok_bind]
    rw [if_neg (by omega)]
    simp only [c2, assertDebug_true, Op.lift_ok_bind, s1, e1, copyRows0_eq, e3, e5, e7, Op.set_run]
  · simp only [Mat.block, Mat.const, Mat.insertRows]; omega
  · simp only [Mat.block, Mat.const, Mat.insertRows]; omega
  · intro i j hi hj
    simp only [Mat.block, Mat.const, Mat.insertRows] at hi hj ⊢
    by_cases k1 : i < pos.toNat
    · rw [if_neg (by omega), if_neg (by omega), if_pos (by omega), if_pos k1]; rfl
    · rw [if_neg k1]
      by_cases k2 : i < pos.toNat + N.m
      · rw [if_neg (by omega), if_pos (by omega), if_pos k2]; rfl
      · rw [if_pos (by omega), if_neg k2]
        congr 1
        omega

/-- C38: `insert_cols(pos, A)`. -/
theorem C38_insert_cols (b : Build) {a : Arr2 α} {M N : Mat α} {src : Src2 (Arr2 α) α}
    (h : IsMat a M) (hd : Denotes2 src a N) (hne : M.m ≠ 0) (hc : N.m = M.m)
    (hf : (M.m : Int) * ((M.n + N.n : Nat) : Int) < 2 ^ 63) {pos : Int} (h0 : 0 ≤ pos)
    (hp : pos ≤ M.n) :
    ∃ a', insertCols b pos src a = (.ok (), a') ∧ IsMat a' (M.insertCols N pos.toNat) := by
  have h1 := h.rows; have h2 := h.cols
  have g1 := hd.rows; have g2 := hd.cols
  have hz := h.zero
  have hnn : M.n ≠ 0 := fun e => hne (hz.2 e)
  have hfit : Fits2 (⟨M.m, M.n + N.n, M.el⟩ : Mat α) := hf
  obtain ⟨d1, d2⟩ := dims_le _ (by simp only; omega) hfit
  simp only at d1 d2
  have c1 : (decide (pos ≥ 0) && decide (pos ≤ a.cols)) = true := by
    rw [Bool.and_eq_true]; exact ⟨decide_eq_true h0, decide_eq_true (by omega)⟩
  have c2 : (src.rows == a.rows) = true := by rw [g1, h1, hc]; simp
  have s1 : iadd a.cols src.cols = .ok (a.cols + src.cols) := iadd_ok (by unfold IsIndex; omega)
  obtain ⟨t, e1, e2⟩ := make_ok (α := α) b (m := a.rows) (n := a.cols + src.cols) (by omega)
    (by omega) (by omega)
    (by rw [h1, g2, h2]; push_cast at hf; exact hf)
  obtain ⟨t1, e3, e4⟩ := copyCols_ok e2 (src := rd2 a) (rows := a.rows) (s1 := 0) (s2 := 0)
    (n := pos) (f := M.el) (by omega) (by right; simp only [Mat.const]; omega)
    (by
      intro i j hi hj
      rw [Int.add_zero]
      exact rd2_ok h (by omega) (by omega))
  obtain ⟨t2, e5, e6⟩ := copyCols_ok e4 (src := src.un2 a) (rows := src.rows) (s1 := 0)
    (s2 := pos) (n := src.cols) (f := N.el) h0 (by right; simp only [Mat.const, Mat.block]; omega)
    (by
      intro i j hi hj
      rw [Int.add_zero]
      exact hd.un2 i j (by omega) (by omega))
  obtain ⟨t3, e7, e8⟩ := copyCols_ok e6 (src := rd2 a) (rows := a.rows) (s1 := pos)
    (s2 := pos + src.cols) (n := a.cols - pos) (f := fun i j => M.el i (j + pos.toNat))
    (by omega) (by right; simp only [Mat.const, Mat.block]; omega)
    (by
      intro i j hi hj
      rw [show (j : Int) + pos = ((j + pos.toNat : Nat) : Int) by omega]
      exact rd2_ok h (by omega) (by omega))
  refine ⟨t3, ?_, isMat_ext e8 ⟨?_, ?_, ?_⟩⟩
  · unfold insertCols
    simp only [Op.get_bind, c1, assertDebug_true, Op.lift_ok_bind]
    rw [if_neg (by omega)]
    simp only [c2, assertDebug_true, Op.lift_ok_bind, s1, e1, copyCols0_eq, e3, e5, e7, Op.set_run]
  · simp only [Mat.block, Mat.const, Mat.insertCols]; omega
  · simp only [Mat.block, Mat.const, Mat.insertCols]; omega
  · intro i j hi hj
    simp only [Mat.block, Mat.const, Mat.insertCols] at hi hj ⊢
    by_cases k1 : j < pos.toNat
    · rw [if_neg (by omega), if_neg (by omega), if_pos (by omega), if_pos k1]; rfl
    · rw [if_neg k1]
      by_cases k2 : j < pos.toNat + N.n
      · rw [if_neg (by omega), if_pos (by omega), if_pos k2]; rfl
      · rw [if_pos (by omega), if_neg k2]
        congr 1
        omega

/-- C38: inserting rows or columns into an empty array adopts the inserted shape. -/
theorem C38_insert_into_empty (b : Build) {a : Arr2 α} {M N : Mat α} {src : Src2 (Arr2 α) α}
    (h : IsMat a M) (hM : M.m = 0) (hd : Denotes2 src a N) (hf : Fits2 N) :
    (∃ a', insertRows b 0 src a = (.ok (), a') ∧ IsMat a' N) ∧
    (∃ a', insertCols b 0 src a = (.ok (), a') ∧ IsMat a' N) := by
  have h1 := h.rows; have h2 := h.cols
  have hn := h.zero.1 hM
  have c1 : (decide ((0 : Int) ≥ 0) && decide (0 ≤ a.rows)) = true := by
    rw [Bool.and_eq_true]; exact ⟨decide_eq_true (by omega), decide_eq_true (by omega)⟩
  have c2 : (decide ((0 : Int) ≥ 0) && decide (0 ≤ a.cols)) = true := by
    rw [Bool.and_eq_true]; exact ⟨decide_eq_true (by omega), decide_eq_true (by omega)⟩
  obtain ⟨t, e1, e2⟩ := C38_resize_and_assign b hd hf
  constructor
  · refine ⟨t, ?_, e2⟩
    unfold insertRows
    simp only [Op.get_bind]
    rw [c1, assertDebug_true, Op.lift_ok_bind, if_pos (by omega)]
    exact e1
  · refine ⟨t, ?_, e2⟩
    unfold insertCols
    simp only [Op.get_bind]
    rw [c2, assertDebug_true, Op.lift_ok_bind, if_pos (by omega)]
    exact e1

/-- C38/C30: wrong positions and mismatched shapes are rejected; the array is unchanged. -/
theorem C38_insert_rejected {b : Build} (hb : b.Checked) (a : Arr2 α) {src : Src2 (Arr2 α) α}
    {pos : Int} :
    ((pos < 0 ∨ a.rows < pos ∨ (¬ (a.rows = 0 ∧ a.cols = 0) ∧ src.cols ≠ a.cols)) →
      insertRows b pos src a = (.trap b.kind, a)) ∧
    ((pos < 0 ∨ a.cols < pos ∨ (¬ (a.rows = 0 ∧ a.cols = 0) ∧ src.rows ≠ a.rows)) →
      insertCols b pos src a = (.trap b.kind, a)) := by
  constructor
  · intro h
    unfold insertRows
    rw [Op.get_bind]
    by_cases h1 : (decide (pos ≥ 0) && decide (pos ≤ a.rows)) = true
    · rw [h1, assertDebug_true, Op.lift_ok_bind]
      simp at h1
      have h2 : ¬ (a.rows = 0 ∧ a.cols = 0) ∧ src.cols ≠ a.cols := by
        rcases h with h | h | h
        · omega
        · omega
        · exact h
      rw [if_neg h2.1, show (src.cols == a.cols) = false by simpa using h2.2, assertDebug_false hb]
      rfl
    · rw [show (decide (pos ≥ 0) && decide (pos ≤ a.rows)) = false by simpa using h1,
        assertDebug_false hb]
      rfl
  · intro h
    unfold insertCols
    rw [Op.get_bind]
    by_cases h1 : (decide (pos ≥ 0) && decide (pos ≤ a.cols)) = true
    · rw [h1, assertDebug_true, Op.lift_ok_bind]
      simp at h1
      have h2 : ¬ (a.rows = 0 ∧ a.cols = 0) ∧ src.rows ≠ a.rows := by
        rcases h with h | h | h
        · omega
        · omega
        · exact h
      rw [if_neg h2.1, show (src.rows == a.rows) = false by simpa using h2.2, assertDebug_false hb]
      rfl
    · rw [show (decide (pos ≥ 0) && decide (pos ≤ a.cols)) = false by simpa using h1,
        assertDebug_false hb]
      rfl

theorem insRow_el (M : Mat α) (xs : List α) (p i j : Nat) :
    (M.insertRows (Mat.ofRow xs) p).el i j =
      if i < p then M.el i j else if i < p + 1 then xs.getD j default else M.el (i - 1) j := rfl

theorem insCol_el (M : Mat α) (xs : List α) (p i j : Nat) :
    (M.insertCols (Mat.ofCol xs) p).el i j =
      if j < p then M.el i j else if j < p + 1 then xs.getD i default else M.el i (j - 1) := rfl

theorem insertRowLoop_ok {a t : Arr2 α} {M : Mat α} (h : IsMat a M) {xs : List α}
    (hx : xs.length = M.n) {un : Int → Res α} (hu : ∀ (i : Nat) (h : i < xs.length), un i = .ok xs[i])
    {pos : Int} (h0 : 0 ≤ pos) (hp : pos ≤ M.m)
    (ht : IsMat t (Mat.const (M.m + 1) M.n default)) :
    ∃ c t', insertRowLoop a pos (xs.length : Int) un t = .ok (c, t') ∧
      IsMat t' (M.insertRows (Mat.ofRow xs) pos.toNat) := by
  unfold insertRowLoop
  have hr : t.rows.toNat = M.m + 1 := by rw [ht.rows]; simp [Mat.const]
  obtain ⟨⟨c, t'⟩, e1, _, e2⟩ := foldN_inv
    (f := fun (i : Nat) (st : Nat × Arr2 α) =>
      if (i : Int) ≠ pos then do
        let t ← foldN (xs.length : Int).toNat (fun j t => do
          let v ← rd2 a st.1 j
          wr2 t i j v) st.2
        pure (st.1 + 1, t)
      else do
        let t ← foldN (xs.length : Int).toNat (fun j t => do
          let v ← un j
          wr2 t i j v) st.2
        pure (st.1, t)) (init := (0, t))
    (fun k st => st.1 = (if k ≤ pos.toNat then k else k - 1) ∧
      IsMat st.2 ((Mat.const (M.m + 1) M.n default).block 0 0 k M.n
        (M.insertRows (Mat.ofRow xs) pos.toNat).el)) t.rows.toNat
    ⟨by simp, isMat_ext ht ⟨rfl, rfl, fun i j _ _ => by
      simp only [Mat.block]; rw [if_neg (by omega)]⟩⟩
    (by
      rintro k ⟨c, s⟩ hk ⟨hc, hs⟩
      simp only at hc hs
      rw [hr] at hk
      by_cases hkp : (k : Int) ≠ pos
      · obtain ⟨s', e1, e2⟩ := row_loop hs (r := k) (c := 0) (n := (xs.length : Int).toNat)
          (f := fun j => M.el c j)
          (body := fun j t => do
            let v ← rd2 a c j
            wr2 t k j v)
          (by simp only [Mat.block, Mat.const]; exact hk)
          (by simp only [Mat.block, Mat.const]; omega)
          (by
            intro j t hj
            rw [rd2_ok h (by split at hc <;> omega) (by omega), Res.ok_bind]
            simp)
        refine ⟨(c + 1, s'), ?_, ?_, isMat_ext e2 ⟨rfl, rfl, fun p q hp' hq => ?_⟩⟩
        · rw [if_pos hkp, e1, Res.ok_bind]; rfl
        · simp only
          by_cases hk1 : k ≤ pos.toNat
          · rw [if_pos hk1] at hc; rw [if_pos (by omega)]; omega
          · rw [if_neg hk1] at hc; rw [if_neg (by omega)]; omega
        · simp only [Mat.block, Mat.const] at hp' hq ⊢
          by_cases hpk : p = k
          · subst hpk
            rw [if_pos (by omega), if_pos (by omega)]
            simp only [insRow_el]
            by_cases hk1 : p ≤ pos.toNat
            · rw [if_pos hk1] at hc; subst hc; rw [if_pos (by omega)]; rfl
            · rw [if_neg hk1] at hc; subst hc; rw [if_neg (by omega), if_neg (by omega)]; rfl
          · rw [if_neg (by omega)]
            by_cases hpk : p < k
            · rw [if_pos (by omega), if_pos (by omega)]
            · rw [if_neg (by omega), if_neg (by omega)]
      · have hkp : (k : Int) = pos := by omega
        obtain ⟨s', e1, e2⟩ := row_loop hs (r := k) (c := 0) (n := (xs.length : Int).toNat)
          (f := fun j => xs.getD j default)
          (body := fun j t => do
            let v ← un j
            wr2 t k j v)
          (by simp only [Mat.block, Mat.const]; exact hk)
          (by simp only [Mat.block, Mat.const]; omega)
          (by
            intro j t hj
            have hj' : j < xs.length := by omega
            rw [hu j hj', Res.ok_bind]
            simp [List.getD_eq_getElem?_getD, List.getElem?_eq_getElem hj'])
        refine ⟨(c, s'), ?_, ?_, isMat_ext e2 ⟨rfl, rfl, fun p q hp' hq => ?_⟩⟩
        · rw [if_neg (fun hn => hn hkp), e1, Res.ok_bind]; rfl
        · simp only
          rw [if_pos (by omega)] at hc; rw [if_neg (by omega)]; omega
        · simp only [Mat.block, Mat.const] at hp' hq ⊢
          by_cases hpk : p = k
          · subst hpk
            rw [if_pos (by omega), if_pos (by omega)]
            simp only [insRow_el]
            rw [if_neg (by omega), if_pos (by omega)]
          · rw [if_neg (by omega)]
            by_cases hpk : p < k
            · rw [if_pos (by omega), if_pos (by omega)]
            · rw [if_neg (by omega), if_neg (by omega)])
  refine ⟨c, t', e1, isMat_ext e2 ⟨?_, ?_, ?_⟩⟩
  · simp [Mat.block, Mat.const, Mat.insertRows, Mat.ofRow]
  · simp [Mat.block, Mat.const, Mat.insertRows]
  · intro i j hi hj
    simp only [Mat.block, Mat.const] at hi hj ⊢
    rw [if_pos (by omega)]
    simp

/-- C38: `insert_row(pos, A)` with a one-dimensional operand. -/
theorem C38_insert_row (b : Build) {a : Arr2 α} {M : Mat α} {src : Src (Arr2 α) α} {xs : List α}
    (h : IsMat a M) (hd : Denotes src a xs) (hne : M.m ≠ 0) (hc : xs.length = M.n)
    (hf : ((M.m + 1 : Nat) : Int) * M.n < 2 ^ 63) {pos : Int} (h0 : 0 ≤ pos) (hp : pos ≤ M.m) :
    ∃ a', insertRow b pos src a = (.ok (), a') ∧
      IsMat a' (M.insertRows (Mat.ofRow xs) pos.toNat) := by
  have h1 := h.rows; have h2 := h.cols
  have hz := h.zero
  obtain ⟨d1, d2⟩ := dims_le (⟨M.m + 1, M.n, M.el⟩ : Mat α) (by simp only; omega) hf
  simp only at d1 d2
  have c1 : (decide (pos ≥ 0) && decide (pos ≤ a.rows)) = true := by
    rw [Bool.and_eq_true]; exact ⟨decide_eq_true h0, decide_eq_true (by omega)⟩
  have c2 : (src.size == a.cols) = true := by rw [hd.1, h2, hc]; simp
  have s1 : iadd a.rows 1 = .ok (a.rows + 1) := iadd_ok (by unfold IsIndex; omega)
  obtain ⟨t, e1, e2⟩ := make_ok (α := α) b (m := a.rows + 1) (n := a.cols) (by omega)
    (by omega) (by omega) (by rw [h1, h2]; push_cast at hf; exact hf)
  obtain ⟨c, t', e3, e4⟩ := insertRowLoop_ok h hc hd.2 h0 hp
    (isMat_ext e2 ⟨by simp only [Mat.const]; omega, by simp only [Mat.const]; omega, fun _ _ _ _ => rfl⟩)
  rw [← hd.1] at e3
  refine ⟨t', ?_, e4⟩
  unfold insertRow
  simp only [Op.get_bind]
  rw [c1, assertDebug_true, Op.lift_ok_bind, if_neg (by omega), c2, assertDebug_true,
    Op.lift_ok_bind, s1, Op.lift_ok_bind, e1, Op.lift_ok_bind, e3, Op.lift_ok_bind]
  rfl

theorem insertColLoop_ok {a t : Arr2 α} {M : Mat α} (h : IsMat a M) {xs : List α}
    (hx : xs.length = M.m) {un : Int → Res α} (hu : ∀ (i : Nat) (h : i < xs.length), un i = .ok xs[i])
    {pos : Int} (h0 : 0 ≤ pos) (hp : pos ≤ M.n)
    (ht : IsMat t (Mat.const M.m (M.n + 1) default)) :
    ∃ t', insertColLoop a pos (xs.length : Int) un t = .ok t' ∧
      IsMat t' (M.insertCols (Mat.ofCol xs) pos.toNat) := by
  unfold insertColLoop
  have hr : t.cols.toNat = M.n + 1 := by rw [ht.cols]; simp [Mat.const]
  obtain ⟨t', e1, e2⟩ := foldN_inv
    (f := fun (i : Nat) (t' : Arr2 α) => do
      let st ← foldN t.cols.toNat (fun j (st : Nat × Arr2 α) =>
        if (j : Int) ≠ pos then do
          let v ← rd2 a i st.1
          let t ← wr2 st.2 i j v
          pure (st.1 + 1, t)
        else do
          let v ← un i
          let t ← wr2 st.2 i j v
          pure (st.1, t)) (0, t')
      pure st.2) (init := t)
    (fun k t => IsMat t ((Mat.const M.m (M.n + 1) default).block 0 0 k (M.n + 1)
      (M.insertCols (Mat.ofCol xs) pos.toNat).el)) (xs.length : Int).toNat
    (isMat_ext ht ⟨rfl, rfl, fun i j _ _ => by
      simp only [Mat.block]; rw [if_neg (by omega)]⟩)
    (by
      intro i s hi hs
      have hi' : i < M.m := by omega
      obtain ⟨⟨c, s'⟩, e1, _, e2⟩ := foldN_inv
        (f := fun j (st : Nat × Arr2 α) =>
          if (j : Int) ≠ pos then do
            let v ← rd2 a i st.1
            let t ← wr2 st.2 i j v
            pure (st.1 + 1, t)
          else do
            let v ← un i
            let t ← wr2 st.2 i j v
            pure (st.1, t)) (init := (0, s))
        (fun k st => st.1 = (if k ≤ pos.toNat then k else k - 1) ∧
          IsMat st.2 (((Mat.const M.m (M.n + 1) default).block 0 0 i (M.n + 1)
            (M.insertCols (Mat.ofCol xs) pos.toNat).el).block i 0 1 k
              (fun _ q => (M.insertCols (Mat.ofCol xs) pos.toNat).el i q))) t.cols.toNat
        ⟨by simp, isMat_ext hs ⟨rfl, rfl, fun p q _ _ => by
          generalize (Mat.const M.m (M.n + 1) default).block 0 0 i (M.n + 1)
              (M.insertCols (Mat.ofCol xs) pos.toNat).el = B
          simp only [Mat.block]; rw [if_neg (by omega)]⟩⟩
        (by
          rintro j ⟨c, s⟩ hj ⟨hc, hs⟩
          simp only at hc hs
          rw [hr] at hj
          have step : ∀ v, v = (M.insertCols (Mat.ofCol xs) pos.toNat).el i j →
              ∃ s', wr2 s i j v = .ok s' ∧ IsMat s' (((Mat.const M.m (M.n + 1) default).block 0 0 i (M.n + 1)
            (M.insertCols (Mat.ofCol xs) pos.toNat).el).block i 0 1 (j + 1)
              (fun _ q => (M.insertCols (Mat.ofCol xs) pos.toNat).el i q)) := by
            rintro v rfl
            obtain ⟨s', e1, e2⟩ := wr2_ok hs (i := i) (j := j) hi' hj
              ((M.insertCols (Mat.ofCol xs) pos.toNat).el i j)
            refine ⟨s', e1, isMat_ext e2 ⟨rfl, rfl, fun p q hp' hq => ?_⟩⟩
            simp only [Mat.set]
            generalize hB : (Mat.const M.m (M.n + 1) default).block 0 0 i (M.n + 1)
              (M.insertCols (Mat.ofCol xs) pos.toNat).el = B
            simp only [Mat.block]
            by_cases hpq : p = i ∧ q = j
            · obtain ⟨rfl, rfl⟩ := hpq
              rw [if_pos ⟨rfl, rfl⟩, if_pos (by omega)]
              simp
            · rw [if_neg hpq]
              by_cases h3 : p = i ∧ q < j
              · rw [if_pos (by omega), if_pos (by omega)]
              · rw [if_neg (by omega), if_neg (by omega)]
          by_cases hjp : (j : Int) ≠ pos
          · obtain ⟨s', e1, e2⟩ := step (M.el i c) (by
              simp only [insCol_el]
              by_cases hk1 : j ≤ pos.toNat
              · rw [if_pos hk1] at hc; subst hc; rw [if_pos (by omega)]
              · rw [if_neg hk1] at hc; subst hc; rw [if_neg (by omega), if_neg (by omega)])
            refine ⟨(c + 1, s'), ?_, ?_, e2⟩
            · rw [if_pos hjp, rd2_ok h hi' (by split at hc <;> omega), Res.ok_bind, e1, Res.ok_bind]
              rfl
            · simp only
              by_cases hk1 : j ≤ pos.toNat
              · rw [if_pos hk1] at hc; rw [if_pos (by omega)]; omega
              · rw [if_neg hk1] at hc; rw [if_neg (by omega)]; omega
          · have hjp : (j : Int) = pos := by omega
            have hix : i < xs.length := by omega
            obtain ⟨s', e1, e2⟩ := step xs[i] (by
              simp only [insCol_el]
              rw [if_neg (by omega), if_pos (by omega)]
              simp [List.getD_eq_getElem?_getD, List.getElem?_eq_getElem hix])
            refine ⟨(c, s'), ?_, ?_, e2⟩
            · rw [if_neg (fun hn => hn hjp), hu i hix, Res.ok_bind, e1, Res.ok_bind]
              rfl
            · simp only
              rw [if_pos (by omega)] at hc; rw [if_neg (by omega)]; omega)
      refine ⟨s', ?_, isMat_ext e2 ⟨rfl, rfl, fun p q hp' hq => ?_⟩⟩
      · rw [e1, Res.ok_bind]; rfl
      · simp only [Mat.block, Mat.const] at hp' hq ⊢
        by_cases hpk : p = i
        · subst hpk
          rw [if_pos (by omega), if_pos (by omega)]
          rfl
        · rw [if_neg (by omega)]
          by_cases hpk : p < i
          · rw [if_pos (by omega), if_pos (by omega)]
          · rw [if_neg (by omega), if_neg (by omega)])
  refine ⟨t', e1, isMat_ext e2 ⟨?_, ?_, ?_⟩⟩
  · simp [Mat.block, Mat.const, Mat.insertCols]
  · simp [Mat.block, Mat.const, Mat.insertCols, Mat.ofCol]
  · intro i j hi hj
    simp only [Mat.block, Mat.const] at hi hj ⊢
    rw [if_pos (by omega)]
    simp

/-- C38: `insert_col(pos, A)` with a one-dimensional operand. -/
theorem C38_insert_col (b : Build) {a : Arr2 α} {M : Mat α} {src : Src (Arr2 α) α} {xs : List α}
    (h : IsMat a M) (hd : Denotes src a xs) (hne : M.m ≠ 0) (hc : xs.length = M.m)
    (hf : (M.m : Int) * ((M.n + 1 : Nat) : Int) < 2 ^ 63) {pos : Int} (h0 : 0 ≤ pos) (hp : pos ≤ M.n) :
    ∃ a', insertCol b pos src a = (.ok (), a') ∧
      IsMat a' (M.insertCols (Mat.ofCol xs) pos.toNat) := by
  have h1 := h.rows; have h2 := h.cols
  have hz := h.zero
  obtain ⟨d1, d2⟩ := dims_le (⟨M.m, M.n + 1, M.el⟩ : Mat α) (by simp only; omega) hf
  simp only at d1 d2
  have c1 : (decide (pos ≥ 0) && decide (pos ≤ a.cols)) = true := by
    rw [Bool.and_eq_true]; exact ⟨decide_eq_true h0, decide_eq_true (by omega)⟩
  have c2 : (src.size == a.rows) = true := by rw [hd.1, h1, hc]; simp
  have s1 : iadd a.cols 1 = .ok (a.cols + 1) := iadd_ok (by unfold IsIndex; omega)
  obtain ⟨t, e1, e2⟩ := make_ok (α := α) b (m := a.rows) (n := a.cols + 1) (by omega)
    (by omega) (by omega) (by rw [h1, h2]; push_cast at hf; exact hf)
  obtain ⟨t', e3, e4⟩ := insertColLoop_ok h hc hd.2 h0 hp
    (isMat_ext e2 ⟨by simp only [Mat.const]; omega, by simp only [Mat.const]; omega, fun _ _ _ _ => rfl⟩)
  rw [← hd.1] at e3
  refine ⟨t', ?_, e4⟩
  unfold insertCol
  simp only [Op.get_bind]
  rw [c1, assertDebug_true, Op.lift_ok_bind, if_neg (by omega), c2, assertDebug_true,
    Op.lift_ok_bind, s1, Op.lift_ok_bind, e1, Op.lift_ok_bind, e3, Op.lift_ok_bind]
  rfl

/-- C38: a row or column inserted into an empty array gives a one-row (one-column) matrix. -/
theorem C38_insert_row_into_empty (b : Build) {a : Arr2 α} {M : Mat α} (h : IsMat a M)
    (hM : M.m = 0) {src : Src (Arr2 α) α} {xs : List α} (hd : ∀ s, Denotes src s xs)
    (hx : xs ≠ []) (hf : Sized xs) :
    (∃ a', insertRow b 0 src a = (.ok (), a') ∧ IsMat a' (Mat.ofRow xs)) ∧
    (∃ a', insertCol b 0 src a = (.ok (), a') ∧ IsMat a' (Mat.ofCol xs)) := by
  have h1 := h.rows; have h2 := h.cols
  have hn := h.zero.1 hM
  have hl : 0 < xs.length := List.length_pos_iff.2 hx
  have hs := (hd a).1
  have c1 : (decide ((0 : Int) ≥ 0) && decide (0 ≤ a.rows)) = true := by
    rw [Bool.and_eq_true]; exact ⟨decide_eq_true (by omega), decide_eq_true (by omega)⟩
  have c2 : (decide ((0 : Int) ≥ 0) && decide (0 ≤ a.cols)) = true := by
    rw [Bool.and_eq_true]; exact ⟨decide_eq_true (by omega), decide_eq_true (by omega)⟩
  unfold Sized at hf
  constructor
  · obtain ⟨t, e1, e2⟩ := C35_resize_preserve b h (m := 1) (n := src.size) (by omega) (by omega)
      (by omega) (by omega)
    obtain ⟨t', e3, e4⟩ := copyLinear_ok (un := src.un) (N := Mat.ofRow xs) (size := src.size) e2
      (by simp [Mat.resized, Mat.ofRow]) (by simp only [Mat.resized, Mat.ofRow]; omega)
      (by simp only [Mat.ofRow]; omega)
      (by
        intro i j t hi hj _
        simp only [Mat.resized] at hi hj ⊢
        have : i = 0 := by simp at hi; omega
        subst this
        have hj' : j < xs.length := by omega
        rw [show (0 * src.size.toNat + j) = j by omega, (hd t).2 j hj']
        simp [Mat.ofRow, List.getD_eq_getElem?_getD, List.getElem?_eq_getElem hj'])
    refine ⟨t', ?_, e4⟩
    unfold insertRow
    simp only [Op.get_bind]
    rw [c1, assertDebug_true, Op.lift_ok_bind, if_pos (by omega)]
    rw [Op.bind_run, e1]
    exact e3
  · obtain ⟨t, e1, e2⟩ := C35_resize_preserve b h (m := src.size) (n := 1) (by omega) (by omega)
      (by omega) (by omega)
    obtain ⟨t', e3, e4⟩ := copyLinear_ok (un := src.un) (N := Mat.ofCol xs) (size := src.size) e2
      (by simp only [Mat.resized, Mat.ofCol]; omega) (by simp [Mat.resized, Mat.ofCol])
      (by simp only [Mat.ofCol]; omega)
      (by
        intro i j t hi hj _
        simp only [Mat.resized] at hi hj ⊢
        have : j = 0 := by simp at hj; omega
        subst this
        have hi' : i < xs.length := by omega
        rw [show (i * (1 : Int).toNat + 0) = i by simp, (hd t).2 i hi']
        simp [Mat.ofCol, List.getD_eq_getElem?_getD, List.getElem?_eq_getElem hi'])
    refine ⟨t', ?_, e4⟩
    unfold insertCol
    simp only [Op.get_bind]
    rw [c2, assertDebug_true, Op.lift_ok_bind, if_pos (by omega)]
    rw [Op.bind_run, e1]
    exact e3

/-- C38/C30: a row (column) at a wrong position or of the wrong length is rejected, and so is an
empty row (column) for an empty array; the array is unchanged. -/
theorem C38_insert_row_rejected {b : Build} (hb : b.Checked) (a : Arr2 α) {src : Src (Arr2 α) α}
    {pos : Int} :
    ((pos < 0 ∨ a.rows < pos ∨ (¬ (a.rows = 0 ∧ a.cols = 0) ∧ src.size ≠ a.cols) ∨
        (a.rows = 0 ∧ a.cols = 0 ∧ src.size = 0)) →
      insertRow b pos src a = (.trap b.kind, a)) ∧
    ((pos < 0 ∨ a.cols < pos ∨ (¬ (a.rows = 0 ∧ a.cols = 0) ∧ src.size ≠ a.rows) ∨
        (a.rows = 0 ∧ a.cols = 0 ∧ src.size = 0)) →
      insertCol b pos src a = (.trap b.kind, a)) := by
  constructor
  · intro h
    unfold insertRow
    rw [Op.get_bind]
    by_cases h1 : (decide (pos ≥ 0) && decide (pos ≤ a.rows)) = true
    · rw [h1, assertDebug_true, Op.lift_ok_bind]
      simp at h1
      rw [if_neg (by omega)]
      by_cases h2 : src.size = a.cols
      · have h3 : a.rows = 0 ∧ a.cols = 0 := by omega
        rw [show (src.size == a.cols) = true by simpa using h2, assertDebug_true, Op.lift_ok_bind]
        rw [h3.1, h3.2, iadd_ok (by unfold IsIndex; omega), Op.lift_ok_bind,
          make_checked hb (by unfold IsIndex; omega) (by omega)]
        rfl
      · rw [show (src.size == a.cols) = false by simpa using h2, assertDebug_false hb]
        rfl
    · rw [show (decide (pos ≥ 0) && decide (pos ≤ a.rows)) = false by simpa using h1,
        assertDebug_false hb]
      rfl
  · intro h
    unfold insertCol
    rw [Op.get_bind]
    by_cases h1 : (decide (pos ≥ 0) && decide (pos ≤ a.cols)) = true
    · rw [h1, assertDebug_true, Op.lift_ok_bind]
      simp at h1
      rw [if_neg (by omega)]
      by_cases h2 : src.size = a.rows
      · have h3 : a.rows = 0 ∧ a.cols = 0 := by omega
        rw [show (src.size == a.rows) = true by simpa using h2, assertDebug_true, Op.lift_ok_bind]
        rw [h3.1, h3.2, iadd_ok (by unfold IsIndex; omega), Op.lift_ok_bind,
          make_checked hb (by unfold IsIndex; omega) (by omega)]
        rfl
      · rw [show (src.size == a.rows) = false by simpa using h2, assertDebug_false hb]
        rfl
    · rw [show (decide (pos ≥ 0) && decide (pos ≤ a.cols)) = false by simpa using h1,
        assertDebug_false hb]
      rfl

/-- C38: the `_front` and `_back` forms are insertion at position 0 and at the end. -/
theorem C38_insert_ends (b : Build) (a : Arr2 α) (src : Src2 (Arr2 α) α) (row : Src (Arr2 α) α) :
    insertRowsFront b src a = insertRows b 0 src a ∧
    insertRowsBack b src a = insertRows b a.rows src a ∧
    insertColsFront b src a = insertCols b 0 src a ∧
    insertColsBack b src a = insertCols b a.cols src a ∧
    insertRowFront b row a = insertRow b 0 row a ∧
    insertRowBack b row a = insertRow b a.rows row a ∧
    insertColFront b row a = insertCol b 0 row a ∧
    insertColBack b row a = insertCol b a.cols row a :=
  ⟨rfl, rfl, rfl, rfl, rfl, rfl, rfl, rfl⟩

example : (insertRow ⟨false, true, false⟩ 1 (Src.ofList [7, 8]) ⟨2, 2, [1, 2, 3, 4]⟩ :
    Res Unit × Arr2 Int) = (.ok (), ⟨3, 2, [1, 2, 7, 8, 3, 4]⟩) := by decide
example : (insertCol ⟨false, true, false⟩ 1 (Src.ofList [7, 8]) ⟨2, 2, [1, 2, 3, 4]⟩ :
    Res Unit × Arr2 Int) = (.ok (), ⟨2, 3, [1, 7, 2, 3, 8, 4]⟩) := by decide
example : (insertRows ⟨false, true, false⟩ 1 (toSrc ⟨1, 2, [7, 8]⟩) ⟨2, 2, [1, 2, 3, 4]⟩ :
    Res Unit × Arr2 Int) = (.ok (), ⟨3, 2, [1, 2, 7, 8, 3, 4]⟩) := by decide
example : (insertCols ⟨false, true, false⟩ 1 (toSrc ⟨2, 1, [7, 8]⟩) ⟨2, 2, [1, 2, 3, 4]⟩ :
    Res Unit × Arr2 Int) = (.ok (), ⟨2, 3, [1, 7, 2, 3, 8, 4]⟩) := by decide
example : (insertRow ⟨false, true, false⟩ 0 (Src.ofList [7, 8]) empty : Res Unit × Arr2 Int) =
    (.ok (), ⟨1, 2, [7, 8]⟩) := by decide

/-! ### C39: removal undoes insertion -/

theorem same_refl (M : Mat α) : M.Same M := ⟨rfl, rfl, fun _ _ _ _ => rfl⟩

/-- C39: removing the rows just inserted restores the array, element for element. -/
theorem C39_remove_inserted_rows (b : Build) {a : Arr2 α} {M N : Mat α} {src : Src2 (Arr2 α) α}
    (h : IsMat a M) (hd : Denotes2 src a N) (hne : M.m ≠ 0) (hc : N.n = M.n)
    (hf : ((M.m + N.m : Nat) : Int) * M.n < 2 ^ 63) {pos : Int} (h0 : 0 ≤ pos) (hp : pos ≤ M.m) :
    ∃ a', insertRows b pos src a = (.ok (), a') ∧ removeRows b pos N.m a' = (.ok (), a) := by
  obtain ⟨a', e1, e2⟩ := C38_insert_rows b h hd hne hc hf h0 hp
  have hN : N.m ≠ 0 := by have := hd.zero; have := h.zero; omega
  obtain ⟨a'', e3, e4⟩ := C36_remove_rows b e2 hf (pos := pos.toNat) (count := N.m)
    (by omega) (by omega) (by simp only [Mat.insertRows]; omega)
  refine ⟨a', e1, ?_⟩
  rw [show ((pos.toNat : Nat) : Int) = pos by omega] at e3
  simp only [Int.toNat_natCast] at e4
  rw [e3]
  have : a'' = a := isMat_unique (isMat_ext e4 ⟨?_, ?_, ?_⟩) h
  · rw [this]
  · simp [Mat.removeRows, Mat.insertRows]
  · simp [Mat.removeRows, Mat.insertRows, hne]
  · intro i j hi hj
    simp only [Mat.removeRows, Mat.insertRows] at hi hj ⊢
    by_cases hk : i < pos.toNat
    · rw [if_pos hk, if_pos hk]
    · rw [if_neg hk, if_neg (by omega), if_neg (by omega)]; congr 1; omega

/-- C39: removing the columns just inserted restores the array. -/
theorem C39_remove_inserted_cols (b : Build) {a : Arr2 α} {M N : Mat α} {src : Src2 (Arr2 α) α}
    (h : IsMat a M) (hd : Denotes2 src a N) (hne : M.m ≠ 0) (hc : N.m = M.m)
    (hf : (M.m : Int) * ((M.n + N.n : Nat) : Int) < 2 ^ 63) {pos : Int} (h0 : 0 ≤ pos)
    (hp : pos ≤ M.n) :
    ∃ a', insertCols b pos src a = (.ok (), a') ∧ removeCols b pos N.n a' = (.ok (), a) := by
  obtain ⟨a', e1, e2⟩ := C38_insert_cols b h hd hne hc hf h0 hp
  have hnn : M.n ≠ 0 := by have := h.zero; omega
  have hN : N.n ≠ 0 := by have := hd.zero; omega
  obtain ⟨a'', e3, e4⟩ := C36_remove_cols b e2 hf (pos := pos.toNat) (count := N.n)
    (by omega) (by omega) (by simp only [Mat.insertCols]; omega)
  refine ⟨a', e1, ?_⟩
  rw [show ((pos.toNat : Nat) : Int) = pos by omega] at e3
  simp only [Int.toNat_natCast] at e4
  rw [e3]
  have : a'' = a := isMat_unique (isMat_ext e4 ⟨?_, ?_, ?_⟩) h
  · rw [this]
  · simp [Mat.removeCols, Mat.insertCols, hnn]
  · simp [Mat.removeCols, Mat.insertCols]
  · intro i j hi hj
    simp only [Mat.removeCols, Mat.insertCols] at hi hj ⊢
    by_cases hk : j < pos.toNat
    · rw [if_pos hk, if_pos hk]
    · rw [if_neg hk, if_neg (by omega), if_neg (by omega)]; congr 1; omega

/-- C39: removing the single row or column just inserted restores the array. -/
theorem C39_remove_inserted_row_col (b : Build) {a : Arr2 α} {M : Mat α} {src : Src (Arr2 α) α}
    {xs : List α} (h : IsMat a M) (hd : Denotes src a xs) (hne : M.m ≠ 0) {pos : Int}
    (h0 : 0 ≤ pos) :
    (xs.length = M.n → ((M.m + 1 : Nat) : Int) * M.n < 2 ^ 63 → pos ≤ M.m →
      ∃ a', insertRow b pos src a = (.ok (), a') ∧ removeRow b pos a' = (.ok (), a)) ∧
    (xs.length = M.m → (M.m : Int) * ((M.n + 1 : Nat) : Int) < 2 ^ 63 → pos ≤ M.n →
      ∃ a', insertCol b pos src a = (.ok (), a') ∧ removeCol b pos a' = (.ok (), a)) := by
  constructor
  · intro hx hf hp
    obtain ⟨a', e1, e2⟩ := C38_insert_row b h hd hne hx hf h0 hp
    obtain ⟨s, _⟩ := C36_remove_special b e2 hf
    obtain ⟨a'', e3, e4⟩ := s pos.toNat (by simp only [Mat.insertRows, Mat.ofRow]; omega)
    refine ⟨a', e1, ?_⟩
    rw [show ((pos.toNat : Nat) : Int) = pos by omega] at e3
    rw [e3]
    have : a'' = a := isMat_unique (isMat_ext e4 ⟨?_, ?_, ?_⟩) h
    · rw [this]
    · simp [Mat.removeRows, Mat.insertRows, Mat.ofRow]
    · simp [Mat.removeRows, Mat.insertRows, Mat.ofRow, hne]
    · intro i j hi hj
      simp only [Mat.removeRows, insRow_el]
      by_cases hk : i < pos.toNat
      · simp [hk]
      · rw [if_neg hk, if_neg (by omega), if_neg (by omega)]; congr 1
  · intro hx hf hp
    have hnn : M.n ≠ 0 := by have := h.zero; omega
    obtain ⟨a', e1, e2⟩ := C38_insert_col b h hd hne hx hf h0 hp
    obtain ⟨_, s, _⟩ := C36_remove_special b e2 hf
    obtain ⟨a'', e3, e4⟩ := s pos.toNat (by simp only [Mat.insertCols, Mat.ofCol]; omega)
    refine ⟨a', e1, ?_⟩
    rw [show ((pos.toNat : Nat) : Int) = pos by omega] at e3
    rw [e3]
    have : a'' = a := isMat_unique (isMat_ext e4 ⟨?_, ?_, ?_⟩) h
    · rw [this]
    · simp [Mat.removeCols, Mat.insertCols, Mat.ofCol, hnn]
    · simp [Mat.removeCols, Mat.insertCols, Mat.ofCol]
    · intro i j hi hj
      simp only [Mat.removeCols, insCol_el]
      by_cases hk : j < pos.toNat
      · simp [hk]
      · rw [if_neg hk, if_neg (by omega), if_neg (by omega)]; congr 1

/-- The hypotheses of the inverse laws are met by a 2×2 array and a row of two elements. -/
example : ∃ a', insertRow ⟨false, true, false⟩ 1 (Src.ofList [7, 8]) (⟨2, 2, [1, 2, 3, 4]⟩ : Arr2 Int) =
    (.ok (), a') ∧ removeRow ⟨false, true, false⟩ 1 a' = (.ok (), ⟨2, 2, [1, 2, 3, 4]⟩) :=
  ⟨⟨3, 2, [1, 2, 7, 8, 3, 4]⟩, by decide, by decide⟩

end Spp.Props
