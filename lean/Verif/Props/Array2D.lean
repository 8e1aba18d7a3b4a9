import Verif.Lemmas.Array2D

/- C35-C39: resizing, removal and insertion of rows and columns of two-dimensional arrays. -/

set_option linter.unusedSectionVars false

namespace Spp.Props
open Spec Arr2

variable {α : Type} [Inhabited α]

/-- The stored elements fit into an `index_t`. -/
abbrev Fits2 (M : Mat α) : Prop := (M.m : Int) * M.n < 2 ^ 63

theorem dims_le (M : Mat α) (hz : M.m = 0 ↔ M.n = 0) (hf : Fits2 M) :
    (M.m : Int) < 2 ^ 63 ∧ (M.n : Int) < 2 ^ 63 := by
  unfold Fits2 at hf
  by_cases h : M.m = 0
  · have := hz.1 h; omega
  · have hn : M.n ≠ 0 := fun h' => h (hz.2 h')
    have h1 : (M.m : Int) * 1 ≤ M.m * M.n := Int.mul_le_mul_of_nonneg_left (by omega) (by omega)
    have h2 : 1 * (M.n : Int) ≤ M.m * M.n := Int.mul_le_mul_of_nonneg_right (by omega) (by omega)
    omega

theorem sub_fits {m n k : Nat} (h : (m : Int) * n < 2 ^ 63) : ((m - k : Nat) : Int) * n < 2 ^ 63 := by
  have : ((m - k : Nat) : Int) * n ≤ m * n := Int.mul_le_mul_of_nonneg_right (by omega) (by omega)
  omega

theorem semiValid_iff {m n : Int} : semiValid m n = true ↔ (m = 0 ↔ n = 0) := by
  unfold semiValid
  by_cases h1 : m = 0
  · by_cases h2 : n = 0
    · simp [h1, h2]
    · rw [show (n == 0) = false by simpa using h2]; simp [h1, h2]
  · rw [show (m == 0) = false by simpa using h1]
    by_cases h2 : n = 0
    · simp [h1, h2]
    · rw [show (n == 0) = false by simpa using h2]; simp [h1, h2]

/-! ### C35: resize -/

theorem resize_checks (b : Build) {m n : Int} (hm : 0 ≤ m) (hn : 0 ≤ n) (hz : m = 0 ↔ n = 0)
    (k : Op (Arr2 α) Unit) (a : Arr2 α) :
    (do
      Op.lift (assertDebug b (decide (m ≥ 0)))
      Op.lift (assertDebug b (decide (n ≥ 0)))
      Op.lift (assertDebug b (semiValid m n))
      k : Op (Arr2 α) Unit) a = k a := by
  have e1 : decide (m ≥ 0) = true := by simpa using hm
  have e2 : decide (n ≥ 0) = true := by simpa using hn
  rw [e1, e2, semiValid_iff.2 hz]
  simp only [assertDebug_true, Op.lift_ok_bind]

/-- C35: `resize(m, n, true)` keeps the overlapping top-left block and fills the rest with zero. -/
theorem C35_resize_preserve (b : Build) {a : Arr2 α} {M : Mat α} (h : IsMat a M) {m n : Int}
    (hm : 0 ≤ m) (hn : 0 ≤ n) (hz : m = 0 ↔ n = 0) (hf : m * n < 2 ^ 63) :
    ∃ a', resize b m n true a = (.ok (), a') ∧ IsMat a' (M.resized m.toNat n.toNat) := by
  unfold resize
  rw [resize_checks b hm hn hz]
  simp only [Op.get_bind]
  by_cases hs : m = a.rows ∧ n = a.cols
  · rw [if_neg (fun hn => hn hs)]
    have h1 := h.rows; have h2 := h.cols
    refine ⟨a, rfl, isMat_ext h ⟨?_, ?_, ?_⟩⟩
    · simp [Mat.resized]; omega
    · simp [Mat.resized]; omega
    · intro i j hi hj
      simp [Mat.resized, hi, hj]
  · rw [if_pos hs]
    obtain ⟨t, e1, e2⟩ := make_ok (α := α) b hm hn hz hf
    have h1 := h.rows; have h2 := h.cols
    obtain ⟨t', e3, e4⟩ := block_loop' (r := 0) (c := 0) e2
      (m := (min a.rows m).toNat) (n := (min a.cols n).toNat) (f := M.el)
      (body := fun i j t => do
          let v ← rd2 a i j
          wr2 t i j v)
      (by simp only [Mat.const]; omega)
      (by
        intro i j t hi hj
        rw [rd2_ok h (by omega) (by omega), Res.ok_bind]; simp)
    refine ⟨t', ?_, isMat_ext e4 ⟨rfl, rfl, fun i j hi hj => ?_⟩⟩
    · simp only [if_true, e1, Op.lift_ok_bind, e3, Op.set_run]
    · simp only [Mat.block, Mat.const, Mat.resized] at hi hj ⊢
      by_cases hc : i < M.m ∧ j < M.n
      · rw [if_pos hc, if_pos (by omega)]; simp
      · rw [if_neg hc, if_neg (by omega)]

/-- C35: `resize(m, n, false)` to a different number of elements gives zeros. -/
theorem C35_resize_reset (b : Build) {a : Arr2 α} {M : Mat α} (h : IsMat a M) (hM : Fits2 M)
    {m n : Int} (hm : 0 ≤ m) (hn : 0 ≤ n) (hz : m = 0 ↔ n = 0) (hf : m * n < 2 ^ 63)
    (hne : m * n ≠ (M.m : Int) * M.n) :
    ∃ a', resize b m n false a = (.ok (), a') ∧ IsMat a' (Mat.const m.toNat n.toNat default) := by
  unfold resize
  rw [resize_checks b hm hn hz]
  simp only [Op.get_bind]
  have h1 := h.rows; have h2 := h.cols
  have h0 : 0 ≤ m * n := Int.mul_nonneg hm hn
  have h0' : 0 ≤ (M.m : Int) * M.n := Int.mul_nonneg (by omega) (by omega)
  rw [if_pos (by rintro ⟨rfl, rfl⟩; rw [h1, h2] at hne; exact hne rfl)]
  obtain ⟨t, e1, e2⟩ := make_ok (α := α) b hm hn hz hf
  have hp : imul m n = .ok (m * n) := imul_ok (by unfold IsIndex; omega)
  have hq : imul a.rows a.cols = .ok ((M.m : Int) * M.n) := by
    rw [h1, h2]; exact imul_ok (by unfold IsIndex; unfold Fits2 at hM; omega)
  refine ⟨t, ?_, e2⟩
  rw [if_neg (by simp), hp, Op.lift_ok_bind, hq, Op.lift_ok_bind, if_pos hne, e1, Op.lift_ok_bind,
    Op.set_run]

/-- C35: `resize(m, n, false)` to the same number of elements lays the old elements out anew in
row-major order. -/
theorem C35_resize_reinterpret (b : Build) {a : Arr2 α} {M : Mat α} (h : IsMat a M) (hM : Fits2 M)
    {m n : Int} (hm : 0 ≤ m) (hn : 0 ≤ n) (hz : m = 0 ↔ n = 0)
    (he : m * n = (M.m : Int) * M.n) :
    ∃ a', resize b m n false a = (.ok (), a') ∧ IsMat a' (M.reshaped m.toNat n.toNat) ∧
      a'.data = a.data := by
  have h1 := h.rows; have h2 := h.cols
  have e : m.toNat * n.toNat = M.m * M.n := by
    have e1 : (m.toNat : Int) = m := by omega
    have e2 : (n.toNat : Int) = n := by omega
    rw [← e1, ← e2] at he
    exact_mod_cast he
  have key : IsMat (⟨m, n, a.data⟩ : Arr2 α) (M.reshaped m.toNat n.toNat) := by
    refine ⟨by simp [Mat.reshaped]; omega, by simp [Mat.reshaped]; omega,
      by simp only [Mat.reshaped]; rw [h.size, e], by simp only [Mat.reshaped]; omega, ?_⟩
    intro i j hi hj
    simp only [Mat.reshaped] at hi hj ⊢
    have hlt := flat_lt hi hj
    rw [e] at hlt
    obtain ⟨u, v⟩ := unflat_lt hlt
    have := h.el _ _ u v
    rw [unflat] at this
    exact this
  refine ⟨⟨m, n, a.data⟩, ?_, key, rfl⟩
  unfold resize
  rw [resize_checks b hm hn hz]
  simp only [Op.get_bind]
  by_cases hs : m = a.rows ∧ n = a.cols
  · rw [if_neg (fun hn => hn hs)]
    obtain ⟨rfl, rfl⟩ := hs
    rfl
  · rw [if_pos hs]
    have h0' : 0 ≤ (M.m : Int) * M.n := Int.mul_nonneg (by omega) (by omega)
    have hp : imul m n = .ok ((M.m : Int) * M.n) := by
      rw [← he]; exact imul_ok (by unfold IsIndex; unfold Fits2 at hM; omega)
    have hq : imul a.rows a.cols = .ok ((M.m : Int) * M.n) := by
      rw [h1, h2]; exact imul_ok (by unfold IsIndex; unfold Fits2 at hM; omega)
    rw [if_neg (by simp), hp, Op.lift_ok_bind, hq, Op.lift_ok_bind, if_neg (fun hn => hn rfl)]
    rfl

/-- C35: sizes that are negative or have exactly one zero are rejected in debug builds, and the
array is unchanged. -/
theorem C35_resize_rejected {b : Build} (hb : b.Checked) (a : Arr2 α) {m n : Int} (p : Bool)
    (h : m < 0 ∨ n < 0 ∨ ¬ (m = 0 ↔ n = 0)) : resize b m n p a = (.trap b.kind, a) := by
  unfold resize
  by_cases h1 : m < 0
  · have : decide (m ≥ 0) = false := by simp; omega
    rw [this, assertDebug_false hb]; rfl
  · have e1 : decide (m ≥ 0) = true := by simp; omega
    rw [e1, assertDebug_true, Op.lift_ok_bind]
    by_cases h2 : n < 0
    · have : decide (n ≥ 0) = false := by simp; omega
      rw [this, assertDebug_false hb]; rfl
    · have e2 : decide (n ≥ 0) = true := by simp; omega
      rw [e2, assertDebug_true, Op.lift_ok_bind]
      have h3 : semiValid m n = false := by
        rcases h with h | h | h
        · omega
        · omega
        · cases hh : semiValid m n
          · rfl
          · exact absurd (semiValid_iff.1 hh) h
      rw [h3, assertDebug_false hb]; rfl

example : ∃ a' : Arr2 Int, resize ⟨false, true, false⟩ 1 3 true ⟨2, 2, [1, 2, 3, 4]⟩ = (.ok (), a') ∧
    a' = ⟨1, 3, [1, 2, 0]⟩ := ⟨_, rfl, by decide⟩
example : ∃ a' : Arr2 Int, resize ⟨false, true, false⟩ 4 1 false ⟨2, 2, [1, 2, 3, 4]⟩ = (.ok (), a') ∧
    a' = ⟨4, 1, [1, 2, 3, 4]⟩ := ⟨_, rfl, by decide⟩
example : IsMat (⟨2, 2, [1, 2, 3, 4]⟩ : Arr2 Int) ⟨2, 2, fun i j => 2 * i + j + 1⟩ := by
  refine ⟨rfl, rfl, rfl, by decide, ?_⟩
  intro i j hi hj
  match i, j with
  | 0, 0 => rfl
  | 0, 1 => rfl
  | 1, 0 => rfl
  | 1, 1 => rfl
  | _ + 2, _ => exact absurd hi (by simp)
  | _, _ + 2 => exact absurd hj (by simp)

/-! ### C36: removal -/

/-- C36: `remove_rows(pos, count)` deletes exactly these rows. -/
theorem C36_remove_rows (b : Build) {a : Arr2 α} {M : Mat α} (h : IsMat a M) (hM : Fits2 M)
    {pos count : Int} (hp : 0 ≤ pos) (hc : 0 < count) (hpc : pos + count ≤ M.m) :
    ∃ a', removeRows b pos count a = (.ok (), a') ∧
      IsMat a' (M.removeRows pos.toNat count.toNat) := by
  obtain ⟨d1, d2⟩ := dims_le M h.zero hM
  have h1 := h.rows; have h2 := h.cols
  have c1 : decide (count > 0) = true := by simpa using hc
  have c2 : validIndex a.rows pos = true := validIndex_iff.2 (by unfold InRange; omega)
  have c3 : validIndex a.rows (pos + count - 1) = true := validIndex_iff.2 (by unfold InRange; omega)
  have s1 : iadd pos count = .ok (pos + count) := iadd_ok (by unfold IsIndex; omega)
  have s2 : isub (pos + count) 1 = .ok (pos + count - 1) := isub_ok (by unfold IsIndex; omega)
  have s3 : isub a.rows count = .ok (a.rows - count) := isub_ok (by unfold IsIndex; omega)
  obtain ⟨t, e1, e2⟩ := make_ok (α := α) b (m := a.rows - count)
    (n := if a.rows - count = 0 then 0 else a.cols) (by omega) (by split <;> omega)
    (by
      constructor
      · intro h0; rw [if_pos h0]
      · intro h0
        split at h0
        · assumption
        · have := h.zero; omega)
    (by
      have : (a.rows - count) * (if a.rows - count = 0 then 0 else a.cols) ≤
          ((M.m - count.toNat : Nat) : Int) * M.n := by
        rw [h1, h2, show ((M.m : Int) - count) = ((M.m - count.toNat : Nat) : Int) by omega]
        split
        · rename_i h0; rw [h0]; simp
        · exact Int.le_refl _
      have := sub_fits (k := count.toNat) hM
      omega)
  obtain ⟨t1, e3, e4⟩ := copyRows_ok e2 (src := rd2 a) (cols := a.cols) (s1 := 0) (s2 := 0)
    (n := pos) (f := M.el) (by omega)
    (by
      by_cases h0 : pos ≤ 0
      · exact .inl h0
      · right; simp only [Mat.const]; constructor
        · omega
        · rw [if_neg (by omega)]; omega)
    (by
      intro i j hi hj
      rw [Int.add_zero]
      exact rd2_ok h (by omega) (by omega))
  obtain ⟨t2, e5, e6⟩ := copyRows_ok e4 (src := rd2 a) (cols := a.cols) (s1 := pos + count)
    (s2 := pos) (n := a.rows - pos - count) (f := fun i j => M.el (i + (pos + count).toNat) j)
    (by omega)
    (by
      by_cases h0 : a.rows - pos - count ≤ 0
      · exact .inl h0
      · right; simp only [Mat.const, Mat.block]; constructor
        · omega
        · rw [if_neg (by omega)]; omega)
    (by
      intro i j hi hj
      rw [show (i : Int) + (pos + count) = ((i + (pos + count).toNat : Nat) : Int) by omega]
      exact rd2_ok h (by omega) (by omega))
  refine ⟨t2, ?_, isMat_ext e6 ⟨?_, ?_, ?_⟩⟩
  · unfold removeRows
    simp only [c1, c2, c3, assertDebug_true, Op.lift_ok_bind, Op.get_bind, s1, s2, s3, Res.ok_bind,
      Res.pure_eq, assertDebugM_ok, e1, copyRows0_eq, e3, e5, Op.set_run]
  · simp only [Mat.block, Mat.const, Mat.removeRows]; omega
  · simp only [Mat.block, Mat.const, Mat.removeRows]
    by_cases h0 : a.rows - count = 0
    · rw [if_pos h0, if_pos (by omega)]; rfl
    · rw [if_neg h0, if_neg (by omega)]; omega
  · intro i j hi hj
    simp only [Mat.block, Mat.const, Mat.removeRows] at hi hj ⊢
    have hj' : j < M.n := by
      split at hj
      · simp at hj
      · omega
    by_cases hi' : i < pos.toNat
    · rw [if_neg (by omega), if_pos (by omega), if_pos hi']; rfl
    · rw [if_pos (by omega), if_neg hi']
      rw [show i - pos.toNat + (pos + count).toNat = i + count.toNat by omega]; rfl

/-- C36: `remove_cols(pos, count)` deletes exactly these columns. -/
theorem C36_remove_cols (b : Build) {a : Arr2 α} {M : Mat α} (h : IsMat a M) (hM : Fits2 M)
    {pos count : Int} (hp : 0 ≤ pos) (hc : 0 < count) (hpc : pos + count ≤ M.n) :
    ∃ a', removeCols b pos count a = (.ok (), a') ∧
      IsMat a' (M.removeCols pos.toNat count.toNat) := by
  obtain ⟨d1, d2⟩ := dims_le M h.zero hM
  have h1 := h.rows; have h2 := h.cols
  have c1 : decide (count > 0) = true := by simpa using hc
  have c2 : validIndex a.cols pos = true := validIndex_iff.2 (by unfold InRange; omega)
  have c3 : validIndex a.cols (pos + count - 1) = true := validIndex_iff.2 (by unfold InRange; omega)
  have s1 : iadd pos count = .ok (pos + count) := iadd_ok (by unfold IsIndex; omega)
  have s2 : isub (pos + count) 1 = .ok (pos + count - 1) := isub_ok (by unfold IsIndex; omega)
  have s3 : isub a.cols count = .ok (a.cols - count) := isub_ok (by unfold IsIndex; omega)
  obtain ⟨t, e1, e2⟩ := make_ok (α := α) b (m := if a.cols - count = 0 then 0 else a.rows)
    (n := a.cols - count) (by split <;> omega) (by omega)
    (by
      constructor
      · intro h0
        split at h0
        · assumption
        · have := h.zero; omega
      · intro h0; rw [if_pos h0])
    (by
      have : (if a.cols - count = 0 then 0 else a.rows) * (a.cols - count) ≤
          (M.m : Int) * ((M.n - count.toNat : Nat) : Int) := by
        rw [h1, h2, show ((M.n : Int) - count) = ((M.n - count.toNat : Nat) : Int) by omega]
        split
        · rename_i h0; rw [h0]; simp
        · exact Int.le_refl _
      have hM' : (M.n : Int) * M.m < 2 ^ 63 := by rw [Int.mul_comm]; exact hM
      have := sub_fits (k := count.toNat) hM'
      rw [Int.mul_comm] at this
      omega)
  obtain ⟨t1, e3, e4⟩ := copyCols_ok e2 (src := rd2 a) (rows := a.rows) (s1 := 0) (s2 := 0)
    (n := pos) (f := M.el) (by omega)
    (by
      by_cases h0 : pos ≤ 0
      · exact .inl h0
      · right; simp only [Mat.const]; constructor
        · omega
        · rw [if_neg (by omega)]; omega)
    (by
      intro i j hi hj
      rw [Int.add_zero]
      exact rd2_ok h (by omega) (by omega))
  obtain ⟨t2, e5, e6⟩ := copyCols_ok e4 (src := rd2 a) (rows := a.rows) (s1 := pos + count)
    (s2 := pos) (n := a.cols - pos - count) (f := fun i j => M.el i (j + (pos + count).toNat))
    (by omega)
    (by
      by_cases h0 : a.cols - pos - count ≤ 0
      · exact .inl h0
      · right; simp only [Mat.const, Mat.block]; constructor
        · omega
        · rw [if_neg (by omega)]; omega)
    (by
      intro i j hi hj
      rw [show (j : Int) + (pos + count) = ((j + (pos + count).toNat : Nat) : Int) by omega]
      exact rd2_ok h (by omega) (by omega))
  refine ⟨t2, ?_, isMat_ext e6 ⟨?_, ?_, ?_⟩⟩
  · unfold removeCols
    simp only [c1, c2, c3, assertDebug_true, Op.lift_ok_bind, Op.get_bind, s1, s2, s3, Res.ok_bind,
      Res.pure_eq, assertDebugM_ok, e1, copyCols0_eq, e3, e5, Op.set_run]
  · simp only [Mat.block, Mat.const, Mat.removeCols]
    by_cases h0 : a.cols - count = 0
    · rw [if_pos h0, if_pos (by omega)]; rfl
    · rw [if_neg h0, if_neg (by omega)]; omega
  · simp only [Mat.block, Mat.const, Mat.removeCols]; omega
  · intro i j hi hj
    simp only [Mat.block, Mat.const, Mat.removeCols] at hi hj ⊢
    have hi' : i < M.m := by
      split at hi
      · simp at hi
      · omega
    by_cases hj' : j < pos.toNat
    · rw [if_neg (by omega), if_pos (by omega), if_pos hj']; rfl
    · rw [if_pos (by omega), if_neg hj']
      rw [show j - pos.toNat + (pos + count).toNat = j + count.toNat by omega]; rfl

/-- C36/C30: invalid ranges are rejected in debug builds; the array is unchanged. -/
theorem C36_remove_rejected {b : Build} (hb : b.Checked) (a : Arr2 α) {pos count : Int}
    (hi : IsIndex (pos + count)) :
    ((count ≤ 0 ∨ pos < 0 ∨ a.rows < pos + count) →
      removeRows b pos count a = (.trap b.kind, a)) ∧
    ((count ≤ 0 ∨ pos < 0 ∨ a.cols < pos + count) →
      removeCols b pos count a = (.trap b.kind, a)) := by
  have aux : ∀ (ext : Arr2 α → Int) (k : Arr2 α → Op (Arr2 α) Unit),
      (count ≤ 0 ∨ pos < 0 ∨ ext a < pos + count) →
      (do
        Op.lift (assertDebug b (decide (count > 0)))
        let x : Arr2 α ← Op.get
        Op.lift (assertDebug b (validIndex (ext x) pos))
        Op.lift (assertDebugM b (do
          let e ← iadd pos count
          let e ← isub e 1
          pure (validIndex (ext x) e)))
        k x : Op (Arr2 α) Unit) a = (.trap b.kind, a) := by
    intro ext k h
    by_cases h1 : count ≤ 0
    · have : decide (count > 0) = false := by simp; omega
      rw [this, assertDebug_false hb]; rfl
    · have c1 : decide (count > 0) = true := by simp; omega
      rw [c1, assertDebug_true, Op.lift_ok_bind, Op.get_bind]
      by_cases h2 : validIndex (ext a) pos = true
      · rw [h2, assertDebug_true, Op.lift_ok_bind]
        rw [validIndex_iff] at h2
        unfold InRange at h2
        have c3 : validIndex (ext a) (pos + count - 1) = false :=
          validIndex_false.2 (by unfold InRange; omega)
        rw [iadd_ok hi, Res.ok_bind, isub_ok (by unfold IsIndex at *; omega), Res.ok_bind,
          Res.pure_eq, assertDebugM_ok, c3, assertDebug_false hb]
        rfl
      · have h2' : validIndex (ext a) pos = false := by simpa using h2
        rw [h2', assertDebug_false hb]; rfl
  exact ⟨fun h => aux Arr2.rows _ h, fun h => aux Arr2.cols _ h⟩

/-- C36: single rows and columns, and removal at the ends. -/
theorem C36_remove_special (b : Build) {a : Arr2 α} {M : Mat α} (h : IsMat a M) (hM : Fits2 M) :
    (∀ k : Nat, k < M.m → ∃ a', removeRow b k a = (.ok (), a') ∧ IsMat a' (M.removeRows k 1)) ∧
    (∀ k : Nat, k < M.n → ∃ a', removeCol b k a = (.ok (), a') ∧ IsMat a' (M.removeCols k 1)) ∧
    (∀ c : Nat, 0 < c → c ≤ M.m →
      (∃ a', removeRowsFront b c a = (.ok (), a') ∧ IsMat a' (M.removeRows 0 c)) ∧
      (∃ a', removeRowsBack b c a = (.ok (), a') ∧ IsMat a' (M.removeRows (M.m - c) c))) ∧
    (∀ c : Nat, 0 < c → c ≤ M.n →
      (∃ a', removeColsFront b c a = (.ok (), a') ∧ IsMat a' (M.removeCols 0 c)) ∧
      (∃ a', removeColsBack b c a = (.ok (), a') ∧ IsMat a' (M.removeCols (M.n - c) c))) := by
  obtain ⟨d1, d2⟩ := dims_le M h.zero hM
  have h1 := h.rows; have h2 := h.cols
  refine ⟨fun k hk => ?_, fun k hk => ?_, fun c h0 hc => ⟨?_, ?_⟩, fun c h0 hc => ⟨?_, ?_⟩⟩
  · have := C36_remove_rows b h hM (pos := k) (count := 1) (by omega) (by omega) (by omega)
    simpa [removeRow] using this
  · have := C36_remove_cols b h hM (pos := k) (count := 1) (by omega) (by omega) (by omega)
    simpa [removeCol] using this
  · have := C36_remove_rows b h hM (pos := 0) (count := c) (by omega) (by omega) (by omega)
    simpa [removeRowsFront, removeColsFront] using this
  · have := C36_remove_rows b h hM (pos := (M.m : Int) - c) (count := c) (by omega) (by omega)
      (by omega)
    unfold removeRowsBack
    rw [Op.get_bind, h1, isub_ok (by unfold IsIndex; omega), Op.lift_ok_bind]
    rw [show ((M.m : Int) - c).toNat = M.m - c by omega] at this
    simpa using this
  · have := C36_remove_cols b h hM (pos := 0) (count := c) (by omega) (by omega) (by omega)
    simpa [removeRowsFront, removeColsFront] using this
  · have := C36_remove_cols b h hM (pos := (M.n : Int) - c) (count := c) (by omega) (by omega)
      (by omega)
    unfold removeColsBack
    rw [Op.get_bind, h2, isub_ok (by unfold IsIndex; omega), Op.lift_ok_bind]
    rw [show ((M.n : Int) - c).toNat = M.n - c by omega] at this
    simpa using this

example : (removeRows ⟨false, true, false⟩ 0 1 ⟨2, 2, [1, 2, 3, 4]⟩ : Res Unit × Arr2 Int) =
    (.ok (), ⟨1, 2, [3, 4]⟩) := by decide
example : (removeCols ⟨false, true, false⟩ 0 2 ⟨2, 2, [1, 2, 3, 4]⟩ : Res Unit × Arr2 Int) =
    (.ok (), ⟨0, 0, []⟩) := by decide

end Spp.Props
