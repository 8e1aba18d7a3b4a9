import Verif.Model.History2D
import Verif.Props.Insert2D
import Verif.Props.History1D

/- C34: histories of operations on several two-dimensional arrays. -/

set_option linter.unusedSectionVars false

namespace Spp.Props
open Spec Arr2

variable {α : Type} [Inhabited α]

/-! ### Construction and assignment -/

/-- `Array2D A(m, n)`, `Array2D A(m, n, x)`: all elements zero, or `x`. -/
theorem C34_construct_size (b : Build) {m n : Int} (hm : 0 ≤ m) (hn : 0 ≤ n) (hz : m = 0 ↔ n = 0)
    (hf : m * n < 2 ^ 63) (x : α) :
    (∃ a, make (α := α) b m n = .ok a ∧ IsMat a (Mat.const m.toNat n.toNat default)) ∧
    (∃ a, makeFill b m n x = .ok a ∧ IsMat a (Mat.const m.toNat n.toNat x)) := by
  obtain ⟨a, e1, e2⟩ := make_ok (α := α) b hm hn hz hf
  refine ⟨⟨a, e1, e2⟩, ⟨{ a with data := List.replicate a.data.length x }, ?_, ?_⟩⟩
  · simp only [makeFill, e1, Res.ok_bind, assignValue, Op.get_bind, Arr1.fill_ok]
    rfl
  · refine ⟨e2.rows, e2.cols, by rw [List.length_replicate]; exact e2.size, e2.zero, fun i j hi hj => ?_⟩
    have : i * n.toNat + j < a.data.length := by rw [e2.size]; exact flat_lt hi hj
    simp only [Mat.const, List.getElem?_replicate, this, if_true]

/-- Construction is rejected for negative dimensions and when only one dimension is zero. -/
theorem C34_construct_size_rejected {b : Build} (hb : b.Checked) {m n : Int} (hp : IsIndex (m * n))
    (h : m < 0 ∨ n < 0 ∨ ¬ (m = 0 ↔ n = 0)) (x : α) :
    make (α := α) b m n = .trap b.kind ∧ makeFill b m n x = .trap b.kind := by
  refine ⟨make_checked hb hp h, ?_⟩
  simp only [makeFill, make_checked hb hp h, Res.trap_bind]

theorem fill_mat (x : α) {a : Arr2 α} {M : Mat α} (h : IsMat a M) :
    ∃ a', assignValue x a = (.ok (), a') ∧ IsMat a' (Mat.const M.m M.n x) := by
  refine ⟨{ a with data := List.replicate a.data.length x }, ?_, ?_⟩
  · simp only [assignValue, Op.get_bind, Arr1.fill_ok]
    rfl
  · refine ⟨h.rows, h.cols, by rw [List.length_replicate]; exact h.size, h.zero, fun i j hi hj => ?_⟩
    have : i * M.n + j < a.data.length := by rw [h.size]; exact flat_lt hi hj
    simp only [Mat.const, List.getElem?_replicate, this, if_true]

/-- Construction from nested lists of rectangular shape. -/
theorem C34_construct_list (b : Build) {L : List (List α)} {m n : Nat} (h : Rect L m n)
    (hf : (m : Int) * n < 2 ^ 63) :
    ∃ a, makeList b L = .ok a ∧ IsMat a ⟨m, n, (Mat.ofLists L).el⟩ := by
  rcases h with ⟨hn, hm, hm0, hr⟩ | ⟨rfl, rfl, h⟩
  · cases L with
    | nil => simp at hm; omega
    | cons r rs =>
      have hl : r.length = n := hr r (by simp)
      have hsz : listSizes (r :: rs) = ((m : Int), (n : Int)) := by
        simp only [listSizes]
        rw [if_neg (by omega)]
        simp at hm
        ext <;> simp <;> omega
      have hv : validList (r :: rs) = true := by
        simp only [validList]
        rw [if_neg (by omega), if_neg (by omega)]
        rw [List.all_eq_true]
        intro x hx
        simp [hr x hx, hl]
      obtain ⟨a, e1, e2⟩ := make_ok (α := α) b (m := m) (n := n) (by omega) (by omega) (by omega) hf
      have hc : copyList (r :: rs) a = foldN m (fun i t =>
          foldN n (fun j t => do
            let v ← rd ((r :: rs).getD i []) j
            wr2 t i j v) t) a := by
        unfold copyList
        rw [hm]
        apply foldN_congr
        intro k s hk
        have hmem : (r :: rs).getD k [] ∈ (r :: rs) := by
          rw [List.getD_eq_getElem?_getD, List.getElem?_eq_getElem (by omega)]
          exact List.getElem_mem _
        rw [hr _ hmem]
      obtain ⟨a', e3, e4⟩ := block_loop' (r := 0) (c := 0) e2 (m := m) (n := n)
        (f := (Mat.ofLists (r :: rs)).el)
        (body := fun i j t => do
          let v ← rd ((r :: rs).getD i []) j
          wr2 t i j v)
        (by simp only [Mat.const]; omega)
        (by
          intro i j t hi hj
          have hmem : (r :: rs).getD i [] ∈ (r :: rs) := by
            rw [List.getD_eq_getElem?_getD, List.getElem?_eq_getElem (by omega)]
            exact List.getElem_mem _
          have hlen := hr _ hmem
          rw [rd_nat (by omega), Res.ok_bind]
          simp only [Mat.ofLists, Nat.zero_add]
          congr 1
          rw [List.getD_eq_getElem?_getD (i := j), List.getElem?_eq_getElem (by omega)]
          rfl)
      refine ⟨a', ?_, isMat_ext e4 ⟨by simp [Mat.block, Mat.const], by simp [Mat.block, Mat.const], ?_⟩⟩
      · simp only [makeList, hsz, e1, Res.ok_bind, hv, assertDebug_true, hc, e3]
      · intro i j hi hj
        simp only [Mat.block, Mat.const] at hi hj ⊢
        rw [if_pos (by omega)]
        simp
  · have hcases : L = [] ∨ L = [[]] := by
      cases L with
      | nil => exact .inl rfl
      | cons r rs =>
        rcases h with h | ⟨h1, h2⟩
        · simp at h
        · right
          have : rs = [] := by simpa using h1
          have hr := h2 r (by simp)
          rw [this, List.eq_nil_of_length_eq_zero hr]
    refine ⟨empty, ?_, ⟨rfl, rfl, rfl, by simp, by simp⟩⟩
    rcases hcases with rfl | rfl
    · have : imul 0 0 = .ok 0 := imul_ok (by unfold IsIndex; omega)
      simp [makeList, listSizes, make, this, Arr1.make_ok b (show (0 : Int) ≤ 0 by omega), validList,
        copyList, semiValid, empty]
    · have : imul 0 0 = .ok 0 := imul_ok (by unfold IsIndex; omega)
      simp [makeList, listSizes, make, this, Arr1.make_ok b (show (0 : Int) ≤ 0 by omega), validList,
        copyList, semiValid, empty, foldN]

/-- The dimensions of a nested list. -/
theorem validList_rect {L : List (List α)} (hv : validList L = true) :
    ∃ m n : Nat, Rect L m n ∧ listSizes L = ((m : Int), (n : Int)) := by
  cases L with
  | nil => exact ⟨0, 0, .inr ⟨rfl, rfl, .inl rfl⟩, rfl⟩
  | cons r rs =>
    simp only [validList] at hv
    simp only [listSizes]
    split at hv
    · rename_i h
      rw [if_pos h]
      refine ⟨0, 0, .inr ⟨rfl, rfl, .inr ⟨by simp [h.1], ?_⟩⟩, rfl⟩
      intro x hx
      have : rs = [] := List.eq_nil_of_length_eq_zero h.1
      subst this
      simp at hx
      subst hx
      exact h.2
    · rename_i h
      rw [if_neg h]
      split at hv
      · simp at hv
      · rename_i h2
        refine ⟨rs.length + 1, r.length, .inl ⟨by omega, by simp, by omega, ?_⟩, by simp⟩
        rw [List.all_eq_true] at hv
        intro x hx
        simpa using hv x hx

theorem rect_unique {L : List (List α)} {m n m' n' : Nat} (h : Rect L m n) (h' : Rect L m' n') :
    m = m' ∧ n = n' := by
  rcases h with ⟨h1, h2, h3, h4⟩ | ⟨h1, h2, h3⟩ <;> rcases h' with ⟨k1, k2, k3, k4⟩ | ⟨k1, k2, k3⟩
  · refine ⟨by omega, ?_⟩
    cases L with
    | nil => simp at h2; omega
    | cons r rs =>
      have := h4 r (by simp); have := k4 r (by simp); omega
  · cases L with
    | nil => simp at h2; omega
    | cons r rs =>
      have := h4 r (by simp)
      rcases k3 with k3 | ⟨_, k3⟩
      · simp at k3
      · have := k3 r (by simp); omega
  · cases L with
    | nil => simp at k2; omega
    | cons r rs =>
      have := k4 r (by simp)
      rcases h3 with h3 | ⟨_, h3⟩
      · simp at h3
      · have := h3 r (by simp); omega
  · omega

/-- Ragged nested lists are rejected. -/
theorem C34_construct_list_rejected {b : Build} (hb : b.Checked) {L : List (List α)}
    (h : ∀ m n, ¬ Rect L m n) (hf : (L.length : Int) * (L.getD 0 []).length < 2 ^ 63) :
    makeList b L = .trap b.kind := by
  have hv : validList L = false := by
    rw [← Bool.not_eq_true]
    intro hv
    obtain ⟨m, n, hr, _⟩ := validList_rect hv
    exact h m n hr
  unfold makeList
  cases L with
  | nil => simp [validList] at hv
  | cons r rs =>
    have hne : ¬ (rs.length = 0 ∧ r.length = 0) := by
      intro hne
      simp only [validList, if_pos hne] at hv
      simp at hv
    simp only [listSizes, if_neg hne]
    simp only [List.length_cons, List.getD_cons_zero] at hf
    push_cast at hf
    by_cases h0 : r.length = 0
    · rw [make_checked hb (by unfold IsIndex; rw [h0]; simp) (by omega)]
      rfl
    · obtain ⟨a, e1, e2⟩ := make_ok (α := α) b (m := (rs.length : Int) + 1) (n := r.length) (by omega)
        (by omega) (by omega) hf
      rw [e1, Res.ok_bind, hv, assertDebug_false hb]
      rfl

/-- Assignment from nested lists. -/
theorem C34_assign_list (b : Build) {L : List (List α)} {a : Arr2 α} {M : Mat α} (h : IsMat a M)
    (hM : Fits2 M) (hr : Rect L M.m M.n) :
    ∃ a', assignList b L a = (.ok (), a') ∧ IsMat a' ⟨M.m, M.n, (Mat.ofLists L).el⟩ := by
  obtain ⟨t, e1, e2⟩ := C34_construct_list b hr hM
  have c1 : (a.rows == t.rows && a.cols == t.cols) = true := by
    rw [h.rows, h.cols, e2.rows, e2.cols]; simp
  have c2 : (len a.data == len t.data) = true := by
    unfold len
    rw [h.size, e2.size]; simp
  refine ⟨{ a with data := t.data }, ?_, ⟨h.rows, h.cols, e2.size, e2.zero, e2.el⟩⟩
  simp only [assignList, e1, Op.lift_ok_bind, Op.get_bind, c1, c2, assertDebug_true,
    assertNormal_true, Op.set_run]

theorem C34_assign_list_rejected {b : Build} (hb : b.Checked) {L : List (List α)} {a : Arr2 α}
    {M : Mat α} (h : IsMat a M) (hr : ¬ Rect L M.m M.n)
    (hf : (L.length : Int) * (L.getD 0 []).length < 2 ^ 63) :
    assignList b L a = (.trap b.kind, a) := by
  by_cases hL : ∃ m n, Rect L m n
  · obtain ⟨m, n, hL⟩ := hL
    have hf' : (m : Int) * n < 2 ^ 63 := by
      rcases hL with ⟨h1, h2, h3, h4⟩ | ⟨h1, h2, _⟩
      · cases L with
        | nil => simp at h2; omega
        | cons r rs =>
          have := h4 r (by simp)
          rw [h2, List.getD_cons_zero, this] at hf
          exact hf
      · rw [h1]; simp
    obtain ⟨t, e1, e2⟩ := C34_construct_list b hL hf'
    have c1 : (a.rows == t.rows && a.cols == t.cols) = false := by
      rw [h.rows, h.cols, e2.rows, e2.cols, ← Bool.not_eq_true]
      intro hc
      simp at hc
      apply hr
      have h1 : M.m = m := by omega
      have h2 : M.n = n := by omega
      rw [h1, h2]
      exact hL
    simp only [assignList, e1, Op.lift_ok_bind, Op.get_bind, c1, assertDebug_false hb,
      Op.lift_trap_bind]
  · simp only [assignList]
    rw [C34_construct_list_rejected hb (fun m n h => hL ⟨m, n, h⟩) hf]
    rfl

theorem operand2_denotes {s : Vars2 α} {S : Nat → Mat α} (h : AreMats s S) (i j : Nat) :
    Denotes2 (s.operand i j) (s i) (S j) := by
  unfold Vars2.operand
  split
  · rename_i hij
    subst hij
    exact ⟨(h i).rows, (h i).cols, (h i).zero, fun _ _ hi hj => rd2_ok (h i) hi hj,
      fun _ _ hi hj => rd1_ok (h i) hi hj⟩
  · exact denotes_toSrc (h j) _

/-- Assignment of an array (through an expression) of the same shape, including to itself. -/
theorem assign_operand (b : Build) {s : Vars2 α} {S : Nat → Mat α} (h : AreMats s S) (i j : Nat)
    (hm : (S i).m = (S j).m) (hn : (S i).n = (S j).n) :
    ∃ a', assign b (s.operand i j) (s i) = (.ok (), a') ∧ IsMat a' (S j) := by
  have hd := operand2_denotes h i j
  have c1 : ((s i).rows == (s.operand i j).rows && (s i).cols == (s.operand i j).cols) = true := by
    rw [hd.rows, hd.cols, (h i).rows, (h i).cols, hm, hn]; simp
  simp only [assign, Op.get_bind, c1, assertDebug_true, Op.lift_ok_bind]
  by_cases hij : i = j
  · subst hij
    refine copy_ok (h i) rfl rfl ?_ hd.rows hd.cols
    intro p q t hp hq ht
    have ht' : IsMat t (S i) := isMat_ext ht ⟨rfl, rfl, fun _ _ _ _ => by simp [Mat.upto]⟩
    simp only [Vars2.operand, if_true]
    exact ⟨rd2_ok ht' hp hq, rd1_ok ht' hp hq⟩
  · refine copy_denotes (h i) hm hn (fun t => ?_)
    unfold Vars2.operand
    rw [if_neg hij]
    exact denotes_toSrc (h j) t

theorem assign_rejected2 {b : Build} (hb : b.Checked) {src : Src2 (Arr2 α) α} {a : Arr2 α}
    (h : ¬ (a.rows = src.rows ∧ a.cols = src.cols)) : assign b src a = (.trap b.kind, a) := by
  have c1 : (a.rows == src.rows && a.cols == src.cols) = false := by
    rw [← Bool.not_eq_true]; simpa using h
  simp only [assign, Op.get_bind, c1, assertDebug_false hb, Op.lift_trap_bind]

/-! ### Calls -/

theorem insFits {m n k : Nat} (h1 : (m : Int) * n < 2 ^ 61) (h2 : (k : Int) * n < 2 ^ 62) :
    ((m + k : Nat) : Int) * n < 2 ^ 63 := by
  push_cast
  rw [Int.add_mul]
  omega

theorem one_mul_le {m n : Nat} (hm : m ≠ 0) : (n : Int) ≤ (m : Int) * n := by
  have : 1 * (n : Int) ≤ m * n := Int.mul_le_mul_of_nonneg_right (by omega) (by omega)
  omega

/-- Every valid call succeeds in every build and has its matrix meaning. -/
theorem call_ok (b : Build) {a : Arr2 α} {M N : Mat α} (h : IsMat a M)
    (hM : (M.m : Int) * M.n < 2 ^ 61) {c : Call2 α} (hc : c.Moderate) (hm : M.call c = some N) :
    ∃ a', execCall2 b c a = (.ok (), a') ∧ IsMat a' N := by
  have hF : Fits2 M := by unfold Fits2; omega
  have h1 := h.rows; have h2 := h.cols; have hz := h.zero
  have rr : ∀ {pos count : Int}, M.removeRows? pos count = some N →
      ∃ a', removeRows b pos count a = (.ok (), a') ∧ IsMat a' N := by
    intro pos count hm
    simp only [Mat.removeRows?, Option.ite_none_right_eq_some, Option.some.injEq] at hm
    obtain ⟨⟨k1, k2, k3⟩, rfl⟩ := hm
    exact C36_remove_rows b h hF k1 k2 k3
  have rc : ∀ {pos count : Int}, M.removeCols? pos count = some N →
      ∃ a', removeCols b pos count a = (.ok (), a') ∧ IsMat a' N := by
    intro pos count hm
    simp only [Mat.removeCols?, Option.ite_none_right_eq_some, Option.some.injEq] at hm
    obtain ⟨⟨k1, k2, k3⟩, rfl⟩ := hm
    exact C36_remove_cols b h hF k1 k2 k3
  have ir : ∀ {pos : Int} {xs : List α}, Call2.Moderate.Mod xs.length → M.insertRow? xs pos = some N →
      ∃ a', insertRow b pos (Src.ofList xs) a = (.ok (), a') ∧ IsMat a' N := by
    intro pos xs hx hm
    unfold Call2.Moderate.Mod at hx
    simp only [Mat.insertRow?, Option.ite_none_left_eq_some] at hm
    obtain ⟨hx0, hm⟩ := hm
    unfold Mat.insertRows? at hm
    split at hm
    · rename_i h0
      simp only [Option.ite_none_right_eq_some, Option.some.injEq] at hm
      obtain ⟨rfl, rfl⟩ := hm
      exact (C38_insert_row_into_empty b h h0 (fun s => Arr1.denotes_ofList xs s)
        (fun h => hx0 (by rw [h]; rfl)) (by unfold Sized; omega)).1
    · rename_i h0
      simp only [Option.ite_none_right_eq_some, Option.some.injEq] at hm
      obtain ⟨⟨k1, k2, k3⟩, rfl⟩ := hm
      have := one_mul_le (n := M.n) h0
      exact C38_insert_row b h (Arr1.denotes_ofList xs a) h0 k3 (insFits hM (by omega)) k1 k2
  have ic : ∀ {pos : Int} {xs : List α}, Call2.Moderate.Mod xs.length → M.insertCol? xs pos = some N →
      ∃ a', insertCol b pos (Src.ofList xs) a = (.ok (), a') ∧ IsMat a' N := by
    intro pos xs hx hm
    unfold Call2.Moderate.Mod at hx
    simp only [Mat.insertCol?, Option.ite_none_left_eq_some] at hm
    obtain ⟨hx0, hm⟩ := hm
    unfold Mat.insertCols? at hm
    split at hm
    · rename_i h0
      simp only [Option.ite_none_right_eq_some, Option.some.injEq] at hm
      obtain ⟨rfl, rfl⟩ := hm
      exact (C38_insert_row_into_empty b h h0 (fun s => Arr1.denotes_ofList xs s)
        (fun h => hx0 (by rw [h]; rfl)) (by unfold Sized; omega)).2
    · rename_i h0
      simp only [Option.ite_none_right_eq_some, Option.some.injEq] at hm
      obtain ⟨⟨k1, k2, k3⟩, rfl⟩ := hm
      have hn0 : M.n ≠ 0 := by omega
      have h3 := one_mul_le (n := M.m) hn0
      refine C38_insert_col b h (Arr1.denotes_ofList xs a) h0 k3 ?_ k1 k2
      rw [Int.mul_comm] at hM ⊢
      exact insFits hM (by omega)
  cases c with
  | fill x =>
    simp only [Mat.call, Option.some.injEq] at hm; subst hm
    exact fill_mat x h
  | assignList L =>
    simp only [Mat.call, Option.ite_none_right_eq_some, Option.some.injEq] at hm
    obtain ⟨k1, rfl⟩ := hm
    exact C34_assign_list b h hF k1
  | resize m n p =>
    simp only [Call2.Moderate] at hc
    simp only [Mat.call, Option.ite_none_right_eq_some] at hm
    obtain ⟨⟨k1, k2, k3⟩, hm⟩ := hm
    cases p with
    | true =>
      simp only [if_true, Option.some.injEq] at hm; subst hm
      exact C35_resize_preserve b h k1 k2 k3 (by omega)
    | false =>
      simp only [Bool.false_eq_true, if_false] at hm
      split at hm
      · rename_i he
        simp only [Option.some.injEq] at hm; subst hm
        obtain ⟨a', e1, e2, _⟩ := C35_resize_reinterpret b h hF k1 k2 k3 he
        exact ⟨a', e1, e2⟩
      · rename_i he
        simp only [Option.some.injEq] at hm; subst hm
        exact C35_resize_reset b h hF k1 k2 k3 (by omega) he
  | removeRows p k => exact rr hm
  | removeCols p k => exact rc hm
  | removeRow p => exact rr hm
  | removeCol p => exact rc hm
  | removeLastRow =>
    obtain ⟨d1, d2⟩ := dims_le M hz hF
    simp only [execCall2, removeRowLast, Op.get_bind]
    rw [h1, isub_ok (by unfold IsIndex; omega), Op.lift_ok_bind]
    exact rr hm
  | removeLastCol =>
    obtain ⟨d1, d2⟩ := dims_le M hz hF
    simp only [execCall2, removeColLast, Op.get_bind]
    rw [h2, isub_ok (by unfold IsIndex; omega), Op.lift_ok_bind]
    exact rc hm
  | removeRowsFront k => exact rr hm
  | removeRowsBack k =>
    obtain ⟨d1, d2⟩ := dims_le M hz hF
    simp only [Call2.Moderate, Call2.Moderate.Mod] at hc
    simp only [Mat.call] at hm
    have hk : 0 < k := by
      simp only [Mat.removeRows?, Option.ite_none_right_eq_some] at hm
      exact hm.1.2.1
    simp only [execCall2, removeRowsBack, Op.get_bind]
    rw [h1, isub_ok (by unfold IsIndex; omega), Op.lift_ok_bind]
    exact rr hm
  | removeColsFront k => exact rc hm
  | removeColsBack k =>
    obtain ⟨d1, d2⟩ := dims_le M hz hF
    simp only [Call2.Moderate, Call2.Moderate.Mod] at hc
    simp only [Mat.call] at hm
    have hk : 0 < k := by
      simp only [Mat.removeCols?, Option.ite_none_right_eq_some] at hm
      exact hm.1.2.1
    simp only [execCall2, removeColsBack, Op.get_bind]
    rw [h2, isub_ok (by unfold IsIndex; omega), Op.lift_ok_bind]
    exact rc hm
  | removeRowsVec idx =>
    simp only [Mat.call, Option.ite_none_right_eq_some, Option.some.injEq] at hm
    obtain ⟨⟨k1, k2⟩, rfl⟩ := hm
    exact C36_remove_rows_indices b h hF k1 k2
  | removeColsVec idx =>
    simp only [Mat.call, Option.ite_none_right_eq_some, Option.some.injEq] at hm
    obtain ⟨⟨k1, k2⟩, rfl⟩ := hm
    exact C36_remove_cols_indices b h hF k1 k2
  | insertRow p xs => exact ir hc hm
  | insertRowFront xs => exact ir hc hm
  | insertRowBack xs =>
    rw [show execCall2 b (.insertRowBack xs) a = insertRow b a.rows (Src.ofList xs) a from rfl, h1]
    exact ir hc hm
  | insertCol p xs => exact ic hc hm
  | insertColFront xs => exact ic hc hm
  | insertColBack xs =>
    rw [show execCall2 b (.insertColBack xs) a = insertCol b a.cols (Src.ofList xs) a from rfl, h2]
    exact ic hc hm

/-- Every invalid call is rejected in debug builds and the array is unchanged. -/
theorem call_rejected {b : Build} (hb : b.Checked) {a : Arr2 α} {M : Mat α} (h : IsMat a M)
    (hM : (M.m : Int) * M.n < 2 ^ 61) {c : Call2 α} (hc : c.Moderate) (hm : M.call c = none) :
    execCall2 b c a = (.trap b.kind, a) := by
  have hF : Fits2 M := by unfold Fits2; omega
  have h1 := h.rows; have h2 := h.cols; have hz := h.zero
  obtain ⟨d1, d2⟩ := dims_le M hz hF
  have d1' : (M.m : Int) < 2 ^ 61 := by
    by_cases h0 : M.n = 0
    · have := hz.2 h0; omega
    · have := one_mul_le (n := M.m) h0
      rw [Int.mul_comm] at this; omega
  have d2' : (M.n : Int) < 2 ^ 61 := by
    by_cases h0 : M.m = 0
    · have := hz.1 h0; omega
    · have := one_mul_le (n := M.n) h0; omega
  have rr : ∀ {pos count : Int}, IsIndex (pos + count) → M.removeRows? pos count = none →
      removeRows b pos count a = (.trap b.kind, a) := by
    intro pos count hi hm
    simp only [Mat.removeRows?, ite_eq_right_iff, reduceCtorEq, imp_false] at hm
    exact (C36_remove_rejected hb a hi).1 (by omega)
  have rc : ∀ {pos count : Int}, IsIndex (pos + count) → M.removeCols? pos count = none →
      removeCols b pos count a = (.trap b.kind, a) := by
    intro pos count hi hm
    simp only [Mat.removeCols?, ite_eq_right_iff, reduceCtorEq, imp_false] at hm
    exact (C36_remove_rejected hb a hi).2 (by omega)
  have ir : ∀ {pos : Int} {xs : List α}, M.insertRow? xs pos = none →
      insertRow b pos (Src.ofList xs) a = (.trap b.kind, a) := by
    intro pos xs hm
    apply (C38_insert_row_rejected hb a).1
    simp only [Src.ofList]
    unfold Mat.insertRow? Mat.insertRows? at hm
    split at hm
    · omega
    · split at hm
      · simp only [ite_eq_right_iff, reduceCtorEq, imp_false] at hm
        omega
      · simp only [ite_eq_right_iff, reduceCtorEq, imp_false] at hm
        simp only [Mat.ofRow] at hm
        omega
  have ic : ∀ {pos : Int} {xs : List α}, M.insertCol? xs pos = none →
      insertCol b pos (Src.ofList xs) a = (.trap b.kind, a) := by
    intro pos xs hm
    apply (C38_insert_row_rejected hb a).2
    simp only [Src.ofList]
    unfold Mat.insertCol? Mat.insertCols? at hm
    split at hm
    · omega
    · split at hm
      · simp only [ite_eq_right_iff, reduceCtorEq, imp_false] at hm
        omega
      · simp only [ite_eq_right_iff, reduceCtorEq, imp_false] at hm
        simp only [Mat.ofCol] at hm
        omega
  have bad : ∀ {idx : List Int} {n : Nat}, ¬ (idx.Pairwise (· < ·) ∧ ∀ x ∈ idx, 0 ≤ x ∧ x < (n : Int)) →
      (¬ Increasing idx ∨ ∃ x ∈ idx, ¬ InRange n x) := by
    intro idx n h
    by_cases h1 : Increasing idx
    · refine .inr ?_
      by_cases h2 : ∃ x ∈ idx, ¬ InRange n x
      · exact h2
      · exact absurd ⟨h1, fun x hx => Classical.byContradiction fun hn => h2 ⟨x, hx, hn⟩⟩ h
    · exact .inl h1
  cases c with
  | fill x => simp [Mat.call] at hm
  | assignList L =>
    simp only [Mat.call, ite_eq_right_iff, reduceCtorEq, imp_false] at hm
    simp only [Call2.Moderate] at hc
    exact C34_assign_list_rejected hb h hm (by omega)
  | resize m n p =>
    simp only [Mat.call] at hm
    split at hm
    · split at hm
      · simp at hm
      · split at hm <;> simp at hm
    · exact C35_resize_rejected hb a p (by omega)
  | removeRows p k =>
    simp only [Call2.Moderate, Call2.Moderate.Mod] at hc
    exact rr (by unfold IsIndex; omega) hm
  | removeCols p k =>
    simp only [Call2.Moderate, Call2.Moderate.Mod] at hc
    exact rc (by unfold IsIndex; omega) hm
  | removeRow p =>
    simp only [Call2.Moderate, Call2.Moderate.Mod] at hc
    exact rr (by unfold IsIndex; omega) hm
  | removeCol p =>
    simp only [Call2.Moderate, Call2.Moderate.Mod] at hc
    exact rc (by unfold IsIndex; omega) hm
  | removeLastRow =>
    simp only [execCall2, removeRowLast, Op.get_bind]
    rw [h1, isub_ok (by unfold IsIndex; omega), Op.lift_ok_bind]
    exact rr (by unfold IsIndex; omega) hm
  | removeLastCol =>
    simp only [execCall2, removeColLast, Op.get_bind]
    rw [h2, isub_ok (by unfold IsIndex; omega), Op.lift_ok_bind]
    exact rc (by unfold IsIndex; omega) hm
  | removeRowsFront k =>
    simp only [Call2.Moderate, Call2.Moderate.Mod] at hc
    exact rr (by unfold IsIndex; omega) hm
  | removeRowsBack k =>
    simp only [Call2.Moderate, Call2.Moderate.Mod] at hc
    simp only [execCall2, removeRowsBack, Op.get_bind]
    rw [h1, isub_ok (by unfold IsIndex; omega), Op.lift_ok_bind]
    exact rr (by unfold IsIndex; omega) hm
  | removeColsFront k =>
    simp only [Call2.Moderate, Call2.Moderate.Mod] at hc
    exact rc (by unfold IsIndex; omega) hm
  | removeColsBack k =>
    simp only [Call2.Moderate, Call2.Moderate.Mod] at hc
    simp only [execCall2, removeColsBack, Op.get_bind]
    rw [h2, isub_ok (by unfold IsIndex; omega), Op.lift_ok_bind]
    exact rc (by unfold IsIndex; omega) hm
  | removeRowsVec idx =>
    simp only [Mat.call, ite_eq_right_iff, reduceCtorEq, imp_false] at hm
    apply (C36_remove_indices_rejected hb a).1
    rw [h1]
    exact bad hm
  | removeColsVec idx =>
    simp only [Mat.call, ite_eq_right_iff, reduceCtorEq, imp_false] at hm
    apply (C36_remove_indices_rejected hb a).2
    rw [h2]
    exact bad hm
  | insertRow p xs => exact ir hm
  | insertRowFront xs => exact ir hm
  | insertRowBack xs =>
    rw [show execCall2 b (.insertRowBack xs) a = insertRow b a.rows (Src.ofList xs) a from rfl, h1]
    exact ir hm
  | insertCol p xs => exact ic hm
  | insertColFront xs => exact ic hm
  | insertColBack xs =>
    rw [show execCall2 b (.insertColBack xs) a = insertCol b a.cols (Src.ofList xs) a from rfl, h2]
    exact ic hm

theorem callArr_ok (b : Build) {s : Vars2 α} {S : Nat → Mat α} (h : AreMats s S)
    (hS : ModerateSizes2 S) {i j : Nat} {c : CallArr2} {N : Mat α}
    (hm : (S i).callArr (S j) c = some N) :
    ∃ a', execCallArr2 b (s.operand i j) c (s i) = (.ok (), a') ∧ IsMat a' N := by
  have hi := hS i; have hj := hS j
  have hd := operand2_denotes h i j
  have hF : Fits2 (S j) := by unfold Fits2; omega
  have h1 := (h i).rows; have h2 := (h i).cols; have hz := (h i).zero
  have ir : ∀ {pos : Int}, (S i).insertRows? (S j) pos = some N →
      ∃ a', insertRows b pos (s.operand i j) (s i) = (.ok (), a') ∧ IsMat a' N := by
    intro pos hm
    unfold Mat.insertRows? at hm
    split at hm
    · rename_i h0
      simp only [Option.ite_none_right_eq_some, Option.some.injEq] at hm
      obtain ⟨rfl, rfl⟩ := hm
      exact (C38_insert_into_empty b (h i) h0 hd hF).1
    · rename_i h0
      simp only [Option.ite_none_right_eq_some, Option.some.injEq] at hm
      obtain ⟨⟨k1, k2, k3⟩, rfl⟩ := hm
      exact C38_insert_rows b (h i) hd h0 k3 (insFits hi (by rw [← k3]; omega)) k1 k2
  have ic : ∀ {pos : Int}, (S i).insertCols? (S j) pos = some N →
      ∃ a', insertCols b pos (s.operand i j) (s i) = (.ok (), a') ∧ IsMat a' N := by
    intro pos hm
    unfold Mat.insertCols? at hm
    split at hm
    · rename_i h0
      simp only [Option.ite_none_right_eq_some, Option.some.injEq] at hm
      obtain ⟨rfl, rfl⟩ := hm
      exact (C38_insert_into_empty b (h i) h0 hd hF).2
    · rename_i h0
      simp only [Option.ite_none_right_eq_some, Option.some.injEq] at hm
      obtain ⟨⟨k1, k2, k3⟩, rfl⟩ := hm
      refine C38_insert_cols b (h i) hd h0 k3 ?_ k1 k2
      rw [Int.mul_comm] at hi hj ⊢
      exact insFits hi (by rw [← k3]; omega)
  cases c with
  | assign =>
    simp only [Mat.callArr, Option.ite_none_right_eq_some, Option.some.injEq] at hm
    obtain ⟨⟨k1, k2⟩, rfl⟩ := hm
    exact assign_operand b h i j k1 k2
  | resizeAndAssign =>
    simp only [Mat.callArr, Option.some.injEq] at hm; subst hm
    exact C38_resize_and_assign b hd hF
  | insertRows p => exact ir hm
  | insertRowsFront => exact ir hm
  | insertRowsBack =>
    rw [show execCallArr2 b (s.operand i j) .insertRowsBack (s i) =
      insertRows b (s i).rows (s.operand i j) (s i) from rfl, h1]
    exact ir hm
  | insertCols p => exact ic hm
  | insertColsFront => exact ic hm
  | insertColsBack =>
    rw [show execCallArr2 b (s.operand i j) .insertColsBack (s i) =
      insertCols b (s i).cols (s.operand i j) (s i) from rfl, h2]
    exact ic hm

theorem callArr_rejected {b : Build} (hb : b.Checked) {s : Vars2 α} {S : Nat → Mat α}
    (h : AreMats s S) {i j : Nat} {c : CallArr2} (hm : (S i).callArr (S j) c = none) :
    execCallArr2 b (s.operand i j) c (s i) = (.trap b.kind, s i) := by
  have hd := operand2_denotes h i j
  have g1 := hd.rows; have g2 := hd.cols
  have h1 := (h i).rows; have h2 := (h i).cols; have hz := (h i).zero
  have ir : ∀ {pos : Int}, (S i).insertRows? (S j) pos = none →
      insertRows b pos (s.operand i j) (s i) = (.trap b.kind, s i) := by
    intro pos hm
    apply (C38_insert_rejected hb (s i)).1
    unfold Mat.insertRows? at hm
    split at hm <;> simp only [ite_eq_right_iff, reduceCtorEq, imp_false] at hm <;> omega
  have ic : ∀ {pos : Int}, (S i).insertCols? (S j) pos = none →
      insertCols b pos (s.operand i j) (s i) = (.trap b.kind, s i) := by
    intro pos hm
    apply (C38_insert_rejected hb (s i)).2
    unfold Mat.insertCols? at hm
    split at hm <;> simp only [ite_eq_right_iff, reduceCtorEq, imp_false] at hm <;> omega
  cases c with
  | assign =>
    simp only [Mat.callArr, ite_eq_right_iff, reduceCtorEq, imp_false] at hm
    exact assign_rejected2 hb (by omega)
  | resizeAndAssign => simp [Mat.callArr] at hm
  | insertRows p => exact ir hm
  | insertRowsFront => exact ir hm
  | insertRowsBack =>
    rw [show execCallArr2 b (s.operand i j) .insertRowsBack (s i) =
      insertRows b (s i).rows (s.operand i j) (s i) from rfl, h1]
    exact ir hm
  | insertCols p => exact ic hm
  | insertColsFront => exact ic hm
  | insertColsBack =>
    rw [show execCallArr2 b (s.operand i j) .insertColsBack (s i) =
      insertCols b (s i).cols (s.operand i j) (s i) from rfl, h2]
    exact ic hm

/-! ### Statements -/

theorem areMats_upd {s : Vars2 α} {S : Nat → Mat α} (h : AreMats s S) {i : Nat} {a : Arr2 α}
    {M : Mat α} (ha : IsMat a M) : AreMats (s.put i a) (upd S i M) := by
  intro k
  unfold Vars2.put upd
  split
  · exact ha
  · exact h k

theorem on2_ok {s : Vars2 α} {S : Nat → Mat α} (h : AreMats s S) {i : Nat} {op : Op (Arr2 α) Unit}
    {a : Arr2 α} {M : Mat α} (ho : op (s i) = (.ok (), a)) (ha : IsMat a M) :
    ∃ s', Vars2.on i op s = (.ok (), s') ∧ AreMats s' (upd S i M) :=
  ⟨s.put i a, by simp only [Vars2.on, ho], areMats_upd h ha⟩

theorem put2_same (s : Vars2 α) (i : Nat) : s.put i (s i) = s := by
  funext k; unfold Vars2.put; split
  · subst_vars; rfl
  · rfl

theorem on2_trap {s : Vars2 α} {i : Nat} {op : Op (Arr2 α) Unit} {k : Kind}
    (h : op (s i) = (.trap k, s i)) : Vars2.on i op s = (.trap k, s) := by
  simp only [Vars2.on, h, put2_same]

/-- C34 / C29: a valid statement succeeds in every build and has exactly its matrix meaning. -/
theorem C34_valid_statement (b : Build) {s : Vars2 α} {S S' : Nat → Mat α} (h : AreMats s S)
    (hS : ModerateSizes2 S) {c : Stmt2 α} (hc : c.Moderate) (hm : c.meaning S = some S') :
    ∃ s', exec2 b c s = (.ok (), s') ∧ AreMats s' S' := by
  cases c with
  | call i c =>
    simp only [Stmt2.meaning, Option.map_eq_some_iff] at hm
    obtain ⟨N, hN, rfl⟩ := hm
    obtain ⟨a', e1, e2⟩ := call_ok b (h i) (hS i) hc hN
    exact on2_ok h e1 e2
  | callArr i j c =>
    simp only [Stmt2.meaning, Option.map_eq_some_iff] at hm
    obtain ⟨N, hN, rfl⟩ := hm
    obtain ⟨a', e1, e2⟩ := callArr_ok b h hS hN
    exact on2_ok h e1 e2
  | copyAssign i j =>
    simp only [Stmt2.meaning, Option.ite_none_right_eq_some, Option.some.injEq] at hm
    obtain ⟨⟨k1, k2⟩, rfl⟩ := hm
    have c1 : ((s i).rows == (s j).rows && (s i).cols == (s j).cols) = true := by
      rw [(h i).rows, (h i).cols, (h j).rows, (h j).cols, k1, k2]; simp
    simp only [exec2, Vars2.copyAssign, Op.get_bind]
    rw [c1, assertDebug_true, Op.lift_ok_bind]
    by_cases hij : i = j
    · rw [if_neg (fun hn => hn hij)]
      subst hij
      rw [upd_same]
      exact ⟨s, rfl, h⟩
    · rw [if_pos hij]
      have hlen : (s i).data.length = (s j).data.length := by rw [(h i).size, (h j).size, k1, k2]
      have e := Props.assign_ok b hlen (fun t => Arr1.denotes_ofList (s j).data t)
      refine on2_ok h (a := { s i with data := (s j).data }) ?_
        ⟨by rw [← k1]; exact (h i).rows, by rw [← k2]; exact (h i).cols, (h j).size, (h j).zero,
          (h j).el⟩
      simp only [e]
  | moveAssign i j =>
    simp only [Stmt2.meaning, Option.ite_none_right_eq_some, Option.some.injEq] at hm
    obtain ⟨⟨hij, k1, k2⟩, rfl⟩ := hm
    have c1 : ((s i).rows == (s j).rows && (s i).cols == (s j).cols) = true := by
      rw [(h i).rows, (h i).cols, (h j).rows, (h j).cols, k1, k2]; simp
    have hji : j ≠ i := fun e => hij e.symm
    have hlen : (s i).data.length = (s j).data.length := by rw [(h i).size, (h j).size, k1, k2]
    have c2 : (len (s.put j { s j with rows := 0, cols := 0 } i).data ==
        len (s.put j { s j with rows := 0, cols := 0 } j).data) = true := by
      simp [Vars2.put, hij, len, hlen]
    have e : exec2 b (.moveAssign i j) s = (.ok (), fun k =>
        if k = j then ⟨0, 0, []⟩ else if k = i then { s i with data := (s j).data } else s k) := by
      simp only [exec2, Vars2.moveAssign, Op.get_bind]
      rw [c1, assertNormal_true, Op.lift_ok_bind, Op.set_bind, if_pos hij, Op.get_bind, c2,
        assertNormal_true, Op.lift_ok_bind, Op.set_run]
      simp only [Prod.mk.injEq, true_and]
      funext k
      by_cases h1 : k = j
      · subst h1; simp [Vars2.put]
      · by_cases h2 : k = i
        · subst h2; simp [Vars2.put, h1]
        · simp [Vars2.put, h1, h2]
    refine ⟨_, e, fun k => ?_⟩
    simp only [upd]
    by_cases h1 : k = j
    · simp only [h1, if_true]; exact isMat_empty
    · by_cases h2 : k = i
      · simp only [h1, h2, if_false, if_true, hij]
        exact ⟨by rw [← k1]; exact (h i).rows, by rw [← k2]; exact (h i).cols, (h j).size,
          (h j).zero, (h j).el⟩
      · simp only [h1, h2, if_false]; exact h k
  | swap i j =>
    simp only [Stmt2.meaning, Option.some.injEq] at hm; subst hm
    refine ⟨_, rfl, fun k => ?_⟩
    simp only [upd]
    by_cases h1 : k = i
    · by_cases h2 : k = j
      · subst h1; subst h2; simpa using h k
      · simpa [h1, h2, show ¬ i = j from fun e => h2 (h1.trans e)] using h j
    · by_cases h2 : k = j
      · subst h2; simpa [h1] using h i
      · simpa [h1, h2] using h k
  | resizeAndAssignMove i j =>
    simp only [Stmt2.meaning, Option.some.injEq] at hm; subst hm
    refine ⟨_, rfl, fun k => ?_⟩
    simp only [upd, Vars2.put]
    by_cases h2 : k = j
    · simp only [h2, if_true]; exact isMat_empty
    · simp only [h2, if_false]
      by_cases h1 : k = i
      · simpa [h1] using h j
      · simpa [h1, h2] using h k

/-- C34 / C30: an invalid statement traps in debug builds and no array has changed.  (Move assignment
aborts instead of throwing.) -/
theorem C34_invalid_statement {b : Build} (hb : b.Checked) {s : Vars2 α} {S : Nat → Mat α}
    (h : AreMats s S) (hS : ModerateSizes2 S) {c : Stmt2 α} (hc : c.Moderate)
    (hm : c.meaning S = none) :
    exec2 b c s = (.trap b.kind, s) ∨
    (∃ i j, c = .moveAssign i j ∧ (i ≠ j → b.ndebug = false → exec2 b c s = (.trap .abort, s))) := by
  cases c with
  | call i c =>
    simp only [Stmt2.meaning, Option.map_eq_none_iff] at hm
    exact .inl (on2_trap (call_rejected hb (h i) (hS i) hc hm))
  | callArr i j c =>
    simp only [Stmt2.meaning, Option.map_eq_none_iff] at hm
    exact .inl (on2_trap (callArr_rejected hb h hm))
  | copyAssign i j =>
    simp only [Stmt2.meaning, ite_eq_right_iff, reduceCtorEq, imp_false] at hm
    have h1 := (h i).rows; have h2 := (h i).cols; have h3 := (h j).rows; have h4 := (h j).cols
    have c1 : ((s i).rows == (s j).rows && (s i).cols == (s j).cols) = false := by
      rw [← Bool.not_eq_true]
      intro hcc
      simp at hcc
      omega
    refine .inl ?_
    simp only [exec2, Vars2.copyAssign, Op.get_bind]
    rw [c1, assertDebug_false hb]
    rfl
  | moveAssign i j =>
    refine .inr ⟨i, j, rfl, fun hij hn => ?_⟩
    simp only [Stmt2.meaning, ite_eq_right_iff, reduceCtorEq, imp_false] at hm
    have h1 := (h i).rows; have h2 := (h i).cols; have h3 := (h j).rows; have h4 := (h j).cols
    have c1 : ((s i).rows == (s j).rows && (s i).cols == (s j).cols) = false := by
      rw [← Bool.not_eq_true]
      intro hcc
      simp at hcc
      exact hm ⟨hij, by omega, by omega⟩
    simp only [exec2, Vars2.moveAssign, Op.get_bind]
    rw [c1]
    simp only [assertNormal, hb.1, hn]
    rfl
  | swap i j => simp [Stmt2.meaning] at hm
  | resizeAndAssignMove i j => simp [Stmt2.meaning] at hm

/-- C34: a whole program, of any length, on any number of arrays, in a debug build with exceptions,
ends with exactly the matrices of the matrix program; rejected statements are skipped. -/
theorem C34_history {b : Build} (hb : b.Checked) (he : b.exceptions = true) {s : Vars2 α}
    {S : Nat → Mat α} (h : AreMats s S) (cs : List (Stmt2 α)) (hm : StaysModerate2 S cs)
    (hmv : NoBadMove2 S cs) :
    ∃ s', execAll2 b s cs = .ok s' ∧ AreMats s' (meaningOf2 S cs) := by
  induction cs generalizing s S with
  | nil => exact ⟨s, rfl, h⟩
  | cons c cs ih =>
    obtain ⟨h1, h2, h3⟩ := hm
    obtain ⟨h4, h5⟩ := hmv
    cases hc : c.meaning S with
    | some S' =>
      obtain ⟨s', e1, e2⟩ := C34_valid_statement b h h1 h2 hc
      simp only [hc, Option.getD_some] at h3 h5
      simp only [execAll2, e1, meaningOf2, hc, Option.getD_some]
      exact ih e2 h3 h5
    | none =>
      have hk : b.kind = .exception := by simp [Build.kind, he]
      rcases C34_invalid_statement hb h h1 h2 hc with e | ⟨i, j, e, _⟩
      · simp only [hc, Option.getD_none] at h3 h5
        simp only [execAll2, e, meaningOf2, hc, Option.getD_none, hk]
        exact ih h h3 h5
      · exact absurd hc (h4 i j e)

/-- C34: the shape invariant holds for every array after every such history, starting from any
arrays that satisfy it (in particular from empty ones). -/
theorem C34_shape {b : Build} (hb : b.Checked) (he : b.exceptions = true) {s : Vars2 α}
    {S : Nat → Mat α} (h : AreMats s S) (cs : List (Stmt2 α)) (hm : StaysModerate2 S cs)
    (hmv : NoBadMove2 S cs) :
    ∃ s', execAll2 b s cs = .ok s' ∧ ∀ i, Shape (s' i) := by
  obtain ⟨s', e1, e2⟩ := C34_history hb he h cs hm hmv
  exact ⟨s', e1, fun i => shape_of (e2 i)⟩

/-- Programs all of whose statements are valid behave the same in every build. -/
theorem C34_history_valid (b : Build) {s : Vars2 α} {S : Nat → Mat α} (h : AreMats s S)
    (cs : List (Stmt2 α)) (hm : StaysModerate2 S cs)
    (hv : ∀ (pre : List (Stmt2 α)) (c : Stmt2 α) (post : List (Stmt2 α)), cs = pre ++ c :: post →
      c.meaning (meaningOf2 S pre) ≠ none) :
    ∃ s', execAll2 b s cs = .ok s' ∧ AreMats s' (meaningOf2 S cs) := by
  induction cs generalizing s S with
  | nil => exact ⟨s, rfl, h⟩
  | cons c cs ih =>
    obtain ⟨h1, h2, h3⟩ := hm
    cases hc : c.meaning S with
    | none => exact absurd hc (hv [] c cs rfl)
    | some S' =>
      obtain ⟨s', e1, e2⟩ := C34_valid_statement b h h1 h2 hc
      simp only [hc, Option.getD_some] at h3
      simp only [execAll2, e1, meaningOf2, hc, Option.getD_some]
      refine ih e2 h3 ?_
      intro pre c' post hpre
      have := hv (c :: pre) c' post (by rw [hpre]; rfl)
      simpa [meaningOf2, hc] using this

/-- C34, the exception: self move-assignment breaks the shape invariant. -/
theorem C34_self_move_breaks_shape (b : Build) (s : Vars2 α) (i : Nat) :
    Vars2.moveAssign b i i s = (.ok (), s.put i { s i with rows := 0, cols := 0 }) ∧
    ((s i).data ≠ [] → ¬ Shape ((Vars2.moveAssign b i i s).2 i)) := by
  have e : Vars2.moveAssign b i i s = (.ok (), s.put i { s i with rows := 0, cols := 0 }) := by
    have c1 : ((s i).rows == (s i).rows && (s i).cols == (s i).cols) = true := by simp
    unfold Vars2.moveAssign
    rw [Op.get_bind, c1, assertNormal_true, Op.lift_ok_bind, Op.set_bind, if_neg (by simp)]
    rfl
  refine ⟨e, fun hd hs => ?_⟩
  rw [e] at hs
  have := hs.size
  simp [Vars2.put] at this
  exact hd this

/-- C34, the other exception: in release builds, inserting an empty row into an empty array gives a
1×0 array. -/
theorem C34_empty_row_breaks_shape :
    (insertRow ⟨true, false, true⟩ 0 (Src.ofList []) (empty : Arr2 Int)).2 = ⟨1, 0, []⟩ ∧
    ¬ Shape (insertRow ⟨true, false, true⟩ 0 (Src.ofList []) (empty : Arr2 Int)).2 := by
  have e : (insertRow ⟨true, false, true⟩ 0 (Src.ofList []) (empty : Arr2 Int)).2 = ⟨1, 0, []⟩ := by
    decide
  refine ⟨e, ?_⟩
  rw [e]
  intro h
  have := h.zero
  simp at this

/-- Move construction. -/
theorem C34_move_construct {s : Vars2 α} {S : Nat → Mat α} (h : AreMats s S) {i j : Nat}
    (hij : i ≠ j) :
    ∃ s', Vars2.moveConstruct i j s = (.ok (), s') ∧ IsMat (s' i) (S j) ∧
      s' j = ⟨0, 0, []⟩ ∧ ∀ k, k ≠ i → k ≠ j → s' k = s k := by
  refine ⟨_, rfl, ?_, ?_, ?_⟩
  · simpa [Vars2.put, hij] using h j
  · simp [Vars2.put, empty]
  · intro k h1 h2; simp [Vars2.put, h1, h2]

/-- The hypotheses of `C34_history` are met: two arrays, a resize, an insertion of one array into
the other, a rejected removal and a move. -/
example : ∃ s', execAll2 ⟨false, true, false⟩ (fun _ => (empty : Arr2 Int))
    [.call 0 (.resize 1 2 true), .call 0 (.fill 7), .callArr 1 0 .resizeAndAssign,
     .callArr 0 1 (.insertRows 1), .call 0 (.removeRow 5), .resizeAndAssignMove 1 0] = .ok s' ∧
    s' 1 = ⟨2, 2, [7, 7, 7, 7]⟩ ∧ s' 0 = ⟨0, 0, []⟩ := ⟨_, rfl, by decide, by decide⟩

example : StaysModerate2 (fun _ => (Mat.empty : Mat Int))
    [.call 0 (.resize 1 2 true), .call 0 (.fill 7), .callArr 0 0 (.insertRows 1)] := by
  simp only [StaysModerate2, ModerateSizes2, Stmt2.Moderate, Call2.Moderate, Stmt2.meaning, Mat.call,
    Mat.callArr, Mat.insertRows?]
  refine ⟨?_, by decide, ?_, trivial, ?_, trivial, ?_⟩ <;> intro i <;>
    simp [Mat.empty, upd, Mat.resized, Mat.const, Mat.insertRows] <;> (repeat' split) <;> simp

end Spp.Props
