import Verif.Props.Interchange
import Verif.Lemmas.Interchange2

/-
Statements that may be replaced by each other (C134): two-dimensional arrays.
-/

set_option linter.unusedSectionVars false

namespace Spp.Props
open Spec

variable {α : Type} [Inhabited α]

/-- C134: `A.remove_rows(indexes)` is `A.resize_and_assign(A(complement{indexes}, all))`, and the same for columns. -/
theorem C134_remove_rows_indexes {s : Store α} (hs : s.Moderate) (i : Nat) {idx : List Int} (hi : ∀ x ∈ idx, Modest x) :
    Interchangeable s (.mat (.call i (.removeRowsVec idx)))
      (.use2 i .resizeAndAssign (.view (.slice2 (.complement idx) .all) (array2 i))) ∧
    Interchangeable s (.mat (.call i (.removeColsVec idx)))
      (.use2 i .resizeAndAssign (.view (.slice2 .all (.complement idx)) (array2 i))) := by
  constructor
  · refine rows_interchange hs (c := .removeRowsVec idx) trivial hi ?_
    by_cases h : idx.Pairwise (· < ·) ∧ ∀ x ∈ idx, 0 ≤ x ∧ x < (theMat (s.a2 i)).m
    · refine .inl ⟨h, _, _, complement_selects _ _, ?_, ?_, if_pos h, ⟨rfl, rfl, fun _ _ _ _ => rfl⟩⟩
      · intro k hk; exact List.mem_range.1 ((List.mem_filter.1 hk).1)
      · exact Nat.le_trans (List.length_filter_le ..) (by simp)
    · exact .inr ⟨if_neg h, h⟩
  · refine cols_interchange hs (c := .removeColsVec idx) trivial hi ?_
    by_cases h : idx.Pairwise (· < ·) ∧ ∀ x ∈ idx, 0 ≤ x ∧ x < (theMat (s.a2 i)).n
    · refine .inl ⟨h, _, _, complement_selects _ _, ?_, ?_, if_pos h, ⟨rfl, rfl, fun _ _ _ _ => rfl⟩⟩
      · intro k hk; exact List.mem_range.1 ((List.mem_filter.1 hk).1)
      · exact Nat.le_trans (List.length_filter_le ..) (by simp)
    · exact .inr ⟨if_neg h, h⟩

/-- C134: `A.remove_rows(pos, count)` is `A.resize_and_assign(A(complement{pos, .., pos + count - 1}, all))`, and the same
for columns. -/
theorem C134_remove_rows {s : Store α} (hs : s.Moderate) (i : Nat) {pos count : Int} (hp : Modest pos)
    (hc : Modest count) (h0 : 0 < count) (hn : Modest (pos + count)) :
    Interchangeable s (.mat (.call i (.removeRows pos count)))
      (.use2 i .resizeAndAssign (.view (.slice2 (.complement (numbers pos count)) .all) (array2 i))) ∧
    Interchangeable s (.mat (.call i (.removeCols pos count)))
      (.use2 i .resizeAndAssign (.view (.slice2 .all (.complement (numbers pos count))) (array2 i))) := by
  have hmod : ∀ x ∈ numbers pos count, Modest x := by
    intro x hx
    have := numbers_mem.1 hx
    unfold Modest at *
    omega
  have hv : ∀ m : Nat, SliceReq.Valid m (.complement (numbers pos count)) ↔
      0 ≤ pos ∧ 0 < count ∧ pos + count ≤ m := by
    intro m
    constructor
    · rintro ⟨-, h⟩
      have h1 := h pos (numbers_mem.2 (by omega))
      have h2 := h (pos + count - 1) (numbers_mem.2 (by omega))
      unfold InRange at h1 h2
      omega
    · intro h
      refine ⟨numbers_increasing _ _, fun x hx => ?_⟩
      have := numbers_mem.1 hx
      unfold InRange
      omega
  have hM := And.intro (moderate_of_modest hp) (moderate_of_modest hc)
  constructor
  · refine rows_interchange hs (c := .removeRows pos count) hM hmod ?_
    by_cases h : 0 ≤ pos ∧ 0 < count ∧ pos + count ≤ (theMat (s.a2 i)).m
    · have hle : pos.toNat + count.toNat ≤ (theMat (s.a2 i)).m := by omega
      refine .inl ⟨(hv _).2 h, leftOver _ pos.toNat count.toNat, _, ?_, leftOver_lt hle, ?_, if_pos h,
        rowsOf_leftOver hle⟩
      · rw [complement_selects, numbers_keeps h.1 h.2.1 h.2.2]; rfl
      · rw [leftOver_length hle]; omega
    · exact .inr ⟨if_neg h, fun v => h ((hv _).1 v)⟩
  · refine cols_interchange hs (c := .removeCols pos count) hM hmod ?_
    by_cases h : 0 ≤ pos ∧ 0 < count ∧ pos + count ≤ (theMat (s.a2 i)).n
    · have hle : pos.toNat + count.toNat ≤ (theMat (s.a2 i)).n := by omega
      refine .inl ⟨(hv _).2 h, leftOver _ pos.toNat count.toNat, _, ?_, leftOver_lt hle, ?_, if_pos h,
        colsOf_leftOver hle⟩
      · rw [complement_selects, numbers_keeps h.1 h.2.1 h.2.2]; rfl
      · rw [leftOver_length hle]; omega
    · exact .inr ⟨if_neg h, fun v => h ((hv _).1 v)⟩

/-- C134: `A.remove_rows_front(count)` is `A.resize_and_assign(A(lastN{A.rows() - count}, all))`, and
`A.remove_rows_back(count)` is `A.resize_and_assign(A(firstN{A.rows() - count}, all))`. -/
theorem C134_remove_rows_ends {s : Store α} (hs : s.Moderate) (i : Nat) {count : Int} (hc : Modest count) (h0 : 0 < count)
    (hn : Modest ((s.a2 i).rows - count)) :
    Interchangeable s (.mat (.call i (.removeRowsFront count)))
      (.use2 i .resizeAndAssign (.view (.slice2 (.lastN ((s.a2 i).rows - count)) .all) (array2 i))) ∧
    Interchangeable s (.mat (.call i (.removeRowsBack count)))
      (.use2 i .resizeAndAssign (.view (.slice2 (.firstN ((s.a2 i).rows - count)) .all) (array2 i))) := by
  have hr := theMat_rows (hs.2 i).1
  rw [← hr] at hn ⊢
  have hM := moderate_of_modest hc
  constructor
  · refine rows_interchange hs (c := .removeRowsFront count) hM hn ?_
    by_cases h : (0 : Int) ≤ 0 ∧ 0 < count ∧ 0 + count ≤ (theMat (s.a2 i)).m
    · have hle : 0 + count.toNat ≤ (theMat (s.a2 i)).m := by omega
      refine .inl ⟨?_, leftOver _ 0 count.toNat, _, ?_, leftOver_lt hle, ?_, if_pos h, rowsOf_leftOver hle⟩
      · show 0 ≤ _ ∧ _ ≤ _
        omega
      · rw [lastN_selects, ← drop_leftOver]
        congr 2; omega
      · rw [leftOver_length hle]; omega
    · refine .inr ⟨if_neg h, fun v => h ⟨Int.le_refl 0, h0, ?_⟩⟩
      have := v.1
      omega
  · refine rows_interchange hs (c := .removeRowsBack count) hM hn ?_
    by_cases h : 0 ≤ ((theMat (s.a2 i)).m : Int) - count ∧ 0 < count ∧ (theMat (s.a2 i)).m - count + count ≤ (theMat (s.a2 i)).m
    · have e : (((theMat (s.a2 i)).m : Int) - count).toNat = (theMat (s.a2 i)).m - count.toNat := by omega
      have hle : (((theMat (s.a2 i)).m : Int) - count).toNat + count.toNat ≤ (theMat (s.a2 i)).m := by omega
      refine .inl ⟨?_, leftOver _ (((theMat (s.a2 i)).m : Int) - count).toNat count.toNat, _, ?_, leftOver_lt hle, ?_,
        if_pos h, rowsOf_leftOver hle⟩
      · show 0 ≤ _ ∧ _ ≤ _
        omega
      · rw [firstN_selects, e, take_leftOver (by omega)]
      · rw [leftOver_length hle]; omega
    · refine .inr ⟨if_neg h, fun v => h ⟨v.1, h0, by omega⟩⟩

/-- C134: `A.remove_cols_front(count)` is `A.resize_and_assign(A(all, lastN{A.cols() - count}))`, and
`A.remove_cols_back(count)` is `A.resize_and_assign(A(all, firstN{A.cols() - count}))`. -/
theorem C134_remove_cols_ends {s : Store α} (hs : s.Moderate) (i : Nat) {count : Int} (hc : Modest count) (h0 : 0 < count)
    (hn : Modest ((s.a2 i).cols - count)) :
    Interchangeable s (.mat (.call i (.removeColsFront count)))
      (.use2 i .resizeAndAssign (.view (.slice2 .all (.lastN ((s.a2 i).cols - count))) (array2 i))) ∧
    Interchangeable s (.mat (.call i (.removeColsBack count)))
      (.use2 i .resizeAndAssign (.view (.slice2 .all (.firstN ((s.a2 i).cols - count))) (array2 i))) := by
  have hr := theMat_cols (hs.2 i).1
  rw [← hr] at hn ⊢
  have hM := moderate_of_modest hc
  constructor
  · refine cols_interchange hs (c := .removeColsFront count) hM hn ?_
    by_cases h : (0 : Int) ≤ 0 ∧ 0 < count ∧ 0 + count ≤ (theMat (s.a2 i)).n
    · have hle : 0 + count.toNat ≤ (theMat (s.a2 i)).n := by omega
      refine .inl ⟨?_, leftOver _ 0 count.toNat, _, ?_, leftOver_lt hle, ?_, if_pos h, colsOf_leftOver hle⟩
      · show 0 ≤ _ ∧ _ ≤ _
        omega
      · rw [lastN_selects, ← drop_leftOver]
        congr 2; omega
      · rw [leftOver_length hle]; omega
    · refine .inr ⟨if_neg h, fun v => h ⟨Int.le_refl 0, h0, ?_⟩⟩
      have := v.1
      omega
  · refine cols_interchange hs (c := .removeColsBack count) hM hn ?_
    by_cases h : 0 ≤ ((theMat (s.a2 i)).n : Int) - count ∧ 0 < count ∧ (theMat (s.a2 i)).n - count + count ≤ (theMat (s.a2 i)).n
    · have e : (((theMat (s.a2 i)).n : Int) - count).toNat = (theMat (s.a2 i)).n - count.toNat := by omega
      have hle : (((theMat (s.a2 i)).n : Int) - count).toNat + count.toNat ≤ (theMat (s.a2 i)).n := by omega
      refine .inl ⟨?_, leftOver _ (((theMat (s.a2 i)).n : Int) - count).toNat count.toNat, _, ?_, leftOver_lt hle, ?_,
        if_pos h, colsOf_leftOver hle⟩
      · show 0 ≤ _ ∧ _ ≤ _
        omega
      · rw [firstN_selects, e, take_leftOver (by omega)]
      · rw [leftOver_length hle]; omega
    · refine .inr ⟨if_neg h, fun v => h ⟨v.1, h0, by omega⟩⟩

/-- C134: `A.insert_rows(pos, t)` is
`A.resize_and_assign(merge_vertical(A(firstN{pos}, all), t, A(lastN{A.rows() - pos}, all)))` for every expression `t` that
has elements, also one that reads `A`. -/
theorem C134_insert_rows {s : Store α} (i : Nat) {pos : Int} {t : Tm α .two}
    (hF : (EStmt.use2 i (.insertRows pos) t).Fits s) (hp : Modest pos) (hn : Modest ((s.a2 i).rows - pos))
    (hne : t.Valid s → (t.meaning s).dims.1 ≠ 0)
    (hsz : t.Valid s → ((s.a2 i).rows + (t.meaning s).dims.1) * (t.meaning s).dims.2 < 2 ^ 62) :
    Interchangeable s (.use2 i (.insertRows pos) t)
      (.use2 i .resizeAndAssign (.mergeV (.mergeV (.view (.slice2 (.firstN pos) .all) (array2 i)) t)
        (.view (.slice2 (.lastN ((s.a2 i).rows - pos)) .all) (array2 i)))) := by
  obtain ⟨hs, hM, hT, hO⟩ := hF
  have hsh := (hs.2 i).1
  have hA := theMat_is hsh
  have hz := hA.zero
  have hmod : (theMat (s.a2 i)).m * (theMat (s.a2 i)).n < 2 ^ 61 := by exact_mod_cast mats_moderate hs (theMats hs) i
  have hr := theMat_rows hsh
  rw [← hr] at hn hsz ⊢
  generalize hX : theMat (s.a2 i) = M at *
  have e3 := lastRows_table hsh (k := pos)
  rw [hX] at e3
  have m1 : 0 ≤ pos ∧ pos ≤ M.m → Tm.Modest s (.view (.slice2 (.firstN pos) .all) (array2 i) : Tm α .two) := fun h =>
    have e1 := firstRows_table hsh (k := pos) (hX ▸ h.2)
    ⟨trivial, ⟨hp, trivial⟩, fun _ => table_roomy (hX ▸ e1) (rowsOf_zero hz (range_lt (by omega)))
      (rowsOf_fits hmod (by rw [List.length_range]; omega))⟩
  have m1' : Tm.Modest s (.view (.slice2 (.firstN pos) .all) (array2 i) : Tm α .two) := by
    by_cases h : 0 ≤ pos ∧ pos ≤ M.m
    · exact m1 h
    · exact ⟨trivial, ⟨hp, trivial⟩, fun v => absurd (hX ▸ firstRows_valid.1 v) h⟩
  have m3 : Tm.Modest s (.view (.slice2 (.lastN (M.m - pos)) .all) (array2 i) : Tm α .two) :=
    ⟨trivial, ⟨hn, trivial⟩, fun _ => table_roomy e3 (rowsOf_zero hz leftOver_zero_lt)
      (rowsOf_fits hmod (by rw [leftOver_zero]; omega))⟩
  have v13 : ∀ {t' : Tm α .two}, (Tm.mergeV (.mergeV (.view (.slice2 (.firstN pos) .all) (array2 i)) t')
        (.view (.slice2 (.lastN (M.m - pos)) .all) (array2 i)) : Tm α .two).Valid s → 0 ≤ pos ∧ pos ≤ M.m :=
    fun v => by have := firstRows_valid.1 v.1.1; rwa [hX] at this
  by_cases hV : t.Valid s
  · obtain ⟨N, hN⟩ := exists_table (hO hV)
    have hne := hne hV
    have hsz := hsz hV
    obtain ⟨hR1, hR2⟩ := (t.modest_sound hs.roomy hM hV).2
    have d1 : (t.meaning s).dims.1 = N.m := hN.1
    have d2 : (t.meaning s).dims.2 = N.n := hN.2.1
    rw [d1] at hne; rw [d1, d2] at hsz
    have hzN : N.m = 0 ↔ N.n = 0 := by rw [← hN.1, ← hN.2.1]; exact hR2
    have hsz : (M.m + N.m) * N.n < 2 ^ 62 := by exact_mod_cast hsz
    have hnn : N.n ≠ 0 := fun e => hne (hzN.2 e)
    have hrej : ∀ h : ¬ (0 ≤ pos ∧ pos ≤ M.m ∧ (M.m = 0 ∨ N.n = M.n)), Rejects s (.use2 i (.insertRows pos) t) :=
      fun h => rows_position_rejects hsh hN (by rw [hX]; exact (insertRows_none hz hnn).2 h)
    by_cases hpos : 0 ≤ pos ∧ pos ≤ M.m
    · have e1 := firstRows_table hsh (k := pos) (hX ▸ hpos.2)
      rw [hX] at e1
      have hle : pos.toNat ≤ M.m := by omega
      have z1 := rowsOf_zero hz (range_lt hle)
      have z3 := rowsOf_zero hz (leftOver_zero_lt (m := M.m) (p := pos.toNat))
      have w1 : (rowsOf M (List.range pos.toNat)).n = if pos.toNat = 0 then 0 else M.n := by simp [rowsOf]
      have r1 : (rowsOf M (List.range pos.toNat)).m = pos.toNat := by simp [rowsOf]
      have w3 : (rowsOf M (leftOver M.m 0 pos.toNat)).n = if M.m - pos.toNat = 0 then 0 else M.n := by
        simp [rowsOf, leftOver_zero]
      have r3 : (rowsOf M (leftOver M.m 0 pos.toNat)).m = M.m - pos.toNat := by simp [rowsOf, leftOver_zero]
      have v1 := firstRows_valid.2 (hX ▸ hpos : 0 ≤ pos ∧ pos ≤ (theMat (s.a2 i)).m)
      have v3 : (Tm.view (.slice2 (.lastN (M.m - pos)) .all) (array2 i) : Tm α .two).Valid s :=
        lastRows_valid.2 (by rw [hX]; omega)
      have hsame := fun h hn => insertRows_same (N := N) hz hnn hle h hn
      generalize rowsOf M (List.range pos.toNat) = P at *
      generalize hQ : rowsOf M (leftOver M.m 0 pos.toNat) = Q at *
      -- the inner merge
      have vi : (Tm.mergeV (.view (.slice2 (.firstN pos) .all) (array2 i)) t : Tm α .two).Valid s ↔
          (P.n = 0 ∨ P.n = N.n) := by
        constructor
        · rintro ⟨-, -, v⟩
          have v : P.n = 0 ∨ N.n = 0 ∨ P.n = N.n := by rw [← e1.2.1, ← hN.2.1]; exact v
          omega
        · intro v
          refine ⟨v1, hV, ?_⟩
          show Mat.n _ = 0 ∨ Mat.n _ = 0 ∨ Mat.n _ = Mat.n _
          rw [e1.2.1, hN.2.1]; omega
      have k1 : P.n = 0 ∨ P.n = N.n → IsTable (Tm.meaning s (.mergeV (.view (.slice2 (.firstN pos) .all) (array2 i)) t))
          (P.above N) := fun v => above_table e1 hN z1 hzN (by omega)
      have ni : P.n = 0 ∨ P.n = N.n → (P.above N).n = N.n := fun v => by
        simp only [Mat.above]; split <;> omega
      have mi : (P.above N).m = pos.toNat + N.m := by simp only [Mat.above, r1]
      have zi := above_zero z1 hzN
      have ri : P.n = 0 ∨ P.n = N.n →
          Roomy (d := .two) (Tm.meaning s (.mergeV (.view (.slice2 (.firstN pos) .all) (array2 i)) t)) := fun v => by
        refine table_roomy (k1 v) zi ?_
        have := Nat.mul_le_mul_right N.n (show pos.toNat + N.m ≤ M.m + N.m by omega)
        rw [ni v, mi]; omega
      have mI : Tm.Modest s (.mergeV (.view (.slice2 (.firstN pos) .all) (array2 i)) t) := ⟨m1', hM, fun v => ri (vi.1 v)⟩
      -- both merges
      have vo : (Tm.mergeV (.mergeV (.view (.slice2 (.firstN pos) .all) (array2 i)) t)
          (.view (.slice2 (.lastN (M.m - pos)) .all) (array2 i)) : Tm α .two).Valid s ↔ (M.m = 0 ∨ N.n = M.n) := by
        constructor
        · rintro ⟨v, -, v'⟩
          have v := vi.1 v
          have v' : (P.above N).n = 0 ∨ Q.n = 0 ∨ (P.above N).n = Q.n := by
            rw [← (k1 v).2.1, ← e3.2.1]; exact v'
          rw [ni v] at v'
          split at w1 <;> split at w3 <;> omega
        · intro v
          have v' : P.n = 0 ∨ P.n = N.n := by split at w1 <;> omega
          refine ⟨vi.2 v', v3, ?_⟩
          show Mat.n _ = 0 ∨ Mat.n _ = 0 ∨ Mat.n _ = Mat.n _
          rw [(k1 v').2.1, e3.2.1, ni v']
          split at w3 <;> omega
      by_cases hc : M.m = 0 ∨ N.n = M.n
      · have v' : P.n = 0 ∨ P.n = N.n := by split at w1 <;> omega
        have k2 : IsTable (Tm.meaning s (.mergeV (.mergeV (.view (.slice2 (.firstN pos) .all) (array2 i)) t)
            (.view (.slice2 (.lastN (M.m - pos)) .all) (array2 i)))) ((P.above N).above Q) :=
          above_table (k1 v') e3 zi z3 (by rw [ni v']; split at w3 <;> omega)
        have hR : Roomy (d := .two) (Tm.meaning s (.mergeV (.mergeV (.view (.slice2 (.firstN pos) .all) (array2 i)) t)
            (.view (.slice2 (.lastN (M.m - pos)) .all) (array2 i)))) := by
          refine table_roomy k2 (above_zero zi z3) ?_
          have h1 : ((P.above N).above Q).m = M.m + N.m := by
            show (P.above N).m + Q.m = _
            omega
          have h2 : ((P.above N).above Q).n = N.n := by
            show (if (P.above N).n = 0 then _ else (P.above N).n) = _
            rw [ni v', if_neg hnn]
          rw [h1, h2]; exact_mod_cast hsz
        have hM' : ∃ M', M.insertRows? N pos = some M' ∧ ((P.above N).above Q).Same M' := by
          unfold Mat.insertRows?
          by_cases h0 : M.m = 0
          · rw [if_pos h0, if_pos (by omega)]
            refine ⟨N, rfl, ?_, ?_, fun a b _ _ => ?_⟩
            · show (P.above N).m + Q.m = _
              omega
            · show (if (P.above N).n = 0 then _ else (P.above N).n) = _
              rw [ni v', if_neg hnn]
            · have h1 : P.m = 0 := by omega
              have h2 : a < (P.above N).m := by
                have : a < (P.above N).m + Q.m := by assumption
                omega
              show (if a < (P.above N).m then (P.above N).el a b else _) = _
              rw [if_pos h2]
              show (if a < P.m then _ else N.el (a - P.m) b) = _
              rw [h1, if_neg (Nat.not_lt_zero _), Nat.sub_zero]
          · have hn' : N.n = M.n := by omega
            rw [if_neg h0, if_pos ⟨hpos.1, hpos.2, hn'⟩]
            exact ⟨_, rfl, hsame h0 hn'⟩
        obtain ⟨M', hi, hS⟩ := hM'
        have ha : IsMat ⟨M'.m, M'.n, M'.flat⟩ M' := flat_isMat (by rw [← hS.1, ← hS.2.1]; exact above_zero zi z3)
        exact interchange ⟨hs, hM, hT, hO⟩ ⟨hs, ⟨mI, m3, fun _ => hR⟩, ⟨⟨trivial, hT⟩, trivial⟩, fun _ => table_elements k2⟩
          (.inl ⟨_, .use2 hV hA hN hi ha, .use2 (vo.2 hc) hA (table_same k2 hS) rfl ha⟩)
      · have hV1 := fun v => hc (vo.1 v)
        exact interchange ⟨hs, hM, hT, hO⟩ ⟨hs, ⟨mI, m3, fun v => absurd v hV1⟩, ⟨⟨trivial, hT⟩, trivial⟩,
          fun v => absurd v hV1⟩ (.inr ⟨hrej (by omega), use2_rejects hV1⟩)
    · have hV1 := fun v => hpos (v13 (t' := t) v)
      exact interchange ⟨hs, hM, hT, hO⟩ ⟨hs, ⟨⟨m1', hM, fun v => absurd (hX ▸ firstRows_valid.1 v.1) hpos⟩, m3,
        fun v => absurd v hV1⟩, ⟨⟨trivial, hT⟩, trivial⟩, fun v => absurd v hV1⟩
        (.inr ⟨hrej (by omega), use2_rejects hV1⟩)
  · have hV1 : ¬ (Tm.mergeV (.mergeV (.view (.slice2 (.firstN pos) .all) (array2 i)) t)
        (.view (.slice2 (.lastN (M.m - pos)) .all) (array2 i)) : Tm α .two).Valid s := fun v => hV v.1.2.1
    exact interchange ⟨hs, hM, hT, hO⟩ ⟨hs, ⟨⟨m1', hM, fun v => absurd v.2.1 hV⟩, m3, fun v => absurd v hV1⟩,
      ⟨⟨trivial, hT⟩, trivial⟩, fun v => absurd v hV1⟩ (.inr ⟨use2_rejects hV, use2_rejects hV1⟩)

/-- C134: `A.insert_cols(pos, t)` is
`A.resize_and_assign(merge_horizontal(A(firstN{pos}, all), t, A(lastN{A.cols() - pos}, all)))` for every expression `t` that
has elements, also one that reads `A`. -/
theorem C134_insert_cols {s : Store α} (i : Nat) {pos : Int} {t : Tm α .two}
    (hF : (EStmt.use2 i (.insertCols pos) t).Fits s) (hp : Modest pos) (hn : Modest ((s.a2 i).cols - pos))
    (hne : t.Valid s → (t.meaning s).dims.2 ≠ 0)
    (hsz : t.Valid s → ((s.a2 i).cols + (t.meaning s).dims.2) * (t.meaning s).dims.1 < 2 ^ 62) :
    Interchangeable s (.use2 i (.insertCols pos) t)
      (.use2 i .resizeAndAssign (.mergeH (.mergeH (.view (.slice2 .all (.firstN pos)) (array2 i)) t)
        (.view (.slice2 .all (.lastN ((s.a2 i).cols - pos))) (array2 i)))) := by
  obtain ⟨hs, hM, hT, hO⟩ := hF
  have hsh := (hs.2 i).1
  have hA := theMat_is hsh
  have hz := hA.zero
  have hmod : (theMat (s.a2 i)).m * (theMat (s.a2 i)).n < 2 ^ 61 := by exact_mod_cast mats_moderate hs (theMats hs) i
  have hr := theMat_cols hsh
  rw [← hr] at hn hsz ⊢
  generalize hX : theMat (s.a2 i) = M at *
  have e3 := lastCols_table hsh (k := pos)
  rw [hX] at e3
  have m1 : 0 ≤ pos ∧ pos ≤ M.n → Tm.Modest s (.view (.slice2 .all (.firstN pos)) (array2 i) : Tm α .two) := fun h =>
    have e1 := firstCols_table hsh (k := pos) (hX ▸ h.2)
    ⟨trivial, ⟨trivial, hp⟩, fun _ => table_roomy (hX ▸ e1) (colsOf_zero hz (range_lt (by omega)))
      (colsOf_fits hmod (by rw [List.length_range]; omega))⟩
  have m1' : Tm.Modest s (.view (.slice2 .all (.firstN pos)) (array2 i) : Tm α .two) := by
    by_cases h : 0 ≤ pos ∧ pos ≤ M.n
    · exact m1 h
    · exact ⟨trivial, ⟨trivial, hp⟩, fun v => absurd (hX ▸ firstCols_valid.1 v) h⟩
  have m3 : Tm.Modest s (.view (.slice2 .all (.lastN (M.n - pos))) (array2 i) : Tm α .two) :=
    ⟨trivial, ⟨trivial, hn⟩, fun _ => table_roomy e3 (colsOf_zero hz leftOver_zero_lt)
      (colsOf_fits hmod (by rw [leftOver_zero]; omega))⟩
  have v13 : ∀ {t' : Tm α .two}, (Tm.mergeH (.mergeH (.view (.slice2 .all (.firstN pos)) (array2 i)) t')
        (.view (.slice2 .all (.lastN (M.n - pos))) (array2 i)) : Tm α .two).Valid s → 0 ≤ pos ∧ pos ≤ M.n :=
    fun v => by have := firstCols_valid.1 v.1.1; rwa [hX] at this
  by_cases hV : t.Valid s
  · obtain ⟨N, hN⟩ := exists_table (hO hV)
    have hne := hne hV
    have hsz := hsz hV
    obtain ⟨hR1, hR2⟩ := (t.modest_sound hs.roomy hM hV).2
    have d1 : (t.meaning s).dims.2 = N.n := hN.2.1
    have d2 : (t.meaning s).dims.1 = N.m := hN.1
    rw [d1] at hne; rw [d1, d2] at hsz
    have hzN : N.m = 0 ↔ N.n = 0 := by rw [← hN.2.1, ← hN.1]; exact hR2
    have hsz : (M.n + N.n) * N.m < 2 ^ 62 := by exact_mod_cast hsz
    have hnn : N.m ≠ 0 := fun e => hne (hzN.1 e)
    have hrej : ∀ h : ¬ (0 ≤ pos ∧ pos ≤ M.n ∧ (M.m = 0 ∨ N.m = M.m)), Rejects s (.use2 i (.insertCols pos) t) :=
      fun h => cols_position_rejects hsh hN (by rw [hX]; exact (insertCols_none hz hnn).2 h)
    by_cases hpos : 0 ≤ pos ∧ pos ≤ M.n
    · have e1 := firstCols_table hsh (k := pos) (hX ▸ hpos.2)
      rw [hX] at e1
      have hle : pos.toNat ≤ M.n := by omega
      have z1 := colsOf_zero hz (range_lt hle)
      have z3 := colsOf_zero hz (leftOver_zero_lt (m := M.n) (p := pos.toNat))
      have w1 : (colsOf M (List.range pos.toNat)).m = if pos.toNat = 0 then 0 else M.m := by simp [colsOf]
      have r1 : (colsOf M (List.range pos.toNat)).n = pos.toNat := by simp [colsOf]
      have w3 : (colsOf M (leftOver M.n 0 pos.toNat)).m = if M.n - pos.toNat = 0 then 0 else M.m := by
        simp [colsOf, leftOver_zero]
      have r3 : (colsOf M (leftOver M.n 0 pos.toNat)).n = M.n - pos.toNat := by simp [colsOf, leftOver_zero]
      have v1 := firstCols_valid.2 (hX ▸ hpos : 0 ≤ pos ∧ pos ≤ (theMat (s.a2 i)).n)
      have v3 : (Tm.view (.slice2 .all (.lastN (M.n - pos))) (array2 i) : Tm α .two).Valid s :=
        lastCols_valid.2 (by rw [hX]; omega)
      have hsame := fun h hn => insertCols_same (N := N) hz hnn hle h hn
      generalize colsOf M (List.range pos.toNat) = P at *
      generalize hQ : colsOf M (leftOver M.n 0 pos.toNat) = Q at *
      -- the inner merge
      have vi : (Tm.mergeH (.view (.slice2 .all (.firstN pos)) (array2 i)) t : Tm α .two).Valid s ↔
          (P.m = 0 ∨ P.m = N.m) := by
        constructor
        · rintro ⟨-, -, v⟩
          have v : P.m = 0 ∨ N.m = 0 ∨ P.m = N.m := by rw [← e1.1, ← hN.1]; exact v
          omega
        · intro v
          refine ⟨v1, hV, ?_⟩
          show Mat.m _ = 0 ∨ Mat.m _ = 0 ∨ Mat.m _ = Mat.m _
          rw [e1.1, hN.1]; omega
      have k1 : P.m = 0 ∨ P.m = N.m → IsTable (Tm.meaning s (.mergeH (.view (.slice2 .all (.firstN pos)) (array2 i)) t))
          (P.beside N) := fun v => beside_table e1 hN z1 hzN (by omega)
      have ni : P.m = 0 ∨ P.m = N.m → (P.beside N).m = N.m := fun v => by
        simp only [Mat.beside]; split <;> omega
      have mi : (P.beside N).n = pos.toNat + N.n := by simp only [Mat.beside, r1]
      have zi := beside_zero z1 hzN
      have ri : P.m = 0 ∨ P.m = N.m →
          Roomy (d := .two) (Tm.meaning s (.mergeH (.view (.slice2 .all (.firstN pos)) (array2 i)) t)) := fun v => by
        refine table_roomy (k1 v) zi ?_
        have := Nat.mul_le_mul_right N.m (show pos.toNat + N.n ≤ M.n + N.n by omega)
        rw [Nat.mul_comm (pos.toNat + N.n)] at this
        rw [ni v, mi]; omega
      have mI : Tm.Modest s (.mergeH (.view (.slice2 .all (.firstN pos)) (array2 i)) t) := ⟨m1', hM, fun v => ri (vi.1 v)⟩
      -- both merges
      have vo : (Tm.mergeH (.mergeH (.view (.slice2 .all (.firstN pos)) (array2 i)) t)
          (.view (.slice2 .all (.lastN (M.n - pos))) (array2 i)) : Tm α .two).Valid s ↔ (M.m = 0 ∨ N.m = M.m) := by
        constructor
        · rintro ⟨v, -, v'⟩
          have v := vi.1 v
          have v' : (P.beside N).m = 0 ∨ Q.m = 0 ∨ (P.beside N).m = Q.m := by
            rw [← (k1 v).1, ← e3.1]; exact v'
          rw [ni v] at v'
          split at w1 <;> split at w3 <;> omega
        · intro v
          have v' : P.m = 0 ∨ P.m = N.m := by split at w1 <;> omega
          refine ⟨vi.2 v', v3, ?_⟩
          show Mat.m _ = 0 ∨ Mat.m _ = 0 ∨ Mat.m _ = Mat.m _
          rw [(k1 v').1, e3.1, ni v']
          split at w3 <;> omega
      by_cases hc : M.m = 0 ∨ N.m = M.m
      · have v' : P.m = 0 ∨ P.m = N.m := by split at w1 <;> omega
        have k2 : IsTable (Tm.meaning s (.mergeH (.mergeH (.view (.slice2 .all (.firstN pos)) (array2 i)) t)
            (.view (.slice2 .all (.lastN (M.n - pos))) (array2 i)))) ((P.beside N).beside Q) :=
          beside_table (k1 v') e3 zi z3 (by rw [ni v']; split at w3 <;> omega)
        have hR : Roomy (d := .two) (Tm.meaning s (.mergeH (.mergeH (.view (.slice2 .all (.firstN pos)) (array2 i)) t)
            (.view (.slice2 .all (.lastN (M.n - pos))) (array2 i)))) := by
          refine table_roomy k2 (beside_zero zi z3) ?_
          have h1 : ((P.beside N).beside Q).n = M.n + N.n := by
            show (P.beside N).n + Q.n = _
            omega
          have h2 : ((P.beside N).beside Q).m = N.m := by
            show (if (P.beside N).m = 0 then _ else (P.beside N).m) = _
            rw [ni v', if_neg hnn]
          rw [h1, h2, Nat.mul_comm]; exact_mod_cast hsz
        have hM' : ∃ M', M.insertCols? N pos = some M' ∧ ((P.beside N).beside Q).Same M' := by
          unfold Mat.insertCols?
          by_cases h0 : M.m = 0
          · rw [if_pos h0, if_pos (by omega)]
            refine ⟨N, rfl, ?_, ?_, fun b a _ _ => ?_⟩
            · show (if (P.beside N).m = 0 then _ else (P.beside N).m) = _
              rw [ni v', if_neg hnn]
            · show (P.beside N).n + Q.n = _
              omega
            · have h1 : P.n = 0 := by omega
              have h2 : a < (P.beside N).n := by
                have : a < (P.beside N).n + Q.n := by assumption
                omega
              show (if a < (P.beside N).n then (P.beside N).el b a else _) = _
              rw [if_pos h2]
              show (if a < P.n then _ else N.el b (a - P.n)) = _
              rw [h1, if_neg (Nat.not_lt_zero _), Nat.sub_zero]
          · have hn' : N.m = M.m := by omega
            rw [if_neg h0, if_pos ⟨hpos.1, hpos.2, hn'⟩]
            exact ⟨_, rfl, hsame h0 hn'⟩
        obtain ⟨M', hi, hS⟩ := hM'
        have ha : IsMat ⟨M'.m, M'.n, M'.flat⟩ M' := flat_isMat (by rw [← hS.1, ← hS.2.1]; exact beside_zero zi z3)
        exact interchange ⟨hs, hM, hT, hO⟩ ⟨hs, ⟨mI, m3, fun _ => hR⟩, ⟨⟨trivial, hT⟩, trivial⟩, fun _ => table_elements k2⟩
          (.inl ⟨_, .use2 hV hA hN hi ha, .use2 (vo.2 hc) hA (table_same k2 hS) rfl ha⟩)
      · have hV1 := fun v => hc (vo.1 v)
        exact interchange ⟨hs, hM, hT, hO⟩ ⟨hs, ⟨mI, m3, fun v => absurd v hV1⟩, ⟨⟨trivial, hT⟩, trivial⟩,
          fun v => absurd v hV1⟩ (.inr ⟨hrej (by omega), use2_rejects hV1⟩)
    · have hV1 := fun v => hpos (v13 (t' := t) v)
      exact interchange ⟨hs, hM, hT, hO⟩ ⟨hs, ⟨⟨m1', hM, fun v => absurd (hX ▸ firstCols_valid.1 v.1) hpos⟩, m3,
        fun v => absurd v hV1⟩, ⟨⟨trivial, hT⟩, trivial⟩, fun v => absurd v hV1⟩
        (.inr ⟨hrej (by omega), use2_rejects hV1⟩)
  · have hV1 : ¬ (Tm.mergeH (.mergeH (.view (.slice2 .all (.firstN pos)) (array2 i)) t)
        (.view (.slice2 .all (.lastN (M.n - pos))) (array2 i)) : Tm α .two).Valid s := fun v => hV v.1.2.1
    exact interchange ⟨hs, hM, hT, hO⟩ ⟨hs, ⟨⟨m1', hM, fun v => absurd v.2.1 hV⟩, m3, fun v => absurd v hV1⟩,
      ⟨⟨trivial, hT⟩, trivial⟩, fun v => absurd v hV1⟩ (.inr ⟨use2_rejects hV, use2_rejects hV1⟩)

/-- C134: `A.insert_row(pos, t)` is `A.insert_rows(pos, t.view2D(1, t.size()))` for every expression `t` that has elements. -/
theorem C134_insert_row {s : Store α} (i : Nat) {pos : Int} {t : Tm α .one}
    (hF : (EStmt.useRow i (.insertRow pos) t).Fits s) (hne : t.Valid s → (t.meaning s).dims.1 ≠ 0)
    (hn : Modest (t.meaning s).dims.1) :
    Interchangeable s (.useRow i (.insertRow pos) t)
      (.use2 i (.insertRows pos) (.view (.view2D .one 1 (t.meaning s).dims.1) t)) := by
  obtain ⟨hs, hM, hT, hO, hown⟩ := hF
  have hsh := (hs.2 i).1
  have hA := theMat_is hsh
  have hmm : (Modest 1 ∧ Modest (t.meaning s).dims.1) := ⟨by decide, hn⟩
  by_cases hV : t.Valid s
  · obtain ⟨xs, hx⟩ := all_ok (hO hV)
    have hx : t.meaning s = xs.map Res.ok := hx
    have hd : (t.meaning s).dims.1 = xs.length := by rw [hx]; exact List.length_map ..
    have hne := hne hV
    rw [hd] at hne hn ⊢
    have hne' : xs ≠ [] := fun e => hne (by rw [e]; rfl)
    have hT2 := asRow_table hx hne'
    have hsm : (xs.length : Int) < 2 ^ 62 := by unfold Modest at hn; omega
    have hzN : (Mat.ofRow xs).m = 0 ↔ (Mat.ofRow xs).n = 0 := by
      simp only [Mat.ofRow]; omega
    have hV2 : (Tm.view (.view2D .one 1 xs.length) t : Tm α .two).Valid s := by
      refine ⟨hV, ?_⟩
      show (0 : Int) ≤ _ ∧ (0 : Int) ≤ _ ∧ _ = (((t.meaning s).dims.1 * (t.meaning s).dims.2 : Nat) : Int)
      have : (t.meaning s).dims.2 = 1 := rfl
      rw [hd, this]
      omega
    have hF2 : (EStmt.use2 i (.insertRows pos) (.view (.view2D .one 1 xs.length) t)).Fits s :=
      ⟨hs, ⟨hM, by rw [hd] at hmm; exact hmm, fun _ => table_roomy hT2 hzN (by simp only [Mat.ofRow]; omega)⟩, hT,
        fun _ => table_elements hT2⟩
    have he : (theMat (s.a2 i)).insertRow? xs pos = (theMat (s.a2 i)).insertRows? (Mat.ofRow xs) pos := if_neg hne
    cases hi : (theMat (s.a2 i)).insertRows? (Mat.ofRow xs) pos with
    | none =>
      exact interchange ⟨hs, hM, hT, hO, hown⟩ hF2 (.inr ⟨row_position_rejects hsh hx (he.trans hi),
        rows_position_rejects hsh hT2 hi⟩)
    | some M' =>
      have hz := hA.zero
      have hz' : M'.m = 0 ↔ M'.n = 0 := by
        have hi' := hi
        unfold Mat.insertRows? at hi'
        split at hi' <;> split at hi' <;> cases hi'
        · exact hzN
        · simp only [Mat.insertRows, Mat.ofRow] at *; omega
      have ha := flat_isMat hz'
      exact interchange ⟨hs, hM, hT, hO, hown⟩ hF2
        (.inl ⟨_, .useRow hV hA hx (he.trans hi) ha, .use2 hV2 hA hT2 hi ha⟩)
  · have hV2 : ¬ (Tm.view (.view2D .one 1 (t.meaning s).dims.1) t : Tm α .two).Valid s := fun v => hV v.1
    exact interchange ⟨hs, hM, hT, hO, hown⟩ ⟨hs, ⟨hM, hmm, fun v => absurd v hV2⟩, hT, fun v => absurd v hV2⟩
      (.inr ⟨useRow_rejects hV, use2_rejects hV2⟩)

/-- C134: `A.insert_col(pos, t)` is `A.insert_cols(pos, t.view2D(t.size(), 1))` for every expression `t` that has elements. -/
theorem C134_insert_col {s : Store α} (i : Nat) {pos : Int} {t : Tm α .one}
    (hF : (EStmt.useRow i (.insertCol pos) t).Fits s) (hne : t.Valid s → (t.meaning s).dims.1 ≠ 0)
    (hn : Modest (t.meaning s).dims.1) :
    Interchangeable s (.useRow i (.insertCol pos) t)
      (.use2 i (.insertCols pos) (.view (.view2D .one (t.meaning s).dims.1 1) t)) := by
  obtain ⟨hs, hM, hT, hO, hown⟩ := hF
  have hsh := (hs.2 i).1
  have hA := theMat_is hsh
  have hmm : (Modest (t.meaning s).dims.1 ∧ Modest 1) := ⟨hn, by decide⟩
  by_cases hV : t.Valid s
  · obtain ⟨xs, hx⟩ := all_ok (hO hV)
    have hx : t.meaning s = xs.map Res.ok := hx
    have hd : (t.meaning s).dims.1 = xs.length := by rw [hx]; exact List.length_map ..
    have hne := hne hV
    rw [hd] at hne hn ⊢
    have hne' : xs ≠ [] := fun e => hne (by rw [e]; rfl)
    have hT2 := asCol_table hx hne'
    have hsm : (xs.length : Int) < 2 ^ 62 := by unfold Modest at hn; omega
    have hzN : (Mat.ofCol xs).m = 0 ↔ (Mat.ofCol xs).n = 0 := by
      simp only [Mat.ofCol]; omega
    have hV2 : (Tm.view (.view2D .one xs.length 1) t : Tm α .two).Valid s := by
      refine ⟨hV, ?_⟩
      show (0 : Int) ≤ _ ∧ (0 : Int) ≤ _ ∧ _ = (((t.meaning s).dims.1 * (t.meaning s).dims.2 : Nat) : Int)
      have : (t.meaning s).dims.2 = 1 := rfl
      rw [hd, this]
      omega
    have hF2 : (EStmt.use2 i (.insertCols pos) (.view (.view2D .one xs.length 1) t)).Fits s :=
      ⟨hs, ⟨hM, by rw [hd] at hmm; exact hmm, fun _ => table_roomy hT2 hzN (by simp only [Mat.ofCol]; omega)⟩, hT,
        fun _ => table_elements hT2⟩
    have he : (theMat (s.a2 i)).insertCol? xs pos = (theMat (s.a2 i)).insertCols? (Mat.ofCol xs) pos := if_neg hne
    cases hi : (theMat (s.a2 i)).insertCols? (Mat.ofCol xs) pos with
    | none =>
      exact interchange ⟨hs, hM, hT, hO, hown⟩ hF2 (.inr ⟨col_position_rejects hsh hx (he.trans hi),
        cols_position_rejects hsh hT2 hi⟩)
    | some M' =>
      have hz := hA.zero
      have hz' : M'.m = 0 ↔ M'.n = 0 := by
        have hi' := hi
        unfold Mat.insertCols? at hi'
        split at hi' <;> split at hi' <;> cases hi'
        · exact hzN
        · simp only [Mat.insertCols, Mat.ofCol] at *; omega
      have ha := flat_isMat hz'
      exact interchange ⟨hs, hM, hT, hO, hown⟩ hF2
        (.inl ⟨_, .useRow hV hA hx (he.trans hi) ha, .use2 hV2 hA hT2 hi ha⟩)
  · have hV2 : ¬ (Tm.view (.view2D .one (t.meaning s).dims.1 1) t : Tm α .two).Valid s := fun v => hV v.1
    exact interchange ⟨hs, hM, hT, hO, hown⟩ ⟨hs, ⟨hM, hmm, fun v => absurd v hV2⟩, hT, fun v => absurd v hV2⟩
      (.inr ⟨useRow_rejects hV, use2_rejects hV2⟩)

/-! ### The hypotheses are met, and where the statements differ -/

namespace InterchangeExample

/-- `a` = 5, 6, 7, 8 and `A` = 1, 2, 3; 4, 5, 6. -/
def store : Store Int :=
  ⟨upd (fun _ => []) 0 [5, 6, 7, 8], upd (fun _ => ⟨0, 0, []⟩) 0 ⟨2, 3, [1, 2, 3, 4, 5, 6]⟩⟩

theorem store_moderate : store.Moderate := by
  refine ⟨fun i => ?_, fun i => ?_⟩
  · by_cases hi : i = 0 <;> simp [store, upd, hi]
  · by_cases hi : i = 0
    · subst hi
      exact ⟨⟨by decide, by decide, by decide, by decide⟩, by decide⟩
    · have : store.a2 i = ⟨0, 0, []⟩ := by simp [store, upd, hi]
      rw [this]
      exact ⟨⟨by decide, by decide, by decide, by decide⟩, by decide⟩

/-- `A.insert_rows(1, A)`: the operand reads the array. -/
theorem own_fits : (EStmt.use2 0 (.insertRows 1) (array2 0)).Fits store :=
  ⟨store_moderate, trivial, trivial, fun _ => table_elements (array2_table (store_moderate.2 0).1)⟩

theorem own_cols_fits : (EStmt.use2 0 (.insertCols 2) (array2 0)).Fits store :=
  ⟨store_moderate, trivial, trivial, fun _ => table_elements (array2_table (store_moderate.2 0).1)⟩

/-- `a.insert(3, a)`. -/
theorem own_list_fits : (EStmt.use1 0 (.insert 3) (array1 0)).Fits store :=
  ⟨store_moderate, trivial, trivial, fun _ => ok_elements (array1_meaning store 0)⟩

/-- `A.insert_row(1, a(firstN{3}))`. -/
def three : Tm Int .one := .view (.slice (.firstN 3)) (array1 0)

theorem three_fits : (EStmt.useRow 0 (.insertRow 1) three).Fits store :=
  ⟨store_moderate, ⟨trivial, by show Modest 3; decide, fun _ => by show (List.length (Tm.meaning store (.view (.slice (.firstN 3)) (array1 0))) : Int) < _; rw [first_meaning]; decide⟩, trivial,
    fun _ => ok_elements (first_meaning store 0 3), fun h => by exact absurd h (by decide)⟩

def two : Tm Int .one := .view (.slice (.firstN 2)) (array1 0)

theorem two_fits : (EStmt.useRow 0 (.insertCol 1) two).Fits store :=
  ⟨store_moderate, ⟨trivial, by show Modest 2; decide, fun _ => by show (List.length (Tm.meaning store (.view (.slice (.firstN 2)) (array1 0))) : Int) < _; rw [first_meaning]; decide⟩, trivial,
    fun _ => ok_elements (first_meaning store 0 2), fun h => by exact absurd h (by decide)⟩

end InterchangeExample

open InterchangeExample

example : Interchangeable store (.list (.remove 0 1 2)) (.use1 0 .resizeAndAssign (.exclude (array1 0) 1 2)) ∧
    (estmtRun ⟨false, true, false⟩ (.list (.remove 0 1 2)) store).2.a1 0 = [5, 8] :=
  ⟨C134_remove store_moderate 0 (by decide) (by decide), by decide⟩

example : Interchangeable store (.list (.removeFront 0 3))
      (.use1 0 .resizeAndAssign (.view (.slice (.lastN ((store.a1 0).length - 3))) (array1 0))) ∧
    (estmtRun ⟨false, true, false⟩ (.list (.removeFront 0 3)) store).2.a1 0 = [8] :=
  ⟨(C134_remove_ends store_moderate 0 (by decide) (by decide) (by decide)).1, by decide⟩

example : Interchangeable store (.list (.removeLast 0 0)) (.use1 0 .resizeAndAssign (.excludeLast (array1 0) 0)) ∧
    (estmtRun ⟨false, true, false⟩ (.list (.removeLast 0 0)) store).2.a1 0 = [5, 6, 7] :=
  ⟨C134_remove_last store_moderate 0, by decide⟩

example : Interchangeable store (.list (.removeVec 0 [0, 2]))
      (.use1 0 .resizeAndAssign (.view (.slice (.complement [0, 2])) (array1 0))) ∧
    (estmtRun ⟨false, true, false⟩ (.list (.removeVec 0 [0, 2])) store).2.a1 0 = [6, 8] :=
  ⟨C134_remove_indexes store_moderate 0 (by decide), by decide⟩

example : Interchangeable store (.use1 0 (.insert 3) (array1 0))
      (.use1 0 .resizeAndAssign (.merge (.merge (.view (.slice (.firstN 3)) (array1 0)) (array1 0))
        (.view (.slice (.lastN ((store.a1 0).length - 3))) (array1 0)))) ∧
    (estmtRun ⟨false, true, false⟩ (.use1 0 (.insert 3) (array1 0)) store).2.a1 0 = [5, 6, 7, 5, 6, 7, 8, 8] :=
  ⟨C134_insert 0 own_list_fits (by decide) (by decide) (fun _ => by decide), by decide⟩

example : Interchangeable store (.list (.insert 0 2 9))
      (.use1 0 .resizeAndAssign (.merge (.append (.view (.slice (.firstN 2)) (array1 0)) 9)
        (.view (.slice (.lastN ((store.a1 0).length - 2))) (array1 0)))) ∧
    (estmtRun ⟨false, true, false⟩ (.list (.insert 0 2 9)) store).2.a1 0 = [5, 6, 9, 7, 8] :=
  ⟨(C134_insert_value store_moderate 0 9 (by decide) (by decide)).1, by decide⟩

example : Interchangeable store (.mat (.call 0 (.removeColsVec [0, 2])))
      (.use2 0 .resizeAndAssign (.view (.slice2 .all (.complement [0, 2])) (array2 0))) ∧
    (estmtRun ⟨false, true, false⟩ (.mat (.call 0 (.removeColsVec [0, 2]))) store).2.a2 0 = ⟨2, 1, [2, 5]⟩ :=
  ⟨(C134_remove_rows_indexes store_moderate 0 (by decide)).2, by decide⟩

example : Interchangeable store (.mat (.call 0 (.removeCols 1 2)))
      (.use2 0 .resizeAndAssign (.view (.slice2 .all (.complement (numbers 1 2))) (array2 0))) ∧
    (estmtRun ⟨false, true, false⟩ (.mat (.call 0 (.removeCols 1 2))) store).2.a2 0 = ⟨2, 1, [1, 4]⟩ :=
  ⟨(C134_remove_rows store_moderate 0 (by decide) (by decide) (by decide) (by decide)).2, by decide⟩

example : Interchangeable store (.mat (.call 0 (.removeRowsFront 1)))
      (.use2 0 .resizeAndAssign (.view (.slice2 (.lastN ((store.a2 0).rows - 1)) .all) (array2 0))) ∧
    (estmtRun ⟨false, true, false⟩ (.mat (.call 0 (.removeRowsFront 1))) store).2.a2 0 = ⟨1, 3, [4, 5, 6]⟩ :=
  ⟨(C134_remove_rows_ends store_moderate 0 (by decide) (by decide) (by decide)).1, by decide⟩

example : Interchangeable store (.mat (.call 0 (.removeColsBack 1)))
      (.use2 0 .resizeAndAssign (.view (.slice2 .all (.firstN ((store.a2 0).cols - 1))) (array2 0))) ∧
    (estmtRun ⟨false, true, false⟩ (.mat (.call 0 (.removeColsBack 1))) store).2.a2 0 = ⟨2, 2, [1, 2, 4, 5]⟩ :=
  ⟨(C134_remove_cols_ends store_moderate 0 (by decide) (by decide) (by decide)).2, by decide⟩

example : Interchangeable store (.use2 0 (.insertRows 1) (array2 0))
      (.use2 0 .resizeAndAssign (.mergeV (.mergeV (.view (.slice2 (.firstN 1) .all) (array2 0)) (array2 0))
        (.view (.slice2 (.lastN ((store.a2 0).rows - 1)) .all) (array2 0)))) ∧
    (estmtRun ⟨false, true, false⟩ (.use2 0 (.insertRows 1) (array2 0)) store).2.a2 0 =
      ⟨4, 3, [1, 2, 3, 1, 2, 3, 4, 5, 6, 4, 5, 6]⟩ :=
  ⟨C134_insert_rows 0 own_fits (by decide) (by decide) (fun _ => by decide) (fun _ => by decide), by decide⟩

example : Interchangeable store (.use2 0 (.insertCols 2) (array2 0))
      (.use2 0 .resizeAndAssign (.mergeH (.mergeH (.view (.slice2 .all (.firstN 2)) (array2 0)) (array2 0))
        (.view (.slice2 .all (.lastN ((store.a2 0).cols - 2))) (array2 0)))) ∧
    (estmtRun ⟨false, true, false⟩ (.use2 0 (.insertCols 2) (array2 0)) store).2.a2 0 =
      ⟨2, 6, [1, 2, 1, 2, 3, 3, 4, 5, 4, 5, 6, 6]⟩ :=
  ⟨C134_insert_cols 0 own_cols_fits (by decide) (by decide) (fun _ => by decide) (fun _ => by decide), by decide⟩

example : Interchangeable store (.useRow 0 (.insertRow 1) three)
      (.use2 0 (.insertRows 1) (.view (.view2D .one 1 (three.meaning store).dims.1) three)) ∧
    (estmtRun ⟨false, true, false⟩ (.useRow 0 (.insertRow 1) three) store).2.a2 0 =
      ⟨3, 3, [1, 2, 3, 5, 6, 7, 4, 5, 6]⟩ :=
  ⟨C134_insert_row 0 three_fits (fun _ => by decide) (by decide), by decide⟩

example : Interchangeable store (.useRow 0 (.insertCol 1) two)
      (.use2 0 (.insertCols 1) (.view (.view2D .one (two.meaning store).dims.1 1) two)) ∧
    (estmtRun ⟨false, true, false⟩ (.useRow 0 (.insertCol 1) two) store).2.a2 0 =
      ⟨2, 4, [1, 5, 2, 3, 4, 6, 5, 6]⟩ :=
  ⟨C134_insert_col 0 two_fits (fun _ => by decide) (by decide), by decide⟩

/-- The array 1 of the store has no elements. -/
theorem nothing_fits : (EStmt.use2 0 (.insertRows 1) (array2 1)).Fits store :=
  ⟨store_moderate, trivial, trivial, fun _ => table_elements (array2_table (store_moderate.2 1).1)⟩

/-- C134: where the statements differ.  Removing 0 elements is rejected although `A(lastN{A.size()})` is not, for every
array; inserting an operand without elements into a two-dimensional array is rejected although merging it is not. -/
theorem C134_nothing_differs :
    (∀ (s : Store α), s.Moderate → ∀ i b, b.Checked →
      (∃ k, estmtRun b (.list (.removeFront i 0)) s = (.trap k, s)) ∧
      (Modest (s.a1 i).length → estmtRun b (.use1 i .resizeAndAssign
        (.view (.slice (.lastN (s.a1 i).length)) (array1 i))) s = (.ok (), s))) ∧
    ∃ s : Store Int, s.Moderate ∧ ¬ Interchangeable s (.use2 0 (.insertRows 1) (array2 1))
      (.use2 0 .resizeAndAssign (.mergeV (.mergeV (.view (.slice2 (.firstN 1) .all) (array2 0)) (array2 1))
        (.view (.slice2 (.lastN ((s.a2 0).rows - 1)) .all) (array2 0)))) := by
  refine ⟨fun s hs i b hb => ⟨?_, fun hn => ?_⟩, store, store_moderate, ?_⟩
  · have h0 : ¬ ((0 : Int) < 0 ∧ (0 : Int) ≤ (s.a1 i).length) := fun h => absurd h.1 (Int.lt_irrefl 0)
    have hm : Stmt.meaning s.a1 (.removeFront i 0) = none := by
      unfold Stmt.meaning
      exact if_neg h0
    obtain ⟨e, k, e'⟩ := list_rejects hm _ _ _ (does_of_run hb ⟨hs, moderate_of_modest (by decide), fun _ _ h => nomatch h⟩)
    exact ⟨k, Prod.ext e' e⟩
  · have hl := hs.1 i
    have hm := last_meaning s i (s.a1 i).length
    have e : ({ s with a1 := upd s.a1 i (s.a1 i) } : Store α) = s := by
      have : upd s.a1 i (s.a1 i) = s.a1 := by
        funext j
        by_cases h : j = i
        · subst h; simp [upd]
        · simp [upd, h]
      rw [this]
    have := run_of_does (c := .use1 i .resizeAndAssign (.view (.slice (.lastN (s.a1 i).length)) (array1 i))) b
      ⟨hs, ⟨trivial, hn, fun _ => ?_⟩, trivial, fun _ => ok_elements hm⟩
      (.use1 (l := s.a1 i) (last_valid.2 (by omega)) (hm.trans (by rw [Int.sub_self]; rfl)) rfl)
    · rwa [e] at this
    · show (List.length (Tm.meaning s (.view (.slice (.lastN _)) (array1 i))) : Int) < _
      rw [hm, List.length_map, List.length_drop]; omega
  · rintro (⟨s', h⟩ | h)
    · have h1 : (estmtRun ⟨false, true, false⟩ (.use2 0 (.insertRows 1) (array2 1)) store).1 = .trap .exception := by decide
      rw [(h ⟨false, true, false⟩).1] at h1
      cases h1
    · obtain ⟨k, e⟩ := (h ⟨false, true, false⟩ ⟨rfl, .inl rfl⟩).2
      have h1 : (estmtRun ⟨false, true, false⟩ (.use2 0 .resizeAndAssign
        (.mergeV (.mergeV (.view (.slice2 (.firstN 1) .all) (array2 0)) (array2 1))
        (.view (.slice2 (.lastN ((store.a2 0).rows - 1)) .all) (array2 0)))) store).1 = .ok () := by decide +kernel
      rw [e] at h1
      cases h1

end Spp.Props
