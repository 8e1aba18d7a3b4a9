import Verif.Lemmas.Interchange

/-
Statements that may be replaced by each other (C134): what a member function does in place is what an expression of the
old array says.  The library's tests compare such pairs for some arrays (tests/array1D.cpp:217-323,
tests/array2D.cpp:232-349); here they are compared for all arrays, positions and operands, also invalid ones.
-/

set_option linter.unusedSectionVars false

namespace Spp.Props
open Spec

variable {α : Type} [Inhabited α]

/-- C134: `A.remove(pos, count)` is `A.resize_and_assign(exclude(A, pos, count))`. -/
theorem C134_remove {s : Store α} (hs : s.Moderate) (i : Nat) {pos count : Int} (hp : Modest pos) (hc : Modest count) :
    Interchangeable s (.list (.remove i pos count)) (.use1 i .resizeAndAssign (.exclude (array1 i) pos count)) := by
  have hm : Tm.meaning s (.exclude (array1 i) pos count) =
      (removed (s.a1 i) pos.toNat count.toNat).map Res.ok := by
    show removed ((array1 i : Tm α .one).meaning s) _ _ = _
    rw [array1_meaning]
    simp [removed]
  refine interchange ⟨hs, ⟨moderate_of_modest hp, moderate_of_modest hc⟩, fun _ _ h => nomatch h⟩
    ⟨hs, ⟨trivial, hp, hc⟩, trivial, fun _ => ok_elements hm⟩ ?_
  have hd := array1_dims s i
  by_cases h : 0 ≤ pos ∧ 0 < count ∧ pos + count ≤ (s.a1 i).length
  · exact .inl ⟨_, .list (if_pos h), .use1 ⟨trivial, h.1, h.2.1, by rw [hd]; exact h.2.2⟩ hm rfl⟩
  · refine .inr ⟨list_rejects (if_neg h), use1_rejects fun hV => h ⟨hV.2.1, hV.2.2.1, ?_⟩⟩
    have := hV.2.2.2
    rwa [hd] at this

/-- C134: `A.remove_front(count)` is `A.resize_and_assign(A(lastN{A.size() - count}))`, and `A.remove_back(count)` is
`A.resize_and_assign(A(firstN{A.size() - count}))`. -/
theorem C134_remove_ends {s : Store α} (hs : s.Moderate) (i : Nat) {count : Int} (hc : Modest count) (h0 : 0 < count)
    (hn : Modest ((s.a1 i).length - count)) :
    Interchangeable s (.list (.removeFront i count))
      (.use1 i .resizeAndAssign (.view (.slice (.lastN ((s.a1 i).length - count))) (array1 i))) ∧
    Interchangeable s (.list (.removeBack i count))
      (.use1 i .resizeAndAssign (.view (.slice (.firstN ((s.a1 i).length - count))) (array1 i))) := by
  have hl := hs.1 i
  have hd := array1_dims s i
  have hc' := hc
  unfold Modest at hc'
  constructor
  · have hm := last_meaning s i ((s.a1 i).length - count)
    refine interchange ⟨hs, moderate_of_modest hc, fun _ _ h => nomatch h⟩
      ⟨hs, ⟨trivial, hn, fun _ => ?_⟩, trivial, fun _ => ok_elements hm⟩ ?_
    · show (List.length (Tm.meaning s (.view (.slice (.lastN _)) (array1 i))) : Int) < _
      rw [hm, List.length_map, List.length_drop]; omega
    by_cases h : 0 < count ∧ count ≤ (s.a1 i).length
    · refine .inl ⟨_, .list (if_pos h), .use1 (last_valid.2 (by omega)) (hm.trans ?_) rfl⟩
      · rw [show (((s.a1 i).length : Int) - ((s.a1 i).length - count)) = count by omega]
    · refine .inr ⟨list_rejects (if_neg h), use1_rejects fun hV => h ⟨h0, ?_⟩⟩
      have h2 := last_valid.1 hV
      omega
  · have hm := first_meaning s i ((s.a1 i).length - count)
    refine interchange ⟨hs, moderate_of_modest hc, fun _ _ h => nomatch h⟩
      ⟨hs, ⟨trivial, hn, fun _ => ?_⟩, trivial, fun _ => ok_elements hm⟩ ?_
    · show (List.length (Tm.meaning s (.view (.slice (.firstN _)) (array1 i))) : Int) < _
      rw [hm, List.length_map, List.length_take]; omega
    by_cases h : 0 < count ∧ count ≤ (s.a1 i).length
    · refine .inl ⟨_, .list (if_pos h), .use1 (first_valid.2 (by omega)) (hm.trans ?_) rfl⟩
      · rw [show (((s.a1 i).length : Int) - count).toNat = (s.a1 i).length - count.toNat by omega]
    · refine .inr ⟨list_rejects (if_neg h), use1_rejects fun hV => h ⟨h0, ?_⟩⟩
      have h2 := first_valid.1 hV
      omega

/-- C134: `A.remove(last)` is `A.resize_and_assign(exclude(A, last))`. -/
theorem C134_remove_last {s : Store α} (hs : s.Moderate) (i : Nat) :
    Interchangeable s (.list (.removeLast i 0)) (.use1 i .resizeAndAssign (.excludeLast (array1 i) 0)) := by
  have hm : Tm.meaning s (.excludeLast (array1 i) 0) = ((s.a1 i).dropLast).map Res.ok := by
    show List.dropLast ((array1 i : Tm α .one).meaning s) = _
    rw [array1_meaning, List.map_dropLast]
  refine interchange ⟨hs, moderate_of_modest (by decide), fun _ _ h => nomatch h⟩
    ⟨hs, trivial, trivial, fun _ => ok_elements hm⟩ ?_
  have hd := array1_dims s i
  by_cases h : (0 : Int) ≤ 0 ∧ 0 < ((s.a1 i).length : Int)
  · refine .inl ⟨_, .list (if_pos h), .use1 ⟨trivial, by rw [hd]; omega⟩ (hm.trans ?_) rfl⟩
    rw [show (s.a1 i).length - 1 - Int.toNat 0 = (s.a1 i).length - 1 from rfl, List.dropLast_eq_take,
      List.eraseIdx_eq_take_drop_succ, show (s.a1 i).length - 1 + 1 = (s.a1 i).length by omega, List.drop_length,
      List.append_nil]
  · refine .inr ⟨list_rejects (if_neg h), use1_rejects fun hV => h ⟨Int.le_refl 0, ?_⟩⟩
    have h2 := hV.2
    rw [hd] at h2; omega

/-- C134: `A.remove(indexes)` is `A.resize_and_assign(A(complement{indexes}))`. -/
theorem C134_remove_indexes {s : Store α} (hs : s.Moderate) (i : Nat) {idx : List Int} (hi : ∀ x ∈ idx, Modest x) :
    Interchangeable s (.list (.removeVec i idx))
      (.use1 i .resizeAndAssign (.view (.slice (.complement idx)) (array1 i))) := by
  have hl := hs.1 i
  have hd := array1_dims s i
  have hm := complement_meaning s i idx
  refine interchange ⟨hs, trivial, fun _ _ h => nomatch h⟩ ⟨hs, ⟨trivial, hi, fun _ => ?_⟩, trivial,
    fun _ => ok_elements hm⟩ ?_
  · show (List.length (Tm.meaning s (.view (.slice (.complement _)) (array1 i))) : Int) < _
    have h1 : (withoutPositions (s.a1 i) idx).length ≤ (s.a1 i).length := by
      refine Nat.le_trans (List.length_filterMap_le ..) (Nat.le_trans (List.length_filter_le ..) ?_)
      rw [List.length_range]; exact Nat.le_refl _
    rw [hm, List.length_map]; omega
  by_cases h : idx.Pairwise (· < ·) ∧ ∀ x ∈ idx, 0 ≤ x ∧ x < (s.a1 i).length
  · refine .inl ⟨_, .list (if_pos h), .use1 ⟨trivial, h.1, ?_⟩ hm rfl⟩
    rw [hd]; exact h.2
  · refine .inr ⟨list_rejects (if_neg h), use1_rejects fun hV => h ⟨hV.2.1, ?_⟩⟩
    have h2 : ∀ x ∈ idx, InRange _ x := hV.2.2
    rw [hd] at h2; exact h2

/-- `A(firstN{pos})`, something, `A(lastN{A.size() - pos})`. -/
theorem around_valid {s : Store α} {i : Nat} {pos : Int} :
    ((Tm.view (.slice (.firstN pos)) (array1 i) : Tm α .one).Valid s ∧
      (Tm.view (.slice (.lastN ((s.a1 i).length - pos))) (array1 i) : Tm α .one).Valid s) ↔
    0 ≤ pos ∧ pos ≤ (s.a1 i).length := by
  rw [first_valid, last_valid]; omega

theorem around_modest {s : Store α} (hs : s.Moderate) {i : Nat} {pos : Int} (hp : Modest pos)
    (hn : Modest ((s.a1 i).length - pos)) :
    (Tm.view (.slice (.firstN pos)) (array1 i) : Tm α .one).Modest s ∧
    (Tm.view (.slice (.lastN ((s.a1 i).length - pos))) (array1 i) : Tm α .one).Modest s := by
  have hl := hs.1 i
  refine ⟨⟨trivial, hp, fun _ => ?_⟩, ⟨trivial, hn, fun _ => ?_⟩⟩
  · show (List.length (Tm.meaning s (.view (.slice (.firstN _)) (array1 i))) : Int) < _
    rw [first_meaning, List.length_map, List.length_take]; omega
  · show (List.length (Tm.meaning s (.view (.slice (.lastN _)) (array1 i))) : Int) < _
    rw [last_meaning, List.length_map, List.length_drop]; omega

/-- C134: `A.insert(pos, t)` is `A.resize_and_assign(merge(A(firstN{pos}), t, A(lastN{A.size() - pos})))`, for every
expression `t`, also one that reads `A`. -/
theorem C134_insert {s : Store α} (i : Nat) {pos : Int} {t : Tm α .one} (hF : (EStmt.use1 i (.insert pos) t).Fits s)
    (hp : Modest pos) (hn : Modest ((s.a1 i).length - pos))
    (hsz : t.Valid s → ((s.a1 i).length : Int) + List.length (t.meaning s) < 2 ^ 62) :
    Interchangeable s (.use1 i (.insert pos) t)
      (.use1 i .resizeAndAssign (.merge (.merge (.view (.slice (.firstN pos)) (array1 i)) t)
        (.view (.slice (.lastN ((s.a1 i).length - pos))) (array1 i)))) := by
  obtain ⟨hs, hM, hT, hO⟩ := hF
  obtain ⟨m1, m2⟩ := around_modest hs hp hn
  have e1 := first_meaning s i pos
  have e2 := last_meaning s i ((s.a1 i).length - pos)
  by_cases hV : t.Valid s
  · obtain ⟨xs, hx⟩ := all_ok (hO hV)
    have hx : t.meaning s = xs.map Res.ok := hx
    have hsz := hsz hV
    rw [hx, List.length_map] at hsz
    have k1 : Tm.meaning s (.merge (.view (.slice (.firstN pos)) (array1 i)) t) =
        ((s.a1 i).take pos.toNat ++ xs).map Res.ok := by
      exact merge_meaning e1 hx
    have k2 : Tm.meaning s (.merge (.merge (.view (.slice (.firstN pos)) (array1 i)) t)
        (.view (.slice (.lastN ((s.a1 i).length - pos))) (array1 i))) = (inserted (s.a1 i) pos.toNat xs).map Res.ok := by
      exact merge_meaning k1 (e2.trans (by
        rw [show (((s.a1 i).length : Int) - ((s.a1 i).length - pos)) = pos by omega]))
    refine interchange ⟨hs, hM, hT, hO⟩ ⟨hs, ⟨⟨m1, hM, fun _ => ?_⟩, m2, fun _ => ?_⟩, ⟨⟨trivial, hT⟩, trivial⟩,
      fun _ => ok_elements k2⟩ ?_
    · show (List.length (Tm.meaning s (.merge _ t)) : Int) < _
      rw [k1, List.length_map, List.length_append, List.length_take]; omega
    · show (List.length (Tm.meaning s (.merge (.merge _ t) _)) : Int) < _
      rw [k2, List.length_map, inserted, List.length_append, List.length_append, List.length_take, List.length_drop]
      omega
    by_cases h : 0 ≤ pos ∧ pos ≤ (s.a1 i).length
    · obtain ⟨v1, v2⟩ := around_valid.2 h
      exact .inl ⟨_, .use1 hV hx (if_pos h), .use1 ⟨⟨v1, hV⟩, v2⟩ k2 rfl⟩
    · exact .inr ⟨use1_position_rejects hx (if_neg h), use1_rejects fun v => h (around_valid.1 ⟨v.1.1, v.2⟩)⟩
  · refine interchange ⟨hs, hM, hT, hO⟩ ⟨hs, ⟨⟨m1, hM, fun v => absurd v.2 hV⟩, m2, fun v => absurd v.1.2 hV⟩,
      ⟨⟨trivial, hT⟩, trivial⟩, fun v => absurd v.1.2 hV⟩ ?_
    exact .inr ⟨use1_rejects hV, use1_rejects fun v => hV v.1.2⟩

/-- C134: `A.insert_front(t)` is `A.resize_and_assign(merge(t, A))`, and `A.insert_back(t)` is
`A.resize_and_assign(merge(A, t))`. -/
theorem C134_insert_ends {s : Store α} (i : Nat) {t : Tm α .one} (hF : (EStmt.use1 i .insertFront t).Fits s)
    (hsz : t.Valid s → ((s.a1 i).length : Int) + List.length (t.meaning s) < 2 ^ 62) :
    Interchangeable s (.use1 i .insertFront t) (.use1 i .resizeAndAssign (.merge t (array1 i))) ∧
    Interchangeable s (.use1 i .insertBack t) (.use1 i .resizeAndAssign (.merge (array1 i) t)) := by
  obtain ⟨hs, hM, hT, hO⟩ := hF
  have e := array1_meaning s i
  by_cases hV : t.Valid s
  · obtain ⟨xs, hx⟩ := all_ok (hO hV)
    have hx : t.meaning s = xs.map Res.ok := hx
    have hsz := hsz hV
    rw [hx, List.length_map] at hsz
    have k1 : Tm.meaning s (.merge t (array1 i)) = (xs ++ s.a1 i).map Res.ok := by
      show List.append (t.meaning s) (Tm.meaning s (array1 i)) = _
      rw [e, hx, List.map_append]; rfl
    have k2 : Tm.meaning s (.merge (array1 i) t) = (s.a1 i ++ xs).map Res.ok := by
      show List.append (Tm.meaning s (array1 i)) (t.meaning s) = _
      rw [e, hx, List.map_append]; rfl
    constructor
    · refine interchange ⟨hs, hM, hT, hO⟩ ⟨hs, ⟨hM, trivial, fun _ => ?_⟩, ⟨hT, trivial⟩, fun _ => ok_elements k1⟩
        (.inl ⟨_, .use1 hV hx rfl, .use1 ⟨hV, trivial⟩ k1 rfl⟩)
      show (List.length (Tm.meaning s (.merge t _)) : Int) < _
      rw [k1, List.length_map, List.length_append]; omega
    · refine interchange ⟨hs, hM, hT, hO⟩ ⟨hs, ⟨trivial, hM, fun _ => ?_⟩, ⟨trivial, hT⟩, fun _ => ok_elements k2⟩
        (.inl ⟨_, .use1 hV hx rfl, .use1 ⟨trivial, hV⟩ k2 rfl⟩)
      show (List.length (Tm.meaning s (.merge _ t)) : Int) < _
      rw [k2, List.length_map, List.length_append]; omega
  · constructor
    · exact interchange ⟨hs, hM, hT, hO⟩ ⟨hs, ⟨hM, trivial, fun v => absurd v.1 hV⟩, ⟨hT, trivial⟩,
        fun v => absurd v.1 hV⟩ (.inr ⟨use1_rejects hV, use1_rejects fun v => hV v.1⟩)
    · exact interchange ⟨hs, hM, hT, hO⟩ ⟨hs, ⟨trivial, hM, fun v => absurd v.2 hV⟩, ⟨trivial, hT⟩,
        fun v => absurd v.2 hV⟩ (.inr ⟨use1_rejects hV, use1_rejects fun v => hV v.2⟩)

/-- C134: `A.insert(pos, x)` is `A.resize_and_assign(merge(A(firstN{pos}), x, A(lastN{A.size() - pos})))`,
`A.insert_front(x)` is `A.resize_and_assign(merge(x, A))` and `A.insert_back(x)` is
`A.resize_and_assign(merge(A, x))`. -/
theorem C134_insert_value {s : Store α} (hs : s.Moderate) (i : Nat) (x : α) {pos : Int} (hp : Modest pos)
    (hn : Modest ((s.a1 i).length - pos)) :
    Interchangeable s (.list (.insert i pos x))
      (.use1 i .resizeAndAssign (.merge (.append (.view (.slice (.firstN pos)) (array1 i)) x)
        (.view (.slice (.lastN ((s.a1 i).length - pos))) (array1 i)))) ∧
    Interchangeable s (.list (.insertFront i x)) (.use1 i .resizeAndAssign (.prepend x (array1 i))) ∧
    Interchangeable s (.list (.insertBack i x)) (.use1 i .resizeAndAssign (.append (array1 i) x)) := by
  have hl := hs.1 i
  obtain ⟨m1, m2⟩ := around_modest hs hp hn
  have e := array1_meaning s i
  have e1 := first_meaning s i pos
  have e2 := last_meaning s i ((s.a1 i).length - pos)
  have hp' := hp
  unfold Modest at hp'
  refine ⟨?_, ?_, ?_⟩
  · have k1 : Tm.meaning s (.append (.view (.slice (.firstN pos)) (array1 i)) x) =
        ((s.a1 i).take pos.toNat ++ [x]).map Res.ok := by
      exact append_meaning e1
    have k2 : Tm.meaning s (.merge (.append (.view (.slice (.firstN pos)) (array1 i)) x)
        (.view (.slice (.lastN ((s.a1 i).length - pos))) (array1 i))) = (inserted (s.a1 i) pos.toNat [x]).map Res.ok := by
      exact merge_meaning k1 (e2.trans (by
        rw [show (((s.a1 i).length : Int) - ((s.a1 i).length - pos)) = pos by omega]))
    refine interchange ⟨hs, moderate_of_modest hp, fun _ _ h => nomatch h⟩
      ⟨hs, ⟨⟨m1, fun _ => ?_⟩, m2, fun _ => ?_⟩, ⟨trivial, trivial⟩, fun _ => ok_elements k2⟩ ?_
    · show (List.length (Tm.meaning s (.append _ x)) : Int) < _
      rw [k1, List.length_map, List.length_append, List.length_take]; simp only [List.length_singleton]; omega
    · show (List.length (Tm.meaning s (.merge (.append _ x) _)) : Int) < _
      rw [k2, List.length_map, inserted, List.length_append, List.length_append, List.length_take, List.length_drop]
      simp only [List.length_singleton]
      omega
    by_cases h : 0 ≤ pos ∧ pos ≤ (s.a1 i).length
    · obtain ⟨v1, v2⟩ := around_valid.2 h
      exact .inl ⟨_, .list (if_pos h), .use1 ⟨v1, v2⟩ k2 rfl⟩
    · exact .inr ⟨list_rejects (if_neg h), use1_rejects fun v => h (around_valid.1 v)⟩
  · have k : Tm.meaning s (.prepend x (array1 i)) = (x :: s.a1 i).map Res.ok := by
      show List.cons (Res.ok x) (Tm.meaning s (array1 i)) = _
      rw [e, List.map_cons]
    refine interchange ⟨hs, trivial, fun _ _ h => nomatch h⟩ ⟨hs, ⟨trivial, fun _ => ?_⟩, trivial, fun _ => ok_elements k⟩
      (.inl ⟨_, .list rfl, .use1 trivial k rfl⟩)
    show (List.length (Tm.meaning s (.prepend x _)) : Int) < _
    rw [k, List.length_map, List.length_cons]; omega
  · have k : Tm.meaning s (.append (array1 i) x) = (s.a1 i ++ [x]).map Res.ok := by
      show List.append (Tm.meaning s (array1 i)) [Res.ok x] = _
      rw [e, List.map_append]; rfl
    refine interchange ⟨hs, trivial, fun _ _ h => nomatch h⟩ ⟨hs, ⟨trivial, fun _ => ?_⟩, trivial, fun _ => ok_elements k⟩
      (.inl ⟨_, .list rfl, .use1 trivial k rfl⟩)
    show (List.length (Tm.meaning s (.append _ x)) : Int) < _
    rw [k, List.length_map, List.length_append]; simp only [List.length_singleton]; omega

end Spp.Props
