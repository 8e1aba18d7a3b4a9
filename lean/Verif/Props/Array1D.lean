import Verif.Lemmas.Array1D

/-
One-dimensional owning arrays: C23 - C30 (and the removal part of C18).

Every theorem about an accepted call gives the outcome and the complete new contents; every theorem
about a rejected call gives the trap and says that the contents are unchanged.
-/

set_option linter.unusedSectionVars false

namespace Spp.Props
open Spec Arr1

variable {α : Type} [Inhabited α]

/-! ### C24 resize -/

/-- `resize(n, true)` cuts or zero-extends; `resize(n, false)` gives `n` zeros, unless the size does
not change, in which case the array is left alone. -/
theorem C24_resize (b : Build) {n : Int} (hn : 0 ≤ n) (l : List α) :
    resize b n true l = (.ok (), resized default l n.toNat) ∧
    resize b n false l =
      (.ok (), if n = l.length then l else List.replicate n.toNat default) := by
  have h1 : decide (n > -1) = true := by simp; omega
  constructor
  · simp only [resize, h1, assertDebug_true, Op.lift_ok_bind, Op.get_bind, len]
    by_cases h : n = l.length
    · subst h
      simp [resized]
    · simp only [h, ne_eq, not_false_iff, if_true, make_ok b hn, Op.lift_ok_bind]
      by_cases h2 : n ≤ l.length
      · rw [show min (l.length : Int) n = n by omega,
          copyn0_ok (xs := l.take n.toNat) (by simp; omega) (by simp; omega)
            (by intro i hi; rw [rd_nat (by simp at hi; omega)]; simp)]
        simp [Op.lift_ok_bind, overwrite, resized]
        omega
      · rw [show min (l.length : Int) n = l.length by omega,
          copyn0_ok (xs := l) (by simp) (by simp; omega) (fun i hi => rd_nat hi)]
        have : List.take n.toNat l = l := List.take_of_length_le (by omega)
        simp [Op.lift_ok_bind, overwrite, resized, this]
  · simp only [resize, h1, assertDebug_true, Op.lift_ok_bind, Op.get_bind, len]
    by_cases h : n = l.length
    · simp [h]
    · simp [h, make_ok b hn]

/-- A negative new size is rejected and nothing changes. -/
theorem C24_resize_rejected {b : Build} (hb : b.Checked) {n : Int} (hn : n < 0) (p : Bool)
    (l : List α) : resize b n p l = (.trap b.kind, l) := by
  have h1 : decide (n > -1) = false := by simp; omega
  simp [resize, h1, assertDebug_false hb]

example : resize ⟨false, true, false⟩ 5 true [(1 : Int), 2, 3] = (.ok (), [1, 2, 3, 0, 0]) := by
  simpa [resized] using (C24_resize (α := Int) ⟨false, true, false⟩ (n := 5) (by decide) [1, 2, 3]).1

/-! ### C25 removal of a range -/

theorem remove_tail (b : Build) {pos count : Int} {l : List α} (h0 : 0 ≤ pos) (hc : 0 < count)
    (hl : pos + count ≤ l.length) :
    copyn0 (rd l) (List.replicate (l.length - count : Int).toNat default) pos
      = .ok (overwrite (List.replicate (l.length - count : Int).toNat default) 0
          (l.take pos.toNat)) := by
  apply copyn0_ok
  · simp; omega
  · simp; omega
  · intro i hi
    rw [rd_nat (by simp at hi; omega)]; simp

/-- `remove(pos, count)` with a valid range deletes exactly those elements. -/
theorem C25_remove (b : Build) {pos count : Int} {l : List α} (hs : Sized l) (h0 : 0 ≤ pos)
    (hc : 0 < count) (hl : pos + count ≤ l.length) :
    remove b pos count l = (.ok (), removed l pos.toNat count.toNat) := by
  have h1 : decide (count > 0) = true := by simpa using hc
  have h2 : validIndex l.length pos = true := validIndex_iff.2 ⟨h0, by omega⟩
  have h3 : validIndex l.length (pos + count - 1) = true :=
    validIndex_iff.2 ⟨by omega, by omega⟩
  have hs' : (l.length : Int) < 2 ^ 63 := hs
  simp only [remove, h1, assertDebug_true, Op.lift_ok_bind, Op.get_bind, len, h2,
    iadd_ok (show IsIndex (pos + count) by unfold IsIndex; omega), Res.ok_bind,
    isub_ok (show IsIndex (pos + count - 1) by unfold IsIndex; omega), h3, Res.pure_eq,
    assertDebugM_ok, isub_ok (show IsIndex ((l.length : Int) - count) by unfold IsIndex; omega),
    make_ok b (show 0 ≤ (l.length : Int) - count by omega), remove_tail b h0 hc hl]
  rw [copyn_ok (xs := (l.drop (pos + count).toNat).take (l.length - pos - count : Int).toNat)
    (by simp; omega) h0
    (by rw [overwrite_length (by simp; omega)]; simp; omega)
    (rd_window (by omega) (by omega))]
  simp only [Op.lift_ok_bind, Op.set_run, Prod.mk.injEq, true_and]
  have e : (l.drop (pos + count).toNat).take (l.length - pos - count : Int).toNat
      = l.drop (pos + count).toNat := List.take_of_length_le (by simp; omega)
  rw [e]
  have e2 : (pos + count).toNat = pos.toNat + count.toNat := by omega
  have l1 : (List.take pos.toNat l).length = pos.toNat := by simp; omega
  simp only [overwrite, removed, e2, List.take_zero, List.nil_append, Nat.zero_add, l1]
  rw [List.take_append_of_le_length (by omega), List.take_of_length_le (by omega),
    List.drop_append, List.drop_eq_nil_of_le (as := List.take _ l) (by simp; omega)]
  simp
  omega

/-- An invalid range is rejected and nothing changes (as long as the checked expression
`pos + count - 1` itself does not overflow). -/
theorem C25_remove_rejected {b : Build} (hb : b.Checked) {pos count : Int} {l : List α}
    (hi : IsIndex (pos + count)) (hi' : IsIndex (pos + count - 1))
    (h : ¬ (0 ≤ pos ∧ 0 < count ∧ pos + count ≤ l.length)) :
    remove b pos count l = (.trap b.kind, l) := by
  by_cases hc : 0 < count
  · have h1 : decide (count > 0) = true := by simpa using hc
    by_cases hp : InRange l.length pos
    · have h2 : validIndex l.length pos = true := validIndex_iff.2 hp
      have hp1 := hp.1
      have h3 : validIndex l.length (pos + count - 1) = false :=
        validIndex_false.2 (by rintro ⟨_, _⟩; omega)
      simp [remove, h1, len, h2, iadd_ok hi, isub_ok hi', h3, assertDebug_false hb]
    · have h2 : validIndex l.length pos = false := validIndex_false.2 hp
      simp [remove, h1, len, h2, assertDebug_false hb]
  · have h1 : decide (count > 0) = false := by simpa using hc
    simp [remove, h1, assertDebug_false hb]

/-- The check itself overflows for astronomically large counts: `A.remove(1, LONG_MAX)` is undefined
behaviour also in debug builds. -/
theorem C25_remove_check_overflows {b : Build} (hb : b.Checked) (x y : α) (l : List α)
    (hs : Sized (x :: y :: l)) :
    (remove b 1 (2 ^ 63 - 1) (x :: y :: l)).1 = .ub := by
  have h2 : validIndex ((x :: y :: l).length : Int) 1 = true :=
    validIndex_iff.2 ⟨by omega, by simp; omega⟩
  have h3 : iadd 1 (2 ^ 63 - 1) = .ub := by
    rcases iadd_cases 1 (2 ^ 63 - 1) with ⟨h, _⟩ | ⟨_, h⟩
    · exact absurd h (by unfold IsIndex; omega)
    · exact h
  unfold remove
  simp only [len, Op.get_bind, h2, h3, assertDebugM_checked hb, assertDebug_true, Op.lift_ok_bind,
    Res.ub_bind, Op.lift_ub_bind, show decide ((2 : Int) ^ 63 - 1 > 0) = true by decide]

/-- What a checked build does with any `remove(pos, count)`: a position outside the array or a count that is not positive
is rejected; then, if `pos + count` is not an `index_t`, the check is undefined behaviour; then a range that is too long is
rejected; every other range is deleted. -/
theorem C25_remove_outcome {b : Build} (hb : b.Checked) {pos count : Int} {l : List α} (hs : Sized l) :
    (¬ (InRange l.length pos ∧ 0 < count) → remove b pos count l = (.trap b.kind, l)) ∧
    (InRange l.length pos → 0 < count → 2 ^ 63 ≤ pos + count → remove b pos count l = (.ub, l)) ∧
    (InRange l.length pos → 0 < count → pos + count < 2 ^ 63 → l.length < pos + count →
      remove b pos count l = (.trap b.kind, l)) ∧
    (InRange l.length pos → 0 < count → pos + count ≤ l.length →
      remove b pos count l = (.ok (), removed l pos.toNat count.toNat)) := by
  refine ⟨fun h => ?_, fun h1 h2 h3 => ?_, fun h1 h2 h3 h4 => ?_, fun h1 h2 h3 => C25_remove b hs h1.1 h2 h3⟩
  · by_cases hc : 0 < count
    · have h1 : decide (count > 0) = true := by simpa using hc
      have h2 : validIndex l.length pos = false := validIndex_false.2 fun hp => h ⟨hp, hc⟩
      simp [remove, h1, len, h2, assertDebug_false hb]
    · have h1 : decide (count > 0) = false := by simpa using hc
      simp [remove, h1, assertDebug_false hb]
  · have e1 : decide (count > 0) = true := by simpa using h2
    have e2 : validIndex (l.length : Int) pos = true := validIndex_iff.2 h1
    have e3 : iadd pos count = .ub := by
      rcases iadd_cases pos count with ⟨h, _⟩ | ⟨_, h⟩
      · exact absurd h (by unfold IsIndex; omega)
      · exact h
    unfold remove
    simp only [len, Op.get_bind, e1, e2, e3, assertDebugM_checked hb, assertDebug_true, Op.lift_ok_bind,
      Res.ub_bind, Op.lift_ub_bind]
  · have := h1.1
    exact C25_remove_rejected hb (by unfold IsIndex; omega) (by unfold IsIndex; omega) (by omega)

example : remove ⟨false, true, false⟩ 1 2 [5, 6, 7, 8] = (.ok (), [5, 8]) ∧
    remove ⟨false, true, false⟩ 1 4 [5, 6, 7, 8] = (.trap .exception, [5, 6, 7, 8]) := by decide

/-- `remove_front(count)` deletes the first `count` elements, `remove_back(count)` the last
`count`. -/
theorem C25_remove_front_back (b : Build) {count : Int} {l : List α} (hs : Sized l)
    (hc : 0 < count) (hl : count ≤ l.length) :
    removeFront b count l = (.ok (), l.drop count.toNat) ∧
    removeBack b count l = (.ok (), l.take (l.length - count.toNat)) := by
  have hs' : (l.length : Int) < 2 ^ 63 := hs
  constructor
  · rw [removeFront, C25_remove b hs (by omega) hc (by omega)]
    simp [removed]
  · simp only [removeBack, Op.get_bind, len,
      isub_ok (show IsIndex ((l.length : Int) - count) by unfold IsIndex; omega), Op.lift_ok_bind]
    rw [C25_remove b hs (by omega) hc (by omega)]
    simp only [removed, Prod.mk.injEq, true_and]
    rw [List.drop_eq_nil_of_le (by omega)]
    simp; congr 1; omega

theorem C25_remove_front_back_rejected {b : Build} (hb : b.Checked) {count : Int} {l : List α}
    (hs : Sized l) (hi : -(2 ^ 62) ≤ count ∧ count < 2 ^ 63) (hl' : (l.length : Int) < 2 ^ 62)
    (h : ¬ (0 < count ∧ count ≤ l.length)) :
    removeFront b count l = (.trap b.kind, l) ∧ removeBack b count l = (.trap b.kind, l) := by
  have hs' : (l.length : Int) < 2 ^ 63 := hs
  constructor
  · exact C25_remove_rejected hb (by unfold IsIndex; omega) (by unfold IsIndex; omega) (by omega)
  · simp only [removeBack, Op.get_bind, len,
      isub_ok (show IsIndex ((l.length : Int) - count) by unfold IsIndex; omega), Op.lift_ok_bind]
    exact C25_remove_rejected hb (by unfold IsIndex; omega) (by unfold IsIndex; omega) (by omega)

/-- `remove(last - k)` deletes element `size - 1 - k`. -/
theorem C25_remove_last (b : Build) {k : Int} {l : List α} (hs : Sized l) (hk : 0 ≤ k)
    (hl : k < l.length) :
    removeLast b k l = (.ok (), l.eraseIdx (target l.length (.fromLast k)).toNat) := by
  have hs' : (l.length : Int) < 2 ^ 63 := hs
  simp only [removeLast, Op.get_bind, len,
    isub_ok (show IsIndex ((l.length : Int) - 1) by unfold IsIndex; omega), Op.lift_ok_bind,
    isub_ok (show IsIndex ((l.length : Int) - 1 - k) by unfold IsIndex; omega)]
  rw [C25_remove b hs (by omega) (by omega) (by omega)]
  simp [removed, target, List.eraseIdx_eq_take_drop_succ]

theorem C25_remove_last_rejected {b : Build} (hb : b.Checked) {k : Int} {l : List α}
    (hs : Sized l) (hk : -(2 ^ 62) ≤ k ∧ k < 2 ^ 62) (hl' : (l.length : Int) < 2 ^ 62)
    (h : ¬ (0 ≤ k ∧ k < l.length)) : removeLast b k l = (.trap b.kind, l) := by
  simp only [removeLast, Op.get_bind, len,
    isub_ok (show IsIndex ((l.length : Int) - 1) by unfold IsIndex; omega), Op.lift_ok_bind,
    isub_ok (show IsIndex ((l.length : Int) - 1 - k) by unfold IsIndex; omega)]
  exact C25_remove_rejected hb (by unfold IsIndex; omega) (by unfold IsIndex; omega) (by omega)

/-- C18 for removal: `A.remove(last - i - j)` deletes element `size - 1 - (i + j)`. -/
theorem C18_last_remove (b : Build) {i j : Int} {l : List α} (hs : Sized l) (hi : 0 ≤ i)
    (hj : 0 ≤ j) (hl : i + j < l.length) :
    ∃ k, (do let p ← Pos.minus .last i; p.minus j) = .ok (.fromLast k) ∧
      removeLast b k l = (.ok (), l.eraseIdx (l.length - 1 - (i + j).toNat)) := by
  have hs' : (l.length : Int) < 2 ^ 63 := hs
  refine ⟨i + j, ?_, ?_⟩
  · simp only [Pos.last, Pos.minus, iadd_ok (show IsIndex (0 + i) by unfold IsIndex; omega),
      Res.ok_bind, Res.pure_eq, iadd_ok (show IsIndex (0 + i + j) by unfold IsIndex; omega)]
    simp
  · rw [C25_remove_last b hs (by omega) hl]
    simp only [target, Prod.mk.injEq, true_and]
    congr 1; omega

example : remove ⟨false, true, false⟩ 1 2 [(5 : Int), 6, 7, 8] = (.ok (), [5, 8]) := by
  simpa [removed] using C25_remove (α := Int) ⟨false, true, false⟩ (pos := 1) (count := 2)
    (l := [5, 6, 7, 8]) (by decide) (by decide) (by decide) (by decide)

/-! ### C26 removal of an index set -/

theorem withoutPositions_eq {l : List α} {idx : List Int} :
    (withoutPositions l idx).length = ((upto l.length).filter (fun i => i ∉ idx)).length ∧
    ∀ (i : Nat) (h : i < ((upto l.length).filter (fun i => i ∉ idx)).length)
      (h' : i < (withoutPositions l idx).length),
      rd l ((upto l.length).filter (fun i => i ∉ idx))[i] = .ok (withoutPositions l idx)[i] := by
  have key : ((upto l.length).filter (fun i => i ∉ idx)).map (rd l) =
      (withoutPositions l idx).map .ok := by
    unfold upto withoutPositions
    simp only [Int.toNat_natCast, List.filter_map, List.map_map, List.map_filterMap]
    have hall : ∀ k ∈ (List.range l.length).filter (fun k : Nat => decide ((k : Int) ∉ idx)),
        k < l.length := by
      intro k hk; simp at hk; exact hk.1
    have e : ((fun i : Int => decide (i ∉ idx)) ∘ Int.ofNat) =
        (fun k : Nat => decide ((k : Int) ∉ idx)) := rfl
    rw [e]
    revert hall
    generalize (List.range l.length).filter (fun k : Nat => decide ((k : Int) ∉ idx)) = ks
    intro hall
    induction ks with
    | nil => rfl
    | cons k ks ih =>
      have hk := hall k (by simp)
      simp only [List.map_cons, List.filterMap_cons, List.getElem?_eq_getElem hk, Option.map_some]
      rw [ih (fun j hj => hall j (by simp [hj]))]
      congr 1
      exact rd_nat hk
  have hl := congrArg List.length key
  simp only [List.length_map] at hl
  refine ⟨hl.symm, fun i h h' => ?_⟩
  have := congrArg (fun L => L[i]?) key
  simp only [List.getElem?_map, List.getElem?_eq_getElem h, List.getElem?_eq_getElem h',
    Option.map_some, Option.some.injEq] at this
  exact this

theorem filterMap_range (l : List α) : (List.range l.length).filterMap (fun k => l[k]?) = l := by
  induction l with
  | nil => rfl
  | cons a l ih =>
    rw [List.length_cons, List.range_succ_eq_map, List.filterMap_cons]
    simp only [List.getElem?_cons_zero, List.filterMap_map]
    congr 1

/-- `remove(indices)` for strictly increasing in-range indices keeps exactly the other elements, in
order. -/
theorem C26_remove_indices (b : Build) {l : List α} {idx : List Int} (hi : Increasing idx)
    (hr : ∀ x ∈ idx, InRange l.length x) :
    removeVec b idx l = (.ok (), withoutPositions l idx) := by
  unfold removeVec
  by_cases he : idx.isEmpty = true
  · have : idx = [] := by simpa using he
    subst this
    have e : withoutPositions l [] = l := by
      unfold withoutPositions
      rw [List.filter_eq_self.2 (by simp), filterMap_range]
    simp [e]
  · rw [if_neg he]
    simp only [Op.get_bind, len]
    rw [complementVec_ok b (by omega) hi hr]
    have hw := withoutPositions_eq (l := l) (idx := idx)
    simp only [Op.lift_ok_bind, make_ok b (Int.natCast_nonneg _), Int.toNat_natCast,
      List.length_replicate]
    rw [copyn0_ok (xs := withoutPositions l idx) (by rw [hw.1]) (by simp [hw.1]) (by
      intro i h
      rw [rd_nat (by rw [← hw.1]; exact h), Res.ok_bind]
      exact hw.2 i (by rw [← hw.1]; exact h) h)]
    simp only [Op.lift_ok_bind, Op.set_run]
    rw [overwrite_all (by simp [hw.1])]

/-- Any other index vector is rejected and nothing changes. -/
theorem C26_remove_indices_rejected {b : Build} (hb : b.Checked) {l : List α} {idx : List Int}
    (h : ¬ Increasing idx ∨ ∃ x ∈ idx, ¬ InRange l.length x) :
    removeVec b idx l = (.trap b.kind, l) := by
  have he : idx.isEmpty = false := by
    rcases h with h | ⟨x, hx, _⟩
    · cases idx with
      | nil => exact absurd List.Pairwise.nil h
      | cons => rfl
    · cases idx with
      | nil => simp at hx
      | cons => rfl
  have hv : validComplement l.length idx = false := by
    rw [← Bool.not_eq_true, validComplement_iff]
    rintro ⟨h1, h2⟩
    rcases h with h | ⟨x, hx, hn⟩
    · exact h h1
    · exact hn (h2 x hx)
  simp [removeVec, he, len, complementVec, hv, assertDebug_false hb]

example : removeVec ⟨false, true, false⟩ [0, 2] [(5 : Int), 6, 7, 8] = (.ok (), [6, 8]) := by
  have := C26_remove_indices (α := Int) ⟨false, true, false⟩ (l := [5, 6, 7, 8]) (idx := [0, 2])
    (by simp [Increasing]) (by simp [InRange])
  rw [this]; rfl

/-! ### C27 insertion -/

theorem insert_head {l : List α} {pos m : Int} (h0 : 0 ≤ pos) (hl : pos ≤ l.length)
    (hm : l.length ≤ m) :
    copyn0 (rd l) (List.replicate m.toNat default) pos
      = .ok (overwrite (List.replicate m.toNat default) 0 (l.take pos.toNat)) := by
  apply copyn0_ok
  · simp; omega
  · simp; omega
  · intro i hi
    rw [rd_nat (by simp at hi; omega)]; simp

theorem overwrite_three {t xs ys zs : List α} (h : xs.length + ys.length + zs.length = t.length) :
    overwrite (overwrite (overwrite t 0 xs) xs.length ys) (xs.length + ys.length) zs
      = xs ++ ys ++ zs := by
  have l1 : (overwrite t 0 xs).length = t.length := overwrite_length (by omega)
  have l2 : (overwrite (overwrite t 0 xs) xs.length ys).length = t.length := by
    rw [overwrite_length (by omega), l1]
  apply List.ext_getElem?
  intro i
  rw [overwrite_getElem? (by omega), overwrite_getElem? (by omega), overwrite_getElem? (by omega)]
  by_cases h1 : i < xs.length
  · rw [if_pos (by omega), if_pos (by omega), if_neg (by omega), if_pos (by omega), Nat.sub_zero,
      List.append_assoc, List.getElem?_append_left h1]
  · by_cases h2 : i < xs.length + ys.length
    · rw [if_pos h2, if_neg h1, if_pos h2, List.append_assoc, List.getElem?_append_right (by omega),
        List.getElem?_append_left (by omega)]
    · rw [if_neg h2]
      by_cases h3 : i < xs.length + ys.length + zs.length
      · rw [if_pos h3, List.getElem?_append_right (by simp; omega)]
        simp
      · rw [if_neg h3, if_neg h1, if_neg h2, if_neg (by omega), if_neg (by omega)]
        rw [List.getElem?_eq_none (by omega), List.getElem?_eq_none (by simp; omega)]

/-- `insert(pos, A2)` splices the elements of `A2` in at `pos`.  `A2` may be any operand that can be
read while the array still has its old contents, including the array itself. -/
theorem C27_insert_array (b : Build) {pos : Int} {l xs : List α} {src : Src (List α) α}
    (hx : Denotes src l xs) (hs : (l.length + xs.length : Int) < 2 ^ 63)
    (h0 : 0 ≤ pos) (hl : pos ≤ l.length) :
    insertArr b pos src l = (.ok (), inserted l pos.toNat xs) := by
  have h1 : (decide (pos ≥ 0) && decide (pos ≤ len l)) = true := by
    rw [Bool.and_eq_true]; exact ⟨decide_eq_true h0, decide_eq_true hl⟩
  have hz := hx.1
  simp only [insertArr, Op.get_bind, h1, assertDebug_true, Op.lift_ok_bind]
  simp only [len, Op.lift_ok_bind, hz,
    iadd_ok (show IsIndex ((l.length : Int) + xs.length) by unfold IsIndex; omega),
    make_ok b (show 0 ≤ (l.length : Int) + xs.length by omega),
    insert_head h0 hl (show (l.length : Int) ≤ l.length + xs.length by omega)]
  have L : ((l.length : Int) + xs.length).toNat = l.length + xs.length := by omega
  have l1 : (overwrite (List.replicate ((l.length : Int) + xs.length).toNat (default : α)) 0
      (l.take pos.toNat)).length = l.length + xs.length := by
    rw [overwrite_length (by simp; omega)]; simp; omega
  rw [copyn_ok (xs := xs) rfl h0 (by rw [l1]; omega) (by simpa using hx.2)]
  simp only [Op.lift_ok_bind]
  rw [copyn_ok (xs := (l.drop pos.toNat).take (l.length - pos : Int).toNat)
    (by simp; omega) (by omega)
    (by rw [overwrite_length (by rw [l1]; omega), l1]; simp; omega)
    (rd_window (by omega) (by omega))]
  simp only [Op.lift_ok_bind, Op.set_run, Prod.mk.injEq, true_and]
  rw [List.take_of_length_le (l := l.drop pos.toNat) (by simp; omega)]
  have lp : (l.take pos.toNat).length = pos.toNat := by simp; omega
  have := overwrite_three (t := List.replicate ((l.length : Int) + xs.length).toNat (default : α))
    (xs := l.take pos.toNat) (ys := xs) (zs := l.drop pos.toNat) (by simp; omega)
  rw [lp] at this
  rw [show (pos + (xs.length : Int)).toNat = pos.toNat + xs.length by omega, this]
  rfl

/-- `insert(pos, x)`. -/
theorem C27_insert (b : Build) {pos : Int} {l : List α} (x : α) (hs : (l.length : Int) + 1 < 2 ^ 63)
    (h0 : 0 ≤ pos) (hl : pos ≤ l.length) :
    Arr1.insert b pos x l = (.ok (), inserted l pos.toNat [x]) := by
  have h1 : (decide (pos ≥ 0) && decide (pos ≤ len l)) = true := by
    rw [Bool.and_eq_true]; exact ⟨decide_eq_true h0, decide_eq_true hl⟩
  have h2 : iadd (len l) 1 = .ok ((l.length : Int) + 1) :=
    iadd_ok (show IsIndex ((l.length : Int) + 1) by unfold IsIndex; omega)
  simp only [Arr1.insert, Op.get_bind, h1, assertDebug_true, Op.lift_ok_bind, h2]
  simp only [len, Op.lift_ok_bind,
    make_ok b (show 0 ≤ (l.length : Int) + 1 by omega),
    insert_head h0 hl (show (l.length : Int) ≤ l.length + 1 by omega)]
  have lp : (l.take pos.toNat).length = pos.toNat := by simp; omega
  have l1 : (overwrite (List.replicate ((l.length : Int) + 1).toNat (default : α)) 0
      (l.take pos.toNat)).length = l.length + 1 := by
    rw [overwrite_length (by simp; omega), List.length_replicate]; omega
  rw [wr_ok (by rw [l1]; constructor <;> omega)]
  have e : (overwrite (List.replicate ((l.length : Int) + 1).toNat (default : α)) 0
      (l.take pos.toNat)).set pos.toNat x = overwrite (overwrite (List.replicate
        ((l.length : Int) + 1).toNat (default : α)) 0 (l.take pos.toNat)) pos.toNat [x] := by
    have := overwrite_step (tmp := overwrite (List.replicate ((l.length : Int) + 1).toNat
      (default : α)) 0 (l.take pos.toNat)) (xs := [x]) (s := pos.toNat) (k := 0) (by simp)
      (by rw [l1]; simp; omega)
    rw [← List.take_of_length_le (l := [x]) (i := 0 + 1) (by simp), ← this]
    simp [overwrite]
  simp only [Op.lift_ok_bind, e]
  rw [copyn_ok (xs := (l.drop pos.toNat).take (l.length - pos : Int).toNat)
    (by simp; omega) (by omega)
    (by rw [overwrite_length (by rw [l1]; simp; omega), l1]; simp; omega)
    (rd_window (by omega) (by omega))]
  simp only [Op.lift_ok_bind, Op.set_run, Prod.mk.injEq, true_and]
  rw [List.take_of_length_le (l := l.drop pos.toNat) (by simp; omega)]
  have := overwrite_three (t := List.replicate ((l.length : Int) + 1).toNat (default : α))
    (xs := l.take pos.toNat) (ys := [x]) (zs := l.drop pos.toNat) (by simp; omega)
  rw [lp, List.length_singleton] at this
  rw [show (pos + 1).toNat = pos.toNat + 1 by omega, this]
  simp only [inserted]

/-- Insertion positions outside `[0, size]` are rejected and nothing changes. -/
theorem C27_insert_rejected {b : Build} (hb : b.Checked) {pos : Int} {l : List α}
    (h : ¬ (0 ≤ pos ∧ pos ≤ l.length)) (x : α) (src : Src (List α) α) :
    Arr1.insert b pos x l = (.trap b.kind, l) ∧ insertArr b pos src l = (.trap b.kind, l) := by
  have h1 : (decide (pos ≥ 0) && decide (pos ≤ len l)) = false := by
    rw [← Bool.not_eq_true, Bool.and_eq_true]
    exact fun hh => h ⟨of_decide_eq_true hh.1, of_decide_eq_true hh.2⟩
  constructor
  · simp only [Arr1.insert, Op.get_bind, h1, assertDebug_false hb, Op.lift_trap_bind]
  · simp only [insertArr, Op.get_bind, h1, assertDebug_false hb, Op.lift_trap_bind]

/-- `insert_front` and `insert_back`, for values and for arrays. -/
theorem C27_insert_ends (b : Build) {l xs : List α} {src : Src (List α) α} (x : α)
    (hx : Denotes src l xs) (hs : (l.length + xs.length : Int) < 2 ^ 63)
    (hs' : (l.length : Int) + 1 < 2 ^ 63) :
    insertFront b x l = (.ok (), x :: l) ∧ insertBack b x l = (.ok (), l ++ [x]) ∧
    insertFrontArr b src l = (.ok (), xs ++ l) ∧ insertBackArr b src l = (.ok (), l ++ xs) := by
  refine ⟨?_, ?_, ?_, ?_⟩
  · rw [insertFront, C27_insert b x hs' (by omega) (by omega)]; simp [inserted]
  · rw [insertBack, Op.get_bind, C27_insert b (pos := len l) x hs' (Int.natCast_nonneg _) (Int.le_refl _)]
    simp [inserted, len]
  · rw [insertFrontArr, C27_insert_array b hx hs (by omega) (by omega)]; simp [inserted]
  · rw [insertBackArr, Op.get_bind,
      C27_insert_array b (pos := len l) hx hs (Int.natCast_nonneg _) (Int.le_refl _)]
    simp [inserted, len]

example : insertArr ⟨false, true, false⟩ 1 (Src.ofList [8, 9]) [(5 : Int), 6] =
    (.ok (), [5, 8, 9, 6]) := by
  simpa [inserted] using C27_insert_array (α := Int) ⟨false, true, false⟩ (pos := 1) (l := [5, 6])
    (denotes_ofList [8, 9] _) (by decide) (by decide) (by decide)

/-- Inserting an array into itself works: the operand is read before the array is replaced. -/
example : insertArr ⟨false, true, false⟩ 1 ⟨2, fun l i => rd l i⟩ [(5 : Int), 6] =
    (.ok (), [5, 5, 6, 6]) := by
  have h : Denotes (⟨2, fun l i => rd l i⟩ : Src (List Int) Int) [5, 6] [5, 6] :=
    ⟨rfl, fun i hi => rd_nat hi⟩
  simpa [inserted] using C27_insert_array (α := Int) ⟨false, true, false⟩ (pos := 1) h
    (by decide) (by decide) (by decide)

/-! ### C28 insertion and removal are inverse -/

/-- Inserting a non-empty block and removing it again restores the array; removing a block and
inserting what was removed restores it too. -/
theorem C28_insert_remove (b : Build) {pos : Int} {l xs : List α} {src : Src (List α) α}
    (hx : Denotes src l xs) (hs : (l.length + xs.length : Int) < 2 ^ 63) (hne : xs ≠ [])
    (h0 : 0 ≤ pos) (hl : pos ≤ l.length) :
    (do insertArr b pos src; remove b pos xs.length) l = (.ok (), l) := by
  rw [Op.bind_run, C27_insert_array b hx hs h0 hl]
  have hp : 0 < xs.length := List.length_pos_iff.2 hne
  have hlen : (inserted l pos.toNat xs).length = l.length + xs.length := by
    simp [inserted]; omega
  simp only
  rw [C25_remove b (by unfold Sized; rw [hlen]; omega) h0 (by omega) (by rw [hlen]; omega)]
  have lp : (l.take pos.toNat).length = pos.toNat := by simp; omega
  simp only [removed, inserted, Prod.mk.injEq, true_and, Int.toNat_natCast]
  rw [List.append_assoc, List.take_append_of_le_length (by omega),
    List.take_of_length_le (by omega), ← List.append_assoc,
    List.drop_left' (by simp; omega)]
  exact List.take_append_drop _ _

theorem C28_remove_insert (b : Build) {pos count : Int} {l : List α} (hs : Sized l) (h0 : 0 ≤ pos)
    (hc : 0 < count) (hl : pos + count ≤ l.length) :
    (do remove b pos count
        insertArr b pos (Src.ofList ((l.drop pos.toNat).take count.toNat))) l = (.ok (), l) := by
  rw [Op.bind_run, C25_remove b hs h0 hc hl]
  have hlen : (removed l pos.toNat count.toNat).length = l.length - count.toNat := by
    simp [removed]; omega
  have hs' : (l.length : Int) < 2 ^ 63 := hs
  simp only
  rw [C27_insert_array b (denotes_ofList _ _) (by rw [hlen]; simp; omega) h0 (by rw [hlen]; omega)]
  have lp : (l.take pos.toNat).length = pos.toNat := by simp; omega
  simp only [removed, inserted, Prod.mk.injEq, true_and]
  rw [List.take_append_of_le_length (by omega), List.take_of_length_le (by omega),
    List.drop_left' lp, List.append_assoc, ← List.drop_drop, List.take_append_drop,
    List.take_append_drop]

example : (do insertArr (⟨false, true, false⟩ : Build) 1 (Src.ofList [8, 9])
              remove ⟨false, true, false⟩ 1 2) [(5 : Int), 6] = (.ok (), [5, 6]) :=
  C28_insert_remove (α := Int) ⟨false, true, false⟩ (denotes_ofList [8, 9] _) (by decide)
    (by simp) (by decide) (by decide)

end Spp.Props
