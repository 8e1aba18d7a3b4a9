import Verif.Lemmas.Algorithm
import Mathlib.Data.List.FinRange
import Mathlib.Data.List.OfFn
import Mathlib.Data.Fintype.Perm
import Mathlib.Tactic.Common

/-
`std::shuffle`, `std::reverse` and `std::accumulate` on lists.
-/

namespace Spp

open Spec

variable {α β : Type}

theorem exchanged_length (l : List α) (i j : Nat) : (exchanged l i j).length = l.length := by
  unfold exchanged; split <;> simp

theorem exchanged_get {l : List α} {i j : Nat} (hi : i < l.length) (hj : j < l.length) (k : Nat) :
    (exchanged l i j)[k]? = if k = j then l[i]? else if k = i then l[j]? else l[k]? := by
  unfold exchanged
  simp only [List.getElem?_eq_getElem hi, List.getElem?_eq_getElem hj]
  rw [List.getElem?_set, List.length_set]
  by_cases h1 : j = k
  · subst h1; simp [hj]
  · rw [if_neg h1, if_neg (Ne.symm h1), List.getElem?_set]
    by_cases h2 : i = k
    · subst h2; simp [hi]
    · rw [if_neg h2, if_neg (Ne.symm h2)]

theorem exchanged_exchanged {l : List α} {i j : Nat} (hi : i < l.length) (hj : j < l.length) :
    exchanged (exchanged l i j) i j = l := by
  apply List.ext_getElem?
  intro k
  rw [exchanged_get (by rw [exchanged_length]; exact hi) (by rw [exchanged_length]; exact hj)]
  simp only [exchanged_get hi hj]
  by_cases h1 : k = j
  · subst h1
    by_cases h2 : i = k
    · subst h2; simp
    · simp [h2]
  · by_cases h2 : k = i
    · subst h2; simp [h1]
    · simp [h1, h2]

theorem exchanged_perm (l : List α) (i j : Nat) : (exchanged l i j).Perm l := by
  by_cases h : i < l.length ∧ j < l.length
  · obtain ⟨hi, hj⟩ := h
    have e : exchanged l i j = List.ofFn (l.get ∘ Equiv.swap (⟨i, hi⟩ : Fin l.length) ⟨j, hj⟩) := by
      apply List.ext_getElem?
      intro k
      rw [exchanged_get hi hj]
      by_cases hk : k < l.length
      · rw [List.getElem?_ofFn, dif_pos hk]
        simp only [Function.comp, List.get_eq_getElem]
        by_cases h1 : k = j
        · subst h1
          rw [if_pos rfl, Equiv.swap_apply_right, List.getElem?_eq_getElem hi]
        · by_cases h2 : k = i
          · subst h2
            rw [if_neg h1, if_pos rfl, Equiv.swap_apply_left, List.getElem?_eq_getElem hj]
          · rw [if_neg h1, if_neg h2, Equiv.swap_apply_of_ne_of_ne (by simpa using h2) (by simpa using h1),
              List.getElem?_eq_getElem hk]
      · rw [if_neg (by omega), if_neg (by omega), List.getElem?_eq_none (by omega),
          List.getElem?_eq_none (by simpa using hk)]
    rw [e]
    have := Equiv.Perm.ofFn_comp_perm (Equiv.swap (⟨i, hi⟩ : Fin l.length) ⟨j, hj⟩) l.get
    rwa [List.ofFn_get] at this
  · have e : exchanged l i j = l := by
      unfold exchanged
      split
      · next x y h1 h2 =>
        exact absurd ⟨(List.getElem?_eq_some_iff.1 h1).1, (List.getElem?_eq_some_iff.1 h2).1⟩ h
      · rfl
    rw [e]

theorem shuffled_perm (draw : Nat → Nat) (m : Nat) (l : List α) : (shuffled draw m l).Perm l := by
  induction m with
  | zero => exact .refl _
  | succ m ih => exact (exchanged_perm _ _ _).trans ih

theorem shuffled_length (draw : Nat → Nat) (m : Nat) (l : List α) : (shuffled draw m l).length = l.length :=
  (shuffled_perm draw m l).length_eq

/-- The positions after the last one treated are unchanged. -/
theorem shuffled_rest {n : Nat} {draw : Nat → Nat} (hd : DrawsBelow n draw) {l : List α} (hl : l.length = n) {m : Nat}
    (hm : m < n) {k : Nat} (hk : m < k) : (shuffled draw m l)[k]? = l[k]? := by
  induction m with
  | zero => rfl
  | succ m ih =>
    have h1 := hd (m + 1) (by omega) hm
    show (exchanged _ _ _)[k]? = _
    rw [exchanged_get (by rw [shuffled_length]; omega) (by rw [shuffled_length]; omega), if_neg (by omega),
      if_neg (by omega), ih (by omega) (by omega)]

theorem nodup_get {l : List α} (hn : l.Nodup) {i j : Nat} (hi : i < l.length) (h : l[i]? = l[j]?) : i = j := by
  rw [List.getElem?_eq_getElem hi] at h
  obtain ⟨hj, e⟩ := List.getElem?_eq_some_iff.1 h.symm
  exact ((List.Nodup.getElem_inj_iff hn).1 e).symm

/-- Different draws give different orders. -/
theorem shuffled_inj {n : Nat} {draw draw' : Nat → Nat} (hd : DrawsBelow n draw) (hd' : DrawsBelow n draw') {l : List α}
    (hl : l.length = n) (hn : l.Nodup) {m : Nat} (hm : m < n) (h : shuffled draw m l = shuffled draw' m l) :
    ∀ j, 1 ≤ j → j ≤ m → draw j = draw' j := by
  induction m with
  | zero => intro j h1 h2; omega
  | succ m ih =>
    have b1 := hd (m + 1) (by omega) hm
    have b2 := hd' (m + 1) (by omega) hm
    have key : ∀ {d : Nat → Nat} (hd : DrawsBelow n d), (shuffled d (m + 1) l)[d (m + 1)]? = l[m + 1]? := by
      intro d hd
      have b := hd (m + 1) (by omega) hm
      show (exchanged _ _ _)[_]? = _
      rw [exchanged_get (by rw [shuffled_length]; omega) (by rw [shuffled_length]; omega), if_pos rfl,
        shuffled_rest hd hl (by omega) (by omega)]
    have e : draw (m + 1) = draw' (m + 1) := by
      have hnd : (shuffled draw (m + 1) l).Nodup := (shuffled_perm draw (m + 1) l).nodup_iff.2 hn
      apply nodup_get hnd (by rw [shuffled_length]; omega)
      rw [key hd, h, key hd']
    have h' : shuffled draw m l = shuffled draw' m l := by
      have h3 : exchanged (shuffled draw m l) (m + 1) (draw (m + 1)) =
        exchanged (shuffled draw' m l) (m + 1) (draw' (m + 1)) := h
      rw [e] at h3
      have := congrArg (fun x => exchanged x (m + 1) (draw' (m + 1))) h3
      simpa only [exchanged_exchanged (l := shuffled draw m l) (i := m + 1) (j := draw' (m + 1))
        (by rw [shuffled_length]; omega) (by rw [shuffled_length]; omega),
        exchanged_exchanged (l := shuffled draw' m l) (i := m + 1) (j := draw' (m + 1))
        (by rw [shuffled_length]; omega) (by rw [shuffled_length]; omega)] using this
    intro j h1 h2
    rcases Nat.lt_or_ge j (m + 1) with h4 | h4
    · exact ih (by omega) h' j h1 (by omega)
    · have : j = m + 1 := by omega
      rw [this, e]

/-- Only the draws for the positions treated matter. -/
theorem shuffled_congr {draw draw' : Nat → Nat} {m : Nat} (h : ∀ j, 1 ≤ j → j ≤ m → draw j = draw' j) (l : List α) :
    shuffled draw m l = shuffled draw' m l := by
  induction m with
  | zero => rfl
  | succ m ih =>
    show exchanged _ _ _ = exchanged _ _ _
    rw [ih fun j h1 h2 => h j h1 (by omega), h (m + 1) (by omega) (by omega)]

/-- Every order is obtained. -/
theorem shuffled_surj {n : Nat} {l : List α} (hl : l.length = n) (hn : l.Nodup) {m : Nat} (hm : m < n) {ys : List α}
    (hp : ys.Perm l) (hr : ∀ k, m < k → ys[k]? = l[k]?) : ∃ draw, DrawsBelow n draw ∧ shuffled draw m l = ys := by
  induction m generalizing ys with
  | zero =>
    refine ⟨fun _ => 0, fun j _ _ => Nat.zero_le j, ?_⟩
    show l = ys
    -- all positions but the first agree, and so does the first
    cases l with
    | nil => simp at hl; omega
    | cons x l =>
      cases ys with
      | nil => exact absurd hp.length_eq (by simp)
      | cons y ys =>
        have e : ys = l := by
          apply List.ext_getElem?
          intro k
          have := hr (k + 1) (by omega)
          simpa using this
        subst e
        have := (List.perm_cons_append_cons (l₁ := []) x (List.Perm.refl ys)).symm
        have hx : x ∈ y :: ys := hp.mem_iff.2 (by simp)
        rcases List.mem_cons.1 hx with h | h
        · rw [h]
        · exact absurd h (List.nodup_cons.1 hn).1
  | succ m ih =>
    have hlen : ys.length = n := hp.length_eq.trans hl
    have hmem : l[m + 1] ∈ ys := hp.mem_iff.2 (List.getElem_mem _)
    obtain ⟨k, hk, ek⟩ := List.getElem_of_mem hmem
    have hk' : k ≤ m + 1 := by
      by_contra h
      have h1 := hr k (by omega)
      rw [List.getElem?_eq_getElem hk, ek, ← List.getElem?_eq_getElem (l := l) (by omega)] at h1
      have := nodup_get hn (by omega) h1
      omega
    obtain ⟨draw, h1, h2⟩ := ih (by omega) (ys := exchanged ys (m + 1) k) ((exchanged_perm _ _ _).trans hp) (by
      intro j hj
      rw [exchanged_get (by omega) (by omega)]
      by_cases h1 : j = m + 1
      · subst h1
        by_cases h2 : m + 1 = k
        · subst h2; rw [if_pos rfl, List.getElem?_eq_getElem hk, ek, List.getElem?_eq_getElem]
        · rw [if_neg h2, if_pos rfl, List.getElem?_eq_getElem hk, ek, List.getElem?_eq_getElem]
      · rw [if_neg (by omega), if_neg h1, hr j (by omega)])
    refine ⟨fun j => if j = m + 1 then k else draw j, fun j hj1 hj2 => ?_, ?_⟩
    · dsimp only
      split
      · omega
      · exact h1 j hj1 hj2
    · show exchanged _ _ _ = _
      rw [shuffled_congr (draw' := draw) (fun j h3 h4 => if_neg (by omega)), h2]
      simp only [if_true]
      exact exchanged_exchanged (by omega) (by omega)

/-! ### The algorithms on lists -/

/-- `iter_swap` exchanges two elements. -/
theorem iterSwap_onList {lo hi : Int} {l : List α} {i j : Nat} (h1 : i < l.length) (h2 : j < l.length)
    (k : Alg α β) : onList lo hi (Alg.iterSwap i j k) l = onList lo hi k (exchanged l i j) := by
  have e : exchanged l i j = (l.set i l[j]).set j l[i] := by
    unfold exchanged
    simp only [List.getElem?_eq_getElem h1, List.getElem?_eq_getElem h2]
  unfold Alg.iterSwap
  simp only [onList, List.length_set]
  rw [dif_pos ⟨by omega, by omega⟩, dif_pos ⟨by omega, by omega⟩, if_pos ⟨by omega, by omega⟩,
    if_pos ⟨by omega, by omega⟩, e]
  simp

theorem shuffleLoop_onList {xs : List α} {draw : Nat → Nat} (hd : DrawsBelow xs.length draw)
    (hz : (xs.length : Int) < 2 ^ 63) (m i : Nat) (h1 : 1 ≤ i) (h2 : i ≤ xs.length) (hm : xs.length - i ≤ m) :
    onList 0 xs.length (Alg.shuffleLoop draw 0 xs.length m i) (shuffled draw (i - 1) xs) =
      .done () (shuffled draw (xs.length - 1) xs) := by
  induction m generalizing i with
  | zero =>
    have : i = xs.length := by omega
    subst this
    rfl
  | succ m ih =>
    simp only [Alg.shuffleLoop, onList]
    by_cases h : i = xs.length
    · subst h; simp [onList, ItCmp.holds]
    · have hb := hd i h1 (by omega)
      rw [if_pos (by simp only [ItCmp.holds, decide_eq_true_eq]; omega)]
      simp only [onList]
      rw [if_pos (by unfold IsIndex; omega)]
      rw [if_pos (by simp only [sub_zero, Int.toNat_natCast]; omega)]
      simp only [sub_zero, zero_add, Int.toNat_natCast]
      rw [iterSwap_onList (by rw [shuffled_length]; omega) (by rw [shuffled_length]; omega)]
      simp only [onList]
      rw [if_pos (by omega)]
      have := ih (i + 1) (by omega) (by omega) (by omega)
      have e : shuffled draw (i + 1 - 1) xs = exchanged (shuffled draw (i - 1) xs) i (draw i) := by
        obtain ⟨j, rfl⟩ : ∃ j, i = j + 1 := ⟨i - 1, by omega⟩
        rfl
      rw [← e]
      exact_mod_cast this

theorem shuffle_legal {xs : List α} {draw : Nat → Nat} (hd : DrawsBelow xs.length draw)
    (hz : (xs.length : Int) < 2 ^ 63) :
    Legal (Alg.shuffle draw 0 xs.length) xs () (shuffled draw (xs.length - 1) xs) := by
  unfold Legal Alg.shuffle
  simp only [onList]
  by_cases h : xs.length = 0
  · have : xs = [] := List.length_eq_zero_iff.1 h
    subst this
    simp [onList, ItCmp.holds, shuffled]
  · rw [if_neg (by simp only [ItCmp.holds, decide_eq_true_eq]; omega)]
    simp only [onList]
    rw [if_pos (by unfold IsIndex; omega), if_pos (by omega)]
    simp only [sub_zero, zero_add, Int.toNat_natCast]
    exact shuffleLoop_onList hd hz xs.length 1 (by omega) (by omega) (by omega)

theorem foldLoop_onList {lo hi : Int} {xs : List α} (hlo : lo ≤ 0) (hhi : (xs.length : Int) ≤ hi) (f : β → α → β)
    (m i : Nat) (x : β) (h2 : i ≤ xs.length) (hm : xs.length - i < m) :
    onList lo hi (Alg.foldLoop f xs.length m i x) xs = .done ((xs.drop i).foldl f x) xs := by
  induction m generalizing i x with
  | zero => omega
  | succ m ih =>
    simp only [Alg.foldLoop, onList]
    by_cases h : i = xs.length
    · subst h; simp [onList, ItCmp.holds]
    · rw [if_pos (by simp only [ItCmp.holds, decide_eq_true_eq]; omega)]
      simp only [onList]
      rw [dif_pos (by omega), if_pos (by omega)]
      have := ih (i + 1) (f x xs[i]) (by omega) (by omega)
      rw [List.drop_eq_getElem_cons (by omega), List.foldl_cons, ← this]
      simp

theorem accumulate_legal {xs : List α} (hz : (xs.length : Int) < 2 ^ 63) (f : β → α → β) (x : β) :
    Legal (Alg.accumulate f x 0 xs.length) xs (xs.foldl f x) xs := by
  unfold Legal Alg.accumulate
  simp only [onList]
  rw [if_pos (by unfold IsIndex; omega)]
  exact foldLoop_onList (le_refl _) (le_refl _) f _ 0 x (by omega) (by simp)

theorem accumulate_readOnly (f : β → α → β) (x : β) (first last : Int) :
    ReadOnly (Alg.accumulate f x first last) := by
  intro n
  show ReadOnly (Alg.foldLoop f last (n.toNat + 1) first x)
  generalize n.toNat + 1 = m
  induction m generalizing first x with
  | zero => trivial
  | succ m ih =>
    intro c
    cases c
    · trivial
    · exact fun y q => ih _ _

theorem reverseLoop_onList {xs : List α} (m i : Nat) {l : List α} (hl : l.length = xs.length)
    (h : ∀ k, k < xs.length → l[k]? = if k < i ∨ xs.length - 1 - i < k then xs[xs.length - 1 - k]? else xs[k]?)
    (h0 : 1 ≤ xs.length) (hi : 2 * i ≤ xs.length + 1) (hm : xs.length - i ≤ m) :
    onList 0 xs.length (Alg.reverseLoop m i (xs.length - 1 - i)) l = .done () xs.reverse := by
  have fin : xs.length ≤ 2 * i + 1 → l = xs.reverse := by
    intro hfin
    apply List.ext_getElem?
    intro k
    by_cases hk : k < xs.length
    · rw [h k hk, List.getElem?_reverse hk]
      split
      · rfl
      · have : xs.length - 1 - k = k := by omega
        rw [this]
    · rw [List.getElem?_eq_none (by omega), List.getElem?_eq_none (by simpa using hk)]
  induction m generalizing i l with
  | zero => rw [fin (by omega)]; rfl
  | succ m ih =>
    simp only [Alg.reverseLoop, onList]
    by_cases hlt : 2 * i + 1 < xs.length
    · rw [if_pos (by simp only [ItCmp.holds, decide_eq_true_eq]; omega)]
      have e : (xs.length : Int) - 1 - i = ((xs.length - 1 - i : Nat) : Int) := by omega
      rw [e, iterSwap_onList (by omega) (by omega)]
      simp only [onList]
      rw [if_pos (by omega), if_pos (by omega)]
      have h' : ∀ k, k < xs.length → (exchanged l i (xs.length - 1 - i))[k]? =
          if k < i + 1 ∨ xs.length - 1 - (i + 1) < k then xs[xs.length - 1 - k]? else xs[k]? := by
        intro k hk
        rw [exchanged_get (by omega) (by omega)]
        by_cases k1 : k = xs.length - 1 - i
        · subst k1
          rw [if_pos rfl, h i (by omega), if_neg (by omega), if_pos (by omega)]
          congr 1; omega
        · by_cases k2 : k = i
          · subst k2
            rw [if_neg k1, if_pos rfl, h _ (by omega), if_neg (by omega), if_pos (by omega)]
          · rw [if_neg k1, if_neg k2, h k hk]
            by_cases k3 : k < i ∨ xs.length - 1 - i < k
            · rw [if_pos k3, if_pos (by omega)]
            · rw [if_neg k3, if_neg (by omega)]
      have := ih (i + 1) (l := exchanged l i (xs.length - 1 - i)) (by rw [exchanged_length, hl]) h' (by omega) (by omega)
        (by
          intro hfin
          apply List.ext_getElem?
          intro k
          by_cases hk : k < xs.length
          · rw [h' k hk, List.getElem?_reverse hk]
            split
            · rfl
            · have : xs.length - 1 - k = k := by omega
              rw [this]
          · rw [List.getElem?_eq_none (by rw [exchanged_length]; omega), List.getElem?_eq_none (by simpa using hk)])
      rw [← this]
      congr 2
      · omega
    · rw [if_neg (by simp only [ItCmp.holds, decide_eq_true_eq]; omega), fin (by omega)]
      rfl

theorem reverse_legal {xs : List α} (hz : (xs.length : Int) < 2 ^ 63) :
    Legal (Alg.reverse 0 xs.length) xs () xs.reverse := by
  unfold Legal Alg.reverse
  simp only [onList]
  by_cases h : xs.length = 0
  · have : xs = [] := List.length_eq_zero_iff.1 h
    subst this
    simp [onList, ItCmp.holds]
  · rw [if_neg (by simp only [ItCmp.holds, decide_eq_true_eq]; omega)]
    simp only [onList]
    rw [if_pos (by unfold IsIndex; omega), if_pos (by omega)]
    have := reverseLoop_onList (xs := xs) xs.length 0 (l := xs) rfl (by
      intro k hk
      rw [if_neg (by omega)]) (by omega) (by omega) (by omega)
    simpa using this

end Spp
