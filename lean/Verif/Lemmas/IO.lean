import Verif.Spec.IO
import Verif.Props.Array1D
import Verif.Props.Array2D
import Mathlib.Data.List.TakeWhile
import Mathlib.Data.List.Forall2

/- Loops of the reading functions. -/

set_option linter.unusedSectionVars false

namespace Spp.IO

open Spp.Spec Spp.Arr1

variable {α : Type} [Inhabited α]

/-! ### Extraction -/

theorem dropWhile_blank {s : List Char} (h : ∀ c ∈ s, isSpace c = true) (t : List Char) :
    (s ++ t).dropWhile isSpace = t.dropWhile isSpace := by
  induction s with
  | nil => rfl
  | cons c s ih =>
    rw [List.cons_append, List.dropWhile_cons, if_pos (h c (by simp))]
    exact ih (fun c hc => h c (by simp [hc]))

theorem extract_blank (num : Scanner α) {t : List Char} (h : ∀ c ∈ t, isSpace c = true) :
    extract num (.ofText t) = (none, ⟨[], true, true⟩) := by
  have : t.dropWhile isSpace = [] := by
    have := dropWhile_blank h []
    simpa using this
  simp [extract, Stream.ofText, this]

theorem extract_number (num : Scanner α) {s t : List Char} {c : Char}
    (h : ∀ c ∈ s, isSpace c = true) (hc : isSpace c = false) :
    extract num (.ofText (s ++ c :: t)) =
      (some ((num (c :: t)).val, (num (c :: t)).ok),
        ⟨(num (c :: t)).rest, (num (c :: t)).eof, !(num (c :: t)).ok⟩) := by
  have : (s ++ c :: t).dropWhile isSpace = c :: t := by
    rw [dropWhile_blank h, List.dropWhile_cons, if_neg (by simp [hc])]
  simp [extract, Stream.ofText, this]

theorem extract_end (num : Scanner α) (t : List Char) :
    extract num ⟨t, true, false⟩ = (none, ⟨t, true, true⟩) := by
  simp [extract]

/-- Every text has numbers. -/
theorem numbers_exist {num : Scanner α} (hn : Sane num) (t : List Char) :
    ∃ vs clean left, Numbers num t vs clean left := by
  generalize hk : t.length = k
  induction k using Nat.strongRecOn generalizing t with
  | ind k ih =>
    have hsplit : t = t.takeWhile isSpace ++ t.dropWhile isSpace := List.takeWhile_append_dropWhile.symm
    have hs : ∀ c ∈ t.takeWhile isSpace, isSpace c = true := fun c hc => List.mem_takeWhile_imp hc
    rcases hd : t.dropWhile isSpace with _ | ⟨c, u⟩
    · rw [hd, List.append_nil] at hsplit
      exact ⟨[], true, [], .nothing (by rw [hsplit]; exact hs)⟩
    · have hc : isSpace c = false := by
        have := List.dropWhile_get_zero_not isSpace t (by rw [hd]; simp)
        simpa [hd] using this
      rw [hd] at hsplit
      rw [hsplit]
      cases ho : (num (c :: u)).ok with
      | false => exact ⟨_, _, _, .stop hs hc ho⟩
      | true =>
        cases he : (num (c :: u)).eof with
        | true => exact ⟨_, _, _, .last hs hc ho he⟩
        | false =>
          have hl : (num (c :: u)).rest.length < k := by
            have h1 := hn.consumes c u ho
            have h2 := congrArg List.length hsplit
            rw [List.length_append, List.length_cons] at h2
            omega
          obtain ⟨vs, cl, le, h⟩ := ih _ hl _ rfl
          exact ⟨_, _, _, .more hs hc ho he h⟩

theorem numbers_length {num : Scanner α} (hn : Sane num) {t vs clean left}
    (h : Numbers num t vs clean left) : vs.length ≤ t.length := by
  induction h with
  | nothing _ => simp
  | stop _ _ _ => simp
  | last _ _ _ _ => simp; omega
  | @more s c t vs cl le _ _ ho _ _ ih =>
    have h1 := hn.consumes c t ho
    simp only [List.length_append, List.length_cons]
    omega

/-! ### One dimension -/

theorem wr_grow {pre : List α} {k : Nat} (x : α) :
    wr (pre ++ List.replicate (k + 1) default) (pre.length : Int) x =
      .ok ((pre ++ [x]) ++ List.replicate k default) := by
  rw [wr_ok (by constructor <;> simp)]
  simp [List.replicate_succ]

theorem readLoop1_numbers (b : Build) {num : Scanner α} (hn : Sane num) {t vs clean left}
    (h : Numbers num t vs clean left) : ∀ (fuel : Nat) (pre : List α) (k : Nat),
    vs.length < fuel → 0 < k → pre.length + vs.length < 2 ^ 61 →
    ∃ k', 0 < k' ∧ readLoop1 b num fuel ⟨.ofText t, pre.length, pre ++ List.replicate k default⟩ =
      (.ok (), ⟨⟨left, clean, true⟩, (pre ++ vs).length, pre ++ vs ++ List.replicate k' default⟩) := by
  have key : ∀ (fuel : Nat) (pre : List α) (k : Nat) (x : α) (is is' : Stream), 0 < k →
      pre.length + 1 < 2 ^ 61 → extract num is = (some (x, true), is') →
      ∃ k', 0 < k' ∧ readLoop1 b num (fuel + 1) ⟨is, pre.length, pre ++ List.replicate k default⟩ =
        readLoop1 b num fuel ⟨is', (pre ++ [x]).length, (pre ++ [x]) ++ List.replicate k' default⟩ := by
    intro fuel pre k x is is' hk hsz he
    obtain ⟨k, rfl⟩ := Nat.exists_eq_succ_of_ne_zero (Nat.pos_iff_ne_zero.mp hk)
    have hadd : iadd (pre.length : Int) 1 = .ok ((pre ++ [x]).length : Int) := by
      rw [iadd_ok (by unfold IsIndex; omega)]; simp
    rcases Nat.eq_zero_or_pos k with rfl | hk0
    · refine ⟨(pre ++ [x]).length, by simp, ?_⟩
      have hmul : imul 2 ((pre ++ [x]).length : Int) = .ok (2 * ((pre ++ [x]).length : Int)) :=
        imul_ok (by unfold IsIndex; simp; omega)
      have hr : Arr1.resize b (2 * ((pre ++ [x]).length : Int)) true (pre ++ [x]) =
          (.ok (), (pre ++ [x]) ++ List.replicate (pre ++ [x]).length default) := by
        rw [(Props.C24_resize b (by omega) (pre ++ [x])).1]
        have : (2 * ((pre ++ [x]).length : Int)).toNat = 2 * (pre ++ [x]).length := by omega
        rw [this, resized, List.take_of_length_le (by omega),
          show 2 * (pre ++ [x]).length - (pre ++ [x]).length = (pre ++ [x]).length by omega]
      simp only [readLoop1, Op.get_bind, he, Op.set_bind, wr_grow, Op.lift_ok_bind, hadd]
      simp only [List.replicate_zero, List.append_nil, len, if_true, hmul, Res.ok_bind, hr, Res.pure_eq,
        Op.lift_ok_bind, Op.set_bind]
    · refine ⟨k, hk0, ?_⟩
      simp only [readLoop1, Op.get_bind, he, Op.set_bind, wr_grow, Op.lift_ok_bind, hadd]
      rw [if_neg (by simp only [len, List.length_append, List.length_replicate]; omega)]
      simp only [Res.pure_eq, Op.lift_ok_bind, Op.set_bind]
  induction h with
  | nothing hs =>
    intro fuel pre k hf hk hsz
    obtain ⟨fuel, rfl⟩ := Nat.exists_eq_succ_of_ne_zero (Nat.ne_of_gt hf)
    exact ⟨k, hk, by simp [readLoop1, extract_blank num hs]⟩
  | stop hs hc ho =>
    intro fuel pre k hf hk hsz
    obtain ⟨fuel, rfl⟩ := Nat.exists_eq_succ_of_ne_zero (Nat.ne_of_gt hf)
    exact ⟨k, hk, by simp [readLoop1, extract_number num hs hc, ho]⟩
  | @last s c t hs hc ho he =>
    intro fuel pre k hf hk hsz
    simp only [List.length_singleton] at hf hsz
    obtain ⟨fuel, rfl⟩ : ∃ f, fuel = f + 1 + 1 := ⟨fuel - 2, by omega⟩
    obtain ⟨k', hk', e⟩ := key (fuel + 1) pre k (num (c :: t)).val _ ⟨(num (c :: t)).rest, true, false⟩ hk
      hsz (by rw [extract_number num hs hc, ho, he]; rfl)
    refine ⟨k', hk', ?_⟩
    rw [e, hn.atEnd _ he]
    simp [readLoop1, extract_end]
  | @more s c t vs cl le hs hc ho he _ ih =>
    intro fuel pre k hf hk hsz
    simp only [List.length_cons] at hf hsz
    obtain ⟨fuel, rfl⟩ : ∃ f, fuel = f + 1 := ⟨fuel - 1, by omega⟩
    obtain ⟨k', hk', e⟩ := key fuel pre k (num (c :: t)).val _ ⟨(num (c :: t)).rest, false, false⟩ hk
      (by omega) (by rw [extract_number num hs hc, ho, he]; rfl)
    obtain ⟨k2, hk2, e2⟩ := ih fuel (pre ++ [(num (c :: t)).val]) k' (by omega) hk' (by simp; omega)
    refine ⟨k2, hk2, ?_⟩
    rw [e]
    rw [show (⟨(num (c :: t)).rest, false, false⟩ : Stream) = .ofText (num (c :: t)).rest from rfl, e2]
    simp

/-- What `is >> A` does with a one-dimensional array, for every text. -/
theorem read1_numbers (b : Build) {num : Scanner α} (hn : Sane num) {t vs clean left}
    (h : Numbers num t vs clean left) (hsz : vs.length < 2 ^ 61) (A : List α) :
    read1 b num (.ofText t, A) =
      match assertAlways b clean with
      | .ok _ => (.ok (), (.ofText left, vs))
      | .trap k => (.trap k, (⟨left, clean, true⟩, A))
      | .ub => (.ub, (⟨left, clean, true⟩, A)) := by
  obtain ⟨k', hk', e⟩ := readLoop1_numbers b hn h (t.length + 1) [] 8
    (by have := numbers_length hn h; omega) (by omega) (by simpa using hsz)
  have hm : Arr1.make (α := α) b 8 = .ok (List.replicate 8 default) := Arr1.make_ok b (by omega)
  simp only [List.nil_append, List.length_nil] at e
  unfold read1
  simp only [Op.get_bind, hm, Op.lift_ok_bind, Op.set_bind]
  rw [show (Stream.ofText t).rest = t from rfl]
  change readLoop1 b num (t.length + 1) ⟨.ofText t, 0, _⟩ = _ at e
  rw [e]
  simp only [Op.lift_ok_bind, Op.set_bind]
  have hr : Arr1.resize b (vs.length : Int) true (vs ++ List.replicate k' default) = (.ok (), vs) := by
    rw [(Props.C24_resize b (by omega) _).1, resized]
    simp
  cases assertAlways b clean with
  | ok _ => simp only [Op.lift_ok_bind, Op.set_bind, hr, Op.set_run]; rfl
  | trap k => rfl
  | ub => rfl

/-! ### Two dimensions -/

/-- The rows `L` in an array with `R` rows and `n` columns; the rest is zero. -/
def sheet (L : List (List α)) (R n : Nat) : Mat α :=
  ⟨R, n, fun i j => (L.getD i []).getD j default⟩

theorem sheet_pad (L : List (List α)) (R n : Nat) : (sheet L R n).Same (sheet (L ++ [[]]) R n) := by
  refine ⟨rfl, rfl, fun i j _ _ => ?_⟩
  simp only [sheet]
  rcases Nat.lt_trichotomy i L.length with h | h | h
  · simp [List.getD_eq_getElem?_getD, List.getElem?_append_left h]
  · subst h; simp [List.getD_eq_getElem?_getD]
  · have h1 : L.getD i [] = [] := by
      rw [List.getD_eq_getElem?_getD, List.getElem?_eq_none (by omega)]; rfl
    have h2 : (L ++ [[]]).getD i [] = [] := by
      rw [List.getD_eq_getElem?_getD, List.getElem?_eq_none (by simp; omega)]; rfl
    rw [h1, h2]

theorem sheet_resize (b : Build) {a : Arr2 α} {L : List (List α)} {R n R' n' : Nat}
    (h : IsMat a (sheet L R n)) (hL : L.length ≤ R) (hrow : ∀ l ∈ L, l.length ≤ n) (hR : 0 < R')
    (hn : 0 < n') (hs : R' * n' < 2 ^ 63) :
    ∃ a', Arr2.resize b (R' : Int) (n' : Int) true a = (.ok (), a') ∧ IsMat a' (sheet L R' n') := by
  obtain ⟨a', e, h'⟩ := Props.C35_resize_preserve b h (m := R') (n := n') (by omega) (by omega) (by omega)
    (by exact_mod_cast hs)
  refine ⟨a', e, Arr2.isMat_ext h' ⟨by simp [Mat.resized, sheet], by simp [Mat.resized, sheet], ?_⟩⟩
  intro i j hi hj
  show (if i < R ∧ j < n then (L.getD i []).getD j default else default) = (L.getD i []).getD j default
  by_cases hc : i < R ∧ j < n
  · rw [if_pos hc]
  · rw [if_neg hc]
    by_cases hiL : i < L.length
    · have hj : n ≤ j := by omega
      have := hrow L[i] (by simp)
      have h1 : L.getD i [] = L[i] := by
        rw [List.getD_eq_getElem?_getD, List.getElem?_eq_getElem hiL]; rfl
      rw [h1, List.getD_eq_getElem?_getD, List.getElem?_eq_none (by omega)]
      rfl
    · have h1 : L.getD i [] = [] := by
        rw [List.getD_eq_getElem?_getD, List.getElem?_eq_none (by omega)]; rfl
      rw [h1]
      rfl

theorem put2_sheet (b : Build) {a : Arr2 α} {L : List (List α)} {cur : List α} {R n : Nat}
    (h : IsMat a (sheet (L ++ [cur]) R n)) (hR : L.length < R) (hc : cur.length < n) (x : α) :
    ∃ a', put2 b a (L.length : Int) (cur.length : Int) x = .ok a' ∧
      IsMat a' (sheet (L ++ [cur ++ [x]]) R n) := by
  obtain ⟨a', e, h'⟩ := Arr2.wr2_ok h (i := L.length) (j := cur.length) hR hc x
  have h1 : validIndex a.rows (L.length : Int) = true := by
    rw [validIndex_iff, h.rows]; simp only [sheet]; constructor <;> omega
  have h2 : validIndex a.cols (cur.length : Int) = true := by
    rw [validIndex_iff, h.cols]; simp only [sheet]; constructor <;> omega
  refine ⟨a', by simp [put2, h1, h2, e], Arr2.isMat_ext h' ⟨rfl, rfl, fun i j hi hj => ?_⟩⟩
  simp only [Mat.set, sheet]
  by_cases hi : i = L.length
  · subst hi
    simp only [true_and, List.getD_eq_getElem?_getD, List.getElem?_concat_length, Option.getD_some]
    rcases Nat.lt_trichotomy j cur.length with hj | hj | hj
    · rw [if_neg (by omega), List.getElem?_append_left hj]
    · subst hj; simp
    · rw [if_neg (by omega), List.getElem?_eq_none (by omega), List.getElem?_eq_none (by simp; omega)]
  · rw [if_neg (fun hh => hi hh.1)]
    have h3 : (L ++ [cur]).getD i [] = (L ++ [cur ++ [x]]).getD i [] := by
      rw [List.getD_eq_getElem?_getD, List.getD_eq_getElem?_getD]
      rcases Nat.lt_or_gt_of_ne hi with hi | hi
      · rw [List.getElem?_append_left hi, List.getElem?_append_left hi]
      · rw [List.getElem?_eq_none (by rw [List.length_append, List.length_singleton]; omega),
          List.getElem?_eq_none (by rw [List.length_append, List.length_singleton]; omega)]
    rw [h3]

theorem firstRowLoop_numbers (b : Build) {num : Scanner α} (hn : Sane num) {t vs clean left}
    (h : Numbers num t vs clean left) : ∀ (fuel : Nat) (cur : List α) (n : Nat) (a : Arr2 α),
    vs.length < fuel → cur.length < n → cur.length + vs.length < 2 ^ 61 → IsMat a (sheet [cur] 1 n) →
    ∃ n' a', (cur ++ vs).length < n' ∧
      firstRowLoop b num fuel (.ofText t) (cur.length : Int) a =
        .ok (⟨left, clean, true⟩, ((cur ++ vs).length : Int), a') ∧
      IsMat a' (sheet [cur ++ vs] 1 n') := by
  have key : ∀ (fuel : Nat) (cur : List α) (n : Nat) (a : Arr2 α) (x : α) (is is' : Stream),
      cur.length < n → cur.length + 1 < 2 ^ 61 → IsMat a (sheet [cur] 1 n) →
      extract num is = (some (x, true), is') →
      ∃ n' a', (cur ++ [x]).length < n' ∧ IsMat a' (sheet [cur ++ [x]] 1 n') ∧
        firstRowLoop b num (fuel + 1) is (cur.length : Int) a =
          firstRowLoop b num fuel is' ((cur ++ [x]).length : Int) a' := by
    intro fuel cur n a x is is' hc hsz ha he
    obtain ⟨a1, e1, h1⟩ := put2_sheet b (L := []) ha (by simp) hc x
    simp only [List.length_nil, List.nil_append] at e1 h1
    have hadd : iadd (cur.length : Int) 1 = .ok ((cur ++ [x]).length : Int) := by
      rw [iadd_ok (by unfold IsIndex; omega)]; simp
    have hcols : a1.cols = n := h1.cols
    by_cases hfull : n = (cur ++ [x]).length
    · obtain ⟨a2, e2, h2⟩ := sheet_resize b h1 (R' := 1) (n' := 2 * (cur ++ [x]).length) (by simp)
        (by simp [hfull]) (by omega) (by simp) (by simp; omega)
      refine ⟨2 * (cur ++ [x]).length, a2, by simp, h2, ?_⟩
      have hmul : imul 2 ((cur ++ [x]).length : Int) = .ok ((2 * (cur ++ [x]).length : Nat) : Int) := by
        rw [imul_ok (by unfold IsIndex; simp; omega)]; simp
      change put2 b a 0 _ x = _ at e1
      change Arr2.resize b 1 _ true a1 = _ at e2
      simp only [firstRowLoop, he, e1, Res.ok_bind, hadd]
      rw [if_pos (by rw [hcols, hfull])]
      simp only [hmul, Res.ok_bind, e2, Res.pure_eq]
    · refine ⟨n, a1, by simp at hfull ⊢; omega, h1, ?_⟩
      change put2 b a 0 _ x = _ at e1
      simp only [firstRowLoop, he, e1, Res.ok_bind, hadd]
      rw [if_neg (by rw [hcols]; omega)]
      simp only [Res.pure_eq, Res.ok_bind]
  induction h with
  | nothing hs =>
    intro fuel cur n a hf hc hsz ha
    obtain ⟨fuel, rfl⟩ := Nat.exists_eq_succ_of_ne_zero (Nat.ne_of_gt hf)
    exact ⟨n, a, by simpa using hc, by simp [firstRowLoop, extract_blank num hs], by simpa using ha⟩
  | stop hs hc' ho =>
    intro fuel cur n a hf hc hsz ha
    obtain ⟨fuel, rfl⟩ := Nat.exists_eq_succ_of_ne_zero (Nat.ne_of_gt hf)
    exact ⟨n, a, by simpa using hc, by simp [firstRowLoop, extract_number num hs hc', ho], by simpa using ha⟩
  | @last s c t hs hc' ho he =>
    intro fuel cur n a hf hc hsz ha
    simp only [List.length_singleton] at hf hsz
    obtain ⟨fuel, rfl⟩ : ∃ f, fuel = f + 1 + 1 := ⟨fuel - 2, by omega⟩
    obtain ⟨n', a', h1, h2, e⟩ := key (fuel + 1) cur n a (num (c :: t)).val _
      ⟨(num (c :: t)).rest, true, false⟩ hc hsz ha (by rw [extract_number num hs hc', ho, he]; rfl)
    refine ⟨n', a', h1, ?_, h2⟩
    rw [e, hn.atEnd _ he]
    simp [firstRowLoop, extract_end]
  | @more s c t vs cl le hs hc' ho he _ ih =>
    intro fuel cur n a hf hc hsz ha
    simp only [List.length_cons] at hf hsz
    obtain ⟨fuel, rfl⟩ : ∃ f, fuel = f + 1 := ⟨fuel - 1, by omega⟩
    obtain ⟨n', a', h1, h2, e⟩ := key fuel cur n a (num (c :: t)).val _
      ⟨(num (c :: t)).rest, false, false⟩ hc (by omega) ha (by rw [extract_number num hs hc', ho, he]; rfl)
    obtain ⟨n2, a2, h3, e2, h4⟩ := ih fuel (cur ++ [(num (c :: t)).val]) n' a' (by omega) h1
      (by simp; omega) h2
    refine ⟨n2, a2, by simpa using h3, ?_, by simpa using h4⟩
    rw [e]
    rw [show (⟨(num (c :: t)).rest, false, false⟩ : Stream) = .ofText (num (c :: t)).rest from rfl, e2]
    simp

theorem rowLoop_numbers (b : Build) {num : Scanner α} (hn : Sane num) {t vs clean left}
    (h : Numbers num t vs clean left) : ∀ (fuel : Nat) (L : List (List α)) (cur : List α) (R n : Nat)
    (a : Arr2 α), vs.length < fuel → L.length < R → cur.length + vs.length ≤ n → n < 2 ^ 62 →
    IsMat a (sheet (L ++ [cur]) R n) →
    ∃ a', rowLoop b num (L.length : Int) fuel (.ofText t) (cur.length : Int) a =
        .ok (⟨left, clean, true⟩, ((cur ++ vs).length : Int), a') ∧
      IsMat a' (sheet (L ++ [cur ++ vs]) R n) := by
  have key : ∀ (fuel : Nat) (L : List (List α)) (cur : List α) (R n : Nat) (a : Arr2 α) (x : α)
      (is is' : Stream), L.length < R → cur.length < n → n < 2 ^ 62 → IsMat a (sheet (L ++ [cur]) R n) →
      extract num is = (some (x, true), is') →
      ∃ a', IsMat a' (sheet (L ++ [cur ++ [x]]) R n) ∧
        rowLoop b num (L.length : Int) (fuel + 1) is (cur.length : Int) a =
          rowLoop b num (L.length : Int) fuel is' ((cur ++ [x]).length : Int) a' := by
    intro fuel L cur R n a x is is' hR hc hsz ha he
    obtain ⟨a1, e1, h1⟩ := put2_sheet b ha hR hc x
    have hadd : iadd (cur.length : Int) 1 = .ok ((cur ++ [x]).length : Int) := by
      rw [iadd_ok (by unfold IsIndex; omega)]; simp
    refine ⟨a1, h1, ?_⟩
    simp only [rowLoop, he, e1, Res.ok_bind, hadd]
  induction h with
  | nothing hs =>
    intro fuel L cur R n a hf hR hc hsz ha
    obtain ⟨fuel, rfl⟩ := Nat.exists_eq_succ_of_ne_zero (Nat.ne_of_gt hf)
    exact ⟨a, by simp [rowLoop, extract_blank num hs], by simpa using ha⟩
  | stop hs hc' ho =>
    intro fuel L cur R n a hf hR hc hsz ha
    obtain ⟨fuel, rfl⟩ := Nat.exists_eq_succ_of_ne_zero (Nat.ne_of_gt hf)
    exact ⟨a, by simp [rowLoop, extract_number num hs hc', ho], by simpa using ha⟩
  | @last s c t hs hc' ho he =>
    intro fuel L cur R n a hf hR hc hsz ha
    simp only [List.length_singleton] at hf hc
    obtain ⟨fuel, rfl⟩ : ∃ f, fuel = f + 1 + 1 := ⟨fuel - 2, by omega⟩
    obtain ⟨a', h2, e⟩ := key (fuel + 1) L cur R n a (num (c :: t)).val _
      ⟨(num (c :: t)).rest, true, false⟩ hR hc hsz ha (by rw [extract_number num hs hc', ho, he]; rfl)
    refine ⟨a', ?_, h2⟩
    rw [e, hn.atEnd _ he]
    simp [rowLoop, extract_end]
  | @more s c t vs cl le hs hc' ho he _ ih =>
    intro fuel L cur R n a hf hR hc hsz ha
    simp only [List.length_cons] at hf hc
    obtain ⟨fuel, rfl⟩ : ∃ f, fuel = f + 1 := ⟨fuel - 1, by omega⟩
    obtain ⟨a', h2, e⟩ := key fuel L cur R n a (num (c :: t)).val _
      ⟨(num (c :: t)).rest, false, false⟩ hR (by omega) hsz ha
      (by rw [extract_number num hs hc', ho, he]; rfl)
    obtain ⟨a2, e2, h4⟩ := ih fuel L (cur ++ [(num (c :: t)).val]) R n a' (by omega) hR
      (by simp; omega) hsz h2
    refine ⟨a2, ?_, by simpa using h4⟩
    rw [e]
    rw [show (⟨(num (c :: t)).rest, false, false⟩ : Stream) = .ofText (num (c :: t)).rest from rfl, e2]
    simp

/-- Too many numbers in a row: a checked build traps. -/
theorem rowLoop_long {b : Build} (hb : b.Checked) {num : Scanner α} {t vs clean left}
    (h : Numbers num t vs clean left) : ∀ (fuel : Nat) (L : List (List α)) (cur : List α) (R n : Nat)
    (a : Arr2 α), vs.length < fuel → L.length < R → cur.length ≤ n → n < cur.length + vs.length →
    n < 2 ^ 62 → IsMat a (sheet (L ++ [cur]) R n) →
    rowLoop b num (L.length : Int) fuel (.ofText t) (cur.length : Int) a = .trap b.kind := by
  have full : ∀ (fuel : Nat) (L : List (List α)) (cur : List α) (R n : Nat) (a : Arr2 α) (x : α)
      (is is' : Stream), cur.length = n → IsMat a (sheet (L ++ [cur]) R n) →
      extract num is = (some (x, true), is') →
      rowLoop b num (L.length : Int) (fuel + 1) is (cur.length : Int) a = .trap b.kind := by
    intro fuel L cur R n a x is is' hc ha he
    have h2 : validIndex a.cols (cur.length : Int) = false := by
      rw [validIndex_false, ha.cols]; simp only [sheet]; intro hh; have := hh.2; omega
    simp only [rowLoop, he, put2, h2, Bool.and_false, assertDebug_false hb, Res.trap_bind]
  induction h with
  | nothing hs => intro fuel L cur R n a hf hR hc hl; simp at hl; omega
  | stop hs hc' ho => intro fuel L cur R n a hf hR hc hl; simp at hl; omega
  | @last s c t hs hc' ho he =>
    intro fuel L cur R n a hf hR hc hl hsz ha
    simp only [List.length_singleton] at hf hl
    obtain ⟨fuel, rfl⟩ : ∃ f, fuel = f + 1 := ⟨fuel - 1, by omega⟩
    exact full fuel L cur R n a (num (c :: t)).val _ _ (by omega) ha
      (by rw [extract_number num hs hc', ho])
  | @more s c t vs cl le hs hc' ho he _ ih =>
    intro fuel L cur R n a hf hR hc hl hsz ha
    simp only [List.length_cons] at hf hl
    obtain ⟨fuel, rfl⟩ : ∃ f, fuel = f + 1 := ⟨fuel - 1, by omega⟩
    rcases Nat.lt_or_eq_of_le hc with hlt | heq
    · obtain ⟨a1, e1, h1⟩ := put2_sheet b ha hR hlt (num (c :: t)).val
      have hadd : iadd (cur.length : Int) 1 = .ok ((cur ++ [(num (c :: t)).val]).length : Int) := by
        rw [iadd_ok (by unfold IsIndex; omega)]; simp
      simp only [rowLoop, extract_number num hs hc', ho, e1, Res.ok_bind, hadd, he]
      exact ih fuel L (cur ++ [(num (c :: t)).val]) R n a1 (by omega) hR (by simp; omega) (by simp; omega)
        hsz h1
    · exact full fuel L cur R n a (num (c :: t)).val _ _ heq ha
        (by rw [extract_number num hs hc', ho])

/-- In a release build numbers are stored one after the other as long as they stay inside the buffer. -/
theorem rowLoop_release {b : Build} (hb : b.Release) {num : Scanner α} (hn : Sane num) {t vs clean left}
    (h : Numbers num t vs clean left) : ∀ (fuel r k n : Nat) (a : Arr2 α), vs.length < fuel →
    a.cols = n → k + vs.length < 2 ^ 62 →
    (r * n + k + vs.length ≤ a.data.length →
      ∃ a', rowLoop b num (r : Int) fuel (.ofText t) (k : Int) a =
        .ok (⟨left, clean, true⟩, ((k + vs.length : Nat) : Int), a') ∧ a'.cols = n) ∧
    (a.data.length < r * n + k + vs.length → vs ≠ [] →
      rowLoop b num (r : Int) fuel (.ofText t) (k : Int) a = .ub) := by
  have hput : ∀ (a : Arr2 α) (r k n : Nat) (x : α), a.cols = n →
      put2 b a (r : Int) (k : Int) x =
        if r * n + k < a.data.length then .ok { a with data := a.data.set (r * n + k) x } else .ub := by
    intro a r k n x hc
    have e : (r : Int) * a.cols + (k : Int) = ((r * n + k : Nat) : Int) := by rw [hc]; push_cast; rfl
    unfold put2 Arr2.wr2
    rw [assertDebug_release hb, e]
    by_cases hlt : r * n + k < a.data.length
    · rw [wr_ok (by constructor <;> omega), if_pos hlt]
      simp only [Res.ok_bind, Res.pure_eq, Int.toNat_natCast]
    · rw [wr_ub (by rintro ⟨_, h2⟩; omega), if_neg hlt]
      rfl
  have hadd : ∀ k : Nat, k < 2 ^ 62 → iadd (k : Int) 1 = .ok ((k + 1 : Nat) : Int) := by
    intro k hk
    rw [iadd_ok (by unfold IsIndex; omega)]; simp
  induction h with
  | nothing hs =>
    intro fuel r k n a hf hc hk
    obtain ⟨fuel, rfl⟩ := Nat.exists_eq_succ_of_ne_zero (Nat.ne_of_gt hf)
    exact ⟨fun _ => ⟨a, by simp [rowLoop, extract_blank num hs], hc⟩, fun _ hne => absurd rfl hne⟩
  | stop hs hc' ho =>
    intro fuel r k n a hf hc hk
    obtain ⟨fuel, rfl⟩ := Nat.exists_eq_succ_of_ne_zero (Nat.ne_of_gt hf)
    exact ⟨fun _ => ⟨a, by simp [rowLoop, extract_number num hs hc', ho], hc⟩, fun _ hne => absurd rfl hne⟩
  | @last s c t hs hc' ho he =>
    intro fuel r k n a hf hc hk
    simp only [List.length_singleton] at hf hk ⊢
    obtain ⟨fuel, rfl⟩ : ∃ f, fuel = f + 1 + 1 := ⟨fuel - 2, by omega⟩
    constructor
    · intro hlt
      refine ⟨{ a with data := a.data.set (r * n + k) (num (c :: t)).val }, ?_, hc⟩
      rw [rowLoop]
      simp only [extract_number num hs hc', ho, he, hput a r k n _ hc]
      rw [if_pos (by omega)]
      simp only [Res.ok_bind, hadd k (by omega)]
      rw [rowLoop]
      simp [extract_end, hn.atEnd _ he]
    · intro hlt _
      rw [rowLoop]
      simp only [extract_number num hs hc', ho, he, hput a r k n _ hc]
      rw [if_neg (by omega)]
      rfl
  | @more s c t vs cl le hs hc' ho he hr ih =>
    intro fuel r k n a hf hc hk
    simp only [List.length_cons] at hf hk ⊢
    obtain ⟨fuel, rfl⟩ : ∃ f, fuel = f + 1 := ⟨fuel - 1, by omega⟩
    by_cases hlt : r * n + k < a.data.length
    · have := ih fuel r (k + 1) n { a with data := a.data.set (r * n + k) (num (c :: t)).val } (by omega) hc
        (by omega)
      simp only [List.length_set] at this
      have hstep : rowLoop b num (r : Int) (fuel + 1) (.ofText (s ++ c :: t)) (k : Int) a =
          rowLoop b num (r : Int) fuel (.ofText (num (c :: t)).rest) ((k + 1 : Nat) : Int)
            { a with data := a.data.set (r * n + k) (num (c :: t)).val } := by
        rw [rowLoop]
        simp only [extract_number num hs hc', ho, he, hput a r k n _ hc]
        rw [if_pos hlt]
        simp only [Res.ok_bind, hadd k (by omega)]
        rfl
      rw [hstep]
      constructor
      · intro hle
        obtain ⟨a', e, h'⟩ := this.1 (by omega)
        exact ⟨a', by rw [e]; congr 4; omega, h'⟩
      · intro hgt _
        refine this.2 (by omega) ?_
        rintro rfl
        simp at hgt; omega
    · refine ⟨fun hle => by omega, fun _ _ => ?_⟩
      rw [rowLoop]
      simp only [extract_number num hs hc', ho, he, hput a r k n _ hc]
      rw [if_neg hlt]
      rfl

/-! ### Lines -/

/-- The stream has exactly the lines `ls` left. -/
def At (s : Stream) (ls : List (List Char)) : Prop :=
  (∃ t, s = .ofText t ∧ textLines t = ls) ∨ (s = ⟨[], true, false⟩ ∧ ls = [])

theorem textLines_nil {t : List Char} : textLines t = [] ↔ t = [] := by
  cases t with
  | nil => simp [textLines]
  | cons c t =>
    simp only [textLines, List.cons_ne_nil, iff_false]
    split
    · simp
    · split <;> simp

theorem getline_nil {s : Stream} (h : At s []) : getline s = (none, ⟨[], true, true⟩) := by
  rcases h with ⟨t, rfl, ht⟩ | ⟨rfl, _⟩
  · rw [textLines_nil.mp ht]; rfl
  · rfl

theorem textLines_cons {t l : List Char} {ls : List (List Char)} (h : textLines t = l :: ls) :
    (t.dropWhile (· != '\n') = [] ∧ t = l ∧ ls = [] ∧ t ≠ []) ∨
    (∃ u, t.dropWhile (· != '\n') = '\n' :: u ∧ t.takeWhile (· != '\n') = l ∧ textLines u = ls) := by
  induction t generalizing l ls with
  | nil => simp [textLines] at h
  | cons c t ih =>
    by_cases hc : c = '\n'
    · subst hc
      simp only [textLines, if_true, List.cons.injEq] at h
      exact .inr ⟨t, by simp, by simp [h.1], h.2⟩
    · simp only [textLines, if_neg hc] at h
      have hc' : (c != '\n') = true := by simpa using hc
      rcases ht : textLines t with _ | ⟨m, ms⟩
      · rw [ht] at h
        simp only [List.cons.injEq] at h
        rw [textLines_nil.mp ht]
        refine .inl ⟨by simp [hc], h.1, h.2.symm, by simp⟩
      · rw [ht] at h
        simp only [List.cons.injEq] at h
        rcases ih ht with ⟨h1, h2, h3, _⟩ | ⟨u, h1, h2, h3⟩
        · refine .inl ⟨by rw [List.dropWhile_cons, if_pos hc', h1], by rw [h2]; exact h.1,
            by rw [← h.2]; exact h3, by simp⟩
        · refine .inr ⟨u, by rw [List.dropWhile_cons, if_pos hc', h1], ?_, by rw [h3]; exact h.2⟩
          rw [List.takeWhile_cons, if_pos hc', h2]
          exact h.1

theorem getline_cons {s : Stream} {l : List Char} {ls : List (List Char)} (h : At s (l :: ls)) :
    ∃ s', getline s = (some l, s') ∧ At s' ls ∧ s'.rest.length < s.rest.length := by
  rcases h with ⟨t, rfl, ht⟩ | ⟨_, h⟩
  · have hne : t ≠ [] := by rintro rfl; simp [textLines] at ht
    have he : t.isEmpty = false := by cases t with
      | nil => exact absurd rfl hne
      | cons => rfl
    rcases textLines_cons ht with ⟨h1, h2, h3, _⟩ | ⟨u, h1, h2, h3⟩
    · refine ⟨⟨[], true, false⟩, ?_, .inr ⟨rfl, h3⟩, ?_⟩
      · simp only [getline, Stream.ofText, Bool.or_self, Bool.false_eq_true, if_false, he, h1]
        rw [h2]
      · exact List.length_pos_iff.mpr hne
    · refine ⟨.ofText u, ?_, .inl ⟨u, rfl, h3⟩, ?_⟩
      · simp only [getline, Stream.ofText, Bool.or_self, Bool.false_eq_true, if_false, he, h1, h2]
      · have := List.length_dropWhile_le (· != '\n') t
        rw [h1] at this
        simp [Stream.ofText] at this ⊢
        omega
  · cases h

theorem at_ofText (t : List Char) : At (.ofText t) (textLines t) := .inl ⟨t, rfl, rfl⟩

/-! ### The first row -/

/-- Reading the first row from a line: `vs` are the numbers. -/
theorem getFirstRow_numbers (b : Build) {num : Scanner α} (hn : Sane num) {l vs clean left}
    (h : Numbers num l vs clean left) (hsz : vs.length < 2 ^ 61) :
    getFirstRow b num l Arr2.empty = (do
      assertAlways b clean
      pure (if vs = [] then Arr2.empty else ⟨1, vs.length, vs⟩)) := by
  obtain ⟨a1, e1, h1⟩ := Props.C35_resize_preserve (α := α) b Arr2.isMat_empty (m := 1) (n := 4) (by omega)
    (by omega) (by omega) (by omega)
  have h1' : IsMat a1 (sheet [([] : List α)] 1 4) := Arr2.isMat_ext h1 ⟨rfl, rfl, fun i j _ _ => by
    show (if i < 0 ∧ j < 0 then default else default) = _
    rw [if_neg (by omega)]
    have : ([([] : List α)].getD i []) = [] := by cases i <;> simp
    simp only [sheet, this]; rfl⟩
  obtain ⟨n', a2, h2, e2, h3⟩ := firstRowLoop_numbers b hn h (l.length + 1) [] 4 a1
    (by have := numbers_length hn h; omega) (by simp) (by simpa using hsz) h1'
  simp only [List.nil_append] at h2 h3 e2
  change firstRowLoop b num _ _ 0 a1 = _ at e2
  unfold getFirstRow
  simp only [e1, Res.ok_bind, e2]
  by_cases hv : vs = []
  · subst hv
    obtain ⟨a3, e3, h4⟩ := Props.C35_resize_preserve b h3 (m := 0) (n := 0) (by omega) (by omega) (by omega)
      (by omega)
    have h5 : a3 = Arr2.empty := Arr2.isMat_unique (Arr2.isMat_ext h4
      (N := ⟨0, 0, fun _ _ => default⟩) ⟨rfl, rfl, fun i j hi hj => by
        simp [Mat.resized] at hi⟩) Arr2.isMat_empty
    rw [if_neg (by simp), if_pos rfl, e3, h5]
    rfl
  · have hpos : 0 < vs.length := List.length_pos_iff.mpr hv
    obtain ⟨a3, e3, h4⟩ := sheet_resize b h3 (R' := 1) (n' := vs.length) (by simp) (by simp; omega) (by omega)
      hpos (by omega)
    have h5 : a3 = ⟨1, vs.length, vs⟩ := by
      refine Arr2.isMat_unique h4 ⟨rfl, rfl, by simp [sheet], by simp only [sheet]; omega, ?_⟩
      intro i j hi hj
      simp only [sheet] at hi hj ⊢
      obtain rfl : i = 0 := by omega
      simp [List.getD_eq_getElem?_getD, List.getElem?_eq_getElem hj]
    change Arr2.resize b 1 _ true a2 = _ at e3
    rw [if_pos (by omega), if_neg hv, e3, h5]
    rfl

/-- Lines without numbers are skipped. -/
theorem readFirst_skip (b : Build) {num : Scanner α} (hn : Sane num) : ∀ (pre : List (List Char))
    (s : Stream) (ls : List (List Char)) (fuel : Nat), At s (pre ++ ls) →
    (∀ l ∈ pre, ∃ left, Numbers num l [] true left) → s.rest.length < fuel →
    ∃ s' fuel', At s' ls ∧ s'.rest.length < fuel' ∧
      (fuel - s.rest.length ≤ fuel' - s'.rest.length) ∧
      readFirst b num fuel (s, Arr2.empty) = readFirst b num fuel' (s', Arr2.empty) := by
  intro pre
  induction pre with
  | nil => intro s ls fuel h _ hf; exact ⟨s, fuel, h, hf, by omega, rfl⟩
  | cons l pre ih =>
    intro s ls fuel h hl hf
    obtain ⟨s1, e1, h1, hlt⟩ := getline_cons (by simpa using h)
    obtain ⟨left, hN⟩ := hl l (by simp)
    obtain ⟨fuel, rfl⟩ : ∃ f, fuel = f + 1 := ⟨fuel - 1, by omega⟩
    obtain ⟨s', fuel', h2, h3, h5, e2⟩ := ih s1 ls fuel h1 (fun l hm => hl l (by simp [hm])) (by omega)
    refine ⟨s', fuel', h2, h3, by omega, ?_⟩
    rw [← e2]
    have hg := getFirstRow_numbers b hn hN (by simp)
    simp only [assertAlways_true, Res.ok_bind, if_true, Res.pure_eq] at hg
    simp only [readFirst, Op.get_bind]
    rw [if_pos (by rfl)]
    simp only [e1, Op.set_bind, hg, Op.lift_ok_bind]

/-! ### The other rows -/

theorem getRow_numbers (b : Build) {num : Scanner α} (hn : Sane num) {l vs clean left}
    (h : Numbers num l vs clean left) {L : List (List α)} {R n : Nat} {a : Arr2 α} (hR : L.length < R)
    (hv : vs.length ≤ n) (hsz : n < 2 ^ 62) (ha : IsMat a (sheet L R n)) :
    ∃ a', IsMat a' (sheet (L ++ [vs]) R n) ∧ getRow b num l (L.length : Int) a = (do
      assertAlways b (decide (vs.length = n))
      assertAlways b clean
      pure a') := by
  obtain ⟨a', e, h'⟩ := rowLoop_numbers b hn h (l.length + 1) L [] R n a
    (by have := numbers_length hn h; omega) hR (by simpa using hv) hsz (Arr2.isMat_ext ha (sheet_pad L R n))
  simp only [List.nil_append] at e h'
  change rowLoop b num _ _ _ 0 a = _ at e
  refine ⟨a', h', ?_⟩
  have hc : a'.cols = n := h'.cols
  simp only [getRow, e, Res.ok_bind, hc]
  have : ((vs.length : Int) == (n : Int)) = decide (vs.length = n) := by
    rw [Bool.eq_iff_iff, beq_iff_eq, decide_eq_true_iff]; omega
  rw [this]

theorem lt_room (k : Nat) : k < room k := Nat.lt_log2_self

theorem room_le (k : Nat) (hk : 0 < k) : room k ≤ 2 * k := by
  have h1 : 2 ^ Nat.log2 k ≤ k := Nat.log2_self_le (by omega)
  unfold room
  rw [Nat.pow_succ]; omega

theorem room_step (k : Nat) (hk : 0 < k) :
    (if room k = k + 1 then 2 * (k + 1) else room k) = room (k + 1) := by
  have h1 : 2 ^ Nat.log2 k ≤ k := Nat.log2_self_le (by omega)
  have h2 : k < 2 ^ (Nat.log2 k + 1) := Nat.lt_log2_self
  unfold room
  split
  · next h =>
    have : Nat.log2 (k + 1) = Nat.log2 k + 1 := by
      rw [← h, Nat.log2_two_pow]
    rw [this, ← h, Nat.pow_succ]; omega
  · next h =>
    have : Nat.log2 (k + 1) = Nat.log2 k := by
      rw [Nat.log2_eq_iff (by omega)]
      constructor <;> omega
    rw [this]

/-- Complete rows are stored in order; empty lines are skipped. -/
theorem readRows_prefix (b : Build) {num : Scanner α} (hn : Sane num) {n : Nat} (hn0 : 0 < n) :
    ∀ (pre : List (List Char)) (rows L : List (List α)) (s : Stream) (ls : List (List Char)) (fuel : Nat)
      (a : Arr2 α), At s (pre ++ ls) →
    List.Forall₂ (fun l r => r.length = n ∧ ∃ left, Numbers num l r true left)
      (pre.filter (fun l => !l.isEmpty)) rows →
    s.rest.length < fuel → 0 < L.length → (∀ r ∈ L, r.length = n) →
    (L.length + rows.length) * n < 2 ^ 61 → IsMat a (sheet L (room L.length) n) →
    ∃ s' fuel' a', At s' ls ∧ s'.rest.length < fuel' ∧
      IsMat a' (sheet (L ++ rows) (room (L ++ rows).length) n) ∧
      readRows b num (n : Int) fuel (s, (L.length : Int), a) =
        readRows b num (n : Int) fuel' (s', ((L ++ rows).length : Int), a') := by
  intro pre
  induction pre with
  | nil =>
    intro rows L s ls fuel a h hr hf hL hLn hsz ha
    simp only [List.filter_nil] at hr
    cases hr
    exact ⟨s, fuel, a, h, hf, by simpa using ha, by simp⟩
  | cons l pre ih =>
    intro rows L s ls fuel a h hr hf hL hLn hsz ha
    obtain ⟨s1, e1, h1, hlt⟩ := getline_cons (by simpa using h)
    obtain ⟨fuel, rfl⟩ : ∃ f, fuel = f + 1 := ⟨fuel - 1, by omega⟩
    cases hl : l.isEmpty with
    | true =>
      rw [List.filter_cons, if_neg (by simp [hl])] at hr
      obtain ⟨s', fuel', a', h2, h3, h4, e2⟩ := ih rows L s1 ls fuel a h1 hr (by omega) hL hLn hsz ha
      refine ⟨s', fuel', a', h2, h3, h4, ?_⟩
      rw [← e2]
      simp only [readRows, Op.get_bind, e1, Op.set_bind, hl, if_true]
    | false =>
      rw [List.filter_cons, if_pos (by simp [hl])] at hr
      obtain ⟨r, rows', ⟨hrn, left, hN⟩, hr', rfl⟩ := List.forall₂_cons_left_iff.mp hr
      simp only [List.length_cons] at hsz
      have hle : (L.length + 1) * n ≤ (L.length + (rows'.length + 1)) * n :=
        Nat.mul_le_mul_right n (by omega)
      have hLle : L.length + 1 ≤ (L.length + 1) * n := Nat.le_mul_of_pos_right _ hn0
      have hnle : n ≤ (L.length + 1) * n := Nat.le_mul_of_pos_left _ (by omega)
      obtain ⟨a1, hm1, eg⟩ := getRow_numbers b hn hN (lt_room L.length) (by omega) (by omega) ha
      simp only [hrn, decide_true, assertAlways_true, Res.ok_bind, Res.pure_eq] at eg
      have hadd : iadd (L.length : Int) 1 = .ok ((L ++ [r]).length : Int) := by
        rw [iadd_ok (by unfold IsIndex; omega)]; simp
      have hrows : a1.rows = room L.length := hm1.rows
      have hstep : ∃ a2, IsMat a2 (sheet (L ++ [r]) (room (L ++ [r]).length) n) ∧
          (if a1.rows = ((L ++ [r]).length : Int) then do
            let m ← imul 2 ((L ++ [r]).length : Int)
            (Arr2.resize b m (n : Int) true a1).1
            pure (Arr2.resize b m (n : Int) true a1).2
          else pure a1 : Res (Arr2 α)) = .ok a2 := by
        have hls := room_step L.length hL
        by_cases hfull : room L.length = L.length + 1
        · rw [if_pos (by rw [hrows, hfull]; simp)]
          have hm : imul 2 ((L ++ [r]).length : Int) = .ok ((2 * (L.length + 1) : Nat) : Int) := by
            rw [imul_ok (by unfold IsIndex; simp; omega)]; simp
          obtain ⟨a2, e2, hm2⟩ := sheet_resize b hm1 (R' := 2 * (L.length + 1)) (n' := n) (by simp [hfull])
            (by
              intro x hx
              simp only [List.mem_append, List.mem_singleton] at hx
              rcases hx with hx | rfl
              · exact Nat.le_of_eq (hLn x hx)
              · omega) (by omega) hn0 (by rw [Nat.mul_assoc]; omega)
          refine ⟨a2, ?_, by simp only [hm, Res.ok_bind, e2, Res.pure_eq]⟩
          rw [show room (L ++ [r]).length = 2 * (L.length + 1) by
            rw [List.length_append, List.length_singleton, ← hls, if_pos hfull]]
          exact hm2
        · rw [if_neg (by rw [hrows]; simp; omega)]
          refine ⟨a1, ?_, rfl⟩
          rw [show room (L ++ [r]).length = room L.length by
            rw [List.length_append, List.length_singleton, ← hls, if_neg hfull]]
          exact hm1
      obtain ⟨a2, hm2, es⟩ := hstep
      obtain ⟨s', fuel', a', h2, h3, h4, e2⟩ := ih rows' (L ++ [r]) s1 ls fuel a2 h1 hr' (by omega) (by simp)
        (by
          intro x hx
          simp only [List.mem_append, List.mem_singleton] at hx
          rcases hx with hx | rfl
          · exact hLn x hx
          · exact hrn) (by
            rw [List.length_append, List.length_singleton]
            rw [show L.length + 1 + rows'.length = L.length + (rows'.length + 1) by omega]
            exact hsz) hm2
      refine ⟨s', fuel', a', h2, h3, by simpa using h4, ?_⟩
      rw [show (L ++ r :: rows') = (L ++ [r]) ++ rows' by simp, ← e2]
      simp only [readRows, Op.get_bind, e1, Op.set_bind, hl, Bool.false_eq_true, if_false, eg,
        Op.lift_ok_bind, hadd, es]

end Spp.IO
