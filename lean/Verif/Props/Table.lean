import Verif.Model.Table
import Verif.Spec.Table
import Verif.Props.FloatIO
import Verif.Props.Print
import Verif.Lemmas.Dominant
import Mathlib.Analysis.SpecialFunctions.Log.Base

/-
C125: the columns of printed tables of floating-point numbers.
-/

namespace Spp.Props

open Spec IO FVal

theorem absVal_fin {s : Bool} {m : ℚ} (hm : 0 ≤ m) : ∃ t, absVal (fin s m) = fin t m ∧ (0 < m → t = false) := by
  unfold absVal
  cases s
  · by_cases h : 0 < m
    · exact ⟨false, by simp [lt, val, h], fun _ => rfl⟩
    · exact ⟨true, by simp [lt, val, h, neg], fun h' => absurd h' h⟩
  · refine ⟨false, ?_, fun _ => rfl⟩
    have : ¬ m < 0 := not_lt.2 hm
    simp [lt, val, this, neg]

theorem foldl_abs : ∀ (xs : List FVal) (t : Bool) (M : ℚ), (0 ≤ M) → (0 < M → t = false) →
    (∀ x ∈ xs, ∃ s m, x = .fin s m ∧ 0 ≤ m) →
    ∃ t' M', xs.foldl (fun acc y => if lt acc (absVal y) then absVal y else acc) (fin t M) = fin t' M' ∧
      (0 < M' → t' = false) ∧ M ≤ M' ∧ (∀ s m, fin s m ∈ xs → m ≤ M') ∧ (M' = M ∨ ∃ s, fin s M' ∈ xs) := by
  intro xs
  induction xs with
  | nil => intro t M h0 h1 _; exact ⟨t, M, rfl, h1, le_refl _, by simp, Or.inl rfl⟩
  | cons x xs ih =>
    intro t M h0 h1 hx
    obtain ⟨s, m, rfl, hm⟩ := hx x (by simp)
    obtain ⟨u, hu, hu'⟩ := absVal_fin (s := s) hm
    rw [List.foldl_cons, hu]
    have hv : ∀ {t : Bool} {m : ℚ}, 0 ≤ m → (0 < m → t = false) → (fin t m).val = m := by
      intro t m h h'
      cases t
      · rfl
      · have : m = 0 := by
          rcases h.lt_or_eq with h | h
          · exact absurd (h' h) (by simp)
          · exact h.symm
        simp [val, this]
    have hlt : lt (fin t M) (fin u m) = decide (M < m) := by
      show decide ((fin t M).val < (fin u m).val) = _
      rw [hv h0 h1, hv hm hu']
    rw [hlt]
    by_cases h : M < m
    · rw [if_pos (by simpa using h)]
      obtain ⟨t', M', e1, e2, e3, e4, e5⟩ := ih u m hm hu' (fun y hy => hx y (by simp [hy]))
      refine ⟨t', M', e1, e2, by linarith, ?_, ?_⟩
      · intro s' m' hmem
        rcases List.mem_cons.1 hmem with h | h
        · cases h; exact e3
        · exact e4 s' m' h
      · rcases e5 with rfl | ⟨s', h'⟩
        · exact Or.inr ⟨s, by simp⟩
        · exact Or.inr ⟨s', by simp [h']⟩
    · rw [if_neg (by simpa using h)]
      obtain ⟨t', M', e1, e2, e3, e4, e5⟩ := ih t M h0 h1 (fun y hy => hx y (by simp [hy]))
      refine ⟨t', M', e1, e2, e3, ?_, ?_⟩
      · intro s' m' hmem
        rcases List.mem_cons.1 hmem with h | h
        · cases h; linarith
        · exact e4 s' m' h
      · rcases e5 with rfl | ⟨s', h'⟩
        · exact Or.inl rfl
        · exact Or.inr ⟨s', by simp [h']⟩

/-- The number `max_if_needed` finds. -/
theorem maxAbs_largest {l : List FVal} (h : ∀ x ∈ l, ∃ s m, x = .fin s m ∧ 0 ≤ m) :
    ∃ t M, maxAbsV l = fin t M ∧ (0 < M → t = false) ∧ 0 ≤ M ∧ Largest l M := by
  cases l with
  | nil => exact ⟨false, 0, rfl, fun _ => rfl, le_refl _, by simp [Largest]⟩
  | cons x xs =>
    obtain ⟨s, m, rfl, hm⟩ := h x (by simp)
    obtain ⟨u, hu, hu'⟩ := absVal_fin (s := s) hm
    obtain ⟨t', M', e1, e2, e3, e4, e5⟩ := foldl_abs xs u m hm hu' (fun y hy => h y (by simp [hy]))
    refine ⟨t', M', by rw [maxAbsV, hu, e1], e2, by linarith, fun y hy => ?_, Or.inr ?_⟩
    · obtain ⟨s', m', rfl, hm'⟩ := h y hy
      refine ⟨s', m', rfl, hm', ?_⟩
      rcases List.mem_cons.1 hy with h | h
      · cases h; exact e3
      · exact e4 s' m' h
    · rcases e5 with rfl | ⟨s', h'⟩
      · exact ⟨s, by simp⟩
      · exact ⟨s', by simp [h']⟩

theorem largest_unique {l : List FVal} {M M' : ℚ} (h : Largest l M) (h' : Largest l M') : M = M' := by
  rcases h.2 with ⟨rfl, h1⟩ | ⟨s, h1⟩
  · rcases h'.2 with ⟨_, h2⟩ | ⟨s', h2⟩
    · rw [h1, h2]
    · simp at h2
  · rcases h'.2 with ⟨rfl, h2⟩ | ⟨s', h2⟩
    · simp at h1
    · obtain ⟨_, _, e, _, h3⟩ := h.1 _ h2
      obtain ⟨_, _, e', _, h4⟩ := h'.1 _ h1
      cases e; cases e'
      linarith

theorem int_arith {k : Int} (h1 : -(2 ^ 31) ≤ k) (h2 : k < 2 ^ 31) : IntTy.int.arith k = .ok k :=
  arith_of_fits ⟨fun _ => ⟨h1, h2⟩, fun h => absurd h (by decide)⟩

/-- The number without its fraction. -/
theorem trunc_bounds {x : ℚ} (h : |x| < 2 ^ 30) :
    -(2 ^ 30) ≤ (if 0 ≤ x then ⌊x⌋ else ⌈x⌉) ∧ (if 0 ≤ x then ⌊x⌋ else ⌈x⌉) < 2 ^ 30 := by
  rw [abs_lt] at h
  split
  · rename_i h0
    refine ⟨by have := Int.floor_nonneg.2 h0; linarith, Int.floor_lt.2 ?_⟩
    push_cast; linarith
  · rename_i h0
    have h0 := not_le.1 h0
    have h1 : ⌈x⌉ ≤ 0 := Int.ceil_le.2 (by push_cast; linarith)
    refine ⟨?_, by linarith⟩
    have h2 := Int.le_ceil x
    have : (-(2 ^ 30) : ℚ) < (⌈x⌉ : ℚ) := by linarith
    have : (-(2 ^ 30) : Int) < ⌈x⌉ := by exact_mod_cast this
    omega

/-- **C125** The width of the fields: none in scientific notation; in fixed notation with `P` digits after the point,
`P` + 3 plus the integer part of the logarithm of the largest absolute value. -/
theorem C125_width (lg : ℚ → ℚ) {l : List FVal} {M : ℚ} (hM : Largest l M) {P : Nat} (hP : P + 4 < 2 ^ 30)
    (hl : |lg M| < 2 ^ 30) :
    floatWidth lg true P l = .ok 0 ∧
    (M = 0 → floatWidth lg false P l = .ok (P + 3)) ∧
    (M ≠ 0 → floatWidth lg false P l = .ok ((if 0 ≤ lg M then ⌊lg M⌋ else ⌈lg M⌉) + P + 3)) := by
  obtain ⟨t, M', h1, h2, h3, h4⟩ := maxAbs_largest (fun x hx => by
    obtain ⟨s, m, h, h', _⟩ := hM.1 x hx
    exact ⟨s, m, h, h'⟩)
  obtain rfl := largest_unique hM h4
  refine ⟨rfl, fun h0 => ?_, fun h0 => ?_⟩
  · subst h0
    unfold floatWidth
    rw [h1]
    have : countDigitV lg (fin t 0) = .ok 1 := by
      unfold countDigitV
      cases t <;> simp [FVal.eq, val]
    simp only [Bool.false_eq_true, if_false, this, Res.ok_bind]
    rw [int_arith (by omega) (by omega), Res.ok_bind, int_arith (by omega) (by omega)]
    congr 1; omega
  · have hp : 0 < M := lt_of_le_of_ne h3 (Ne.symm h0)
    obtain rfl := h2 hp
    obtain ⟨b1, b2⟩ := trunc_bounds hl
    have hc : countDigitV lg (fin false M) = .ok ((if 0 ≤ lg M then ⌊lg M⌋ else ⌈lg M⌉) + 1) := by
      unfold countDigitV
      have e : FVal.eq (fin false M) (fin false 0) = false := by simp [FVal.eq, val, h0]
      have e' : log10V lg (fin false M) = fin (decide (lg M < 0)) |lg M| := by simp [log10V, h0]
      have e'' : (fin (decide (lg M < 0)) |lg M|).val = lg M := by
        by_cases hn : lg M < 0
        · simp [hn, val, abs_of_neg hn]
        · simp [hn, val, abs_of_nonneg (not_lt.1 hn)]
      rw [e, e']
      simp only [Bool.false_eq_true, if_false, e'', toInt]
      rw [int_arith (by omega) (by omega), Res.ok_bind, int_arith (by omega) (by omega)]
    unfold floatWidth
    rw [h1]
    simp only [Bool.false_eq_true, if_false, hc, Res.ok_bind]
    rw [int_arith (by omega) (by omega), Res.ok_bind, int_arith (by omega) (by omega)]
    congr 1; omega

/-- **C125** In fixed notation, printing a table whose first element is NaN, or which contains an infinity after a first
element that is not NaN, is undefined behaviour, with any name, format and way of writing the elements. -/
theorem C125_undefined (lg : ℚ → ℚ) (P : Int) (f : Format) (digit : Int → Int) (sh : FVal → List Char)
    (name : List Char) {a : Arr2 FVal} {x : FVal} {xs : List FVal} (ha : a.data = x :: xs)
    (h : x = nan ∨ ∃ s, inf s ∈ x :: xs) :
    print2 f digit sh (floatWidth lg false P a.data) name a = .ub := by
  have key : maxAbsV (x :: xs) = nan ∨ maxAbsV (x :: xs) = inf false := by
    have hn : ∀ xs : List FVal, xs.foldl (fun acc y => if lt acc (absVal y) then absVal y else acc) nan = nan := by
      intro xs
      induction xs with
      | nil => rfl
      | cons y ys ih => rw [List.foldl_cons, if_neg (by simp [lt])]; exact ih
    have hi : ∀ xs : List FVal, xs.foldl (fun acc y => if lt acc (absVal y) then absVal y else acc) (inf false) = inf false := by
      intro xs
      induction xs with
      | nil => rfl
      | cons y ys ih =>
        rw [List.foldl_cons, if_neg]
        · exact ih
        · rcases absVal y with _ | s | ⟨s, m⟩ <;> simp [lt]
    have hai : ∀ s, absVal (inf s) = inf false := by intro s; cases s <;> rfl
    have hm : ∀ (xs : List FVal) (t : Bool) (m : ℚ), (∃ s, inf s ∈ xs) →
        xs.foldl (fun acc y => if lt acc (absVal y) then absVal y else acc) (fin t m) = inf false := by
      intro xs
      induction xs with
      | nil => intro t m h; simp at h
      | cons y ys ih =>
        intro t m ⟨s, h⟩
        rw [List.foldl_cons]
        rcases List.mem_cons.1 h with h | h
        · subst h
          rw [hai, if_pos (show lt (fin t m) (inf false) = true from rfl)]; exact hi ys
        · rcases hy : absVal y with _ | u | ⟨u, n⟩
          · rw [if_neg (by simp [lt])]; exact ih t m ⟨s, h⟩
          · have : u = false := by
              rcases y with _ | v | ⟨v, k⟩
              · cases hy
              · rw [hai] at hy; cases hy; rfl
              · unfold absVal at hy; split at hy <;> simp [neg] at hy
            subst this
            rw [if_pos (show lt (fin t m) (inf false) = true from rfl)]; exact hi ys
          · split
            · exact ih _ _ ⟨s, h⟩
            · exact ih _ _ ⟨s, h⟩
    rcases x with _ | s | ⟨s, m⟩
    · exact Or.inl (hn xs)
    · right; rw [maxAbsV, hai]; exact hi xs
    · right
      rcases h with h | ⟨s', h⟩
      · cases h
      · rcases List.mem_cons.1 h with h | h
        · cases h
        · have : ∃ t n, absVal (fin s m) = fin t n := by
            unfold absVal; split
            · exact ⟨_, _, rfl⟩
            · exact ⟨_, _, rfl⟩
          obtain ⟨t, n, e⟩ := this
          rw [maxAbsV, e]; exact hm xs t n ⟨s', h⟩
  have hw : floatWidth lg false P a.data = .ub := by
    unfold floatWidth
    rw [ha]
    rcases key with h | h <;> rw [h] <;> rfl
  unfold print2
  rw [hw]
  rfl

/-! ### The texts -/

theorem showVal_length (sc : Bool) (P : Nat) (s : Bool) (m : ℚ) :
    (showVal sc P (fin s m)).length = (showFloat sc P m).length := by
  have : (showFloat sc P m) ≠ [] := by
    unfold showFloat; split <;> simp [showSci, showFixed]
  cases h : showFloat sc P m with
  | nil => exact absurd h this
  | cons c t => simp [showVal, h]

theorem roundEven_lt {x : ℚ} (hx : 0 ≤ x) {n : Nat} (hn : Even n) : roundEven x < n ↔ x + 1 / 2 < n := by
  have h1 := roundEven_near hx
  rw [abs_le] at h1
  constructor
  · intro h
    have h' : ((roundEven x : ℕ) : ℚ) + 1 ≤ n := by exact_mod_cast h
    rcases lt_or_eq_of_le (show x + 1 / 2 ≤ n by linarith) with h2 | h2
    · exact h2
    · exfalso
      -- a tie that was rounded down to an odd number
      have h3 := (roundEven_nearest hx n).2 (by
        have e : ((roundEven x : ℕ) : ℚ) = n - 1 := by linarith
        rw [e, show x = n - 1 / 2 by linarith]
        push_cast
        rw [show ((n : ℚ) - 1 / 2 - (n - 1)) = 1 / 2 by ring, show ((n : ℚ) - 1 / 2 - n) = -(1 / 2) by ring, abs_neg])
        (by intro e; have : n = roundEven x := by exact_mod_cast e
            omega)
      have e : n = roundEven x + 1 := by
        have : ((n : ℕ) : ℚ) = ((roundEven x + 1 : ℕ) : ℚ) := by push_cast; linarith
        exact_mod_cast this
      rw [e] at hn
      exact absurd h3 (by rw [Nat.not_even_iff_odd]; exact (Nat.even_add_one.1 hn) |> Nat.not_even_iff_odd.1)
  · intro h
    have : ((roundEven x : ℕ) : ℚ) < n := by linarith
    exact_mod_cast this

/-- **C125** The text of a number in fixed notation has `P` + 2 characters and the digits before the point of the
rounded number. -/
theorem C125_fixed_text (P : Nat) (s : Bool) {m : ℚ} (hm : 0 ≤ m) {c : Nat} (hc : 1 ≤ c) :
    P + 3 ≤ (showVal false P (fin s m)).length ∧
    ((showVal false P (fin s m)).length ≤ P + 2 + c ↔ m + 1 / 10 ^ P / 2 < 10 ^ c) := by
  rw [showVal_length]
  have hlen : (showFloat false P m).length = P + 2 + (Nat.toDigits 10 (roundEven (|m| * 10 ^ P) / 10 ^ P)).length := by
    have hmod : roundEven (|m| * 10 ^ P) % 10 ^ P < 10 ^ P := Nat.mod_lt _ (by positivity)
    simp only [showFloat, Bool.false_eq_true, if_false, showFixed, digits_eq, List.length_cons, List.length_append]
    split
    · rename_i h; simp only [h, List.length_nil]; omega
    · rename_i h
      have := (Nat.length_toDigits_le_iff (b := 10) (n := roundEven (|m| * 10 ^ P) % 10 ^ P) (k := P) (by decide)
        (by omega)).mpr hmod
      simp only [List.length_append, List.length_replicate]; omega
  rw [hlen, abs_of_nonneg hm]
  refine ⟨by have := Nat.length_toDigits_pos (b := 10) (n := roundEven (m * 10 ^ P) / 10 ^ P); omega, ?_⟩
  rw [Nat.add_le_add_iff_left, Nat.length_toDigits_le_iff (by decide) (by omega), Nat.div_lt_iff_lt_mul (by positivity),
    ← pow_add, roundEven_lt (by positivity) (by
      rw [Nat.even_pow]; exact ⟨by decide, by omega⟩)]
  push_cast
  have hT : (0 : ℚ) < 10 ^ P := by positivity
  rw [pow_add]
  constructor
  · intro h
    rw [← mul_lt_mul_iff_left₀ hT]
    calc (m + 1 / 10 ^ P / 2) * 10 ^ P = m * 10 ^ P + 1 / 2 := by field_simp
      _ < _ := h
  · intro h
    rw [← mul_lt_mul_iff_left₀ hT] at h
    calc m * 10 ^ P + 1 / 2 = (m + 1 / 10 ^ P / 2) * 10 ^ P := by field_simp
      _ < _ := h

/-- The fields of a table. -/
def fields (w : Int) (P : Nat) (l : List FVal) : List (List Char) :=
  l.map (fun x => rightAligned w.toNat (showVal false P x))

theorem rightAligned_length (n : Nat) (t : List Char) : (rightAligned n t).length = max n t.length := by
  simp only [rightAligned, List.length_append, List.length_replicate]; omega

/-- **C125** In fixed notation the fields are equally long if the largest absolute value does not round up to a number
with more digits before the point.  The logarithm may be inaccurate, but not less than `k` for 10^k. -/
theorem C125_aligned (lg : ℚ → ℚ) {l : List FVal} {M : ℚ} (hM : Largest l M) {P : Nat} (hP : P + 4 < 2 ^ 30)
    (hl : |lg M| < 2 ^ 30) (hlg : ∀ k : Nat, 10 ^ k ≤ M → k ≤ lg M) {c : Nat} (hc : DigitsBefore M c)
    (hr : M + 1 / 10 ^ P / 2 < 10 ^ c) :
    ∃ w, floatWidth lg false P l = .ok w ∧ SameLength (fields w P l) ∧
      ∀ t ∈ fields w P l, t.length = max w.toNat (P + 2 + c) := by
  obtain ⟨-, h0, h1⟩ := C125_width lg hM hP hl
  obtain ⟨w, hw, hwc⟩ : ∃ w, floatWidth lg false P l = .ok w ∧ (c = 1 ∨ P + 2 + c ≤ w.toNat) := by
    by_cases hz : M = 0
    · refine ⟨_, h0 hz, ?_⟩
      rcases hc.2.2 with h | h
      · exact Or.inl h
      · rw [hz] at h
        have : (0 : ℚ) < 10 ^ (c - 1) := by positivity
        linarith
    · refine ⟨_, h1 hz, ?_⟩
      rcases hc.2.2 with h | h
      · exact Or.inl h
      · right
        have h2 := hlg (c - 1) h
        have h3 : (0 : ℚ) ≤ lg M := le_trans (by positivity) h2
        rw [if_pos h3]
        have h4 : ((c - 1 : ℕ) : Int) ≤ ⌊lg M⌋ := Int.le_floor.2 (by exact_mod_cast h2)
        have := hc.1
        omega
  have key : ∀ t ∈ fields w P l, t.length = max w.toNat (P + 2 + c) := by
    intro t ht
    obtain ⟨x, hx, rfl⟩ := List.mem_map.1 ht
    obtain ⟨s, m, rfl, hm, hmM⟩ := hM.1 x hx
    obtain ⟨k1, k2⟩ := C125_fixed_text P s hm hc.1
    have k3 := k2.2 (by linarith)
    rw [rightAligned_length]
    rcases hwc with h | h <;> omega
  exact ⟨w, hw, fun t ht u hu => by rw [key t ht, key u hu], key⟩

/-- **C125** Otherwise, if the logarithm is accurate enough to count the digits, the elements that do round up stick out
by one character, and exactly these. -/
theorem C125_sticks_out (lg : ℚ → ℚ) {l : List FVal} {M : ℚ} (hM : Largest l M) {P : Nat} (hP : P + 4 < 2 ^ 30)
    (hl : |lg M| < 2 ^ 30) {c : Nat} (hc : DigitsBefore M c) (h1 : 1 ≤ M)
    (hlg : (c : ℚ) - 1 ≤ lg M ∧ lg M < c) :
    floatWidth lg false P l = .ok (P + 2 + c : Nat) ∧ ∀ s m, fin s m ∈ l →
      (rightAligned (P + 2 + c) (showVal false P (fin s m))).length =
        if m + 1 / 10 ^ P / 2 < 10 ^ c then P + 2 + c else P + 3 + c := by
  obtain ⟨-, -, hw⟩ := C125_width lg hM hP hl
  have hc1 : (1 : ℚ) ≤ c := by exact_mod_cast hc.1
  refine ⟨?_, fun s m hx => ?_⟩
  · rw [hw (by linarith), if_pos (by linarith)]
    have : ⌊lg M⌋ = (c : Int) - 1 := Int.floor_eq_iff.2 ⟨by push_cast; linarith, by push_cast; linarith⟩
    rw [this]
    push_cast
    congr 1; ring
  · obtain ⟨s', m', e, hm, hmM⟩ := hM.1 _ hx
    cases e
    obtain ⟨k1, k2⟩ := C125_fixed_text P s hm hc.1
    rw [rightAligned_length]
    split
    · rename_i h
      have := k2.2 h
      omega
    · rename_i h
      have h3 : ¬ (showVal false P (fin s m)).length ≤ P + 2 + c := fun h' => h (k2.1 h')
      have h4 := (C125_fixed_text P s hm (c := c + 1) (by omega)).2.2 (by
        have h5 : m < 10 ^ c := lt_of_le_of_lt hmM hc.2.1
        have h6 : (1 : ℚ) / 10 ^ P ≤ 1 := by
          rw [div_le_one (by positivity)]
          exact one_le_pow₀ (by norm_num)
        have h7 : (1 : ℚ) ≤ 10 ^ c := one_le_pow₀ (by norm_num)
        rw [pow_succ]
        linarith)
      omega

/-- **C125** In scientific notation a number between 10^-99 and 10^99, or zero, has `P` + 7 characters; much larger and
smaller ones have more. -/
theorem C125_scientific_text (P : Nat) (s : Bool) {m : ℚ} (hm : 0 ≤ m) :
    (m = 0 ∨ (10 ^ (-99 : Int) ≤ m ∧ m < 10 ^ (99 : Int)) → (showVal true P (fin s m)).length = P + 7) ∧
    (10 ^ (100 : Int) ≤ m ∨ (0 < m ∧ m < 10 ^ (-100 : Int)) → P + 8 ≤ (showVal true P (fin s m)).length) := by
  rw [showVal_length]
  by_cases h0 : m = 0
  · subst h0
    refine ⟨fun _ => ?_, fun h => ?_⟩
    · have h0 : twoDigits 0 = ['0', '0'] := by
        unfold twoDigits; rw [digits_eq]; rfl
      simp [showFloat, showSci, h0]
    · exfalso
      have : (0 : ℚ) < 10 ^ (100 : Int) := by positivity
      rcases h with h | h <;> linarith [h]
  · have hp : 0 < m := lt_of_le_of_ne hm (Ne.symm h0)
    obtain ⟨p1, p2, -, -⟩ := sciParts_spec P hp
    have hlen := toDigits_length p1 p2
    have htext : (showFloat true P m).length = P + 5 + (twoDigits (sciParts P m).2.natAbs).length := by
      simp only [showFloat, if_true, showSci, h0, if_false, digits_eq, abs_of_pos hp, List.length_cons,
        List.length_append, List.length_take, List.length_drop, hlen]
      omega
    have he : (sciParts P m).2 = Int.log 10 m ∨ (sciParts P m).2 = Int.log 10 m + 1 := by
      unfold sciParts
      dsimp only
      split
      · exact Or.inr rfl
      · exact Or.inl rfl
    have l1 : ∀ k : Int, (10 : ℚ) ^ k ≤ m ↔ k ≤ Int.log 10 m := by
      intro k
      have := Int.zpow_le_iff_le_log (b := 10) (r := m) (x := k) (by norm_num) hp
      simpa using this
    have l2 : ∀ k : Int, m < (10 : ℚ) ^ k ↔ Int.log 10 m < k := by
      intro k
      rw [← not_le, l1, not_le]
    have two : ∀ n, (twoDigits n).length = max 2 (Nat.toDigits 10 n).length := by
      intro n
      unfold twoDigits
      rw [digits_eq]
      split
      · rename_i h
        have := (Nat.length_toDigits_le_iff (b := 10) (n := n) (k := 1) (by decide) (by omega)).2 (by omega)
        have := Nat.length_toDigits_pos (b := 10) (n := n)
        simp only [List.length_cons]; omega
      · rename_i h
        have : ¬ (Nat.toDigits 10 n).length ≤ 1 := by
          rw [Nat.length_toDigits_le_iff (by decide) (by omega)]; omega
        omega
    rw [htext, two]
    refine ⟨fun h => ?_, fun h => ?_⟩
    · rcases h with h | ⟨h1, h2⟩
      · exact absurd h h0
      · rw [l1] at h1; rw [l2] at h2
        have := (Nat.length_toDigits_le_iff (b := 10) (n := (sciParts P m).2.natAbs) (k := 2) (by decide)
          (by omega)).2 (by omega)
        omega
    · have : ¬ (Nat.toDigits 10 (sciParts P m).2.natAbs).length ≤ 2 := by
        rw [Nat.length_toDigits_le_iff (by decide) (by omega)]
        rcases h with h | ⟨_, h⟩
        · rw [l1] at h; omega
        · rw [l2] at h; omega
      omega

/-- **C125** The exact logarithm, and every logarithm rounded by a monotone function that does not change the numbers
up to `K`, counts enough digits. -/
theorem C125_log {rn : ℝ → ℚ} (hmono : Monotone rn) {K : Nat} (hK : ∀ k : Nat, k ≤ K → rn k = k) {x : ℚ}
    (hx : x < 10 ^ (K + 1)) (k : Nat) (h : (10 : ℚ) ^ k ≤ x) : (k : ℚ) ≤ rn (Real.logb 10 x) := by
  have hk : k ≤ K := by
    by_contra hlt
    have : (10 : ℚ) ^ (K + 1) ≤ 10 ^ k := pow_le_pow_right₀ (by norm_num) (by omega)
    linarith
  rw [← hK k hk]
  refine hmono ?_
  have hpos : (0 : ℝ) < 10 ^ k := by positivity
  have h' : (10 : ℝ) ^ k ≤ (x : ℝ) := by exact_mod_cast h
  rw [Real.le_logb_iff_rpow_le (by norm_num) (by linarith)]
  simpa using h'

/-- **C125** With such a logarithm at least the digits of an integer are counted, so tables of integers are aligned
(`C75_aligned`); with one that is also less than `k` + 1 below 10^(k+1), exactly these. -/
theorem C125_count {lg : ℚ → ℚ} {n : Nat} (h : ∀ k : Nat, (10 : ℚ) ^ k ≤ n → k ≤ lg n) :
    (digitCount n : Int) ≤ countDigitI lg n ∧
    ((∀ k : Nat, n < 10 ^ k → lg n < k) → countDigitI lg n = digitCount n) := by
  by_cases h0 : n = 0
  · subst h0
    exact ⟨by simp [countDigitI, digitCount], fun _ => by simp [countDigitI, digitCount]⟩
  have hd : 1 ≤ digitCount n := Nat.length_toDigits_pos
  have h1 : 10 ^ (digitCount n - 1) ≤ n := by
    rcases Nat.eq_or_lt_of_le hd with h | h
    · rw [← h]; simp; omega
    · by_contra hlt
      have := (Nat.length_toDigits_le_iff (b := 10) (n := n) (k := digitCount n - 1) (by decide) (by omega)).2 (by omega)
      unfold digitCount at *
      omega
  have h2 : n < 10 ^ digitCount n := (Nat.length_toDigits_le_iff (b := 10) (n := n) (k := digitCount n) (by decide) (by omega)).1 (le_refl _)
  have h3 := h (digitCount n - 1) (by exact_mod_cast h1)
  have h4 : (0 : ℚ) ≤ lg n := le_trans (by positivity) h3
  have h5 : ((digitCount n - 1 : ℕ) : Int) ≤ ⌊lg n⌋ := Int.le_floor.2 (by exact_mod_cast h3)
  have e : countDigitI lg n = ⌊lg n⌋ + 1 := by
    unfold countDigitI
    rw [if_neg (by exact_mod_cast h0)]
    simp only [Int.cast_natCast, h4, if_true]
  rw [e]
  refine ⟨by omega, fun h6 => ?_⟩
  have h7 : ⌊lg n⌋ < (digitCount n : Int) := Int.floor_lt.2 (by exact_mod_cast h6 _ h2)
  omega

theorem intercalate_length (L : Nat) : ∀ (ts : List (List Char)), (∀ t ∈ ts, t.length = L) →
    ([' ', ' '].intercalate ts).length = ts.length * (L + 2) - 2 := by
  intro ts
  induction ts with
  | nil => intro _; simp
  | cons t ts ih =>
    intro h
    have h1 := h t (by simp)
    cases ts with
    | nil => simp [h1]
    | cons u us =>
      have := ih (fun v hv => h v (by simp [hv]))
      have e : [' ', ' '].intercalate (t :: u :: us) = t ++ ([' ', ' '] ++ [' ', ' '].intercalate (u :: us)) := by
        simp [List.intercalate, List.intersperse]
      rw [e, List.length_append, List.length_append, this, h1]
      simp only [List.length_cons, List.length_nil]
      have : (us.length + 1) * (L + 2) = us.length * (L + 2) + (L + 2) := by ring
      have : (us.length + 1 + 1) * (L + 2) = us.length * (L + 2) + (L + 2) + (L + 2) := by ring
      omega

/-- **C125** A printed table of floating-point numbers in fixed notation: every row on a line, two spaces between the
fields; under the condition of `C125_aligned` every field has the same width and every line the same length. -/
theorem C125_table (lg : ℚ → ℚ) (rs : Bool) (digit : Int → Int) (name : List Char) {L : List (List FVal)} {n : Nat}
    (hL : ∀ r ∈ L, r.length = n) {a : Arr2 FVal} (ha : IsMat a (Mat.ofLists L)) {M : ℚ} (hM : Largest L.flatten M)
    {P : Nat} (hP : P + 4 < 2 ^ 30) (hl : |lg M| < 2 ^ 30) (hlg : ∀ k : Nat, 10 ^ k ≤ M → k ≤ lg M) {c : Nat}
    (hc : DigitsBefore M c) (hr : M + 1 / 10 ^ P / 2 < 10 ^ c) :
    ∃ w, print2 ⟨false, rs⟩ digit (showVal false P) (floatWidth lg false P a.data) name a =
        .ok (title name ++ column (L.map (fun r => row (fields w P r)))) ∧
      (∀ r ∈ L, ∀ t ∈ fields w P r, t.length = max w.toNat (P + 2 + c)) ∧
      SameLength (L.map (fun r => row (fields w P r))) := by
  have hd : a.data = L.flatten := by
    have hn : ∀ i (hi : i < L.length), (L.getD 0 []).length = n ∧ (L.getD i []) = L[i] := by
      intro i hi
      have h0 : 0 < L.length := by omega
      refine ⟨?_, by simp [hi]⟩
      rw [List.getD_eq_getElem?_getD, List.getElem?_eq_getElem h0]
      exact hL _ (List.getElem_mem _)
    refine Lemmas.flatten_eq_of hL ?_ (fun i j hi hj => ?_)
    · rw [ha.size]
      show L.length * (L.getD 0 []).length = _
      rcases Nat.eq_zero_or_pos L.length with h | h
      · simp [h]
      · rw [(hn 0 h).1]
    · have := ha.el i j hi (by show j < (L.getD 0 []).length; rw [(hn i hi).1]; exact hj)
      rw [show (Mat.ofLists L).n = n from (hn i hi).1] at this
      rw [this]
      show some ((L.getD i []).getD j default) = _
      rw [(hn i hi).2, List.getD_eq_getElem?_getD, List.getElem?_eq_getElem (by rw [hL _ (List.getElem_mem _)]; exact hj)]
      rfl
  obtain ⟨w, hw, -, hf⟩ := C125_aligned lg hM hP hl hlg hc hr
  have hf' : ∀ r ∈ L, ∀ t ∈ fields w P r, t.length = max w.toNat (P + 2 + c) := by
    intro r hr' t ht
    refine hf t ?_
    obtain ⟨x, hx, rfl⟩ := List.mem_map.1 ht
    exact List.mem_map.2 ⟨x, List.mem_flatten.2 ⟨r, hr', hx⟩, rfl⟩
  refine ⟨w, ?_, hf', ?_⟩
  · rw [hd, hw]
    exact C75_table rs digit (showVal false P) w name hL ha
  · intro t ht u hu
    obtain ⟨r, hr1, rfl⟩ := List.mem_map.1 ht
    obtain ⟨q, hq1, rfl⟩ := List.mem_map.1 hu
    unfold row
    rw [intercalate_length _ _ (hf' r hr1), intercalate_length _ _ (hf' q hq1)]
    simp [fields, hL r hr1, hL q hq1]

/-- **C125** A printed table of booleans: every field is `  true` or ` false`, and every line has the same length. -/
theorem C125_booleans (rs : Bool) (digit : Int → Int) (name : List Char) {L : List (List Bool)} {n : Nat}
    (hL : ∀ r ∈ L, r.length = n) {a : Arr2 Bool} (ha : IsMat a (Mat.ofLists L)) :
    print2 ⟨false, rs⟩ digit showBool boolWidth name a =
        .ok (title name ++ column (L.map (fun r => row (r.map fun x => if x then "  true".toList else " false".toList)))) ∧
      SameLength (L.map (fun r => row (r.map fun x => if x then "  true".toList else " false".toList))) := by
  have hf : (fun x => rightAligned (6 : Int).toNat (showBool x)) =
      fun x => if x then "  true".toList else " false".toList := by
    funext x
    cases x <;> decide
  refine ⟨?_, ?_⟩
  · unfold boolWidth
    rw [C75_table rs digit showBool 6 name hL ha, hf]
  · intro t ht u hu
    obtain ⟨r, hr1, rfl⟩ := List.mem_map.1 ht
    obtain ⟨q, hq1, rfl⟩ := List.mem_map.1 hu
    have h6 : ∀ r : List Bool, ∀ t ∈ r.map (fun x => if x then "  true".toList else " false".toList), t.length = 6 := by
      intro r t ht
      obtain ⟨x, -, rfl⟩ := List.mem_map.1 ht
      cases x <;> decide
    unfold row
    rw [intercalate_length _ _ (h6 r), intercalate_length _ _ (h6 q)]
    simp [hL r hr1, hL q hq1]

/-! ## Examples -/

section

/-- A logarithm that counts digits exactly. -/
def floorLog (x : ℚ) : ℚ := Int.log 10 x

theorem floorLog_ok {x : ℚ} (k : Nat) (h : (10 : ℚ) ^ k ≤ x) : (k : ℚ) ≤ floorLog x := by
  have hx : 0 < x := lt_of_lt_of_le (by positivity) h
  have h' : ((10 : ℕ) : ℚ) ^ ((k : ℕ) : Int) ≤ x := by simpa using h
  have := (Int.zpow_le_iff_le_log (b := 10) (r := x) (x := k) (by norm_num) hx).1 h'
  unfold floorLog
  exact_mod_cast this

/-- The largest of -12.5, 3 and 0.04 is 12.5, with two digits before the point; with two digits after it every field has
six characters. -/
example : Largest [fin true (25 / 2), fin false 3, fin false (1 / 25)] (25 / 2) ∧ DigitsBefore (25 / 2) 2 ∧
    ((25 : ℚ) / 2 + 1 / 10 ^ 2 / 2 < 10 ^ 2) ∧
    ∃ w, floatWidth floorLog false (2 : Nat) [fin true (25 / 2), fin false 3, fin false (1 / 25)] = .ok w ∧
      SameLength (fields w 2 [fin true (25 / 2), fin false 3, fin false (1 / 25)]) := by
  have h1 : Largest [fin true (25 / 2), fin false 3, fin false (1 / 25)] (25 / 2) := by
    refine ⟨?_, Or.inr ⟨true, by simp⟩⟩
    intro x hx
    simp only [List.mem_cons, List.not_mem_nil, or_false] at hx
    rcases hx with rfl | rfl | rfl
    · exact ⟨_, _, rfl, by norm_num, by norm_num⟩
    · exact ⟨_, _, rfl, by norm_num, by norm_num⟩
    · exact ⟨_, _, rfl, by norm_num, by norm_num⟩
  have h2 : DigitsBefore (25 / 2) 2 := ⟨by omega, by norm_num, Or.inr (by norm_num)⟩
  have h3 : ((25 : ℚ) / 2 + 1 / 10 ^ 2 / 2 < 10 ^ 2) := by norm_num
  refine ⟨h1, h2, h3, ?_⟩
  have hlog : Int.log 10 (25 / 2 : ℚ) = 1 := by
    have a := (Int.zpow_le_iff_le_log (b := 10) (r := (25 / 2 : ℚ)) (x := 1) (by norm_num) (by norm_num)).1 (by norm_num)
    have b := (Int.lt_zpow_iff_log_lt (b := 10) (r := (25 / 2 : ℚ)) (x := 2) (by norm_num) (by norm_num)).1 (by norm_num)
    omega
  obtain ⟨w, h4, h5, -⟩ := C125_aligned floorLog h1 (P := 2) (by omega) (by rw [floorLog, hlog]; norm_num)
    (fun k h => floorLog_ok k h) h2 h3
  exact ⟨w, h4, h5⟩

/-- 9.996 and 1 with two digits after the point: the first is printed as +10.00, and its field is longer than the
other. -/
example : floatWidth floorLog false (2 : Nat) [fin false (2499 / 250), fin false 1] = .ok 5 ∧
    (rightAligned 5 (showVal false 2 (fin false (2499 / 250)))).length = 6 ∧
    (rightAligned 5 (showVal false 2 (fin false 1))).length = 5 := by
  have h1 : Largest [fin false (2499 / 250), fin false 1] (2499 / 250) := by
    refine ⟨?_, Or.inr ⟨false, by simp⟩⟩
    intro x hx
    simp only [List.mem_cons, List.not_mem_nil, or_false] at hx
    rcases hx with rfl | rfl
    · exact ⟨_, _, rfl, by norm_num, by norm_num⟩
    · exact ⟨_, _, rfl, by norm_num, by norm_num⟩
  have hlog : Int.log 10 (2499 / 250 : ℚ) = 0 := by
    have a := (Int.zpow_le_iff_le_log (b := 10) (r := (2499 / 250 : ℚ)) (x := 0) (by norm_num) (by norm_num)).1 (by norm_num)
    have b := (Int.lt_zpow_iff_log_lt (b := 10) (r := (2499 / 250 : ℚ)) (x := 1) (by norm_num) (by norm_num)).1 (by norm_num)
    omega
  obtain ⟨h2, h3⟩ := C125_sticks_out floorLog h1 (P := 2) (by omega) (by rw [floorLog, hlog]; norm_num) (c := 1)
    ⟨by omega, by norm_num, Or.inl rfl⟩ (by norm_num) (by rw [floorLog, hlog]; norm_num)
  refine ⟨h2, ?_, ?_⟩
  · have := h3 false (2499 / 250) (by simp)
    rwa [if_neg (by norm_num)] at this
  · have := h3 false 1 (by simp)
    rwa [if_pos (by norm_num)] at this

/-- A table of booleans. -/
example : print2 ⟨false, false⟩ (fun n => n) showBool boolWidth "B".toList ⟨1, 2, [true, false]⟩ =
    .ok "B:\n  true   false\n".toList := by
  rw [(C125_booleans false (fun n => n) "B".toList (L := [[true, false]]) (n := 2) (by decide)
    (a := ⟨1, 2, [true, false]⟩) ?_).1]
  · decide
  · refine ⟨rfl, rfl, rfl, by decide, ?_⟩
    intro i j hi hj
    have hi' : i < 1 := hi
    have hj' : j < 2 := hj
    interval_cases i
    interval_cases j <;> rfl

/-- A table with an infinity. -/
example (lg : ℚ → ℚ) : print2 ⟨false, false⟩ (fun n => n) (showVal false 6) (floatWidth lg false 6
    [fin false 1, inf true]) [] ⟨1, 2, [fin false 1, inf true]⟩ = .ub :=
  C125_undefined lg 6 _ _ _ _ (a := ⟨1, 2, [fin false 1, inf true]⟩) rfl (Or.inr ⟨true, by simp⟩)

/-- One and 10^100 in scientific notation. -/
example : (showVal true 5 (fin false 1)).length = 12 ∧ 13 ≤ (showVal true 5 (fin false (10 ^ (100 : Int)))).length :=
  ⟨(C125_scientific_text 5 false (m := 1) (by norm_num)).1 (Or.inr ⟨by norm_num, by norm_num⟩),
   (C125_scientific_text 5 false (m := 10 ^ (100 : Int)) (by positivity)).2 (Or.inl (le_refl _))⟩

/-- The floor of the logarithm as such a function. -/
example : (3 : ℚ) ≤ (⌊Real.logb 10 ((1234 : ℚ) : ℝ)⌋ : ℚ) :=
  C125_log (rn := fun x => (⌊x⌋ : ℚ)) (fun x y h => by
      show (⌊x⌋ : ℚ) ≤ ⌊y⌋
      exact_mod_cast Int.floor_le_floor h) (K := 10)
    (fun k _ => by simp) (x := 1234) (by norm_num) 3 (by norm_num)

example : countDigitI floorLog 1234 = digitCount 1234 := by
  refine (C125_count (lg := floorLog) (n := 1234) (fun k h => floorLog_ok k h)).2 (fun k h => ?_)
  have := (Int.lt_zpow_iff_log_lt (b := 10) (r := ((1234 : ℕ) : ℚ)) (x := k) (by norm_num) (by norm_num)).1
    (by simpa using (by exact_mod_cast h : ((1234 : ℕ) : ℚ) < 10 ^ k))
  unfold floorLog
  exact_mod_cast this

end

end Spp.Props
