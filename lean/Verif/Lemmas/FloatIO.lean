import Verif.Model.FloatIO
import Verif.Spec.FloatIO
import Verif.Lemmas.Print
import Verif.Lemmas.Float
import Mathlib.Tactic.NormNum

namespace Spp.IO

open Spp.Spec Spp.Lemmas

/-! ### Rounding to integers -/

theorem roundEven_near {x : ℚ} (hx : 0 ≤ x) : |x - roundEven x| ≤ 1 / 2 := by
  have hf0 : (0 : ℤ) ≤ ⌊x⌋ := Int.floor_nonneg.mpr hx
  have hcast : ((⌊x⌋.toNat : ℕ) : ℚ) = ((⌊x⌋ : ℤ) : ℚ) := by
    have : ((⌊x⌋.toNat : ℕ) : ℤ) = ⌊x⌋ := Int.toNat_of_nonneg hf0
    rw [← Int.cast_natCast, this]
  have h1 := Int.floor_le x
  have h2 := Int.lt_floor_add_one x
  rw [← hcast] at h1 h2
  unfold roundEven
  simp only
  split
  · rename_i h; rw [abs_le]; constructor <;> linarith
  · rename_i h
    have h : 1 / 2 ≤ x - (⌊x⌋.toNat : ℕ) := not_lt.mp h
    split
    · rw [abs_le]; push_cast; constructor <;> linarith
    · rename_i h'
      have h' := not_lt.mp h'
      split
      · rw [abs_le]; constructor <;> linarith
      · rw [abs_le]; push_cast; constructor <;> linarith

/-- The result is a nearest integer, and of two nearest ones it is the even one. -/
theorem roundEven_nearest {x : ℚ} (hx : 0 ≤ x) (j : Int) : |x - roundEven x| ≤ |x - j| ∧
    (|x - roundEven x| = |x - j| → j ≠ roundEven x → Even (roundEven x)) := by
  have hf0 : (0 : ℤ) ≤ ⌊x⌋ := Int.floor_nonneg.mpr hx
  have hcast : ((⌊x⌋.toNat : ℕ) : ℚ) = ((⌊x⌋ : ℤ) : ℚ) := by
    have : ((⌊x⌋.toNat : ℕ) : ℤ) = ⌊x⌋ := Int.toNat_of_nonneg hf0
    rw [← Int.cast_natCast, this]
  have h1 := Int.floor_le x
  have h2 := Int.lt_floor_add_one x
  rw [← hcast] at h1 h2
  have hj : (j : ℚ) ≤ (⌊x⌋.toNat : ℕ) ∨ ((⌊x⌋.toNat : ℕ) : ℚ) + 1 ≤ j := by
    rcases le_or_gt j ((⌊x⌋.toNat : ℕ) : Int) with h | h
    · left; exact_mod_cast h
    · right; exact_mod_cast h
  have ha : x - (⌊x⌋.toNat : ℕ) ≤ |x - j| ∨ (⌊x⌋.toNat : ℕ) + 1 - x ≤ |x - j| := by
    rcases hj with h | h
    · left; exact le_trans (by linarith) (le_abs_self _)
    · right; exact le_trans (by linarith) (neg_le_abs _)
  unfold roundEven
  simp only
  split
  · rename_i h
    rw [abs_of_nonneg (by linarith)]
    refine ⟨by rcases ha with h' | h' <;> linarith, fun he hne => ?_⟩
    exfalso
    rcases hj with h' | h'
    · have h'' : j < ((⌊x⌋.toNat : ℕ) : Int) := lt_of_le_of_ne (by exact_mod_cast h') hne
      have h3 : (j : ℚ) + 1 ≤ (⌊x⌋.toNat : ℕ) := by exact_mod_cast h''
      rw [abs_of_nonneg (by linarith)] at he
      linarith
    · rw [abs_of_nonpos (by linarith)] at he
      linarith
  · rename_i h
    have h : 1 / 2 ≤ x - (⌊x⌋.toNat : ℕ) := not_lt.mp h
    split
    · push_cast
      rw [abs_of_nonpos (by linarith)]
      refine ⟨by rcases ha with h' | h' <;> linarith, fun he hne => ?_⟩
      exfalso
      rcases hj with h' | h'
      · rw [abs_of_nonneg (by linarith)] at he
        linarith
      · have h'' : ((⌊x⌋.toNat + 1 : ℕ) : Int) < j := lt_of_le_of_ne (by exact_mod_cast h') (Ne.symm hne)
        have h3 : ((⌊x⌋.toNat : ℕ) : ℚ) + 1 + 1 ≤ j := by exact_mod_cast h''
        rw [abs_of_nonpos (by linarith)] at he
        linarith
    · rename_i h'
      have h' := not_lt.mp h'
      split
      · rename_i hev
        rw [abs_of_nonneg (by linarith)]
        exact ⟨by rcases ha with h' | h' <;> linarith, fun _ _ => Nat.even_iff.2 hev⟩
      · rename_i hev
        push_cast
        rw [abs_of_nonpos (by linarith)]
        exact ⟨by rcases ha with h' | h' <;> linarith, fun _ _ => by rw [Nat.even_iff]; omega⟩

theorem ten_pos (e : Int) : (0 : ℚ) < 10 ^ e := zpow_pos (by norm_num) e

/-- Digits and exponent in scientific notation. -/
theorem sciParts_spec (P : Nat) {x : ℚ} (hx : 0 < x) :
    10 ^ P ≤ (sciParts P x).1 ∧ (sciParts P x).1 < 10 ^ (P + 1) ∧
    |x - (sciParts P x).1 * 10 ^ ((sciParts P x).2 - P)| ≤ x / 10 ^ P / 2 ∧
    ((sciParts P x).1 : ℚ) * 10 ^ ((sciParts P x).2 - P) =
      roundEven (x * 10 ^ ((P : Int) - Int.log 10 x)) * 10 ^ (Int.log 10 x - P) := by
  set e := Int.log 10 x with he
  have h1 : (10 : ℚ) ^ e ≤ x := by
    have := Int.zpow_log_le_self (b := 10) (r := x) (by norm_num) hx
    simpa using this
  have h2 : x < (10 : ℚ) ^ (e + 1) := by
    have := Int.lt_zpow_succ_log_self (b := 10) (by norm_num) x
    simpa using this
  set y := x * 10 ^ ((P : Int) - e) with hy
  have hyx : y * 10 ^ (e - P) = x := by
    rw [hy, mul_assoc, ← zpow_add₀ (by norm_num)]
    simp
  have hpos := ten_pos ((P : Int) - e)
  have hy1 : (10 : ℚ) ^ P ≤ y := by
    have : (10 : ℚ) ^ e * 10 ^ ((P : Int) - e) = 10 ^ P := by
      rw [← zpow_add₀ (by norm_num), ← zpow_natCast]
      congr 1; omega
    rw [← this]
    exact mul_le_mul_of_nonneg_right h1 hpos.le
  have hy2 : y < (10 : ℚ) ^ (P + 1) := by
    have : (10 : ℚ) ^ (e + 1) * 10 ^ ((P : Int) - e) = 10 ^ (P + 1) := by
      rw [← zpow_add₀ (by norm_num), ← zpow_natCast]
      congr 1; push_cast; omega
    rw [← this]
    exact mul_lt_mul_of_pos_right h2 hpos
  have hn := roundEven_near (x := y) (le_trans (by positivity) hy1)
  rw [abs_le] at hn
  have hn1 : 10 ^ P ≤ roundEven y := by
    by_contra h
    have h : roundEven y + 1 ≤ 10 ^ P := by omega
    have : ((roundEven y : ℚ)) + 1 ≤ 10 ^ P := by exact_mod_cast h
    linarith [hn.2]
  have hn2 : roundEven y ≤ 10 ^ (P + 1) := by
    by_contra h
    have h : 10 ^ (P + 1) + 1 ≤ roundEven y := by omega
    have : (10 : ℚ) ^ (P + 1) + 1 ≤ roundEven y := by exact_mod_cast h
    linarith [hn.1]
  have herr : |x - roundEven y * 10 ^ (e - (P : Int))| ≤ x / 10 ^ P / 2 := by
    have e1 : x - roundEven y * 10 ^ (e - (P : Int)) = (y - roundEven y) * 10 ^ (e - (P : Int)) := by
      rw [sub_mul, hyx]
    rw [e1, abs_mul, abs_of_pos (ten_pos (e - P))]
    have h3 : |y - roundEven y| * 10 ^ (e - (P : Int)) ≤ 1 / 2 * 10 ^ (e - (P : Int)) :=
      mul_le_mul_of_nonneg_right (abs_le.mpr hn) (ten_pos _).le
    have h4 : (10 : ℚ) ^ (e - (P : Int)) ≤ x / 10 ^ P := by
      rw [zpow_sub₀ (by norm_num), zpow_natCast]
      exact div_le_div_of_nonneg_right h1 (by positivity)
    linarith
  unfold sciParts
  simp only [← he, ← hy]
  split
  · rename_i hc
    have hm : ((10 ^ P : ℕ) : ℚ) * 10 ^ (e + 1 - (P : Int)) = roundEven y * 10 ^ (e - (P : Int)) := by
      rw [hc]
      push_cast
      rw [show e + 1 - (P : Int) = 1 + (e - P) by ring, zpow_add₀ (by norm_num), pow_succ]
      ring
    refine ⟨le_refl _, ?_, ?_, hm⟩
    · exact Nat.pow_lt_pow_right (by norm_num) (by omega)
    · rw [hm]
      exact herr
  · rename_i hc
    exact ⟨hn1, lt_of_le_of_ne hn2 hc, herr, rfl⟩

/-! ### The texts -/

theorem toDigits_length {n P : Nat} (h1 : 10 ^ P ≤ n) (h2 : n < 10 ^ (P + 1)) :
    (Nat.toDigits 10 n).length = P + 1 := by
  have a := (Nat.length_toDigits_le_iff (b := 10) (n := n) (k := P + 1) (by decide) (by omega)).mpr h2
  rcases Nat.eq_zero_or_pos P with rfl | hP
  · have := Nat.length_toDigits_pos (b := 10) (n := n)
    omega
  · by_contra hne
    have := (Nat.length_toDigits_le_iff (b := 10) (n := n) (k := P) (by decide) hP).mp (by omega)
    omega

theorem twoDigits_facts (n : Nat) : (∀ c ∈ twoDigits n, c.isDigit = true) ∧ 2 ≤ (twoDigits n).length ∧
    digitsValue (twoDigits n) = n := by
  obtain ⟨h1, h2, h3⟩ := toDigits_facts n
  unfold twoDigits
  rw [digits_eq]
  split
  · refine ⟨?_, ?_, ?_⟩
    · intro c hc
      rcases List.mem_cons.mp hc with rfl | hc
      · decide
      · exact h2 c hc
    · have := List.length_pos_iff.mpr h1; simp only [List.length_cons]; omega
    · rw [← decimal_eq] at h3 ⊢
      simpa [decimal] using h3
  · rename_i h
    refine ⟨h2, ?_, h3⟩
    by_contra hlt
    have := (Nat.length_toDigits_le_iff (b := 10) (n := n) (k := 1) (by decide) (by omega)).mp (by omega)
    omega

theorem decimal_zeros (k : Nat) : decimal (List.replicate k '0') = 0 := by
  unfold decimal
  induction k with
  | zero => rfl
  | succ k ih => rw [List.replicate_succ, List.foldl_cons]; exact ih

/-- The text in scientific notation and its value. -/
theorem showSci_full (P : Nat) (x : ℚ) :
    ∃ D, Scientific P (showSci P x) D ∧ |x - D| ≤ |x| / 10 ^ P / 2 ∧
      (x ≠ 0 → D = signed (decide (x < 0))
        (roundEven (|x| * 10 ^ ((P : Int) - Int.log 10 |x|)) * 10 ^ (Int.log 10 |x| - P))) := by
  unfold showSci
  by_cases hx : x = 0
  · subst hx
    refine ⟨0, ⟨false, false, '0', List.replicate P '0', ['0', '0'], ?_, by decide, by simp, by simp, ?_, ?_⟩, by simp, fun h => absurd rfl h⟩
    · intro c hc
      rw [← List.replicate_succ] at hc
      rw [(List.mem_replicate.mp hc).2]; decide
    · have h0 : twoDigits 0 = ['0', '0'] := by
        unfold twoDigits; rw [digits_eq]; rfl
      simp [List.replicate_succ, signChar, h0]
    · have : digitsValue ('0' :: List.replicate P '0') = 0 := by
        rw [← List.replicate_succ, ← decimal_eq, decimal_zeros]
      rw [this]; simp [signed]
  · have hpos : 0 < |x| := abs_pos.mpr hx
    obtain ⟨h1, h2, h3, h4⟩ := sciParts_spec P hpos
    set n := (sciParts P |x|).1 with hn
    set e := (sciParts P |x|).2 with he
    obtain ⟨d1, d2, d3⟩ := toDigits_facts n
    have hlen := toDigits_length h1 h2
    obtain ⟨d, ds, hds⟩ : ∃ d ds, Nat.toDigits 10 n = d :: ds := by
      cases h : Nat.toDigits 10 n with
      | nil => exact absurd h d1
      | cons d ds => exact ⟨d, ds, rfl⟩
    obtain ⟨t1, t2, t3⟩ := twoDigits_facts e.natAbs
    refine ⟨signed (decide (x < 0)) (n * 10 ^ (e - (P : Int))), ⟨decide (x < 0), decide (e < 0), d, ds,
      twoDigits e.natAbs, by rw [← hds]; exact d2, t1, ?_, t2, ?_, ?_⟩, ?_, fun _ => by rw [h4]⟩
    · rw [hds] at hlen; simpa using hlen
    · simp only [hx, if_false, digits_eq, hds, signChar, decide_eq_true_eq]
      rfl
    · rw [← hds, d3, t3]
      congr 3
      by_cases hneg : e < 0
      · simp [hneg]; rw [abs_of_neg hneg]; ring
      · simp [hneg]; rw [abs_of_nonneg (not_lt.mp hneg)]
    · by_cases hneg : x < 0
      · simp only [hneg, decide_true, signed, if_true]
        rw [abs_of_neg hneg] at h3 ⊢
        rw [abs_le] at h3 ⊢
        constructor <;> linarith
      · simp only [hneg, decide_false, signed]
        rw [abs_of_nonneg (not_lt.mp hneg)] at h3 ⊢
        exact h3

theorem showSci_spec (P : Nat) (x : ℚ) :
    ∃ D, Scientific P (showSci P x) D ∧ |x - D| ≤ |x| / 10 ^ P / 2 := by
  obtain ⟨D, h1, h2, -⟩ := showSci_full P x
  exact ⟨D, h1, h2⟩

theorem decimal_append (a c : List Char) : decimal (a ++ c) = decimal a * 10 ^ c.length + decimal c := by
  have key : ∀ (l : List Char) (acc : Nat),
      l.foldl (fun n c => 10 * n + (c.toNat - 48)) acc = acc * 10 ^ l.length + decimal l := by
    intro l
    induction l with
    | nil => intro acc; simp [decimal]
    | cons c l ih =>
      intro acc
      simp only [decimal, List.foldl_cons] at ih ⊢
      rw [ih, ih (10 * 0 + (c.toNat - 48))]
      simp only [List.length_cons, pow_succ]
      ring
  rw [decimal, List.foldl_append, key]
  rfl

/-- The text in fixed notation and its value. -/
theorem showFixed_full (P : Nat) (x : ℚ) :
    ∃ D, Fixed P (showFixed P x) D ∧ |x - D| ≤ 1 / 10 ^ P / 2 ∧
      D = signed (decide (x < 0)) (roundEven (|x| * 10 ^ P) / 10 ^ P) := by
  unfold showFixed
  set n := roundEven (|x| * 10 ^ P) with hn
  have hT : (0 : ℚ) < 10 ^ P := by positivity
  have hr := roundEven_near (x := |x| * 10 ^ P) (by positivity)
  rw [← hn] at hr
  obtain ⟨i1, i2, i3⟩ := toDigits_facts (n / 10 ^ P)
  obtain ⟨f1, f2, f3⟩ := toDigits_facts (n % 10 ^ P)
  have hmod : n % 10 ^ P < 10 ^ P := Nat.mod_lt _ (by positivity)
  set ds := (if P = 0 then [] else
    List.replicate (P - (Nat.toDigits 10 (n % 10 ^ P)).length) '0' ++ Nat.toDigits 10 (n % 10 ^ P)) with hds
  have hlen : ds.length = P := by
    rw [hds]
    split
    · rename_i h; rw [h]; rfl
    · rename_i h
      have := (Nat.length_toDigits_le_iff (b := 10) (n := n % 10 ^ P) (k := P) (by decide) (by omega)).mpr hmod
      simp only [List.length_append, List.length_replicate]; omega
  have hdig : ∀ c ∈ ds, c.isDigit = true := by
    intro c hc
    rw [hds] at hc
    split at hc
    · cases hc
    · rcases List.mem_append.mp hc with hc | hc
      · rw [(List.mem_replicate.mp hc).2]; decide
      · exact f2 c hc
  have hval : decimal ds = n % 10 ^ P := by
    rw [hds]
    split
    · rename_i h; rw [h]; simp [decimal, Nat.mod_one]
    · rw [decimal_append, decimal_zeros, decimal_eq, f3]; simp
  refine ⟨signed (decide (x < 0)) (n / 10 ^ P), ⟨decide (x < 0), _, ds, i2, hdig, i1, hlen, ?_, ?_⟩, ?_, rfl⟩
  · simp only [digits_eq, hds, signChar, decide_eq_true_eq]
  · rw [← decimal_eq, decimal_append, decimal_eq, i3, hval, hlen, Nat.div_add_mod' n (10 ^ P)]
  · have h3 : |(|x| - n / 10 ^ P)| ≤ 1 / 10 ^ P / 2 := by
      have e1 : |x| - (n : ℚ) / 10 ^ P = (|x| * 10 ^ P - n) / 10 ^ P := by field_simp
      rw [e1, abs_div, abs_of_pos hT, div_right_comm]
      exact div_le_div_of_nonneg_right hr hT.le
    by_cases hneg : x < 0
    · simp only [hneg, decide_true, signed, if_true]
      rw [abs_of_neg hneg] at h3
      rw [abs_le] at h3 ⊢
      constructor <;> linarith
    · simp only [hneg, decide_false, signed]
      rw [abs_of_nonneg (not_lt.mp hneg)] at h3
      exact h3

theorem showFixed_spec (P : Nat) (x : ℚ) :
    ∃ D, Fixed P (showFixed P x) D ∧ |x - D| ≤ 1 / 10 ^ P / 2 := by
  obtain ⟨D, h1, h2, -⟩ := showFixed_full P x
  exact ⟨D, h1, h2⟩

/-! ### Reading decimal texts -/

/-- The text ends or goes on with a space. -/
def Ends (t : List Char) : Prop := ∀ c, t.head? = some c → isSpace c = true

theorem Ends.noDigit {t : List Char} (h : Ends t) : NoDigit t := by
  intro c hc
  have := h c hc
  cases hd : c.isDigit with
  | false => rfl
  | true => rw [(digit_no_sign hd).2.2] at this; cases this

/-- The scanner reads the word `w` as `v`. -/
def Reads {α : Type} (num : Scanner α) (w : List Char) (v : α) : Prop :=
  ∀ rest, Ends rest → num (w ++ rest) = ⟨v, true, rest, rest.isEmpty⟩

theorem noDigit_cons {c : Char} (h : c.isDigit = false) (t : List Char) : NoDigit (c :: t) := by
  intro d hd
  simp only [List.head?_cons, Option.some.injEq] at hd
  subst hd; exact h

theorem reads_scientific {rn : ℚ → ℚ} {P : Nat} {w : List Char} {D : ℚ} (h : Scientific P w D) :
    Reads (scanFloat rn) w (rn D) := by
  obtain ⟨neg, eneg, d, ds, es, h1, h2, h3, h4, rfl, rfl⟩ := h
  intro rest hr
  have hd := digit_no_sign (h1 d (by simp))
  obtain ⟨a1, a2⟩ := takeWhile_digits (ds := [d]) (rest := '.' :: (ds ++ 'e' :: signChar eneg :: (es ++ rest)))
    (by intro c hc; rw [List.mem_singleton.mp hc]; exact h1 d (by simp)) (noDigit_cons (by decide) _)
  obtain ⟨b1, b2⟩ := takeWhile_digits (ds := ds) (rest := 'e' :: signChar eneg :: (es ++ rest))
    (by intro c hc; exact h1 c (by simp [hc])) (noDigit_cons (by decide) _)
  obtain ⟨c1, c2⟩ := takeWhile_digits (ds := es) (rest := rest) h2 hr.noDigit
  have hes : es.isEmpty = false := by
    cases es with
    | nil => simp at h4
    | cons => rfl
  rw [List.singleton_append] at a1 a2
  have hexp : scanExponent (signChar eneg :: (es ++ rest)) =
      (some (if eneg then -(digitsValue es : Int) else digitsValue es), rest) := by
    unfold scanExponent
    cases eneg
    · have e1 : ((some (signChar false) : Option Char) == some '-') = false ∧
        ((some (signChar false) : Option Char) == some '+') = true := by decide
      simp only [List.head?_cons, e1.1, e1.2, Bool.or_true, if_true, List.tail_cons, c1, c2, hes,
        Bool.false_eq_true, if_false, decimal_eq]
    · have e1 : ((some (signChar true) : Option Char) == some '-') = true := by decide
      simp only [List.head?_cons, e1, Bool.true_or, if_true, List.tail_cons, c1, c2, hes,
        Bool.false_eq_true, if_false, decimal_eq]
  have hun : scanUnsigned rn neg (d :: '.' :: (ds ++ 'e' :: signChar eneg :: (es ++ rest))) =
      ⟨rn (signed neg (digitsValue (d :: ds) * 10 ^ ((if eneg then -(digitsValue es : Int) else digitsValue es) - P))),
        true, rest, rest.isEmpty⟩ := by
    unfold scanUnsigned
    simp only [a1, a2, List.head?_cons, beq_self_eq_true, if_true, List.tail_cons, b1, b2, List.isEmpty_cons,
      Bool.false_and, Bool.false_eq_true, if_false, Bool.true_or, hexp, floatValue, decimal_eq, h3,
      List.singleton_append, signed]
  have htext : (signChar neg :: d :: '.' :: (ds ++ 'e' :: signChar eneg :: es)) ++ rest =
      signChar neg :: (d :: '.' :: (ds ++ 'e' :: signChar eneg :: (es ++ rest))) := by simp
  rw [htext, ← hun]
  cases neg <;> rfl

theorem reads_fixed {rn : ℚ → ℚ} {P : Nat} {w : List Char} {D : ℚ} (h : Fixed P w D) :
    Reads (scanFloat rn) w (rn D) := by
  obtain ⟨neg, is, ds, h1, h2, h3, h4, rfl, rfl⟩ := h
  intro rest hr
  obtain ⟨a1, a2⟩ := takeWhile_digits (ds := is) (rest := '.' :: (ds ++ rest)) h1 (noDigit_cons (by decide) _)
  obtain ⟨b1, b2⟩ := takeWhile_digits (ds := ds) (rest := rest) h2 hr.noDigit
  have his : is.isEmpty = false := by
    cases is with
    | nil => exact absurd rfl h3
    | cons => rfl
  have htext : (signChar neg :: (is ++ '.' :: ds)) ++ rest = signChar neg :: (is ++ '.' :: (ds ++ rest)) := by simp
  have hE : (rest.head? == some 'e') = false ∧ (rest.head? == some 'E') = false := by
    constructor
    all_goals
      rw [beq_eq_false_iff_ne]
      intro hh
      have := hr _ hh
      simp [isSpace] at this
  have hun : scanUnsigned rn neg (is ++ '.' :: (ds ++ rest)) =
      ⟨rn (signed neg (digitsValue (is ++ ds) / 10 ^ P)), true, rest, rest.isEmpty⟩ := by
    unfold scanUnsigned
    simp only [a1, a2, List.head?_cons, beq_self_eq_true, if_true, List.tail_cons, b1, b2, his,
      Bool.false_and, Bool.false_eq_true, if_false, hE.1, hE.2, Bool.or_self, floatValue, decimal_eq, h4, signed]
    rw [zero_sub, zpow_neg, zpow_natCast, ← div_eq_mul_inv]
  rw [htext, ← hun]
  cases neg <;> rfl

/-- No spaces in these texts. -/
theorem sign_word (neg : Bool) : isSpace (signChar neg) = false := by cases neg <;> decide

theorem scientific_word {P : Nat} {w : List Char} {D : ℚ} (h : Scientific P w D) :
    w ≠ [] ∧ ∀ c ∈ w, isSpace c = false := by
  obtain ⟨neg, eneg, d, ds, es, h1, h2, h3, h4, rfl, rfl⟩ := h
  refine ⟨by simp, ?_⟩
  intro c hc
  simp only [List.mem_cons, List.mem_append] at hc
  rcases hc with rfl | rfl | rfl | hc | rfl | rfl | hc
  · exact sign_word _
  · exact (digit_no_sign (h1 _ (by simp))).2.2
  · decide
  · exact (digit_no_sign (h1 _ (by simp [hc]))).2.2
  · decide
  · exact sign_word _
  · exact (digit_no_sign (h2 _ hc)).2.2

theorem fixed_word {P : Nat} {w : List Char} {D : ℚ} (h : Fixed P w D) :
    w ≠ [] ∧ ∀ c ∈ w, isSpace c = false := by
  obtain ⟨neg, is, ds, h1, h2, h3, h4, rfl, rfl⟩ := h
  refine ⟨by simp, ?_⟩
  intro c hc
  simp only [List.mem_cons, List.mem_append] at hc
  rcases hc with rfl | hc | rfl | hc
  · exact sign_word _
  · exact (digit_no_sign (h1 _ hc)).2.2
  · decide
  · exact (digit_no_sign (h2 _ hc)).2.2

/-! ### Texts of words, for any scanner -/

variable {α : Type}

theorem numbers_reads_last {num : Scanner α} {w : List Char} {v : α} (hw : Reads num w v) (hne : w ≠ [])
    (hs : ∀ c ∈ w, isSpace c = false) {s : List Char} (hb : Blank s) (he : Blank s → Ends s) :
    Numbers num (w ++ s) [v] true [] := by
  obtain ⟨c, u, rfl⟩ : ∃ c u, w = c :: u := by
    cases w with
    | nil => exact absurd rfl hne
    | cons c u => exact ⟨c, u, rfl⟩
  have e := hw s (he hb)
  rw [List.cons_append] at e ⊢
  have hc := hs c (by simp)
  cases s with
  | nil =>
    have := Numbers.last (num := num) (s := []) (c := c) (t := u ++ []) (by simp) hc (by rw [e]) (by rw [e]; rfl)
    rw [e] at this
    exact this
  | cons d s =>
    have := Numbers.more (num := num) (s := []) (c := c) (t := u ++ d :: s) (vs := []) (clean := true) (left := [])
      (by simp) hc (by rw [e]) (by rw [e]; rfl) (by rw [e]; exact .nothing hb)
    rw [e] at this
    exact this

theorem blank_ends {s : List Char} (h : Blank s) : Ends s := by
  intro c hc
  cases s with
  | nil => cases hc
  | cons d s =>
    simp only [List.head?_cons, Option.some.injEq] at hc
    subst hc; exact h _ (by simp)

/-- Words the scanner can read. -/
theorem numbers_reads {num : Scanner α} {t : List Char} {ws : List (List Char)} {vs : List α}
    (hw : Words t ws) (hv : List.Forall₂ (Reads num) ws vs) : Numbers num t vs true [] := by
  induction hw generalizing vs with
  | none hs => cases hv; exact .nothing hs
  | @one s w s' hs hne hsp hs' =>
    cases hv with
    | cons h1 h2 =>
      cases h2
      rw [List.append_assoc]
      exact numbers_blank hs (numbers_reads_last h1 hne hsp hs' blank_ends)
  | @cons s w d t ws hs hne hsp hd _ ih =>
    cases hv with
    | cons h1 h2 =>
      have ih := ih h2
      rw [List.append_assoc]
      refine numbers_blank hs ?_
      obtain ⟨c, u, rfl⟩ : ∃ c u, w = c :: u := by
        cases w with
        | nil => exact absurd rfl hne
        | cons c u => exact ⟨c, u, rfl⟩
      have e := h1 (d :: t) (by intro x hx; simp only [List.head?_cons, Option.some.injEq] at hx; subst hx; exact hd)
      rw [List.cons_append] at e ⊢
      have := Numbers.more (num := num) (s := []) (c := c) (t := u ++ d :: t) (by simp) (hsp c (by simp))
        (by rw [e]) (by rw [e]; rfl) (by rw [e]; exact ih)
      rw [e] at this
      exact this

/-! ### The scanner consumes what it accepts -/

theorem split_digits (u : List Char) :
    (u.takeWhile Char.isDigit).length + (u.dropWhile Char.isDigit).length = u.length := by
  rw [← List.length_append, List.takeWhile_append_dropWhile]

theorem scanExponent_length (u : List Char) : (scanExponent u).2.length ≤ u.length := by
  unfold scanExponent
  simp only
  have key : ∀ v : List Char, (v.dropWhile Char.isDigit).length ≤ v.length := fun v => by
    have := split_digits v; omega
  have h1 := key u
  have h2 := key u.tail
  have h3 : u.tail.length ≤ u.length := by simp
  split <;> split <;> simp only <;> omega

theorem scanUnsigned_sane (rn : ℚ → ℚ) (neg : Bool) (u : List Char) :
    (scanUnsigned rn neg u).eof = (scanUnsigned rn neg u).rest.isEmpty ∧
    ((scanUnsigned rn neg u).ok = true → (scanUnsigned rn neg u).rest.length < u.length) := by
  unfold scanUnsigned
  simp only
  generalize hip : u.takeWhile Char.isDigit = ip
  generalize hu1 : u.dropWhile Char.isDigit = u1
  have l1 : ip.length + u1.length = u.length := by rw [← hip, ← hu1]; exact split_digits u
  generalize hpt : (u1.head? == some '.') = pt
  generalize hfp : (if pt then u1.tail.takeWhile Char.isDigit else []) = fp
  generalize hu2 : (if pt then u1.tail.dropWhile Char.isDigit else u1) = u2
  have l2 : fp.length + u2.length ≤ u1.length := by
    rw [← hfp, ← hu2]
    cases pt
    · simp
    · simp only [if_true]
      have := split_digits u1.tail
      have : u1.tail.length ≤ u1.length := by simp
      omega
  by_cases h0 : (ip.isEmpty && fp.isEmpty) = true
  · simp [h0]
  · have hpos : 0 < ip.length + fp.length := by
      cases ip with
      | cons => simp only [List.length_cons]; omega
      | nil => cases fp with
        | cons => simp only [List.length_cons]; omega
        | nil => simp at h0
    rw [if_neg h0]
    split
    · have l3 := scanExponent_length u2.tail
      have l4 : u2.tail.length ≤ u2.length := by simp
      split
      · exact ⟨rfl, fun h => by cases h⟩
      · rename_i e rest heq
        rw [heq] at l3
        exact ⟨rfl, fun _ => by simp only at l3 ⊢; omega⟩
    · exact ⟨rfl, fun _ => by simp only; omega⟩

theorem scanFloat_cases (rn : ℚ → ℚ) (s : List Char) : ∃ neg u, u.length ≤ s.length ∧
    scanFloat rn s = scanUnsigned rn neg u := by
  unfold scanFloat
  split
  · exact ⟨true, s.tail, by simp, rfl⟩
  · split
    · exact ⟨false, s.tail, by simp, rfl⟩
    · exact ⟨false, s, le_refl _, rfl⟩

theorem sane_scanFloat (rn : ℚ → ℚ) : Sane (scanFloat rn) where
  atEnd t h := by
    obtain ⟨neg, u, _, e⟩ := scanFloat_cases rn t
    rw [e] at h ⊢
    rw [(scanUnsigned_sane rn neg u).1] at h
    simpa using h
  consumes c t h := by
    obtain ⟨neg, u, hu, e⟩ := scanFloat_cases rn (c :: t)
    rw [e] at h ⊢
    have := (scanUnsigned_sane rn neg u).2 h
    simp only [List.length_cons] at hu
    omega

/-! ### Enough digits -/

/-- Two different numbers of the format differ by at least one part in `2^p`. -/
theorem float_gap {p : Nat} {x z : ℚ} (hx : RepX p x) (hz : RepX p z) (hne : x ≠ z) :
    |x| ≤ 2 ^ p * |x - z| := by
  obtain ⟨m, e, hm, rfl⟩ := hx
  obtain ⟨n, g, hn, rfl⟩ := hz
  have hP : (0 : ℚ) < 2 ^ p := by positivity
  have hm' : |(m : ℚ)| ≤ 2 ^ p := by
    have : ((|m| : ℤ) : ℚ) < ((2 ^ p : ℤ) : ℚ) := by exact_mod_cast hm
    push_cast at this
    exact this.le
  have hn' : |(n : ℚ)| ≤ 2 ^ p - 1 := by
    have h : |n| ≤ 2 ^ p - 1 := by omega
    have : ((|n| : ℤ) : ℚ) ≤ ((2 ^ p - 1 : ℤ) : ℚ) := by exact_mod_cast h
    push_cast at this
    exact this
  have hmult : ∀ k : Int, Mult k ((m : ℚ) * 2 ^ e - n * 2 ^ g) → 2 ^ k ≤ |(m : ℚ) * 2 ^ e - n * 2 ^ g| := by
    rintro k ⟨j, hj⟩
    rw [hj, abs_mul, abs_of_pos (two_zpow_pos k)]
    have hj0 : j ≠ 0 := by
      rintro rfl
      apply hne
      have : (m : ℚ) * 2 ^ e - n * 2 ^ g = 0 := by rw [hj]; simp
      linarith
    have : (1 : ℚ) ≤ |(j : ℚ)| := by
      have : (1 : ℤ) ≤ |j| := Int.one_le_abs hj0
      exact_mod_cast this
    nlinarith [two_zpow_pos k]
  rcases le_total e g with h | h
  · have h1 := hmult e (Mult.sub ⟨m, rfl⟩ (Mult.mono ⟨n, rfl⟩ h))
    rw [abs_mul, abs_of_pos (two_zpow_pos e)]
    calc |(m : ℚ)| * 2 ^ e ≤ 2 ^ p * 2 ^ e := mul_le_mul_of_nonneg_right hm' (two_zpow_pos e).le
      _ ≤ 2 ^ p * |(m : ℚ) * 2 ^ e - n * 2 ^ g| := mul_le_mul_of_nonneg_left h1 hP.le
  · have h1 := hmult g (Mult.sub (Mult.mono ⟨m, rfl⟩ h) ⟨n, rfl⟩)
    set X := (m : ℚ) * 2 ^ e
    by_cases hc : |X| ≤ 2 ^ p * 2 ^ g
    · exact hc.trans (mul_le_mul_of_nonneg_left h1 hP.le)
    · have hc := not_le.mp hc
      have h2 : |(n : ℚ) * 2 ^ g| ≤ (2 ^ p - 1) * 2 ^ g := by
        rw [abs_mul, abs_of_pos (two_zpow_pos g)]
        exact mul_le_mul_of_nonneg_right hn' (two_zpow_pos g).le
      have h3 : |X| - |(n : ℚ) * 2 ^ g| ≤ |X - n * 2 ^ g| := abs_sub_abs_le_abs_sub _ _
      have h4 : (1 : ℚ) ≤ 2 ^ p := one_le_pow₀ (by norm_num)
      have h5 : (2 ^ p - 1) * (2 ^ p * 2 ^ g) ≤ (2 ^ p - 1) * |X| :=
        mul_le_mul_of_nonneg_left hc.le (by linarith)
      have h6 : 2 ^ p * (|X| - (2 ^ p - 1) * 2 ^ g) ≤ 2 ^ p * |X - n * 2 ^ g| :=
        mul_le_mul_of_nonneg_left (by linarith) hP.le
      nlinarith

/-- A decimal close enough to a number of the format is rounded to it. -/
theorem rn_decimal {p P : Nat} {emin : Int} {rn : ℚ → ℚ} (h : Nearest p emin rn) (hP : 2 ^ p < 10 ^ P) {x D : ℚ}
    (hx : Rep p emin x) (hD : |x - D| ≤ |x| / 10 ^ P / 2) : rn D = x := by
  by_contra hne
  have hz := h.rep D
  have h1 := h.near D x hx
  have h2 := float_gap (repX_of_rep hx) (repX_of_rep hz) (Ne.symm hne)
  have hT : (0 : ℚ) < 10 ^ P := by positivity
  have hPq : (2 : ℚ) ^ p < 10 ^ P := by exact_mod_cast hP
  have h3 : |x - rn D| ≤ |x| / 10 ^ P := by
    calc |x - rn D| ≤ |x - D| + |D - rn D| := abs_sub_le _ _ _
      _ ≤ |x - D| + |D - x| := by linarith
      _ = 2 * |x - D| := by rw [abs_sub_comm D x]; ring
      _ ≤ |x| / 10 ^ P := by linarith
  have hxpos : 0 < |x| := by
    rcases eq_or_lt_of_le (abs_nonneg x) with h0 | h0
    · exfalso
      rw [← h0] at h3
      simp only [zero_div] at h3
      have := abs_nonpos_iff.mp h3
      exact hne (by linarith)
    · exact h0
  have h4 : |x| ≤ 2 ^ p * (|x| / 10 ^ P) := h2.trans (mul_le_mul_of_nonneg_left h3 (by positivity))
  have h5 : 2 ^ p * (|x| / 10 ^ P) < |x| := by
    rw [← mul_div_assoc, div_lt_iff₀ hT]
    nlinarith
  linarith

end Spp.IO
