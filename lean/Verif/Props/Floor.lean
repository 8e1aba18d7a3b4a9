import Verif.Model.Floor
import Verif.Props.FloatOps

/-
C98: `floors` and `ceils`.
-/

namespace Spp.Props
open Spec FVal Lemmas

variable {p : Nat} {emin : Int} {F : Fmt}

theorem rep_floor (hp : 1 ≤ p) {x : ℚ} (hx : Rep p emin x) : Rep p emin (⌊x⌋ : ℚ) ∧ Rep p emin (⌈x⌉ : ℚ) := by
  obtain ⟨m, e, hm, he, rfl⟩ := hx
  rcases le_or_gt 0 e with h | h
  · obtain ⟨k, rfl⟩ : ∃ k : Nat, e = k := ⟨e.toNat, by omega⟩
    have : (m : ℚ) * 2 ^ (k : Int) = ((m * 2 ^ k : Int) : ℚ) := by push_cast; simp
    rw [this, Int.floor_intCast, Int.ceil_intCast, ← this]
    exact ⟨⟨m, k, hm, he, rfl⟩, ⟨m, k, hm, he, rfl⟩⟩
  · have he0 : emin ≤ 0 := by omega
    have hz : (2 : ℚ) ^ e ≤ 1 := zpow_le_one_of_nonpos₀ (by norm_num) h.le
    have hzp : (0 : ℚ) < 2 ^ e := by positivity
    have hq : |(m : ℚ) * 2 ^ e| ≤ (2 : ℚ) ^ p := by
      rw [abs_mul, abs_of_pos hzp]
      have : |(m : ℚ)| ≤ 2 ^ p := by exact_mod_cast hm.le
      calc |(m : ℚ)| * 2 ^ e ≤ |(m : ℚ)| * 1 := mul_le_mul_of_nonneg_left hz (abs_nonneg _)
        _ ≤ _ := by rw [mul_one]; exact this
    have hb := abs_le.1 hq
    constructor
    · refine rep_int hp he0 (abs_le.2 ⟨Int.le_floor.2 (by push_cast; exact hb.1), ?_⟩)
      have : ((⌊(m : ℚ) * 2 ^ e⌋ : Int) : ℚ) ≤ ((2 ^ p : Int) : ℚ) := (Int.floor_le _).trans (by push_cast; exact hb.2)
      exact_mod_cast this
    · refine rep_int hp he0 (abs_le.2 ⟨?_, Int.ceil_le.2 (by push_cast; exact hb.2)⟩)
      have : ((-2 ^ p : Int) : ℚ) ≤ (⌈(m : ℚ) * 2 ^ e⌉ : Int) := le_trans (by push_cast; exact hb.1) (Int.le_ceil _)
      exact_mod_cast this

/-- A sign and the magnitude of an integer on the same side of zero. -/
theorem val_signed {s : Bool} {k : ℚ} (h : if s then k ≤ 0 else 0 ≤ k) : val (fin s |k|) = k := by
  cases s
  · simp only [Bool.false_eq_true, if_false] at h
    simp [val, abs_of_nonneg h]
  · simp only [if_true] at h
    simp [val, abs_of_nonpos h]

theorem floor_val {s : Bool} {m : ℚ} (hm : 0 ≤ m) : (floor (fin s m)).val = (⌊val (fin s m)⌋ : ℚ) := by
  refine val_signed ?_
  cases s
  · simpa [val] using Int.floor_nonneg.2 hm
  · have : ⌊-m⌋ ≤ 0 := by
      have : (⌊-m⌋ : ℚ) ≤ 0 := (Int.floor_le _).trans (by linarith)
      exact_mod_cast this
    simpa [val] using this

theorem ceil_val {s : Bool} {m : ℚ} (hm : 0 ≤ m) : (ceil (fin s m)).val = (⌈val (fin s m)⌉ : ℚ) := by
  refine val_signed ?_
  cases s
  · have : 0 ≤ ⌈m⌉ := Int.ceil_nonneg hm
    simpa [val] using this
  · have : ⌈-m⌉ ≤ 0 := Int.ceil_le.2 (by push_cast; linarith)
    simpa [val] using this

/-- C98: `floors(x)` is the largest integer not above `x` and `ceils(x)` the smallest not below it, for every finite
`x`, with no rounding; the sign is kept, so `ceils(-0.5)` is `-0`. -/
theorem C98_finite {x : FVal} (hx : Held p emin F x) (hf : x.isFinite = true) :
    (∃ k : Int, (floor x).isFinite = true ∧ (floor x).val = k ∧ k ≤ x.val ∧ (∀ j : Int, (j : ℚ) ≤ x.val → j ≤ k)) ∧
    (∃ k : Int, (ceil x).isFinite = true ∧ (ceil x).val = k ∧ x.val ≤ k ∧ (∀ j : Int, x.val ≤ (j : ℚ) → k ≤ j)) ∧
    negative (floor x) = negative x ∧ negative (ceil x) = negative x := by
  rcases x with _ | s | ⟨s, m⟩
  · exact nomatch hf
  · exact nomatch hf
  · exact ⟨⟨_, rfl, floor_val hx.1, Int.floor_le _, fun j h => Int.le_floor.2 h⟩,
      ⟨_, rfl, ceil_val hx.1, Int.le_ceil _, fun j h => Int.ceil_le.2 h⟩, rfl, rfl⟩

/-- C98: NaN, infinities and zeros are returned as they are. -/
theorem C98_special :
    floor nan = nan ∧ ceil nan = nan ∧
    (∀ s, floor (inf s) = inf s ∧ ceil (inf s) = inf s ∧ floor (fin s 0) = fin s 0 ∧ ceil (fin s 0) = fin s 0) := by
  refine ⟨rfl, rfl, fun s => ⟨rfl, rfl, ?_, ?_⟩⟩ <;> cases s <;> simp [floor, ceil, val]

/-- C98: the result is a number of the same type, if the largest number is an integer. -/
theorem C98_held (hp : 1 ≤ p) {T : Int} (ht : F.top = T) {x : FVal} (hx : Held p emin F x) :
    Held p emin F (floor x) ∧ Held p emin F (ceil x) := by
  rcases x with _ | s | ⟨s, m⟩
  · exact ⟨trivial, trivial⟩
  · exact ⟨trivial, trivial⟩
  · obtain ⟨h0, h1, h2⟩ := hx
    have key : ∀ v : ℚ, Rep p emin v → |v| ≤ T → (Rep p emin |(⌊v⌋ : ℚ)| ∧ |(⌊v⌋ : ℚ)| ≤ T) ∧
        (Rep p emin |(⌈v⌉ : ℚ)| ∧ |(⌈v⌉ : ℚ)| ≤ T) := by
      intro v hv ht
      have hb := abs_le.1 ht
      have ha : ∀ w : ℚ, Rep p emin w → Rep p emin |w| := by
        intro w hw
        rcases abs_choice w with h | h <;> rw [h]
        · exact hw
        · exact rep_neg hw
      refine ⟨⟨ha _ (rep_floor hp hv).1, abs_le.2 ⟨?_, (Int.floor_le _).trans hb.2⟩⟩,
        ⟨ha _ (rep_floor hp hv).2, abs_le.2 ⟨hb.1.trans (Int.le_ceil _), ?_⟩⟩⟩
      · have : -T ≤ ⌊v⌋ := Int.le_floor.2 (by push_cast; exact hb.1)
        exact_mod_cast this
      · have : ⌈v⌉ ≤ T := Int.ceil_le.2 hb.2
        exact_mod_cast this
    have hv : Rep p emin (val (fin s m)) ∧ |val (fin s m)| ≤ T := by
      cases s
      · exact ⟨h2, by rw [← ht]; simpa [val, abs_of_nonneg h0] using h1⟩
      · exact ⟨rep_neg h2, by rw [← ht]; simpa [val, abs_of_nonneg h0] using h1⟩
    obtain ⟨⟨a, b⟩, c, d⟩ := key _ hv.1 hv.2
    exact ⟨⟨abs_nonneg _, by rw [ht]; exact b, a⟩, ⟨abs_nonneg _, by rw [ht]; exact d, c⟩⟩

/-- C98: both are monotone, do nothing to their own results, and `ceils(x) == -floors(-x)` with the same sign of
zero. -/
theorem C98_laws {x y : FVal} (hx : Held p emin F x) (hy : Held p emin F y) :
    (FVal.le x y = true → FVal.le (floor x) (floor y) = true ∧ FVal.le (ceil x) (ceil y) = true) ∧
    floor (floor x) = floor x ∧ ceil (floor x) = floor x ∧ floor (ceil x) = ceil x ∧ ceil (ceil x) = ceil x ∧
    ceil x = neg (floor (neg x)) ∧
    (x ≠ nan → FVal.le (floor x) x = true ∧ FVal.le x (ceil x) = true) := by
  have again : ∀ (s : Bool) (k : Int), (if s then (k : ℚ) ≤ 0 else (0 : ℚ) ≤ k) →
      floor (fin s |(k : ℚ)|) = fin s |(k : ℚ)| ∧ ceil (fin s |(k : ℚ)|) = fin s |(k : ℚ)| := by
    intro s k h
    simp only [floor, ceil, val_signed h, Int.floor_intCast, Int.ceil_intCast, and_self]
  have sgn : ∀ (s : Bool) (m : ℚ), 0 ≤ m → (if s then (⌊val (fin s m)⌋ : ℚ) ≤ 0 else (0 : ℚ) ≤ ⌊val (fin s m)⌋) ∧
      (if s then (⌈val (fin s m)⌉ : ℚ) ≤ 0 else (0 : ℚ) ≤ ⌈val (fin s m)⌉) := by
    intro s m hm
    cases s
    · simp only [Bool.false_eq_true, if_false, val]
      exact ⟨by exact_mod_cast Int.floor_nonneg.2 hm, by exact_mod_cast Int.ceil_nonneg hm⟩
    · simp only [if_true, val]
      exact ⟨(Int.floor_le _).trans (by linarith), by
        have : ⌈-m⌉ ≤ 0 := Int.ceil_le.2 (by push_cast; linarith)
        exact_mod_cast this⟩
  refine ⟨?_, ?_⟩
  · rcases x with _ | s | ⟨s, m⟩ <;> rcases y with _ | t | ⟨t, n⟩ <;> intro h
    all_goals try exact ⟨h, h⟩
    have h' : val (fin s m) ≤ val (fin t n) := by simpa [FVal.le] using h
    have e1 := floor_val (s := s) hx.1
    have e2 := floor_val (s := t) hy.1
    have e3 := ceil_val (s := s) hx.1
    have e4 := ceil_val (s := t) hy.1
    simp only [floor, ceil] at e1 e2 e3 e4
    simp only [floor, ceil, FVal.le, e1, e2, e3, e4, decide_eq_true_eq]
    exact ⟨by exact_mod_cast Int.floor_le_floor h', by exact_mod_cast Int.ceil_le_ceil h'⟩
  · rcases x with _ | s | ⟨s, m⟩
    · exact ⟨rfl, rfl, rfl, rfl, rfl, fun h => absurd rfl h⟩
    · cases s <;> exact ⟨rfl, rfl, rfl, rfl, rfl, fun _ => ⟨rfl, rfl⟩⟩
    · refine ⟨(again s _ (sgn s m hx.1).1).1, (again s _ (sgn s m hx.1).1).2, (again s _ (sgn s m hx.1).2).1,
        (again s _ (sgn s m hx.1).2).2, ?_, fun _ => ?_⟩
      · have : val (fin (!s) m) = -val (fin s m) := by cases s <;> simp [val]
        simp only [FVal.neg, floor, ceil, Bool.not_not, this, Int.floor_neg, Int.cast_neg, abs_neg]
      · have e1 := floor_val (s := s) hx.1
        have e3 := ceil_val (s := s) hx.1
        simp only [floor, ceil] at e1 e3
        simp only [floor, ceil, FVal.le, e1, e3, decide_eq_true_eq]
        exact ⟨Int.floor_le _, Int.le_ceil _⟩

-- floors(-1/2) = -1, ceils(-1/2) = -0, ceils(5/2) = 3
example : floor (fin true (1 / 2)) = fin true 1 ∧ ceil (fin true (1 / 2)) = fin true 0 ∧
    ceil (fin false (5 / 2)) = fin false 3 ∧ floor (fin false (5 / 2)) = fin false 2 := by
  have h1 : ⌊(-(1 / 2) : ℚ)⌋ = -1 := by norm_num [Int.floor_eq_iff]
  have h2 : ⌈(-(1 / 2) : ℚ)⌉ = 0 := by norm_num [Int.ceil_eq_iff]
  have h3 : ⌈(5 / 2 : ℚ)⌉ = 3 := by norm_num [Int.ceil_eq_iff]
  have h4 : ⌊(5 / 2 : ℚ)⌋ = 2 := by norm_num [Int.floor_eq_iff]
  simp only [floor, ceil, val, h1, h2, h3, h4]
  norm_num

-- the hypotheses hold
example : ∃ F : Fmt, IsFmt 3 (-3) F ∧ F.top = (28 : Int) ∧ Held 3 (-3) F (fin true (5 / 2)) := by
  obtain ⟨F, hF, ht, -⟩ := exists_fmt3
  exact ⟨F, hF, by rw [ht]; norm_num, by norm_num, by rw [ht]; norm_num, 5, -1, by norm_num, by norm_num, by norm_num⟩

end Spp.Props
