import Verif.Spec.Timer
import Verif.Props.Sizes
import Verif.Props.FloatIO
import Verif.Lemmas.FloatLit

/-
Timers (C116) and machine constants (C117).
-/

set_option linter.unusedSectionVars false

namespace Spp.Props
open Spec Spp.Lemmas

variable {rn : ℚ → ℚ}

theorem rnX_le {p : Nat} (h : NearestX p rn) {x y : ℚ} (hy : RepX p y) (hxy : x ≤ y) : rn x ≤ y := by
  by_contra hc
  rw [not_le] at hc
  have := h.near x y hy
  rw [abs_of_nonpos (by linarith), abs_of_nonpos (by linarith)] at this
  linarith

theorem le_rnX {p : Nat} (h : NearestX p rn) {x y : ℚ} (hy : RepX p y) (hxy : y ≤ x) : y ≤ rn x := by
  by_contra hc
  rw [not_le] at hc
  have := h.near x y hy
  rw [abs_of_nonneg (by linarith), abs_of_nonneg (by linarith)] at this
  linarith

/-- Rounding to nearest is monotone whatever is done with ties. -/
theorem rnX_mono {p : Nat} (h : NearestX p rn) {x y : ℚ} (hxy : x ≤ y) : rn x ≤ rn y := by
  rcases eq_or_lt_of_le hxy with rfl | hlt
  · exact le_refl _
  by_contra hc
  rw [not_le] at hc
  have h1 : rn y < x := by
    by_contra hx
    rw [not_lt] at hx
    exact absurd (rnX_le h (h.rep y) hx) (not_le.2 hc)
  have h2 : y < rn x := by
    by_contra hx
    rw [not_lt] at hx
    exact absurd (le_rnX h (h.rep x) hx) (not_le.2 hc)
  have a := h.near x _ (h.rep y)
  have c := h.near y _ (h.rep x)
  rw [abs_of_nonpos (by linarith), abs_of_nonneg (by linarith)] at a
  rw [abs_of_nonneg (by linarith), abs_of_nonpos (by linarith)] at c
  linarith

theorem rnX_pos {p : Nat} (hp : 1 ≤ p) (h : NearestX p rn) {x : ℚ} : (0 < rn x ↔ 0 < x) ∧ (rn x < 0 ↔ x < 0) ∧
    (rn x = 0 ↔ x = 0) := by
  have e := rel_errX hp h x
  have u1 : unit p ≤ 1 / 2 := by
    rw [unit, inv_eq_one_div]
    refine one_div_le_one_div_of_le (by norm_num) ?_
    calc (2 : ℚ) = 2 ^ 1 := by norm_num
      _ ≤ 2 ^ p := pow_le_pow_right₀ (by norm_num) hp
  rcases lt_trichotomy x 0 with hx | rfl | hx
  · rw [abs_of_neg hx, abs_le] at e
    have : rn x < 0 := by nlinarith [e.1]
    exact ⟨⟨fun h => by linarith, fun h => by linarith⟩, ⟨fun _ => hx, fun _ => this⟩,
      ⟨fun h => by linarith, fun h => by linarith⟩⟩
  · have : rn 0 = 0 := by
      have := e; simp only [abs_zero, mul_zero, zero_sub, abs_neg] at this
      exact abs_eq_zero.1 (le_antisymm this (abs_nonneg _))
    rw [this]; simp
  · rw [abs_of_pos hx, abs_le] at e
    have : 0 < rn x := by nlinarith [e.2]
    exact ⟨⟨fun _ => hx, fun _ => this⟩, ⟨fun h => by linarith, fun h => by linarith⟩,
      ⟨fun h => by linarith, fun h => by linarith⟩⟩

/-! ### Timers -/

/-- C116: `wall_time()` is the difference of two readings of the clock in seconds, rounded to `double` twice;
it is undefined when the number of nanoseconds is not a `long` (292 years). -/
theorem C116_wall_time (t0 now : Int) :
    (IsIndex (now - t0) → (Timer.new t0).wallTime rn now = .ok (rn (rn ((now - t0 : Int) : ℚ) / 10 ^ 9))) ∧
    (¬ IsIndex (now - t0) → (Timer.new t0).wallTime rn now = .ub) := by
  constructor
  · intro h
    unfold Timer.wallTime Timer.new
    rw [isub_ok h, Res.ok_bind, Conv.intToFloat, show (1000000000 : ℚ) = 10 ^ 9 by norm_num]
    rfl
  · intro h
    unfold Timer.wallTime Timer.new
    rcases isub_cases now t0 with ⟨h1, _⟩ | ⟨_, h2⟩
    · exact absurd h1 h
    · rw [h2]
      rfl

/-- C116: whatever the program has done with the timer before, a reading measures the time since the last
restart, and does not influence later readings. -/
theorem C116_history (t0 now : Int) (es fs : List TimerEvent) :
    (Timer.new t0).run rn (es ++ .read now :: fs) =
      (Timer.new t0).run rn es ++ (Timer.new (since t0 es)).wallTime rn now :: (Timer.new (since t0 es)).run rn fs := by
  induction es generalizing t0 with
  | nil => rfl
  | cons e es ih =>
    cases e with
    | restart n => exact ih n
    | read n => exact congrArg (List.cons ((Timer.new t0).wallTime rn n)) (ih t0)

/-- C116: the relative error is at most `2^-53` up to `2^53` nanoseconds (104 days), and at most
`2^-52 + 2^-106` always. -/
theorem C116_error (h : NearestX 53 rn) (k : Int) :
    |seconds k - rn (rn k / 10 ^ 9)| ≤ (2 * unit 53 + unit 53 ^ 2) * |seconds k| ∧
    (|k| ≤ 2 ^ 53 → |seconds k - rn (rn k / 10 ^ 9)| ≤ unit 53 * |seconds k|) := by
  have hu : (0 : ℚ) ≤ unit 53 := by rw [unit]; positivity
  constructor
  · have e1 := rel_errX (by norm_num) h (k : ℚ)
    have e2 := rel_errX (by norm_num) h (rn k / 10 ^ 9)
    have e3 : |seconds k - rn k / 10 ^ 9| ≤ unit 53 * |seconds k| := by
      rw [seconds, ← sub_div, abs_div, abs_div, ← mul_div_assoc]
      exact div_le_div_of_nonneg_right e1 (abs_nonneg _)
    have e4 : |rn k / 10 ^ 9| ≤ (1 + unit 53) * |seconds k| := by
      have := abs_sub_abs_le_abs_sub (rn k / 10 ^ 9) (seconds k)
      rw [abs_sub_comm] at this
      linarith
    have e5 := abs_sub_le (seconds k) (rn k / 10 ^ 9) (rn (rn k / 10 ^ 9))
    nlinarith [mul_le_mul_of_nonneg_left e4 hu]
  · intro hk
    have e : rn (k : ℚ) = k := by
      rw [(fl_nearestX (by norm_num) h).fix]
      rcases lt_or_eq_of_le hk with hlt | heq
      · exact ⟨k, 0, hlt, by simp⟩
      · rcases abs_choice k with hc | hc
        · rw [hc] at heq; rw [heq]; push_cast; exact repX_two_pow (by norm_num) 53
        · rw [hc] at heq
          have : k = -(2 ^ 53) := by omega
          rw [this]
          obtain ⟨m, e, h1, h2⟩ := repX_two_pow (p := 53) (by norm_num) 53
          refine ⟨-m, e, by rwa [abs_neg], ?_⟩
          push_cast
          norm_num at h2
          linarith
    rw [e]
    exact rel_errX (by norm_num) h _

/-- C116: the sign is right: a wall time is negative, zero or positive exactly when the clock shows less, as much
or more than at the start.  In particular it is negative when the clock has been set back meanwhile. -/
theorem C116_sign (h : NearestX 53 rn) (t0 now : Int) :
    (rn (rn ((now - t0 : Int) : ℚ) / 10 ^ 9) < 0 ↔ now < t0) ∧ (rn (rn ((now - t0 : Int) : ℚ) / 10 ^ 9) = 0 ↔ now = t0) ∧
    (0 < rn (rn ((now - t0 : Int) : ℚ) / 10 ^ 9) ↔ t0 < now) := by
  have d : (0 : ℚ) < 10 ^ 9 := by norm_num
  obtain ⟨a1, a2, a3⟩ := rnX_pos (by norm_num) h (x := rn ((now - t0 : Int) : ℚ) / 10 ^ 9)
  obtain ⟨b1, b2, b3⟩ := rnX_pos (by norm_num) h (x := ((now - t0 : Int) : ℚ))
  refine ⟨?_, ?_, ?_⟩
  · rw [a2, div_neg_iff]
    constructor
    · rintro (⟨_, h⟩ | ⟨h, _⟩)
      · linarith
      · have := b2.1 h
        have : now - t0 < 0 := by exact_mod_cast this
        omega
    · intro hlt
      exact .inr ⟨b2.2 (by exact_mod_cast (by omega : now - t0 < 0)), d⟩
  · rw [a3, div_eq_zero_iff, or_iff_left d.ne', b3]
    constructor
    · intro h
      have : now - t0 = 0 := by exact_mod_cast h
      omega
    · intro h
      rw [h]; simp
  · rw [a1, div_pos_iff]
    constructor
    · rintro (⟨h, _⟩ | ⟨_, h⟩)
      · have := b1.1 h
        have : 0 < now - t0 := by exact_mod_cast this
        omega
      · linarith
    · intro hlt
      exact .inl ⟨b1.2 (by exact_mod_cast (by omega : 0 < now - t0)), d⟩

/-- C116: while the clock does not go back, successive readings do not decrease. -/
theorem C116_monotone (h : NearestX 53 rn) {t0 t1 t2 : Int} (h12 : t1 ≤ t2) {v w : ℚ}
    (hv : (Timer.new t0).wallTime rn t1 = .ok v) (hw : (Timer.new t0).wallTime rn t2 = .ok w) : v ≤ w := by
  have key : ∀ {t : Int} {v : ℚ}, (Timer.new t0).wallTime rn t = .ok v →
      v = rn (rn ((t - t0 : Int) : ℚ) / 10 ^ 9) := by
    intro t v hv
    by_cases hk : IsIndex (t - t0)
    · rw [(C116_wall_time t0 t).1 hk] at hv
      cases hv
      rfl
    · rw [(C116_wall_time t0 t).2 hk] at hv
      cases hv
  rw [key hv, key hw]
  refine rnX_mono h (div_le_div_of_nonneg_right (rnX_mono h ?_) (by norm_num))
  exact_mod_cast (by omega : t1 - t0 ≤ t2 - t0)

/-- C116: `STRICT_TIME(a)` does nothing but what `a` does when `a` throws; otherwise it writes one line with the
text of `a` and the seconds between the two readings of the clock, in scientific notation with four digits after
the point, a minus sign only if the time is negative, and a relative error of at most `1/19999`. -/
theorem C116_macro (h : NearestX 53 rn) (text : List Char) (a : Res Unit) (t0 t1 : Int) (hk : IsIndex (t1 - t0)) :
    (∀ k, a = .trap k → strictTime rn text a t0 t1 = .trap k) ∧ (a = .ub → strictTime rn text a t0 t1 = .ub) ∧
    (a = .ok () → ∃ (num : List Char) (D : ℚ),
      strictTime rn text a t0 t1 = .ok (text ++ " took: ".toList ++ num ++ " seconds\n".toList) ∧
      Scientific 4 (if t1 < t0 then num else '+' :: num) D ∧ |seconds (t1 - t0) - D| ≤ |seconds (t1 - t0)| / 19999) := by
  refine ⟨fun k e => by rw [e]; rfl, fun e => by rw [e]; rfl, fun e => ?_⟩
  set w := rn (rn ((t1 - t0 : Int) : ℚ) / 10 ^ 9) with hw
  obtain ⟨D, h1, h2⟩ := C76_scientific 4 w
  refine ⟨showTime w, D, ?_, ?_, ?_⟩
  · rw [e]
    unfold strictTime
    rw [Res.ok_bind, (C116_wall_time t0 t1).1 hk, Res.ok_bind]
    rfl
  · have sgn := (C116_sign h t0 t1).1
    rw [← hw] at sgn
    by_cases hlt : t1 < t0
    · rw [if_pos hlt, showTime, if_pos (sgn.2 hlt)]
      exact h1
    · have hn : ¬ w < 0 := fun h => hlt (sgn.1 h)
      rw [if_neg hlt, showTime, if_neg hn]
      have e : IO.showSci 4 w = '+' :: (IO.showSci 4 w).tail := by
        unfold IO.showSci
        rw [if_neg hn]
        rfl
      rw [← e]
      exact h1
  · have e1 := (C116_error h (t1 - t0)).1
    rw [← hw] at e1
    have hu : (2 * unit 53 + unit 53 ^ 2 : ℚ) ≤ 1 / 10 ^ 12 := by rw [unit]; norm_num
    set S := seconds (t1 - t0)
    have e2 : |S - w| ≤ 1 / 10 ^ 12 * |S| := e1.trans (mul_le_mul_of_nonneg_right hu (abs_nonneg _))
    have e3 : |w| ≤ (1 + 1 / 10 ^ 12) * |S| := by
      have := abs_sub_abs_le_abs_sub w S
      rw [abs_sub_comm] at this
      linarith
    have e4 := abs_sub_le S w D
    have : |w| / 10 ^ 4 / 2 ≤ (1 + 1 / 10 ^ 12) * |S| / 10 ^ 4 / 2 :=
      div_le_div_of_nonneg_right (div_le_div_of_nonneg_right e3 (by norm_num)) (by norm_num)
    have h0 := abs_nonneg S
    rw [le_div_iff₀ (by norm_num)]
    nlinarith

-- half a second after a restart; a clock that is set back gives a negative time
example : ∃ rn, NearestX 53 rn ∧
    (Timer.new 5).run rn [.read 7, .restart 1000, .read 1000, .read 500001000, .read 400] =
      [(Timer.new 5).wallTime rn 7, .ok 0, .ok (1 / 2), .ok (rn (-600 / 10 ^ 9))] := by
  obtain ⟨rn, h⟩ := exists_nearestX (p := 53) (by norm_num)
  have fx : ∀ {v}, RepX 53 v → rn v = v := (fl_nearestX (by norm_num) h).fix _
  refine ⟨rn, h, ?_⟩
  have z : rn 0 = 0 := fx ⟨0, 0, by norm_num, by norm_num⟩
  have i1 : rn ((500000000 : Int) : ℚ) = 500000000 := (fx ⟨500000000, 0, by norm_num, by norm_num⟩).trans (by norm_num)
  have i2 : rn ((-600 : Int) : ℚ) = -600 := (fx ⟨-600, 0, by norm_num, by norm_num⟩).trans (by norm_num)
  have hf : rn (1 / 2) = 1 / 2 := fx ⟨1, -1, by norm_num, by norm_num⟩
  have r1 := (C116_wall_time (rn := rn) 1000 1000).1 (by decide)
  have r2 := (C116_wall_time (rn := rn) 1000 500001000).1 (by decide)
  have r3 := (C116_wall_time (rn := rn) 1000 400).1 (by decide)
  rw [show (1000 - 1000 : Int) = 0 by norm_num, Int.cast_zero, z, zero_div, z] at r1
  rw [show (500001000 - 1000 : Int) = 500000000 by norm_num, i1,
    show (500000000 : ℚ) / 10 ^ 9 = 1 / 2 by norm_num, hf] at r2
  rw [show (400 - 1000 : Int) = -600 by norm_num, i2] at r3
  show [_, (Timer.new 1000).wallTime rn 1000, (Timer.new 1000).wallTime rn 500001000,
    (Timer.new 1000).wallTime rn 400] = _
  rw [r1, r2, r3]

/-! ### Machine constants -/

/-- C117: `1 + epsilon` is a number of the type and there is none between it and 1. -/
theorem C117_next {p : Nat} (hp : 1 ≤ p) {emin : Int} (he : emin ≤ 1 - p) :
    Rep p emin (1 + epsilon p) ∧ ∀ y, Rep p emin y → 1 < y → 1 + epsilon p ≤ y := by
  obtain ⟨q, rfl⟩ : ∃ q, p = q + 1 := ⟨p - 1, by omega⟩
  have hq : (0 : ℚ) < 2 ^ q := by positivity
  have eps : epsilon (q + 1) = 1 / 2 ^ q := rfl
  constructor
  · by_cases h0 : q = 0
    · subst h0
      refine ⟨1, 1, by norm_num, by push_cast at he; omega, by rw [eps]; norm_num⟩
    · refine ⟨2 ^ q + 1, -(q : Int), ?_, by push_cast at he; omega, ?_⟩
      · have : (2 : Int) ≤ 2 ^ q := by
          calc (2 : Int) = 2 ^ 1 := by norm_num
            _ ≤ 2 ^ q := pow_le_pow_right₀ (by norm_num) (by omega)
        rw [abs_of_nonneg (by positivity), pow_succ]
        omega
      · rw [eps]
        push_cast
        rw [zpow_neg, zpow_natCast]
        field_simp
  · rintro y ⟨m, e, h1, h2, rfl⟩ hy
    rw [eps]
    have hm : 0 < m := by
      by_contra hc
      have : (m : ℚ) * 2 ^ e ≤ 0 := mul_nonpos_of_nonpos_of_nonneg (by exact_mod_cast (by omega : m ≤ 0))
        (by positivity)
      linarith
    rw [abs_of_pos hm] at h1
    have hm' : (m : ℚ) < 2 ^ (q + 1) := by exact_mod_cast h1
    -- the exponent is at least -q
    have heq : -(q : Int) ≤ e := by
      by_contra hc
      have : (2 : ℚ) ^ e ≤ 2 ^ (-(q : Int) - 1) := zpow_le_zpow_right₀ (by norm_num) (by omega)
      have h3 : (m : ℚ) * 2 ^ e ≤ m * 2 ^ (-(q : Int) - 1) :=
        mul_le_mul_of_nonneg_left this (by exact_mod_cast hm.le)
      rw [zpow_sub₀ (by norm_num), zpow_neg, zpow_natCast, zpow_one] at h3
      have h4 : (m : ℚ) * ((2 ^ q)⁻¹ / 2) < 2 ^ (q + 1) * ((2 ^ q)⁻¹ / 2) :=
        mul_lt_mul_of_pos_right hm' (by positivity)
      rw [pow_succ] at h4
      have h5 : (2 : ℚ) ^ q * 2 * ((2 ^ q)⁻¹ / 2) = 1 := by field_simp
      linarith
    obtain ⟨k, hk⟩ := Int.eq_ofNat_of_zero_le (by omega : 0 ≤ e + q)
    have e1 : (2 : ℚ) ^ e = 2 ^ k / 2 ^ q := by
      rw [show e = (k : Int) - q by omega, zpow_sub₀ (by norm_num), zpow_natCast, zpow_natCast]
    rw [e1] at hy ⊢
    have h6 : (2 : ℚ) ^ q < m * 2 ^ k := by
      rw [← mul_div_assoc, lt_div_iff₀ hq, one_mul] at hy
      exact hy
    have h7 : (2 : Int) ^ q + 1 ≤ m * 2 ^ k := by
      have : (2 : Int) ^ q < m * 2 ^ k := by exact_mod_cast h6
      omega
    have h8 : (2 : ℚ) ^ q + 1 ≤ m * 2 ^ k := by exact_mod_cast h7
    rw [← mul_div_assoc, le_div_iff₀ hq, add_mul, one_div_mul_cancel hq.ne', one_mul]
    exact h8

/-- C117: adding to 1 less than half of `epsilon` gives 1; adding more gives at least `1 + epsilon`. -/
theorem C117_added {p : Nat} (hp : 1 ≤ p) {emin : Int} (he : emin ≤ 1 - p) (h : Nearest p emin rn) {x : ℚ}
    (hx : 0 ≤ x) : (x < epsilon p / 2 → rn (1 + x) = 1) ∧ (epsilon p / 2 < x → 1 + epsilon p ≤ rn (1 + x)) := by
  obtain ⟨n1, n2⟩ := C117_next hp he
  have he0 : 0 < epsilon p := by unfold epsilon; positivity
  have one : Rep p emin 1 := by
    refine ⟨2 ^ (p - 1), -((p - 1 : Nat) : Int), ?_, by omega, ?_⟩
    · rw [abs_of_nonneg (by positivity)]
      exact pow_lt_pow_right₀ (by norm_num) (by omega)
    · push_cast
      rw [zpow_neg, zpow_natCast]
      field_simp
  have lo : 1 ≤ rn (1 + x) := le_rn h one (by linarith)
  constructor
  · intro hlt
    rcases eq_or_lt_of_le lo with e | hgt
    · exact e.symm
    · have h1 := n2 _ (h.rep _) hgt
      have h2 := h.near (1 + x) 1 one
      rw [abs_of_nonpos (by linarith), abs_of_nonneg (by linarith)] at h2
      linarith
  · intro hgt
    rcases eq_or_lt_of_le lo with e | hlt
    · have h2 := h.near (1 + x) _ n1
      rw [← e] at h2
      rw [abs_of_nonneg (by linarith)] at h2
      rcases abs_cases (1 + x - (1 + epsilon p)) with ⟨h3, _⟩ | ⟨h3, _⟩ <;> linarith
    · exact n2 _ (h.rep _) hlt

/-- C117: half of `epsilon` bounds the relative error of every operation whose result does not underflow. -/
theorem C117_relative {p : Nat} (hp : 1 ≤ p) {emin : Int} (h : Nearest p emin rn) {x : ℚ}
    (hx : 2 ^ p * 2 ^ emin ≤ 2 * |x|) : |x - rn x| ≤ epsilon p / 2 * |x| := by
  have e := rel_err_normal hp h hx
  have : unit p = epsilon p / 2 := by
    obtain ⟨q, rfl⟩ : ∃ q, p = q + 1 := ⟨p - 1, by omega⟩
    rw [unit, epsilon, Nat.add_sub_cancel, pow_succ]
    field_simp
  rwa [this] at e

-- `double`: the number after 1 is 1 + 2^-52
example : epsilon 53 = 1 / 2 ^ 52 ∧ Rep 53 (-1074) (1 + epsilon 53) ∧ epsilon 24 = 1 / 2 ^ 23 :=
  ⟨rfl, (C117_next (by norm_num) (by norm_num)).1, rfl⟩

end Spp.Props
