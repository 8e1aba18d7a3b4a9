import Verif.Spec.Float
import Mathlib.Algebra.Order.Round
import Mathlib.Tactic.Linarith
import Mathlib.Tactic.Ring
import Mathlib.Tactic.Positivity
import Mathlib.Tactic.FieldSimp
import Mathlib.Data.Rat.Floor
import Mathlib.Algebra.Order.Archimedean.Basic

/-
Facts about floating-point numbers and rounding to nearest.
-/

namespace Spp.Lemmas

open Spp.Spec

/-- `x` is an integer multiple of `2^g`. -/
def Mult (g : Int) (x : ℚ) : Prop := ∃ k : Int, x = k * 2 ^ g

theorem two_zpow_pos (g : Int) : (0 : ℚ) < 2 ^ g := zpow_pos (by norm_num) g

theorem zpow_succ' (g : Int) : (2 : ℚ) ^ (g + 1) = 2 * 2 ^ g := by
  rw [zpow_add_one₀ (by norm_num)]; ring

theorem zpow_pred (g : Int) : (2 : ℚ) ^ (g - 1) = 2 ^ g / 2 := by
  rw [zpow_sub_one₀ (by norm_num)]; ring

theorem zpow_mono {g h : Int} (hg : g ≤ h) : (2 : ℚ) ^ g ≤ 2 ^ h :=
  zpow_le_zpow_right₀ (by norm_num) hg

theorem Mult.mono {g h : Int} {x : ℚ} (hx : Mult h x) (hg : g ≤ h) : Mult g x := by
  obtain ⟨k, rfl⟩ := hx
  refine ⟨k * 2 ^ (h - g).toNat, ?_⟩
  have e : (2 : ℚ) ^ h = 2 ^ (h - g).toNat * 2 ^ g := by
    rw [← zpow_natCast, ← zpow_add₀ (by norm_num)]
    congr 1; omega
  rw [e]; push_cast; ring

theorem Mult.add {g : Int} {x y : ℚ} (hx : Mult g x) (hy : Mult g y) : Mult g (x + y) := by
  obtain ⟨k, rfl⟩ := hx; obtain ⟨l, rfl⟩ := hy
  exact ⟨k + l, by push_cast; ring⟩

theorem Mult.neg {g : Int} {x : ℚ} (hx : Mult g x) : Mult g (-x) := by
  obtain ⟨k, rfl⟩ := hx
  exact ⟨-k, by push_cast; ring⟩

theorem Mult.sub {g : Int} {x y : ℚ} (hx : Mult g x) (hy : Mult g y) : Mult g (x - y) := by
  rw [sub_eq_add_neg]; exact hx.add hy.neg

theorem Mult.mul {g h : Int} {x y : ℚ} (hx : Mult g x) (hy : Mult h y) : Mult (g + h) (x * y) := by
  obtain ⟨k, rfl⟩ := hx; obtain ⟨l, rfl⟩ := hy
  refine ⟨k * l, ?_⟩
  rw [zpow_add₀ (by norm_num)]; push_cast; ring

theorem Mult.zero (g : Int) : Mult g 0 := ⟨0, by simp⟩

variable {p : Nat} {emin : Int}

theorem rep_neg {x : ℚ} (h : Rep p emin x) : Rep p emin (-x) := by
  obtain ⟨m, e, h1, h2, rfl⟩ := h
  exact ⟨-m, e, by rwa [abs_neg], h2, by push_cast; ring⟩

theorem rep_zero : Rep p emin 0 := ⟨0, emin, by simp, le_refl _, by simp⟩

/-- A multiple of `2^g` that is not too large is representable. -/
theorem rep_of_mult (hp : 1 ≤ p) {g : Int} {x : ℚ} (hx : Mult g x) (hg : emin ≤ g)
    (hb : |x| ≤ 2 ^ p * 2 ^ g) : Rep p emin x := by
  obtain ⟨k, rfl⟩ := hx
  have hk : |(k : ℚ)| ≤ 2 ^ p := by
    rw [abs_mul, abs_of_pos (two_zpow_pos g)] at hb
    exact le_of_mul_le_mul_right hb (two_zpow_pos g)
  have hk' : |k| ≤ 2 ^ p := by
    have : ((|k| : Int) : ℚ) ≤ ((2 ^ p : Int) : ℚ) := by push_cast; exact hk
    exact_mod_cast this
  rcases lt_or_eq_of_le hk' with h | h
  · exact ⟨k, g, h, hg, rfl⟩
  · obtain ⟨q, rfl⟩ : ∃ q, p = q + 1 := ⟨p - 1, by omega⟩
    have e2 : (2 : Int) ^ (q + 1) = 2 ^ q * 2 := pow_succ 2 q
    have hpos : (0 : Int) < 2 ^ q := Int.pow_pos (by decide)
    rcases abs_choice k with h' | h'
    · refine ⟨2 ^ q, g + 1, ?_, by omega, ?_⟩
      · rw [abs_of_pos hpos]; omega
      · have hkk : k = 2 ^ q * 2 := by rw [← h', h, e2]
        rw [hkk, zpow_succ']; push_cast; ring
    · refine ⟨-2 ^ q, g + 1, ?_, by omega, ?_⟩
      · rw [abs_neg, abs_of_pos hpos]; omega
      · have hkk : k = -(2 ^ q * 2) := by rw [← e2, ← h, h']; ring
        rw [hkk, zpow_succ']; push_cast; ring

theorem rep_mult {x : ℚ} (h : Rep p emin x) : Mult emin x := by
  obtain ⟨m, e, _, h2, rfl⟩ := h
  exact Mult.mono ⟨m, rfl⟩ h2

/-- Every number lies in a binade at or above the least one. -/
theorem binade (p : Nat) (emin : Int) (x : ℚ) :
    ∃ e, emin ≤ e ∧ |x| < 2 ^ p * 2 ^ e ∧ (2 ^ p * 2 ^ e ≤ 2 * |x| ∨ e = emin) := by
  have hex : ∃ n : Nat, |x| < 2 ^ p * 2 ^ (emin + n) := by
    obtain ⟨n, hn⟩ := pow_unbounded_of_one_lt (|x| / (2 ^ p * 2 ^ emin)) (by norm_num : (1 : ℚ) < 2)
    refine ⟨n, ?_⟩
    have hpos : (0 : ℚ) < 2 ^ p * 2 ^ emin := mul_pos (by positivity) (two_zpow_pos _)
    rw [div_lt_iff₀ hpos] at hn
    rw [zpow_add₀ (by norm_num), zpow_natCast]
    linarith
  classical
  obtain ⟨n, h1, h2⟩ : ∃ n : Nat, |x| < 2 ^ p * 2 ^ (emin + n) ∧
      ∀ m < n, ¬ |x| < 2 ^ p * 2 ^ (emin + (m : Nat)) :=
    ⟨Nat.find hex, Nat.find_spec hex, fun m hm => Nat.find_min hex hm⟩
  refine ⟨emin + n, by omega, h1, ?_⟩
  cases n with
  | zero => right; simp
  | succ n =>
      left
      have := h2 n (by omega)
      rw [not_lt] at this
      have e : emin + ((n + 1 : Nat) : Int) = (emin + n) + 1 := by push_cast; ring
      rw [e, zpow_succ']
      linarith

/-- A representable number is a multiple of the unit of its binade. -/
theorem mult_binade {x : ℚ} (h : Rep p emin x) {e : Int}
    (he : 2 ^ p * 2 ^ e ≤ 2 * |x| ∨ e = emin) : Mult e x := by
  rcases he with he | rfl
  · obtain ⟨m, e', h1, h2, rfl⟩ := h
    by_cases hle : e ≤ e'
    · exact Mult.mono ⟨m, rfl⟩ hle
    · exfalso
      have hm : |(m : ℚ)| < 2 ^ p := by
        have : ((|m| : Int) : ℚ) < ((2 ^ p : Int) : ℚ) := by exact_mod_cast h1
        push_cast at this; exact this
      rw [abs_mul, abs_of_pos (two_zpow_pos e')] at he
      have h3 : (2 : ℚ) * 2 ^ e' ≤ 2 ^ e := by rw [← zpow_succ']; exact zpow_mono (by omega)
      have h4 : |(m : ℚ)| * 2 ^ e' < 2 ^ p * 2 ^ e' := mul_lt_mul_of_pos_right hm (two_zpow_pos _)
      have h5 : (2 : ℚ) ^ p * (2 * 2 ^ e') ≤ 2 ^ p * 2 ^ e :=
        mul_le_mul_of_nonneg_left h3 (by positivity)
      linarith
  · exact rep_mult h

/-- The binade of a representable number, with the bound for its digits. -/
theorem rep_binade {x : ℚ} (h : Rep p emin x) :
    ∃ e, emin ≤ e ∧ Mult e x ∧ |x| ≤ (2 ^ p - 1) * 2 ^ e ∧
      (2 ^ p * 2 ^ e ≤ 2 * |x| ∨ e = emin) := by
  obtain ⟨e, h1, h2, h3⟩ := binade p emin x
  have hm := mult_binade h h3
  refine ⟨e, h1, hm, ?_, h3⟩
  obtain ⟨k, rfl⟩ := hm
  rw [abs_mul, abs_of_pos (two_zpow_pos e)] at h2 ⊢
  have h4 : |(k : ℚ)| < 2 ^ p := lt_of_mul_lt_mul_right h2 (two_zpow_pos e).le
  have h5 : |k| < 2 ^ p := by
    have : ((|k| : Int) : ℚ) < ((2 ^ p : Int) : ℚ) := by push_cast; exact h4
    exact_mod_cast this
  have h6 : |(k : ℚ)| ≤ 2 ^ p - 1 := by
    have : ((|k| : Int) : ℚ) ≤ ((2 ^ p - 1 : Int) : ℚ) := by exact_mod_cast (by omega : |k| ≤ 2 ^ p - 1)
    push_cast at this; exact this
  exact mul_le_mul_of_nonneg_right h6 (two_zpow_pos e).le

variable {rn : ℚ → ℚ}

theorem rn_rep (h : Nearest p emin rn) {x : ℚ} (hx : Rep p emin x) : rn x = x := by
  have := h.near x x hx
  rw [sub_self, abs_zero] at this
  have := abs_nonpos_iff.1 this
  linarith

theorem rn_le (h : Nearest p emin rn) {x y : ℚ} (hy : Rep p emin y) (hxy : x ≤ y) : rn x ≤ y := by
  by_contra hc
  rw [not_le] at hc
  have := h.near x y hy
  rw [abs_of_nonpos (by linarith), abs_of_nonpos (by linarith)] at this
  linarith

theorem le_rn (h : Nearest p emin rn) {x y : ℚ} (hy : Rep p emin y) (hxy : y ≤ x) : y ≤ rn x := by
  by_contra hc
  rw [not_le] at hc
  have := h.near x y hy
  rw [abs_of_nonneg (by linarith), abs_of_nonneg (by linarith)] at this
  linarith

theorem abs_rn_le (h : Nearest p emin rn) {x y : ℚ} (hy : Rep p emin y) (hxy : |x| ≤ y) :
    |rn x| ≤ y := by
  rw [abs_le] at hxy ⊢
  exact ⟨le_rn h (rep_neg hy) hxy.1, rn_le h hy hxy.2⟩

theorem le_abs_rn (h : Nearest p emin rn) {x y : ℚ} (hy : Rep p emin y) (hxy : y ≤ |x|) :
    y ≤ |rn x| := by
  rcases le_abs.1 hxy with h' | h'
  · exact (le_rn h hy h').trans (le_abs_self _)
  · have := rn_le h (rep_neg hy) (show x ≤ -y by linarith)
    exact (by linarith : y ≤ -rn x).trans (neg_le_abs _)

theorem rep_pow {p : Nat} (hp : 1 ≤ p) {emin e : Int} (he : emin ≤ e) :
    Rep p emin (2 ^ p * 2 ^ e) := by
  refine rep_of_mult hp ⟨2 ^ p, by push_cast; ring⟩ he ?_
  rw [abs_of_pos (mul_pos (by positivity) (two_zpow_pos _))]

theorem rep_half_pow {p : Nat} (hp : 1 ≤ p) {emin e : Int} (he : emin ≤ e) :
    Rep p emin (2 ^ p * 2 ^ e / 2) := by
  obtain ⟨q, rfl⟩ : ∃ q, p = q + 1 := ⟨p - 1, by omega⟩
  refine ⟨2 ^ q, e, ?_, he, ?_⟩
  · have hpos : (0 : Int) < 2 ^ q := Int.pow_pos (by decide)
    rw [abs_of_pos hpos, pow_succ]; omega
  · rw [pow_succ]; push_cast; ring

/-- The error of rounding is at most half a unit of the binade. -/
theorem near_half (hp : 1 ≤ p) (h : Nearest p emin rn) {e : Int} (he : emin ≤ e) {x : ℚ}
    (hx : |x| ≤ 2 ^ p * 2 ^ e) : |x - rn x| ≤ 2 ^ e / 2 := by
  have hpos := two_zpow_pos e
  have hb : |x / 2 ^ e| ≤ 2 ^ p := by
    rw [abs_div, abs_of_pos hpos, div_le_iff₀ hpos]; exact hx
  have hr := abs_sub_round (x / 2 ^ e)
  have hrb : |(round (x / 2 ^ e) : ℚ)| ≤ 2 ^ p := by
    have h1 : |(round (x / 2 ^ e) : ℚ)| ≤ 2 ^ p + 1 / 2 := by
      have := abs_sub_abs_le_abs_sub ((round (x / 2 ^ e) : ℚ)) (x / 2 ^ e)
      rw [abs_sub_comm] at this
      linarith
    have h2 : ((|round (x / 2 ^ e)| : Int) : ℚ) < ((2 ^ p + 1 : Int) : ℚ) := by
      push_cast; linarith
    have h3 : |round (x / 2 ^ e)| ≤ 2 ^ p := by
      have : |round (x / 2 ^ e)| < 2 ^ p + 1 := by exact_mod_cast h2
      omega
    have : ((|round (x / 2 ^ e)| : Int) : ℚ) ≤ ((2 ^ p : Int) : ℚ) := by exact_mod_cast h3
    push_cast at this; exact this
  have hy : Rep p emin ((round (x / 2 ^ e) : ℚ) * 2 ^ e) := by
    refine rep_of_mult hp ⟨_, rfl⟩ he ?_
    rw [abs_mul, abs_of_pos hpos]
    exact mul_le_mul_of_nonneg_right hrb hpos.le
  refine (h.near x _ hy).trans ?_
  have e1 : x - (round (x / 2 ^ e) : ℚ) * 2 ^ e = (x / 2 ^ e - round (x / 2 ^ e)) * 2 ^ e := by
    field_simp
  rw [e1, abs_mul, abs_of_pos hpos]
  have := mul_le_mul_of_nonneg_right hr hpos.le
  linarith

/-- Rounding a multiple of `2^g` gives a multiple of `2^g`. -/
theorem mult_rn (hp : 1 ≤ p) (h : Nearest p emin rn) {g : Int} (hg : emin ≤ g) {x : ℚ}
    (hx : Mult g x) : Mult g (rn x) := by
  obtain ⟨e, h1, h2, h3⟩ := binade p emin x
  by_cases hle : e ≤ g
  · have : Rep p emin x := rep_of_mult hp hx hg
      (h2.le.trans (mul_le_mul_of_nonneg_left (zpow_mono hle) (by positivity)))
    rw [rn_rep h this]; exact hx
  · have h3' : 2 ^ p * 2 ^ e ≤ 2 * |x| := by
      rcases h3 with h3 | h3
      · exact h3
      · omega
    have h4 : 2 ^ p * 2 ^ e / 2 ≤ |rn x| := le_abs_rn h (rep_half_pow hp h1) (by linarith)
    exact (mult_binade (h.rep x) (Or.inl (by linarith))).mono (by omega)

/-- The rounding error of a sum of two floating-point numbers is a floating-point number. -/
theorem rep_err (hp : 1 ≤ p) (h : Nearest p emin rn) {a b : ℚ} (ha : Rep p emin a)
    (hb : Rep p emin b) : Rep p emin (a + b - rn (a + b)) := by
  obtain ⟨ea, a1, a2, a3, -⟩ := rep_binade ha
  obtain ⟨eb, b1, b2, b3, -⟩ := rep_binade hb
  have key : ∀ g : Int, emin ≤ g → Mult g a → Mult g b →
      |a + b - rn (a + b)| ≤ (2 ^ p - 1) * 2 ^ g → Rep p emin (a + b - rn (a + b)) := by
    intro g hg hma hmb hbd
    refine rep_of_mult hp ((hma.add hmb).sub (mult_rn hp h hg (hma.add hmb))) hg (hbd.trans ?_)
    exact mul_le_mul_of_nonneg_right (by linarith) (two_zpow_pos g).le
  rcases le_total ea eb with hle | hle
  · refine key ea a1 a2 (b2.mono hle) ?_
    have := h.near (a + b) b hb
    rw [add_sub_cancel_right] at this
    exact this.trans a3
  · refine key eb b1 (a2.mono hle) b2 ?_
    have := h.near (a + b) a ha
    rw [add_sub_cancel_left] at this
    exact this.trans b3

/-- The difference between the rounded sum and the larger operand is a floating-point number. -/
theorem rep_fast (hp : 1 ≤ p) (h : Nearest p emin rn) {a b : ℚ} (ha : Rep p emin a)
    (hb : Rep p emin b) (hab : |b| ≤ |a|) : Rep p emin (rn (a + b) - a) := by
  obtain ⟨ea, a1, a2, a3, a4⟩ := rep_binade ha
  obtain ⟨eb, b1, b2, b3, b4⟩ := rep_binade hb
  have pe : (1 : ℚ) ≤ 2 ^ p := one_le_pow₀ (by norm_num)
  have hp2 : (2 : ℚ) ≤ 2 ^ p := by
    calc (2 : ℚ) = 2 ^ 1 := by norm_num
      _ ≤ 2 ^ p := pow_le_pow_right₀ (by norm_num) hp
  have hle : eb ≤ ea := by
    by_contra hc
    rcases b4 with b4 | b4
    · have h1 : (2 : ℚ) * 2 ^ ea ≤ 2 ^ eb := by rw [← zpow_succ']; exact zpow_mono (by omega)
      have h2 := mul_le_mul_of_nonneg_left h1 (by positivity : (0 : ℚ) ≤ 2 ^ p)
      have h3 := two_zpow_pos ea
      nlinarith
    · omega
  obtain ⟨es, s1, s2, s3⟩ := binade p emin (a + b)
  by_cases hes : es ≤ eb
  · have : Rep p emin (a + b) := rep_of_mult hp ((a2.mono hle).add b2) b1
      (s2.le.trans (mul_le_mul_of_nonneg_left (zpow_mono hes) (by positivity)))
    rw [rn_rep h this, add_sub_cancel_left]; exact hb
  · have s3' : 2 ^ p * 2 ^ es ≤ 2 * |a + b| := by
      rcases s3 with s3 | s3
      · exact s3
      · omega
    have hs : Mult es (rn (a + b)) := by
      have h4 : 2 ^ p * 2 ^ es / 2 ≤ |rn (a + b)| := le_abs_rn h (rep_half_pow hp s1) (by linarith)
      exact mult_binade (h.rep _) (Or.inl (by linarith))
    have herr := near_half hp h s1 s2.le
    have htri : |rn (a + b) - a| ≤ |b| + |a + b - rn (a + b)| := by
      have e : rn (a + b) - a = b - (a + b - rn (a + b)) := by ring
      rw [e]; exact abs_sub _ _
    by_cases hsa : es ≤ ea
    · refine rep_of_mult hp (hs.sub (a2.mono hsa)) s1 (htri.trans ?_)
      have h1 : (2 : ℚ) * 2 ^ eb ≤ 2 ^ es := by rw [← zpow_succ']; exact zpow_mono (by omega)
      have h2 := mul_le_mul_of_nonneg_left h1 (by linarith : (0 : ℚ) ≤ 2 ^ p - 1)
      have h3 := two_zpow_pos es
      nlinarith
    · refine rep_of_mult hp ((hs.mono (by omega)).sub a2) a1 (htri.trans ?_)
      have hbd : |a + b| ≤ 2 * |a| := (abs_add_le a b).trans (by linarith)
      have hes' : es = ea + 1 := by
        by_contra hne
        have h1 : (4 : ℚ) * 2 ^ ea ≤ 2 ^ es := by
          have : (2 : ℚ) ^ (ea + 1 + 1) ≤ 2 ^ es := zpow_mono (by omega)
          rw [zpow_succ', zpow_succ'] at this; linarith
        have h2 := mul_le_mul_of_nonneg_left h1 (by positivity : (0 : ℚ) ≤ 2 ^ p)
        have h3 := two_zpow_pos ea
        nlinarith
      rw [hes', zpow_succ'] at herr
      have : |b| ≤ (2 ^ p - 1) * 2 ^ ea := hab.trans a3
      nlinarith [two_zpow_pos ea]

/-- Rounding a multiple of the least unit has a small relative error. -/
theorem rel_err (hp : 1 ≤ p) (h : Nearest p emin rn) {x : ℚ} (hx : Mult emin x) :
    |x - rn x| ≤ unit p * |x| := by
  obtain ⟨e, h1, h2, h3⟩ := binade p emin x
  have hu : unit p * 2 ^ p = 1 := inv_mul_cancel₀ (by positivity)
  have hup : 0 < unit p := inv_pos.2 (by positivity)
  rcases h3 with h3 | rfl
  · refine (near_half hp h h1 h2.le).trans ?_
    have := mul_le_mul_of_nonneg_left h3 hup.le
    rw [← mul_assoc, hu, one_mul] at this
    linarith
  · have : Rep p e x := rep_of_mult hp hx (le_refl _) h2.le
    rw [rn_rep h this, sub_self, abs_zero]
    positivity

/-- The number nearest to `x` among the multiples of `2^e`. -/
theorem near_point (hp : 1 ≤ p) {e : Int} {x : ℚ} (hb : |x| < 2 ^ p * 2 ^ e) :
    |(round (x / 2 ^ e) : ℚ) * 2 ^ e| ≤ 2 ^ p * 2 ^ e ∧
    (∀ k : Int, |x - (round (x / 2 ^ e) : ℚ) * 2 ^ e| ≤ |x - k * 2 ^ e|) ∧
    (2 ^ p * 2 ^ e ≤ 2 * |x| → ∀ m e' : Int, |m| < 2 ^ p → e' < e →
      |x - (round (x / 2 ^ e) : ℚ) * 2 ^ e| ≤ |x - m * 2 ^ e'|) := by
  have hpos := two_zpow_pos e
  have hk : ∀ k : Int, |x - (round (x / 2 ^ e) : ℚ) * 2 ^ e| ≤ |x - k * 2 ^ e| := by
    intro k
    have e1 : ∀ j : Int, x - (j : ℚ) * 2 ^ e = (x / 2 ^ e - j) * 2 ^ e := by
      intro j; field_simp
    rw [e1, e1, abs_mul, abs_mul, abs_of_pos hpos]
    exact mul_le_mul_of_nonneg_right (round_le _ _) hpos.le
  refine ⟨?_, hk, fun h3 m e' m1 hlt => ?_⟩
  · rw [abs_mul, abs_of_pos hpos]
    refine mul_le_mul_of_nonneg_right ?_ hpos.le
    have hb : |x / 2 ^ e| < 2 ^ p := by
      rw [abs_div, abs_of_pos hpos, div_lt_iff₀ hpos]; exact hb
    have hr := abs_sub_round (x / 2 ^ e)
    have h4 : |(round (x / 2 ^ e) : ℚ)| < 2 ^ p + 1 := by
      have := abs_sub_abs_le_abs_sub ((round (x / 2 ^ e) : ℚ)) (x / 2 ^ e)
      rw [abs_sub_comm] at this
      linarith
    have h5 : ((|round (x / 2 ^ e)| : Int) : ℚ) < ((2 ^ p + 1 : Int) : ℚ) := by
      push_cast; exact h4
    have h6 : |round (x / 2 ^ e)| < 2 ^ p + 1 := by exact_mod_cast h5
    have h7 : ((|round (x / 2 ^ e)| : Int) : ℚ) ≤ ((2 ^ p : Int) : ℚ) := by
      exact_mod_cast (by omega : |round (x / 2 ^ e)| ≤ 2 ^ p)
    push_cast at h7; exact h7
  · have hm' : |(m : ℚ)| < 2 ^ p := by
      have : ((|m| : Int) : ℚ) < ((2 ^ p : Int) : ℚ) := by exact_mod_cast m1
      push_cast at this; exact this
    have hyb : |(m : ℚ) * 2 ^ e'| ≤ 2 ^ p * 2 ^ e / 2 := by
      rw [abs_mul, abs_of_pos (two_zpow_pos e')]
      have h5 : (2 : ℚ) * 2 ^ e' ≤ 2 ^ e := by rw [← zpow_succ']; exact zpow_mono (by omega)
      have h6 := mul_le_mul_of_nonneg_right hm'.le (two_zpow_pos e').le
      have h7 := mul_le_mul_of_nonneg_left h5 (by positivity : (0 : ℚ) ≤ 2 ^ p)
      linarith
    generalize (m : ℚ) * 2 ^ e' = y at *
    obtain ⟨q, rfl⟩ : ∃ q, p = q + 1 := ⟨p - 1, by omega⟩
    have ew : (2 : ℚ) ^ (q + 1) * 2 ^ e / 2 = ((2 ^ q : Int) : ℚ) * 2 ^ e := by
      rw [pow_succ]; push_cast; ring
    rw [ew] at hyb
    have hwx : ((2 ^ q : Int) : ℚ) * 2 ^ e ≤ |x| := by rw [← ew]; linarith
    have htri := abs_sub_abs_le_abs_sub x y
    rcases abs_choice x with hx | hx
    · have := hk (2 ^ q)
      rw [abs_of_nonneg (show 0 ≤ x - ((2 ^ q : Int) : ℚ) * 2 ^ e by linarith)] at this
      linarith
    · have := hk (-2 ^ q)
      have e2 : x - ((-2 ^ q : Int) : ℚ) * 2 ^ e = x + ((2 ^ q : Int) : ℚ) * 2 ^ e := by
        push_cast; ring
      rw [e2, abs_of_nonpos (show x + ((2 ^ q : Int) : ℚ) * 2 ^ e ≤ 0 by linarith)] at this
      linarith

/-- Rounding to nearest exists for every precision and least exponent. -/
theorem exists_nearest (hp : 1 ≤ p) (emin : Int) : ∃ rn, Nearest p emin rn := by
  choose e h1 h2 h3 using binade p emin
  refine ⟨fun x => (round (x / 2 ^ e x) : ℚ) * 2 ^ e x, fun x => ?_, fun x y hy => ?_⟩
  · exact rep_of_mult hp ⟨_, rfl⟩ (h1 x) (near_point hp (h2 x)).1
  · show |x - (round (x / 2 ^ e x) : ℚ) * 2 ^ e x| ≤ |x - y|
    obtain ⟨-, n2, n3⟩ := near_point hp (h2 x)
    by_cases hm : Mult (e x) y
    · obtain ⟨k, rfl⟩ := hm
      exact n2 k
    · obtain ⟨m, e', m1, m2, rfl⟩ := hy
      have hlt : e' < e x := by
        by_contra hc
        exact hm (Mult.mono ⟨m, rfl⟩ (by omega))
      refine n3 ?_ m e' m1 hlt
      rcases h3 x with h | h
      · exact h
      · omega

/-! ### No least exponent -/

theorem repX_of_rep {x : ℚ} (h : Rep p emin x) : RepX p x := by
  obtain ⟨m, e, h1, _, h3⟩ := h
  exact ⟨m, e, h1, h3⟩

theorem rep_of_repX {x : ℚ} (h : RepX p x) (hm : Mult emin x) : Rep p emin x := by
  obtain ⟨m, e, h1, rfl⟩ := h
  by_cases hle : emin ≤ e
  · exact ⟨m, e, h1, hle, rfl⟩
  · obtain ⟨k, hk⟩ := hm
    refine ⟨k, emin, ?_, le_refl _, hk⟩
    have e1 : |(m : ℚ)| * 2 ^ e = |(k : ℚ)| * 2 ^ emin := by
      have := congrArg abs hk
      rwa [abs_mul, abs_mul, abs_of_pos (two_zpow_pos e), abs_of_pos (two_zpow_pos emin)] at this
    have e2 : (2 : ℚ) ^ e ≤ 2 ^ emin := zpow_mono (by omega)
    have hm' : |(m : ℚ)| < 2 ^ p := by
      have : ((|m| : Int) : ℚ) < ((2 ^ p : Int) : ℚ) := by exact_mod_cast h1
      push_cast at this; exact this
    have h5 : |(k : ℚ)| * 2 ^ emin < 2 ^ p * 2 ^ emin := by
      rw [← e1]
      exact (mul_lt_mul_of_pos_right hm' (two_zpow_pos e)).trans_le
        (mul_le_mul_of_nonneg_left e2 (by positivity))
    have h6 := lt_of_mul_lt_mul_right h5 (two_zpow_pos emin).le
    have : ((|k| : Int) : ℚ) < ((2 ^ p : Int) : ℚ) := by push_cast; exact h6
    exact_mod_cast this

/-- Where nothing underflows, arithmetic without a least exponent agrees with arithmetic that has
one. -/
theorem transfer (hp : 1 ≤ p) {rx : ℚ → ℚ} (h : NearestX p rx) (emin : Int) :
    ∃ rn, Nearest p emin rn ∧ ∀ v, Mult emin v → rn v = rx v := by
  classical
  obtain ⟨r0, h0⟩ := exists_nearest hp emin
  -- rounding a multiple of the unit gives a multiple of the unit
  have hmult : ∀ v, Mult emin v → Mult emin (rx v) := by
    intro v hv
    obtain ⟨e, h1, h2, h3⟩ := binade p emin v
    rcases h3 with h3 | rfl
    · obtain ⟨m, e', m1, m2⟩ := h.rep v
      by_cases hle : emin ≤ e'
      · exact Mult.mono ⟨m, m2⟩ hle
      · exfalso
        -- the result would be smaller than `2^(p-1) 2^e`
        have hw := h.near v
        have hm' : |(m : ℚ)| < 2 ^ p := by
          have : ((|m| : Int) : ℚ) < ((2 ^ p : Int) : ℚ) := by exact_mod_cast m1
          push_cast at this; exact this
        have hsmall : |rx v| < 2 ^ p * 2 ^ e / 2 := by
          rw [m2, abs_mul, abs_of_pos (two_zpow_pos e')]
          have h5 : (2 : ℚ) * 2 ^ e' ≤ 2 ^ e := by rw [← zpow_succ']; exact zpow_mono (by omega)
          have h6 := mul_lt_mul_of_pos_right hm' (two_zpow_pos e')
          have h7 := mul_le_mul_of_nonneg_left h5 (by positivity : (0 : ℚ) ≤ 2 ^ p)
          linarith
        have hr := repX_of_rep (rep_half_pow (emin := emin) hp h1)
        have hr' := repX_of_rep (rep_neg (rep_half_pow (emin := emin) hp h1))
        have hlow : |v| - |rx v| ≤ |v - rx v| := abs_sub_abs_le_abs_sub _ _
        have hpos : 0 < (2 : ℚ) ^ p * 2 ^ e := mul_pos (by positivity) (two_zpow_pos e)
        rcases abs_choice v with hv' | hv'
        · have := hw _ hr
          rw [abs_of_nonneg (show 0 ≤ v - 2 ^ p * 2 ^ e / 2 by linarith)] at this
          linarith
        · have := hw _ hr'
          rw [abs_of_nonpos (show v - -(2 ^ p * 2 ^ e / 2) ≤ 0 by linarith)] at this
          linarith
    · have hr := rep_of_mult hp hv (le_refl _) h2.le
      have := h.near v v (repX_of_rep hr)
      rw [sub_self, abs_zero] at this
      have : rx v = v := by linarith [abs_nonpos_iff.1 this]
      rw [this]; exact hv
  obtain ⟨f, f1, f2⟩ : ∃ f : ℚ → ℚ, (∀ v, Mult emin v → f v = rx v) ∧
      ∀ v, ¬ Mult emin v → f v = r0 v :=
    ⟨fun v => if Mult emin v then rx v else r0 v, fun v hv => if_pos hv, fun v hv => if_neg hv⟩
  refine ⟨f, ⟨fun v => ?_, fun v y hy => ?_⟩, f1⟩
  · by_cases hv : Mult emin v
    · rw [f1 v hv]; exact rep_of_repX (h.rep v) (hmult v hv)
    · rw [f2 v hv]; exact h0.rep v
  · by_cases hv : Mult emin v
    · rw [f1 v hv]; exact h.near v y (repX_of_rep hy)
    · rw [f2 v hv]; exact h0.near v y hy

/-- Every number of the format is a multiple of some unit. -/
theorem repX_mult {x : ℚ} (h : RepX p x) : ∃ e, Mult e x := by
  obtain ⟨m, e, _, rfl⟩ := h
  exact ⟨e, m, rfl⟩

/-- Finitely many numbers of the format have a common unit, as small as one likes. -/
theorem repX_common {l : List ℚ} (h : ∀ x ∈ l, RepX p x) (g : Int) : ∃ e ≤ g, ∀ x ∈ l, Mult e x := by
  induction l with
  | nil => exact ⟨g, le_refl _, by simp⟩
  | cons x l ih =>
    obtain ⟨e, he, h1⟩ := ih fun y hy => h y (List.mem_cons_of_mem _ hy)
    obtain ⟨e', h2⟩ := repX_mult (h x (List.mem_cons_self ..))
    refine ⟨min e e', by omega, fun y hy => ?_⟩
    rcases List.mem_cons.1 hy with rfl | hy
    · exact h2.mono (by omega)
    · exact (h1 y hy).mono (by omega)

/-- Without a least exponent rounding always has a small relative error. -/
theorem rel_errX (hp : 1 ≤ p) {rx : ℚ → ℚ} (h : NearestX p rx) (x : ℚ) :
    |x - rx x| ≤ unit p * |x| := by
  by_cases hx : x = 0
  · subst hx
    have := h.near 0 0 ⟨0, 0, by simp, by simp⟩
    simpa using this
  · -- a binade of `x`
    have hpos : 0 < |x| := abs_pos.2 hx
    obtain ⟨n, hn⟩ := exists_nat_gt (2 ^ p / |x|)
    have hn' : 2 ^ p * (2 : ℚ) ^ (-(n : Int)) ≤ |x| := by
      have h1 : (n : ℚ) < 2 ^ n := by exact_mod_cast Nat.lt_two_pow_self
      rw [div_lt_iff₀ hpos] at hn
      rw [zpow_neg, zpow_natCast, ← div_eq_mul_inv, div_le_iff₀ (by positivity)]
      have := mul_le_mul_of_nonneg_right h1.le hpos.le
      linarith
    obtain ⟨e, h1, h2, h3⟩ := binade p (-(n : Int)) x
    have h3' : 2 ^ p * 2 ^ e ≤ 2 * |x| := by
      rcases h3 with h3 | h3
      · exact h3
      · rw [h3]; linarith
    have hu : unit p * 2 ^ p = 1 := inv_mul_cancel₀ (by positivity)
    have hup : 0 < unit p := inv_pos.2 (by positivity)
    have hne : |x - rx x| ≤ 2 ^ e / 2 := by
      obtain ⟨n1, -, -⟩ := near_point hp h2
      have hr := repX_of_rep (rep_of_mult (emin := e) hp ⟨_, rfl⟩ (le_refl _) n1)
      refine (h.near x _ hr).trans ?_
      have hpe := two_zpow_pos e
      have e1 : x - (round (x / 2 ^ e) : ℚ) * 2 ^ e = (x / 2 ^ e - round (x / 2 ^ e)) * 2 ^ e := by
        field_simp
      rw [e1, abs_mul, abs_of_pos hpe]
      have := mul_le_mul_of_nonneg_right (abs_sub_round (x / 2 ^ e)) hpe.le
      linarith
    have := mul_le_mul_of_nonneg_left h3' hup.le
    rw [← mul_assoc, hu, one_mul] at this
    linarith

/-- Rounding without a least exponent exists. -/
theorem exists_nearestX (hp : 1 ≤ p) : ∃ rx, NearestX p rx := by
  have hex : ∀ x : ℚ, ∃ y, RepX p y ∧ ∀ z, RepX p z → |x - y| ≤ |x - z| := by
    intro x
    by_cases hx : x = 0
    · exact ⟨0, ⟨0, 0, by simp, by simp⟩, fun z _ => by subst hx; simp⟩
    · have hpos : 0 < |x| := abs_pos.2 hx
      obtain ⟨n, hn⟩ := exists_nat_gt (2 ^ p / |x|)
      have hn' : 2 ^ p * (2 : ℚ) ^ (-(n : Int)) ≤ |x| := by
        have h1 : (n : ℚ) < 2 ^ n := by exact_mod_cast Nat.lt_two_pow_self
        rw [div_lt_iff₀ hpos] at hn
        rw [zpow_neg, zpow_natCast, ← div_eq_mul_inv, div_le_iff₀ (by positivity)]
        have := mul_le_mul_of_nonneg_right h1.le hpos.le
        linarith
      obtain ⟨e, h1, h2, h3⟩ := binade p (-(n : Int)) x
      have h3' : 2 ^ p * 2 ^ e ≤ 2 * |x| := by
        rcases h3 with h3 | h3
        · exact h3
        · rw [h3]; linarith
      obtain ⟨n1, n2, n3⟩ := near_point hp h2
      refine ⟨_, repX_of_rep (rep_of_mult (emin := e) hp ⟨_, rfl⟩ (le_refl _) n1), fun z hz => ?_⟩
      obtain ⟨m, e', m1, rfl⟩ := hz
      by_cases hlt : e' < e
      · exact n3 h3' m e' m1 hlt
      · obtain ⟨k, hk⟩ := Mult.mono (g := e) (h := e') ⟨m, rfl⟩ (by omega)
        rw [hk]; exact n2 k
  choose f h1 h2 using hex
  exact ⟨f, h1, h2⟩

end Spp.Lemmas
