import Verif.Lemmas.Random
import Verif.Lemmas.Float
import Mathlib.Tactic.Linarith
import Mathlib.Tactic.NormNum
import Mathlib.Tactic.Positivity
import Mathlib.Tactic.FieldSimp

/-
The rounding errors of a semi-random floating-point number.
-/

namespace Spp.Semi

open Spec Spp.Lemmas

variable {p : Nat} {emin : Int} {rn : ℚ → ℚ}

theorem rep_int (hp : 24 ≤ p) (he : emin ≤ -p) {r : Int} (h0 : 0 ≤ r) (h1 : r ≤ 10000000) : Rep p emin (r : ℚ) := by
  refine rep_of_mult (by omega) (g := 0) ⟨r, by simp⟩ (by omega) ?_
  rw [zpow_zero, mul_one, abs_of_nonneg (by exact_mod_cast h0)]
  calc (r : ℚ) ≤ 10000000 := by exact_mod_cast h1
    _ ≤ 2 ^ 24 := by norm_num
    _ ≤ 2 ^ p := pow_le_pow_right₀ (by norm_num) hp

/-- The rounded quotient stays two units below one. -/
theorem quotient_le (hp : 24 ≤ p) (he : emin ≤ -p) (h : Nearest p emin rn) {x : ℚ} (h0 : 0 ≤ x)
    (hx : x ≤ 9999999 / 10000000) : rn x ≤ 1 - 2 * 2 ^ (-(p : Int)) := by
  have e1 : (2 : ℚ) ^ p * 2 ^ (-(p : Int)) = 1 := by
    rw [zpow_neg, zpow_natCast]; exact mul_inv_cancel₀ (by positivity)
  have hpos := two_zpow_pos (-(p : Int))
  have hbig : (2 : ℚ) ^ 24 ≤ 2 ^ p := pow_le_pow_right₀ (by norm_num) hp
  have hu : (2 : ℚ) ^ (-(p : Int)) ≤ 1 / 16777216 := by
    rw [zpow_neg, zpow_natCast, show (1 : ℚ) / 16777216 = (2 ^ 24)⁻¹ by norm_num]
    exact inv_anti₀ (by positivity) hbig
  have ry : Rep p emin (1 - 2 * 2 ^ (-(p : Int))) := by
    refine rep_of_mult (by omega) (g := -(p : Int)) ⟨2 ^ p - 2, ?_⟩ he ?_
    · push_cast; rw [sub_mul, e1]
    · rw [e1, abs_of_nonneg (by linarith)]; linarith
  by_cases hc : x ≤ 1 - 2 * 2 ^ (-(p : Int))
  · exact rn_le h ry hc
  · rw [not_le] at hc
    have hn := h.near x _ ry
    by_contra hgt
    rw [not_le] at hgt
    have hm : Mult (-(p : Int)) (rn x) := by
      refine mult_binade (h.rep x) (Or.inl ?_)
      rw [e1, abs_of_nonneg (by linarith)]
      linarith
    obtain ⟨k, hk⟩ := hm
    have hk2 : (2 ^ p - 2 : ℚ) < k := by
      by_contra hcon
      rw [not_lt] at hcon
      have := mul_le_mul_of_nonneg_right hcon hpos.le
      rw [sub_mul, e1, ← hk] at this
      linarith
    have hk3 : (2 ^ p - 1 : ℚ) ≤ k := by
      have : (2 ^ p - 2 : Int) < k := by exact_mod_cast hk2
      have : (2 ^ p - 1 : Int) ≤ k := by omega
      exact_mod_cast this
    have hw : 1 - 2 ^ (-(p : Int)) ≤ rn x := by
      have := mul_le_mul_of_nonneg_right hk3 hpos.le
      rw [sub_mul, e1, ← hk] at this
      linarith
    have g1 : rn x - x ≤ |x - rn x| := by rw [abs_sub_comm]; exact le_abs_self _
    rw [abs_of_pos (by linarith : 0 < x - (1 - 2 * 2 ^ (-(p : Int))))] at hn
    linarith

/-- A fraction of the rounded difference does not exceed the exact difference, when the fraction is two
units below one. -/
theorem scaled_le (hp : 1 ≤ p) (h : Nearest p emin rn) {low high q : ℚ} (hl : Rep p emin low)
    (hh : Rep p emin high) (hle : low ≤ high) (hq0 : 0 ≤ q) (hq : q ≤ 1 - 2 * 2 ^ (-(p : Int))) :
    0 ≤ rn (q * rn (high - low)) ∧ rn (q * rn (high - low)) ≤ high - low := by
  have e1 : (2 : ℚ) ^ p * 2 ^ (-(p : Int)) = 1 := by
    rw [zpow_neg, zpow_natCast]; exact mul_inv_cancel₀ (by positivity)
  have hpos := two_zpow_pos (-(p : Int))
  have hD : 0 ≤ high - low := by linarith
  have hd0 : 0 ≤ rn (high - low) := le_rn h rep_zero hD
  refine ⟨le_rn h rep_zero (mul_nonneg hq0 hd0), ?_⟩
  by_cases hc : rn (high - low) ≤ high - low
  · refine (rn_le h (h.rep (high - low)) ?_).trans hc
    calc q * rn (high - low) ≤ 1 * rn (high - low) := mul_le_mul_of_nonneg_right (by linarith) hd0
      _ = _ := one_mul _
  · rw [not_le] at hc
    obtain ⟨e, a1, a2, a3, a4⟩ := rep_binade (h.rep (high - low))
    rw [abs_of_nonneg hd0] at a3 a4
    have hpe := two_zpow_pos e
    rcases a4 with a4 | rfl
    · have hpred : Rep p emin (rn (high - low) - 2 ^ e) := by
        refine rep_of_mult hp (a2.sub ⟨1, by simp⟩) a1 ?_
        have : (2 : ℚ) ≤ 2 ^ p := by
          calc (2 : ℚ) = 2 ^ 1 := by norm_num
            _ ≤ 2 ^ p := pow_le_pow_right₀ (by norm_num) hp
        rw [abs_of_nonneg (by nlinarith)]
        nlinarith
      have hpl : rn (high - low) - 2 ^ e ≤ high - low := by
        by_contra hcon
        rw [not_le] at hcon
        have := h.near (high - low) _ hpred
        rw [abs_of_neg (by linarith), abs_of_neg (by linarith)] at this
        linarith
      refine (rn_le h hpred ?_).trans hpl
      have s1 : q * rn (high - low) ≤ (1 - 2 * 2 ^ (-(p : Int))) * rn (high - low) :=
        mul_le_mul_of_nonneg_right hq hd0
      have s2 : 2 ^ e ≤ 2 * 2 ^ (-(p : Int)) * rn (high - low) := by
        have := mul_le_mul_of_nonneg_left a4 hpos.le
        calc (2 : ℚ) ^ e = 2 ^ (-(p : Int)) * (2 ^ p * 2 ^ e) := by
              rw [← mul_assoc, mul_comm ((2 : ℚ) ^ (-(p : Int))), e1, one_mul]
          _ ≤ _ := this
          _ = _ := by ring
      linarith
    · exfalso
      have hr : Rep p e (high - low) := by
        refine rep_of_mult hp ((rep_mult hh).sub (rep_mult hl)) le_rfl ?_
        rw [abs_of_nonneg hD]
        nlinarith
      rw [rn_rep h hr] at hc
      exact lt_irrefl _ hc

end Spp.Semi
