import Verif.Lemmas.Float
import Mathlib.Tactic.NormNum

/-
Properties of the error-free transformations `two_sums` (C11) and `two_prods` (C12).
-/

namespace Spp.Props
open Spec Lemmas

variable {p : Nat} {emin : Int} {rn : ℚ → ℚ} {pow : ℚ → ℚ → ℚ} {sqrt : ℚ → ℚ}

/-- C11: for every two floating-point numbers, `two_sums(x, y)` returns the rounded sum `r` and a
floating-point number `s` such that `r + s` is exactly `x + y`. -/
theorem C11_two_sum (hp : 2 ≤ p) (h : Nearest p emin rn) {x y : ℚ} (hx : Rep p emin x)
    (hy : Rep p emin y) :
    ∃ r s, (rounded rn pow sqrt).twoSums x y = .ok (r, s) ∧ r = rn (x + y) ∧ r + s = x + y ∧
      Rep p emin s := by
  have hp1 : 1 ≤ p := by omega
  have herr := rep_err hp1 h hx hy
  have hs := h.rep (x + y)
  refine ⟨rn (x + y), x + y - rn (x + y), ?_, rfl, by ring, herr⟩
  show (Res.ok (rn (x + y), rn (rn (x - rn (rn (x + y) - rn (rn (x + y) - x))) +
    rn (y - rn (rn (x + y) - x)))) : Res (ℚ × ℚ)) = _
  congr 2
  by_cases hxy : |y| ≤ |x|
  · -- the first operand dominates
    rw [rn_rep h (rep_fast hp1 h hx hy hxy), sub_sub_cancel, rn_rep h hx, sub_self,
      rn_rep h rep_zero, zero_add]
    have e : y - (rn (x + y) - x) = x + y - rn (x + y) := by ring
    rw [e, rn_rep h herr, rn_rep h herr]
  · rw [not_le] at hxy
    obtain ⟨ea, a1, a2, a3, a4⟩ := rep_binade hx
    obtain ⟨eb, b1, b2, b3, b4⟩ := rep_binade hy
    have pe : (4 : ℚ) ≤ 2 ^ p := by
      calc (4 : ℚ) = 2 ^ 2 := by norm_num
        _ ≤ 2 ^ p := pow_le_pow_right₀ (by norm_num) hp
    have hle : ea ≤ eb := by
      by_contra hc
      rcases a4 with a4 | a4
      · have h1 : (2 : ℚ) * 2 ^ eb ≤ 2 ^ ea := by rw [← zpow_succ']; exact zpow_mono (by omega)
        have h2 := mul_le_mul_of_nonneg_left h1 (by positivity : (0 : ℚ) ≤ 2 ^ p)
        have h3 := two_zpow_pos eb
        nlinarith
      · omega
    by_cases hsx : |x| ≤ |rn (x + y)|
    · -- the rounded sum dominates the first operand
      have f1 := rep_fast hp1 h hs (rep_neg hx) (by rwa [abs_neg])
      have f2 := rep_err hp1 h hs (rep_neg hx)
      rw [← sub_eq_add_neg] at f1 f2
      generalize hz : rn (rn (x + y) - x) = z at *
      have hrz : rn (rn (x + y) - z) = rn (x + y) - z := by
        have := rep_neg f1
        rw [neg_sub] at this
        exact rn_rep h this
      have hxrz : rn (x - (rn (x + y) - z)) = x - (rn (x + y) - z) := by
        have := rep_neg f2
        rw [show -(rn (x + y) - x - z) = x - (rn (x + y) - z) by ring] at this
        exact rn_rep h this
      have hyz : rn (y - z) = y - z := by
        refine rn_rep h ?_
        have hb1 : |x + y| ≤ 2 ^ p * 2 ^ (eb + 1) := by
          have := abs_add_le x y
          rw [zpow_succ']
          have := two_zpow_pos eb
          nlinarith
        have hd := near_half hp1 h (by omega : emin ≤ eb + 1) hb1
        rw [zpow_succ'] at hd
        have hw : rn (x + y) - x = y - (x + y - rn (x + y)) := by ring
        have hb2 : |rn (x + y) - x| ≤ 2 ^ p * 2 ^ eb := by
          rw [hw]
          refine (abs_sub _ _).trans ?_
          linarith
        have hd2 := near_half hp1 h b1 hb2
        rw [hz] at hd2
        have hyzb : |y - z| ≤ 3 * (2 ^ eb / 2) := by
          have e : y - z = (x + y - rn (x + y)) + (rn (x + y) - x - z) := by ring
          rw [e]
          refine (abs_add_le _ _).trans ?_
          linarith
        rcases b4 with b4 | b4
        · by_cases hbe : eb = emin
          · refine rep_of_mult hp1 (b2.sub ?_) b1 ?_
            · rw [hbe, ← hz]; exact rep_mult (h.rep _)
            · have := two_zpow_pos eb
              nlinarith
          · have hlow : 2 ^ p * 2 ^ (eb - 1) / 2 ≤ |rn (x + y) - x| := by
              have e3 : |y| - |x + y - rn (x + y)| ≤ |rn (x + y) - x| := by
                rw [hw]; exact abs_sub_abs_le_abs_sub _ _
              rw [zpow_pred]
              have := two_zpow_pos eb
              nlinarith
            have hzb : 2 ^ p * 2 ^ (eb - 1) / 2 ≤ |z| := by
              rw [← hz]; exact le_abs_rn h (rep_half_pow hp1 (by omega)) hlow
            have hmz : Mult (eb - 1) z := by
              have : Rep p emin z := by rw [← hz]; exact h.rep _
              exact mult_binade this (Or.inl (by linarith))
            refine rep_of_mult hp1 ((b2.mono (by omega)).sub hmz) (by omega) ?_
            rw [zpow_pred]
            have := two_zpow_pos eb
            nlinarith
        · refine rep_of_mult hp1 (b2.sub ?_) b1 ?_
          · rw [b4, ← hz]; exact rep_mult (h.rep _)
          · have := two_zpow_pos eb
            nlinarith
      rw [hrz, hxrz, hyz]
      have e : x - (rn (x + y) - z) + (y - z) = x + y - rn (x + y) := by ring
      rw [e, rn_rep h herr]
    · -- massive cancellation: the sum is exact
      rw [not_le] at hsx
      have habs : Rep p emin |x| := by
        rcases abs_choice x with e | e <;> rw [e]
        · exact hx
        · exact rep_neg hx
      have hsmall : |x + y| ≤ |x| := by
        by_contra hc
        rw [not_le] at hc
        exact absurd (le_abs_rn h habs hc.le) (by linarith)
      have hrep : Rep p emin (x + y) := by
        refine rep_of_mult hp1 (a2.add (b2.mono hle)) a1 (hsmall.trans (a3.trans ?_))
        exact mul_le_mul_of_nonneg_right (by linarith) (two_zpow_pos _).le
      rw [rn_rep h hrep, add_sub_cancel_left, rn_rep h hy, add_sub_cancel_right, rn_rep h hx,
        sub_self, sub_self, rn_rep h rep_zero, add_zero, rn_rep h rep_zero, sub_self]

/-- C12: `two_prods(x, y)` returns the rounded product `r` and a floating-point number `s`, and
`r + s = x * y` exactly if and only if the product has no digit below the least exponent (that is, if
nothing underflows). -/
theorem C12_two_prod (hp : 1 ≤ p) (h : Nearest p emin rn) {x y : ℚ} (hx : Rep p emin x)
    (hy : Rep p emin y) :
    ∃ r s, (rounded rn pow sqrt).twoProds x y = .ok (r, s) ∧ r = rn (x * y) ∧
      s = rn (x * y - r) ∧ Rep p emin s ∧ (r + s = x * y ↔ ∃ k : Int, x * y = k * 2 ^ emin) := by
  have e1 : (rounded rn pow sqrt).twoProds x y = .ok (rn (x * y), rn (x * y - rn (x * y))) := by
    show Res.ok (rn (x * y), rn (x * y + -rn (x * y))) = _
    rw [sub_eq_add_neg]
  refine ⟨_, _, e1, rfl, rfl, h.rep _, ⟨fun e => ?_, fun hm => ?_⟩⟩
  · rw [← e]
    exact (rep_mult (h.rep _)).add (rep_mult (h.rep _))
  · obtain ⟨ex, x1, x2, x3, -⟩ := rep_binade hx
    obtain ⟨ey, y1, y2, y3, -⟩ := rep_binade hy
    have pe : (1 : ℚ) ≤ 2 ^ p := one_le_pow₀ (by norm_num)
    have hb : |x * y| ≤ 2 ^ p * (2 ^ p * 2 ^ (ex + ey)) := by
      rw [abs_mul, zpow_add₀ (by norm_num)]
      calc |x| * |y| ≤ (2 ^ p * 2 ^ ex) * (2 ^ p * 2 ^ ey) := by
            refine mul_le_mul (x3.trans ?_) (y3.trans ?_) (abs_nonneg _) ?_
            · exact mul_le_mul_of_nonneg_right (by linarith) (two_zpow_pos _).le
            · exact mul_le_mul_of_nonneg_right (by linarith) (two_zpow_pos _).le
            · exact (mul_pos (by positivity) (two_zpow_pos _)).le
        _ = _ := by ring
    obtain ⟨g, g1, g2, g3⟩ : ∃ g, emin ≤ g ∧ Mult g (x * y) ∧ ex + ey ≤ g := by
      rcases le_total emin (ex + ey) with hh | hh
      · exact ⟨ex + ey, hh, x2.mul y2, le_refl _⟩
      · exact ⟨emin, le_refl _, hm, hh⟩
    have hpg : (2 : ℚ) ^ ((p : Int) + g) = 2 ^ p * 2 ^ g := by
      rw [zpow_add₀ (by norm_num), zpow_natCast]
    have hb' : |x * y| ≤ 2 ^ p * 2 ^ ((p : Int) + g) := by
      rw [hpg]
      refine hb.trans ?_
      exact mul_le_mul_of_nonneg_left
        (mul_le_mul_of_nonneg_left (zpow_mono g3) (by positivity)) (by positivity)
    have herr := near_half hp h (by omega : emin ≤ (p : Int) + g) hb'
    have hrep : Rep p emin (x * y - rn (x * y)) := by
      refine rep_of_mult hp (g2.sub (mult_rn hp h g1 g2)) g1 (herr.trans ?_)
      rw [hpg]
      have : (0 : ℚ) < 2 ^ p * 2 ^ g := mul_pos (by positivity) (two_zpow_pos _)
      linarith
    rw [rn_rep h hrep]; ring

/-- C12: it is enough that the product is zero or not tiny: at least `2^(emin + 2p - 1)`. -/
theorem C12_no_underflow (hp : 1 ≤ p) (h : Nearest p emin rn) {x y : ℚ} (hx : Rep p emin x)
    (hy : Rep p emin y) (hu : x * y = 0 ∨ 2 ^ (emin + 2 * p - 1) ≤ |x * y|) :
    ∃ r s, (rounded rn pow sqrt).twoProds x y = .ok (r, s) ∧ r = rn (x * y) ∧ r + s = x * y := by
  obtain ⟨r, s, e1, e2, -, -, e5⟩ := C12_two_prod (pow := pow) (sqrt := sqrt) hp h hx hy
  refine ⟨r, s, e1, e2, e5.2 ?_⟩
  rcases hu with hu | hu
  · exact ⟨0, by rw [hu]; simp⟩
  · obtain ⟨ex, x1, x2, x3, -⟩ := rep_binade hx
    obtain ⟨ey, y1, y2, y3, -⟩ := rep_binade hy
    have pe : (1 : ℚ) ≤ 2 ^ p := one_le_pow₀ (by norm_num)
    refine (x2.mul y2).mono ?_
    by_contra hc
    have hb : |x * y| < 2 ^ p * (2 ^ p * 2 ^ (ex + ey)) := by
      rw [abs_mul, zpow_add₀ (by norm_num)]
      have hxp := two_zpow_pos ex
      have hyp := two_zpow_pos ey
      calc |x| * |y| ≤ ((2 ^ p - 1) * 2 ^ ex) * ((2 ^ p - 1) * 2 ^ ey) := by
            refine mul_le_mul x3 y3 (abs_nonneg _) ?_
            exact mul_nonneg (by linarith) hxp.le
        _ < _ := by
            have : (0 : ℚ) < 2 ^ ex * 2 ^ ey := mul_pos hxp hyp
            nlinarith
    have h2 : (2 : ℚ) ^ p * (2 ^ p * 2 ^ (ex + ey)) ≤ 2 ^ (emin + 2 * p - 1) := by
      rw [← zpow_natCast, ← zpow_add₀ (by norm_num), ← zpow_add₀ (by norm_num)]
      exact zpow_mono (by omega)
    linarith

/-! ### The hypotheses are satisfiable -/

/-- Two digits: `4 + 3/2` rounds to `6` and the error is `-1/2`. -/
example : ∃ rn, Nearest 2 (-3) rn ∧
    (rounded rn (fun x _ => x) id).twoSums 4 (3 / 2) = .ok (6, -1 / 2) := by
  obtain ⟨rn, h⟩ := exists_nearest (p := 2) (by norm_num) (-3)
  have h4 : Rep 2 (-3) 4 := ⟨1, 2, by decide, by decide, by norm_num⟩
  have h3 : Rep 2 (-3) (3 / 2) := ⟨3, -1, by decide, by decide, by norm_num⟩
  have h6 : Rep 2 (-3) 6 := ⟨3, 1, by decide, by decide, by norm_num⟩
  obtain ⟨r, s, e1, e2, e3, -⟩ := C11_two_sum (pow := fun x _ => x) (sqrt := id) (le_refl 2) h h4 h3
  refine ⟨rn, h, ?_⟩
  have hn := h.near (4 + 3 / 2) 6 h6
  have hr : r = 6 := by
    rw [← e2, abs_le] at hn
    rw [show |(4 + 3 / 2 - 6 : ℚ)| = 1 / 2 by norm_num [abs_of_neg]] at hn
    have hm : Mult 1 r := by
      refine mult_binade (by rw [e2]; exact h.rep _) (Or.inl ?_)
      rw [abs_of_nonneg (by linarith)]
      norm_num
      linarith
    obtain ⟨k, rfl⟩ := hm
    have k1 : (k : ℚ) < 7 / 2 := by norm_num at hn; linarith
    have k2 : (k : ℚ) > 2 := by norm_num at hn; linarith
    have k3 : k = 3 := by
      have a1 : k > 2 := by exact_mod_cast k2
      have a2 : k < 4 := by
        have : (k : ℚ) < 4 := by linarith
        exact_mod_cast this
      omega
    subst k3; norm_num
  have hs : s = -1 / 2 := by rw [hr] at e3; linarith
  rw [e1, hr, hs]

/-- IEEE double: `(2^52 + 1)^2` has 106 digits and is split exactly. -/
example : ∃ rn, Nearest 53 (-1074) rn ∧
    ∃ r s, (rounded rn (fun x _ => x) id).twoProds (2 ^ 52 + 1) (2 ^ 52 + 1) = .ok (r, s) ∧
      r + s = (2 ^ 52 + 1) ^ 2 := by
  obtain ⟨rn, h⟩ := exists_nearest (p := 53) (by norm_num) (-1074)
  have h1 : Rep 53 (-1074) (2 ^ 52 + 1) := ⟨2 ^ 52 + 1, 0, by decide, by decide, by norm_num⟩
  obtain ⟨r, s, e1, -, e3⟩ := C12_no_underflow (pow := fun x _ => x) (sqrt := id) (by norm_num) h h1 h1
    (Or.inr (by
      have : (2 : ℚ) ^ ((-1074 : Int) + 2 * (53 : Nat) - 1) ≤ 2 ^ (0 : Int) := zpow_mono (by decide)
      refine this.trans ?_
      norm_num))
  exact ⟨rn, h, r, s, e1, by rw [e3]; ring⟩

end Spp.Props
