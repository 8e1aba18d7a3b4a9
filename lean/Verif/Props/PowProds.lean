import Verif.Lemmas.PowProds
import Mathlib.Tactic.IntervalCases

/-
C13: compensated powers.
-/

set_option linter.unusedSectionVars false

namespace Spp.Props

open Spp.Spec Spp.Lemmas

variable {rn : ℚ → ℚ} {pow : ℚ → ℚ → ℚ} {sqrt : ℚ → ℚ}

theorem powProds_rounded {G : ℚ → Prop} {u : ℚ} (hf : FlX G u rn) (b : Build) {x : ℚ} (hx : G x)
    {n : Nat} (hn : 2 ≤ n) :
    (rounded rn pow sqrt).powProds b x n = .ok (powPair (fun x y => rn (x + y)) (fun x y => rn (x * y))
      (fun x y => rn (x * y - rn (x * y))) (fun i => rn i) 0 1 x (n / 2) (decide ((n : Int) % 2 ≠ 0))) := by
  unfold FScalar.powProds
  rw [decide_eq_true (by omega), assertDebug_true, Res.ok_bind, if_neg (by omega), if_neg (by omega),
    if_neg (by omega)]
  have hP := rounded_pure (pow := pow) (sqrt := sqrt) hf
  have r1 : rn 1 = 1 := hf.fix _ hf.one
  have r0 : rn 0 = 0 := hf.fix _ hf.zero
  have rr : ∀ v, rn (rn v) = rn v := fun v => hf.fix _ (hf.good _)
  have rx : rn x = x := hf.fix _ hx
  by_cases h6 : 6 ≤ n
  · rw [if_neg (by omega), if_neg (by omega), if_neg (by omega), if_neg (by omega)]
    exact powProdsGeneral_eq _ hP x (by omega) (by omega)
  · interval_cases n
    · rw [if_pos (by omega), hP.prods]
      simp [powPair, rpow, locSum, r1, rr]
    · rw [if_neg (by omega), if_pos (by omega)]
      simp only [hP.prods, hP.mul, hP.add, Res.ok_bind]
      simp [powPair, rpow, locSum, r1, rr, r0, rx]
    · rw [if_neg (by omega), if_neg (by omega), if_pos (by omega)]
      simp only [hP.prods, hP.mul, hP.add, hP.num, Res.ok_bind]
      simp [powPair, rpow, epow, locSum, rr]
    · rw [if_neg (by omega), if_neg (by omega), if_neg (by omega), if_pos (by omega)]
      simp only [hP.prods, hP.mul, hP.add, hP.num, Res.ok_bind]
      simp [powPair, rpow, epow, locSum, rr]

/-- C13: the two results of `pow_prods(x, p)` together are `x^p` up to terms of second order in the unit
roundoff, for every precision and exponent; the first one alone is off by `p - 1` rounding errors. -/
theorem C13_second_order {prec : Nat} (hprec : 2 ≤ prec) (h : NearestX prec rn) (b : Build) {x : ℚ}
    (hx : RepX prec x) (p : Nat) :
    ∃ r s, (rounded rn pow sqrt).powProds b x p = .ok (r, s) ∧
      |r + s - x ^ p| ≤ 2 * ((1 + unit prec) ^ (2 * p) - 1) ^ 2 * |x| ^ p ∧
      |r - x ^ p| ≤ ((1 + unit prec) ^ (p - 1) - 1) * |x| ^ p := by
  have hf := flX_nearestX hprec h
  have hu := hf.pos
  by_cases h2 : 2 ≤ p
  · refine ⟨_, _, powProds_rounded hf b hx h2, ?_, ?_⟩
    · have hX : |x| ^ 2 = x * x := by rw [sq_abs, sq]
      obtain ⟨m, hm⟩ : ∃ m, p / 2 = m + 1 := ⟨p / 2 - 1, by omega⟩
      by_cases hpar : (p : Int) % 2 = 0
      · have hp2 : p = 2 * (m + 1) := by omega
        rw [decide_eq_false (by simpa using hpar), hm]
        have := powPair_even hf x hx m
        rw [show x ^ p = (x * x) ^ (m + 1) by rw [hp2, pow_mul, sq],
          show |x| ^ p = (x * x) ^ (m + 1) by rw [hp2, pow_mul, hX]]
        refine this.trans (mul_le_mul_of_nonneg_right ?_ (by have := mul_self_nonneg x; positivity))
        have g1 := growth_mono hu (show m + 1 ≤ 2 * p by omega)
        have g2 := growth_mono hu (show 2 * m + 4 ≤ 2 * p by omega)
        have g3 := growth_mono hu (show 3 * (m + 1) ≤ 2 * p by omega)
        have n1 := growth_nonneg hu (m + 1)
        have n2 := growth_nonneg hu (2 * m + 4)
        have n3 := growth_nonneg hu (3 * (m + 1))
        have n4 := growth_nonneg hu (2 * p)
        have q1 := pow_le_pow_left₀ n1 g1 2
        have q2 := mul_le_mul g2 g3 n3 n4
        rw [← sq] at q2
        linarith
      · have hp2 : p = 2 * (m + 1) + 1 := by omega
        rw [decide_eq_true (by simpa using hpar), hm]
        have := powPair_odd hf x hx m
        rw [show x ^ p = (x * x) ^ (m + 1) * x by rw [hp2, pow_succ, pow_mul, sq],
          show |x| ^ p = (x * x) ^ (m + 1) * |x| by rw [hp2, pow_succ, pow_mul, hX]]
        refine this.trans (mul_le_mul_of_nonneg_right ?_ (by have := mul_self_nonneg x; positivity))
        have g1 := growth_mono hu (show m + 1 ≤ 2 * p by omega)
        have g2 := growth_mono hu (show 2 * m + 6 ≤ 2 * p by omega)
        have g3 := growth_mono hu (show 3 * (m + 1) + 1 ≤ 2 * p by omega)
        have n1 := growth_nonneg hu (m + 1)
        have n3 := growth_nonneg hu (3 * (m + 1) + 1)
        have n4 := growth_nonneg hu (2 * p)
        have q1 := pow_le_pow_left₀ n1 g1 2
        have q2 := mul_le_mul g2 g3 n3 n4
        rw [← sq] at q2
        linarith
    · -- plain repeated rounding
      have hr : Close (unit prec) (rn (x * x)) (x * x) (x * x) 1 := by
        have := (Close.refl (u := unit prec) (x * x)).round hf
        rwa [abs_of_nonneg (mul_self_nonneg x)] at this
      have hR : ∀ k, Close (unit prec) (rpow (fun x y : ℚ => rn (x * y)) 1 (rn (x * x)) (k + 1))
          ((x * x) ^ (k + 1)) ((x * x) ^ (k + 1)) (2 * k + 1) := by
        intro k
        induction k with
        | zero => rw [zero_add, pow_one]; exact hr
        | succ k ih =>
          have := (ih.mul hu hr).round hf
          rw [← pow_succ, show 2 * k + 1 + 1 + 1 = 2 * (k + 1) + 1 by omega] at this
          exact this
      have hX : |x| ^ 2 = x * x := by rw [sq_abs, sq]
      obtain ⟨m, hm⟩ : ∃ m, p / 2 = m + 1 := ⟨p / 2 - 1, by omega⟩
      by_cases hpar : (p : Int) % 2 = 0
      · have hp2 : p = 2 * (m + 1) := by omega
        rw [decide_eq_false (by simpa using hpar), hm]
        rw [show x ^ p = (x * x) ^ (m + 1) by rw [hp2, pow_mul, sq],
          show |x| ^ p = (x * x) ^ (m + 1) by rw [hp2, pow_mul, hX], show p - 1 = 2 * m + 1 by omega]
        exact (hR m).1
      · have hp2 : p = 2 * (m + 1) + 1 := by omega
        rw [decide_eq_true (by simpa using hpar), hm]
        rw [show x ^ p = (x * x) ^ (m + 1) * x by rw [hp2, pow_succ, pow_mul, sq],
          show |x| ^ p = (x * x) ^ (m + 1) * |x| by rw [hp2, pow_succ, pow_mul, hX],
          show p - 1 = 2 * m + 1 + 0 + 1 by omega]
        exact (((hR m).mul hu (Close.refl x)).round hf).1
  · have r1 : rn 1 = 1 := hf.fix _ hf.one
    have r0 : rn 0 = 0 := hf.fix _ hf.zero
    have hcase : p = 0 ∨ p = 1 := by omega
    rcases hcase with rfl | rfl
    · refine ⟨1, 0, ?_, by simp, by simp⟩
      unfold FScalar.powProds
      rw [decide_eq_true (by omega), assertDebug_true, Res.ok_bind, if_neg (by omega), if_pos (by omega)]
      show (Res.ok (rn ((1 : Int) : ℚ), rn ((0 : Int) : ℚ)) : Res (ℚ × ℚ)) = _
      rw [Int.cast_one, Int.cast_zero, r1, r0]
    · refine ⟨x, 0, ?_, ?_, by simp⟩
      · unfold FScalar.powProds
        rw [decide_eq_true (by omega), assertDebug_true, Res.ok_bind, if_neg (by omega),
          if_neg (by omega), if_pos (by omega)]
        show (Res.ok (x, rn ((0 : Int) : ℚ)) : Res (ℚ × ℚ)) = _
        rw [Int.cast_zero, r0]
      · rw [add_zero, pow_one, sub_self, abs_zero]; positivity

/-- C13: in exact arithmetic `pow_prods(x, p)` is `(x^p, 0)`. -/
theorem C13_exact {K : Type} [Field K] [LinearOrder K] [IsStrictOrderedRing K]
    {powK : K → K → K} {sqrtK : K → K} (b : Build) (x : K) (p : Nat) :
    (exactF K powK sqrtK).powProds b x p = .ok (x ^ p, 0) := by
  have hP : Pure (exactF K powK sqrtK) (fun x y => x + y) (fun x y => x * y) (fun _ _ => 0)
      (fun i => (i : K)) := ⟨fun _ _ => rfl, fun _ _ => rfl, twoProds_exact, fun _ => rfl⟩
  unfold FScalar.powProds
  rw [decide_eq_true (by omega), assertDebug_true, Res.ok_bind, if_neg (by omega)]
  by_cases h6 : 6 ≤ p
  · rw [if_neg (by omega), if_neg (by omega), if_neg (by omega), if_neg (by omega), if_neg (by omega),
      if_neg (by omega)]
    rw [powProdsGeneral_eq _ hP x (n := p / 2) (by omega) (by omega)]
    have hR : ∀ k, rpow (fun x y : K => x * y) 1 (x * x) k = (x * x) ^ k := by
      intro k
      induction k with
      | zero => simp [rpow]
      | succ k ih =>
        cases k with
        | zero => simp [rpow]
        | succ k => rw [pow_succ, ← ih]; rfl
    have hL : ∀ n i, locSum (fun x y : K => x + y) (fun x y => x * y) (fun _ _ => 0) 0 1 (x * x) n i = 0 := by
      intro n i
      induction i with
      | zero => rfl
      | succ i ih => simp only [locSum, ih, epow, mul_zero, add_zero]
    have e : (exactF K powK sqrtK).one = 1 := rfl
    have e0 : (exactF K powK sqrtK).zero = 0 := rfl
    rw [e, e0]
    unfold powPair
    simp only [hR, hL, mul_zero, add_zero]
    by_cases hpar : (p : Int) % 2 = 0
    · rw [decide_eq_false (by simpa using hpar)]
      show (Res.ok ((x * x) ^ (p / 2), (0 : K)) : Res (K × K)) = _
      rw [← sq, ← pow_mul, show 2 * (p / 2) = p by omega]
    · rw [decide_eq_true (by simpa using hpar)]
      show (Res.ok ((x * x) ^ (p / 2) * x, (0 : K)) : Res (K × K)) = _
      rw [← sq, ← pow_mul, ← pow_succ, show 2 * (p / 2) + 1 = p by omega]
  · interval_cases p
    · show (Res.ok (((1 : Int) : K), ((0 : Int) : K)) : Res (K × K)) = _
      simp
    · show (Res.ok (x, ((0 : Int) : K)) : Res (K × K)) = _
      simp
    · rw [if_neg (by omega), if_neg (by omega), if_pos (by omega), hP.prods, sq]
    · rw [if_neg (by omega), if_neg (by omega), if_neg (by omega), if_pos (by omega)]
      simp only [hP.prods, hP.mul, hP.add, Res.ok_bind]
      show (Res.ok (x * x * x, x * 0 + 0) : Res (K × K)) = _
      rw [mul_zero, add_zero]; congr 2; ring
    · rw [if_neg (by omega), if_neg (by omega), if_neg (by omega), if_neg (by omega), if_pos (by omega)]
      simp only [hP.prods, hP.mul, hP.add, hP.num, Res.ok_bind]
      show (Res.ok (x * x * (x * x), ((2 : Int) : K) * (x * x) * 0 + 0) : Res (K × K)) = _
      rw [mul_zero, add_zero]; congr 2; ring
    · rw [if_neg (by omega), if_neg (by omega), if_neg (by omega), if_neg (by omega), if_neg (by omega),
        if_pos (by omega)]
      simp only [hP.prods, hP.mul, hP.add, hP.num, Res.ok_bind]
      show (Res.ok (x * x * (x * x) * x, ((2 : Int) : K) * x * (x * x) * 0 + x * 0 + 0) :
        Res (K × K)) = _
      rw [mul_zero, mul_zero, add_zero, add_zero]; congr 2; ring

/-- C13: whatever the results of the arithmetic operations are, as long as there are results,
`pow_prods(x, p)` with `p >= 0` returns: it never leaves its scratch buffer. -/
theorem C13_in_bounds {α : Type} (fs : FScalar α) (hadd : ∀ x y, ∃ z, fs.add x y = .ok z)
    (hmul : ∀ x y, ∃ z, fs.mul x y = .ok z) (hneg : ∀ x, ∃ z, fs.neg x = .ok z)
    (hfma : ∀ x y z, ∃ w, fs.fma x y z = .ok w) (hnum : ∀ i, ∃ z, fs.ofIndex i = .ok z)
    (b : Build) (x : α) (p : Nat) : ∃ r s, fs.powProds b x p = .ok (r, s) := by
  choose fa hfa using hadd
  choose fm hfm using hmul
  choose fn hfn using hneg
  choose ff hff using hfma
  choose fi hfi using hnum
  have hP : Pure fs fa fm (fun x y => ff x y (fn (fm x y))) fi :=
    ⟨hfa, hfm, fun x y => by
      unfold FScalar.twoProds
      rw [hfm, Res.ok_bind, hfn, Res.ok_bind, hff]; rfl, hfi⟩
  unfold FScalar.powProds
  rw [decide_eq_true (by omega), assertDebug_true, Res.ok_bind, if_neg (by omega)]
  by_cases h6 : 6 ≤ p
  · rw [if_neg (by omega), if_neg (by omega), if_neg (by omega), if_neg (by omega), if_neg (by omega),
      if_neg (by omega)]
    exact ⟨_, _, powProdsGeneral_eq _ hP x (n := p / 2) (by omega) (by omega)⟩
  · simp only [hP.prods, hP.mul, hP.add, hP.num, Res.ok_bind]
    interval_cases p <;> exact ⟨_, _, rfl⟩

/-- C13: a negative exponent traps in a checked build; otherwise the allocation of the scratch buffer
throws.  It never returns. -/
theorem C13_negative {α : Type} (fs : FScalar α) (b : Build) (x : α) {p : Int} (hp : p < 0) :
    fs.powProds b x p = .trap (if b.Checked then b.kind else .exception) := by
  unfold FScalar.powProds
  rw [decide_eq_false (by omega)]
  by_cases hb : b.Checked
  · rw [assertDebug_false hb, if_pos hb]; rfl
  · have : assertDebug b false = .ok () := by
      rcases b with ⟨_ | _, _ | _, _ | _⟩ <;> first | rfl | exact absurd (by decide) hb
    rw [this, if_neg hb, Res.ok_bind, if_pos hp]

/-! ### The hypotheses are satisfiable -/

example : ∃ rn, NearestX 53 rn ∧ RepX 53 (7 / 8) ∧ ∃ r s : ℚ,
    (rounded rn (fun x _ => x) id).powProds ⟨false, true, false⟩ (7 / 8) 1001 = .ok (r, s) ∧
    |r + s - (7 / 8) ^ 1001| ≤ 2 * ((1 + unit 53) ^ 2002 - 1) ^ 2 * |7 / 8| ^ 1001 := by
  obtain ⟨rn, h⟩ := exists_nearestX (p := 53) (by norm_num)
  have hx : RepX 53 (7 / 8) := ⟨7, -3, by norm_num, by norm_num⟩
  obtain ⟨r, s, h1, h2, -⟩ := C13_second_order (pow := fun x _ => x) (sqrt := id) (by norm_num) h
    ⟨false, true, false⟩ hx 1001
  exact ⟨rn, h, hx, r, s, h1, h2⟩

example : (exactF ℚ (fun x _ => x) id).powProds ⟨false, true, false⟩ (3 / 2) 7 = .ok (2187 / 128, 0) := by
  have := C13_exact (powK := fun x _ => x) (sqrtK := id) ⟨false, true, false⟩ (3 / 2 : ℚ) 7
  rw [show (((7 : Nat) : Int)) = 7 from rfl] at this
  rw [this]; norm_num

example : (exactF ℚ (fun x _ => x) id).powProds ⟨false, true, false⟩ (3 / 2) (-1) = .trap .exception :=
  C13_negative _ _ _ (by decide)

end Spp.Props
