import Verif.Lemmas.Jacobi
import Verif.Lemmas.PowProds
import Mathlib.Analysis.SpecialFunctions.Log.Deriv
import Mathlib.Analysis.SpecialFunctions.Exp

/-
C107: the solver of `y' = y` in examples/example5.cpp.
-/

namespace Spp.Props

open Spec Examples Lemmas

variable {α : Type}

/-- C107: in every arithmetic whose operations have results, for every positive number of steps and every positive step
width, `ode_solve` succeeds and returns the `nsteps + 1` values of the trapezoidal rule, the initial value first. -/
theorem C107_outcome (b : Build) (P : TotalArith α) (two : α) {n : Nat} (h0 : 0 < n) (hn : (n : Int) < 2 ^ 63 - 1)
    {h y : α} (hh : P.lt P.zero h = true) :
    odeSolve b P.scalar two n h y = .ok ((List.range (n + 1)).map (P.trapezoids two h y)) := by
  have : Inhabited α := ⟨P.zero⟩
  have e1 : iadd (n : Int) 1 = .ok ((n : Int) + 1) := iadd_ok (by unfold IsIndex; omega)
  have e2 : @Arr1.make α ⟨P.scalar.zero⟩ b ((n : Int) + 1) = .ok (P.zero :: List.replicate n P.zero) := by
    rw [@Arr1.make_ok α ⟨P.scalar.zero⟩ b _ (by omega), show ((n : Int) + 1).toNat = n + 1 by omega]
    rfl
  have e3 : Elem1.subSet b (.at 0) y (P.zero :: List.replicate n P.zero) = (.ok (), y :: List.replicate n P.zero) :=
    subSet_nat b (i := 0) (by simp) y
  have e4 : isub (len (y :: List.replicate n P.zero)) 1 = .ok (n : Int) := by
    have : len (y :: List.replicate n P.zero) - 1 = (n : Int) := by simp [len]
    rw [isub_ok (by rw [this]; unfold IsIndex; omega), this]
  unfold odeSolve
  rw [decide_eq_true (show (n : Int) > 0 by omega), assertDebug_true, Res.ok_bind,
    show P.scalar.lt P.scalar.zero h = true from hh, assertDebug_true, Res.ok_bind, e1, Res.ok_bind, e2, Res.ok_bind]
  simp only [e3, Res.ok_bind, e4, Int.toNat_natCast, decide_eq_true (show (n : Int) > -1 by omega), assertDebug_true]
  have hl : ∀ k ≤ n, ((List.range (k + 1)).map (P.trapezoids two h y) ++ List.replicate (n - k) P.zero).length = n + 1 := by
    intro k hk
    simp; omega
  have := foldN_ok (f := fun i l => (do
    let u ← Elem1.sub b l (.at i)
    let v ← trapezoid P.scalar two h u
    let k ← iadd i 1
    let r := Elem1.subSet b (.at k) v l
    r.1
    pure r.2)) (init := y :: List.replicate n P.zero)
    (fun k => (List.range (k + 1)).map (P.trapezoids two h y) ++ List.replicate (n - k) P.zero) n rfl (by
      intro k hk
      have hlk := hl k (by omega)
      have f1 : Elem1.sub b ((List.range (k + 1)).map (P.trapezoids two h y) ++ List.replicate (n - k) P.zero) (.at k) =
          .ok (P.trapezoids two h y k) := by
        have hv : validIndex (len ((List.range (k + 1)).map (P.trapezoids two h y) ++ List.replicate (n - k) P.zero))
            (k : Int) = true := by
          rw [validIndex_iff]; exact ⟨by omega, by unfold len; rw [hlk]; omega⟩
        unfold Elem1.sub
        simp only [Pos.resolve, Res.ok_bind, Res.pure_eq, hv, assertDebugM_ok, assertDebug_true]
        rw [rd_nat (by rw [hlk]; omega), List.getElem_append_left (by simp)]
        simp
      have f2 : trapezoid P.scalar two h (P.trapezoids two h y k) = .ok (P.trapezoids two h y (k + 1)) := rfl
      have f3 : iadd (k : Int) 1 = .ok ((k + 1 : Nat) : Int) := by
        rw [iadd_ok (by unfold IsIndex; omega)]; push_cast; rfl
      simp only [f1, Res.ok_bind, f2, f3]
      rw [subSet_nat b (by rw [hlk]; omega)]
      simp only [Res.ok_bind, Res.pure_eq]
      refine congrArg Res.ok ?_
      rw [List.set_append_right _ _ (by simp), List.length_map, List.length_range, Nat.sub_self, List.range_succ (n := k + 1),
        List.map_append, List.append_assoc, show n - k = n - (k + 1) + 1 by omega, List.replicate_succ, List.set_cons_zero]
      rfl)
  rw [this, Nat.sub_self]
  simp

example (b : Build) : odeSolve b (exactN Rat (fun x _ => x) id).scalar 2 ((2 : Nat) : Int) 1 5 = .ok [5, 15, 45] := by
  rw [C107_outcome b _ 2 (by decide) (by decide) (by decide +kernel)]
  decide +kernel

/-- C107: with checks, a number of steps or a step width that is not positive is rejected. -/
theorem C107_rejected {b : Build} (hb : b.Checked) (sc : Scalar α) (two : α) {n : Int} {h : α} (y : α)
    (hr : n ≤ 0 ∨ sc.lt sc.zero h = false) : odeSolve b sc two n h y = .trap b.kind := by
  unfold odeSolve
  by_cases hn : n ≤ 0
  · rw [decide_eq_false (show ¬ n > 0 by omega), assertDebug_false hb]; rfl
  · rw [decide_eq_true (show n > 0 by omega), assertDebug_true, Res.ok_bind,
      show sc.lt sc.zero h = false from hr.resolve_left hn, assertDebug_false hb]
    rfl

example : odeSolve ⟨false, true, false⟩ (exactN Rat (fun x _ => x) id).scalar 2 10 (-1) 5 = .trap .exception :=
  C107_rejected (by decide) _ _ _ (.inr (by decide +kernel))

/-! ### Exact arithmetic -/

section exact

variable {K : Type} [Field K] [LinearOrder K] [IsStrictOrderedRing K] {pow : K → K → K} {sqrt : K → K}

theorem trapezoids_exact (h y : K) (i : Nat) :
    (exactN K pow sqrt).trapezoids 2 h y i = y * ((1 + h / 2) / (1 - h / 2)) ^ i := by
  induction i with
  | zero => simp [TotalArith.trapezoids]
  | succ i ih =>
    show ((exactN K pow sqrt).trapezoids 2 h y i + (exactN K pow sqrt).trapezoids 2 h y i * h / 2) / (1 - h / 2) = _
    rw [ih, pow_succ]
    ring

/-- C107: in exact arithmetic value number `i` is `y0 ((1 + h/2) / (1 - h/2))^i`. -/
theorem C107_exact (b : Build) {n : Nat} (h0 : 0 < n) (hn : (n : Int) < 2 ^ 63 - 1) {h y : K} (hh : 0 < h) :
    odeSolve b (exactS K pow sqrt) 2 n h y =
      .ok ((List.range (n + 1)).map (fun i => y * ((1 + h / 2) / (1 - h / 2)) ^ i)) := by
  refine (C107_outcome b (exactN K pow sqrt) 2 h0 hn (decide_eq_true hh)).trans ?_
  exact congrArg Res.ok (List.map_congr_left (fun i _ => trapezoids_exact h y i))

example (b : Build) : odeSolve b (exactS Rat (fun x _ => x) id) 2 ((3 : Nat) : Int) (1 / 2) 7 =
    .ok ((List.range 4).map (fun i => 7 * ((1 + 1 / 2 / 2) / (1 - 1 / 2 / 2)) ^ i)) :=
  C107_exact b (by decide) (by decide) (by decide +kernel)

end exact

/-! ### Distance from the solution of the differential equation -/

theorem trapezoid_exp {h : ℝ} (h0 : 0 < h) (h1 : h ≤ 1) :
    Real.exp h ≤ (1 + h / 2) / (1 - h / 2) ∧ (1 + h / 2) / (1 - h / 2) ≤ Real.exp (h + h ^ 3 / 9) := by
  set x := h / 2 with hx
  have x0 : 0 < x := by rw [hx]; linarith
  have x1 : x ≤ 1 / 2 := by rw [hx]; linarith
  have hh : h = 2 * x := by rw [hx]; ring
  have ha : |x| < 1 := by rw [abs_of_pos x0]; linarith
  have hs := Real.hasSum_log_sub_log_of_abs_lt_one ha
  have hlog : Real.log ((1 + x) / (1 - x)) = Real.log (1 + x) - Real.log (1 - x) :=
    Real.log_div (by linarith) (by linarith)
  have hpos : 0 < (1 + x) / (1 - x) := div_pos (by linarith) (by linarith)
  have hexp : Real.exp (Real.log (1 + x) - Real.log (1 - x)) = (1 + x) / (1 - x) := by
    rw [← hlog, Real.exp_log hpos]
  rw [← hexp, Real.exp_le_exp, Real.exp_le_exp]
  constructor
  · have := hs.summable.sum_le_tsum (Finset.range 1) (fun k _ => by positivity)
    rw [hs.tsum_eq] at this
    simpa [hh] using this
  · have hx2 : x ^ 2 < 1 := by nlinarith
    have hg : HasSum (fun k : ℕ => 2 * x ^ 3 / 3 * (x ^ 2) ^ k) (2 * x ^ 3 / 3 * (1 - x ^ 2)⁻¹) :=
      (hasSum_geometric_of_lt_one (by positivity) hx2).mul_left _
    have hs1 := (hasSum_nat_add_iff' 1).2 hs
    have hle := hasSum_le (f := fun k : ℕ => (2 : ℝ) * (1 / (2 * ((k + 1 : ℕ) : ℝ) + 1)) * x ^ (2 * (k + 1) + 1))
      (fun k => by
        have e : (2 : ℝ) * (1 / (2 * ((k + 1 : ℕ) : ℝ) + 1)) * x ^ (2 * (k + 1) + 1) =
            2 / (2 * (k : ℝ) + 3) * (x ^ 3 * (x ^ 2) ^ k) := by
          rw [← pow_mul, ← pow_add, show 3 + 2 * k = 2 * (k + 1) + 1 by ring]
          push_cast
          ring
        have e2 : 2 * x ^ 3 / 3 * (x ^ 2) ^ k = 2 / 3 * (x ^ 3 * (x ^ 2) ^ k) := by ring
        rw [e, e2]
        refine mul_le_mul_of_nonneg_right ?_ (by positivity)
        have : (0 : ℝ) ≤ k := Nat.cast_nonneg k
        exact div_le_div_of_nonneg_left (by norm_num) (by norm_num) (by linarith)) hs1 hg
    have hb : 2 * x ^ 3 / 3 * (1 - x ^ 2)⁻¹ ≤ 8 * x ^ 3 / 9 := by
      have : (1 - x ^ 2)⁻¹ ≤ 4 / 3 := by
        rw [inv_le_comm₀ (by linarith) (by norm_num)]
        nlinarith
      nlinarith [pow_pos x0 3]
    have e0 : ∑ i ∈ Finset.range 1, (2 : ℝ) * (1 / (2 * (i : ℝ) + 1)) * x ^ (2 * i + 1) = 2 * x := by simp
    rw [e0] at hle
    rw [hh]
    nlinarith

/-- C107: in exact arithmetic, for steps of at most 1 and a positive initial value, no value is below the solution
`y0 exp(t)` of the differential equation at its point `t = i h`, and none is above it by more than the factor
`exp(t h^2 / 9)`. -/
theorem C107_converges {pow : ℝ → ℝ → ℝ} {sqrt : ℝ → ℝ} (b : Build) {n : Nat} (h0 : 0 < n)
    (hn : (n : Int) < 2 ^ 63 - 1) {h y : ℝ} (hh : 0 < h) (h1 : h ≤ 1) (hy : 0 ≤ y) :
    ∃ l : List ℝ, odeSolve b (exactS ℝ pow sqrt) 2 n h y = .ok l ∧ l.length = n + 1 ∧
      ∀ i (hi : i < l.length), y * Real.exp (i * h) ≤ l[i] ∧
        l[i] ≤ y * Real.exp (i * h) * Real.exp (i * h * h ^ 2 / 9) := by
  refine ⟨_, C107_exact b h0 hn hh, by simp, fun i hi => ?_⟩
  rw [List.getElem_map, List.getElem_range]
  obtain ⟨l1, l2⟩ := trapezoid_exp hh h1
  refine ⟨mul_le_mul_of_nonneg_left ?_ hy, ?_⟩
  · rw [Real.exp_nat_mul]
    exact pow_le_pow_left₀ (Real.exp_pos h).le l1 i
  · rw [mul_assoc, ← Real.exp_add]
    refine mul_le_mul_of_nonneg_left ?_ hy
    rw [show (i : ℝ) * h + i * h * h ^ 2 / 9 = i * (h + h ^ 3 / 9) by ring, Real.exp_nat_mul]
    exact pow_le_pow_left₀ ((Real.exp_pos h).le.trans l1) l2 i

example (b : Build) : ∃ l : List ℝ, odeSolve b (exactS ℝ (fun x _ => x) id) 2 ((10 : Nat) : Int) (1 / 10) 3 = .ok l ∧
    l.length = 10 + 1 ∧ ∀ i (hi : i < l.length), 3 * Real.exp (i * (1 / 10)) ≤ l[i] ∧
      l[i] ≤ 3 * Real.exp (i * (1 / 10)) * Real.exp (i * (1 / 10) * (1 / 10) ^ 2 / 9) :=
  C107_converges b (by decide) (by decide) (by norm_num) (by norm_num) (by norm_num)

/-! ### Rounding -/

section rounding

variable {rn : ℚ → ℚ} {pow : ℚ → ℚ → ℚ} {sqrt : ℚ → ℚ} {p : Nat}

theorem rn_between (hp : 2 ≤ p) (hr : NearestX p rn) {x lo hi : ℚ} (h0 : 0 ≤ lo) (h1 : lo ≤ x) (h2 : x ≤ hi) :
    lo * (1 - unit p) ≤ rn x ∧ rn x ≤ hi * (1 + unit p) := by
  have h := rel_errX (by omega) hr x
  rw [abs_of_nonneg (h0.trans h1)] at h
  obtain ⟨a1, a2⟩ := abs_le.1 h
  have hu0 : 0 < unit p := inv_pos.2 (by positivity)
  have hu1 : unit p ≤ 1 := inv_le_one_of_one_le₀ (one_le_pow₀ (by norm_num))
  constructor <;> nlinarith

theorem quotient_alg (lo v a c w : ℚ) (hw : w ≠ 0) (hc : c ≠ 0) :
    lo * (v / w) * (a ^ 3 / c ^ 2) * (w * c * c) = lo * v * a ^ 2 * a := by
  field_simp

theorem trapezoid_rounded (hp : 2 ≤ p) (hr : NearestX p rn) {h y lo hi : ℚ} (hh : 0 < h) (h1 : h ≤ 1) (h0 : 0 ≤ lo)
    (hl : lo ≤ y) (hu : y ≤ hi) :
    lo * ((1 + h / 2) / (1 - h / 2)) * ((1 - unit p) ^ 4 / (1 + unit p) ^ 2) ≤ (roundedN rn pow sqrt).trapezoid 2 h y ∧
    (roundedN rn pow sqrt).trapezoid 2 h y ≤
      hi * ((1 + h / 2) / (1 - h / 2)) * ((1 + unit p) ^ 4 / (1 - unit p) ^ 2) := by
  have hu0 : 0 < unit p := inv_pos.2 (by positivity)
  have hu1 : unit p ≤ 1 / 4 := by
    unfold unit
    rw [inv_le_comm₀ (by positivity) (by norm_num)]
    calc (1 / 4 : ℚ)⁻¹ = 2 ^ 2 := by norm_num
      _ ≤ 2 ^ p := pow_le_pow_right₀ (by norm_num) hp
  set u := unit p with hudef
  have m1 : 0 < 1 - u := by linarith
  have m2 : 0 < 1 + u := by linarith
  have g0 : 0 < 1 - h / 2 := by linarith
  obtain ⟨a1, a2⟩ := rn_between hp hr (x := y * h) (lo := lo * h) (hi := hi * h) (by positivity)
    (mul_le_mul_of_nonneg_right hl hh.le) (mul_le_mul_of_nonneg_right hu hh.le)
  obtain ⟨b1, b2⟩ := rn_between hp hr (x := rn (y * h) / 2) (lo := lo * h * (1 - u) / 2) (hi := hi * h * (1 + u) / 2)
    (by positivity) (by linarith) (by linarith)
  have hi0 : 0 ≤ hi := h0.trans (hl.trans hu)
  obtain ⟨c1, c2⟩ := rn_between hp hr (x := y + rn (rn (y * h) / 2)) (lo := lo * (1 + h / 2) * (1 - u) ^ 2)
    (hi := hi * (1 + h / 2) * (1 + u) ^ 2) (by positivity)
    (by
      have : lo * (1 - u) ^ 2 ≤ lo := by
        have : (1 - u) ^ 2 ≤ 1 := by nlinarith
        nlinarith
      have e : lo * (1 + h / 2) * (1 - u) ^ 2 = lo * (1 - u) ^ 2 + lo * h * (1 - u) / 2 * (1 - u) := by ring
      rw [e]
      linarith)
    (by
      have : hi ≤ hi * (1 + u) ^ 2 := by
        have : 1 ≤ (1 + u) ^ 2 := by nlinarith
        nlinarith
      have e : hi * (1 + h / 2) * (1 + u) ^ 2 = hi * (1 + u) ^ 2 + hi * h * (1 + u) / 2 * (1 + u) := by ring
      rw [e]
      linarith)
  obtain ⟨d1, d2⟩ := rn_between hp hr (x := h / 2) (lo := h / 2) (hi := h / 2) (by linarith) le_rfl le_rfl
  obtain ⟨e1, e2⟩ := rn_between hp hr (x := 1 - rn (h / 2)) (lo := (1 - h / 2) * (1 - u)) (hi := (1 - h / 2) * (1 + u))
    (by positivity) (by nlinarith) (by nlinarith)
  have dpos : 0 < rn (1 - rn (h / 2)) := lt_of_lt_of_le (by positivity) e1
  obtain ⟨f1, f2⟩ := rn_between hp hr (x := rn (y + rn (rn (y * h) / 2)) / rn (1 - rn (h / 2)))
    (lo := lo * ((1 + h / 2) / (1 - h / 2)) * ((1 - u) ^ 3 / (1 + u) ^ 2))
    (hi := hi * ((1 + h / 2) / (1 - h / 2)) * ((1 + u) ^ 3 / (1 - u) ^ 2)) (by positivity)
    (by
      rw [le_div_iff₀ dpos]
      calc lo * ((1 + h / 2) / (1 - h / 2)) * ((1 - u) ^ 3 / (1 + u) ^ 2) * rn (1 - rn (h / 2))
          ≤ lo * ((1 + h / 2) / (1 - h / 2)) * ((1 - u) ^ 3 / (1 + u) ^ 2) * ((1 - h / 2) * (1 + u) * (1 + u)) :=
            mul_le_mul_of_nonneg_left e2 (by positivity)
        _ = lo * (1 + h / 2) * (1 - u) ^ 2 * (1 - u) := quotient_alg _ _ _ _ _ g0.ne' m2.ne'
        _ ≤ _ := c1)
    (by
      rw [div_le_iff₀ dpos]
      calc rn (y + rn (rn (y * h) / 2)) ≤ hi * (1 + h / 2) * (1 + u) ^ 2 * (1 + u) := c2
        _ = hi * ((1 + h / 2) / (1 - h / 2)) * ((1 + u) ^ 3 / (1 - u) ^ 2) * ((1 - h / 2) * (1 - u) * (1 - u)) :=
            (quotient_alg _ _ _ _ _ g0.ne' m1.ne').symm
        _ ≤ _ := mul_le_mul_of_nonneg_left e1 (by positivity))
  constructor
  · refine le_trans (le_of_eq ?_) f1
    ring
  · refine le_trans f2 (le_of_eq ?_)
    ring

/-- C107: rounding changes value number `i` of the rule, for steps of at most 1 and a positive initial value, at most by
a factor between `((1 - u)^4 / (1 + u)^2)^i` and `((1 + u)^4 / (1 - u)^2)^i`, where `u` is the unit roundoff; results
that leave the range of the format are not considered. -/
theorem C107_rounding (b : Build) (hp : 2 ≤ p) (hr : NearestX p rn) {n : Nat} (h0 : 0 < n)
    (hn : (n : Int) < 2 ^ 63 - 1) {h y : ℚ} (hh : 0 < h) (h1 : h ≤ 1) (hy : 0 ≤ y) :
    ∃ l : List ℚ, odeSolve b (rounded rn pow sqrt).toScalar 2 n h y = .ok l ∧ l.length = n + 1 ∧
      ∀ i (hi : i < l.length),
        y * ((1 + h / 2) / (1 - h / 2)) ^ i * ((1 - unit p) ^ 4 / (1 + unit p) ^ 2) ^ i ≤ l[i] ∧
        l[i] ≤ y * ((1 + h / 2) / (1 - h / 2)) ^ i * ((1 + unit p) ^ 4 / (1 - unit p) ^ 2) ^ i := by
  refine ⟨_, C107_outcome b (roundedN rn pow sqrt) 2 h0 hn (decide_eq_true hh), by simp, fun i hi => ?_⟩
  rw [List.getElem_map, List.getElem_range]
  clear hi
  have hu0 : 0 < unit p := inv_pos.2 (by positivity)
  have hu1 : unit p ≤ 1 := inv_le_one_of_one_le₀ (one_le_pow₀ (by norm_num))
  have g0 : 0 < 1 - h / 2 := by linarith
  have m1 : 0 ≤ 1 - unit p := by linarith
  induction i with
  | zero => simp [TotalArith.trapezoids]
  | succ i ih =>
    obtain ⟨a1, a2⟩ := trapezoid_rounded (pow := pow) (sqrt := sqrt) hp hr hh h1 (by positivity) ih.1 ih.2
    refine ⟨le_trans (le_of_eq ?_) a1, le_trans a2 (le_of_eq ?_)⟩ <;> rw [pow_succ, pow_succ] <;> ring

example (b : Build) : ∃ rn : ℚ → ℚ, NearestX 113 rn ∧ ∃ l : List ℚ,
    odeSolve b (rounded rn (fun x _ => x) id).toScalar 2 ((100 : Nat) : Int) (1 / 8) 3 = .ok l ∧ l.length = 100 + 1 ∧
      ∀ i (hi : i < l.length),
        3 * ((1 + 1 / 8 / 2) / (1 - 1 / 8 / 2)) ^ i * ((1 - unit 113) ^ 4 / (1 + unit 113) ^ 2) ^ i ≤ l[i] ∧
        l[i] ≤ 3 * ((1 + 1 / 8 / 2) / (1 - 1 / 8 / 2)) ^ i * ((1 + unit 113) ^ 4 / (1 - unit 113) ^ 2) ^ i := by
  obtain ⟨rn, hr⟩ := exists_nearestX (p := 113) (by decide)
  exact ⟨rn, hr, C107_rounding b (by decide) hr (by decide) (by decide) (by norm_num) (by norm_num) (by norm_num)⟩

end rounding

end Spp.Props
