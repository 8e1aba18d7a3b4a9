import Verif.Model.DefaultTol
import Verif.Props.Tolerance
import Verif.Lemmas.FloatLit
import Mathlib.Tactic.FieldSimp

/-
C136: what the default tolerance accepts and rejects.
-/

set_option linter.unusedSectionVars false

namespace Spp.Props

open Spp.Spec Spp.Lemmas Spp.ErrorTools FVal

variable {σ : Type} {s : σ} {d : Dim} {F : Fmt} {p : Nat} {emin : Int}

/-! ### Auxiliary -/

theorem unit_posQ (p : Nat) : 0 < unit p := inv_pos.2 (by positivity)

theorem epsilon_unit (hp : 1 ≤ p) : epsilon p = 2 * unit p := by
  obtain ⟨q, rfl⟩ : ∃ q, p = q + 1 := ⟨p - 1, by omega⟩
  unfold epsilon unit
  rw [Nat.add_sub_cancel, pow_succ]
  field_simp

theorem unit_small (hp : 16 ≤ p) : unit p ≤ 1 / 65536 := by
  unfold unit
  rw [one_div]
  refine inv_anti₀ (by norm_num) ?_
  have : (2 : ℚ) ^ 16 ≤ 2 ^ p := pow_le_pow_right₀ (by norm_num) hp
  linarith

theorem unit_zpow (p : Nat) : unit p = 2 ^ (-(p : Int)) := by
  unfold unit; rw [zpow_neg, zpow_natCast]

/-- Small multiples of the unit roundoff are floating-point numbers. -/
theorem rep_units (hp : 1 ≤ p) (he : emin ≤ -(p : Int)) {n : Nat} (hn : n ≤ 2 ^ p) : Rep p emin (n * unit p) := by
  refine rep_of_mult hp (g := -(p : Int)) ⟨n, by rw [unit_zpow]; push_cast; rfl⟩ he ?_
  rw [← unit_zpow, abs_of_nonneg (mul_nonneg (by positivity) (unit_posQ p).le)]
  refine mul_le_mul_of_nonneg_right ?_ (unit_posQ p).le
  exact_mod_cast hn

/-- `k` times epsilon is computed exactly. -/
theorem mul_epsilon (hF : IsFmt p emin F) (hp : 1 ≤ p) (he : emin ≤ -(p : Int)) {k : Nat} (hk : 2 * k ≤ 2 ^ p) :
    FVal.mul F (fin false k) (fin false (epsilon p)) = fin false (2 * k * unit p) ∧
    Held p emin F (fin false (2 * k * unit p)) := by
  have hr : Rep p emin ((2 * k : ℚ) * unit p) := by
    have := rep_units (emin := emin) hp he (n := 2 * k) hk
    push_cast at this; exact this
  have h1 : (2 * k : ℚ) * unit p ≤ 1 := by
    unfold unit
    rw [mul_inv_le_iff₀ (by positivity), one_mul]
    exact_mod_cast hk
  have h2 : (2 * k : ℚ) * unit p ≤ F.top := h1.trans hF.one
  refine ⟨?_, mul_nonneg (by positivity) (unit_posQ p).le, h2, hr⟩
  show FVal.round F false ((k : ℚ) * epsilon p) = _
  rw [epsilon_unit hp, show (k : ℚ) * (2 * unit p) = 2 * k * unit p by ring]
  unfold FVal.round
  rw [(Order.mono hF.near).fix hr, if_neg (not_lt.2 h2)]

/-- Sums that are not too large are finite. -/
theorem add_small (hF : IsFmt p emin F) {x y : FVal} (fx : x.isFinite = true) (fy : y.isFinite = true)
    (h : |x.val + y.val| ≤ F.top) : (add F x y).isFinite = true ∧ (add F x y).val = F.rn (x.val + y.val) := by
  have hy : (neg y).isFinite = true := by rw [neg_finite]; exact fy
  have e : sub F x (neg y) = add F x y := by
    cases y <;> simp [sub, neg]
  have := (distance_value hF fx hy).1 (by
    rw [val_neg, sub_neg_eq_add]
    exact (Order.mono hF.near).le hF.top h)
  rw [absV_finite, e] at this
  exact ⟨this.1, val_add hF this.1⟩

/-- Products that are not too large are finite. -/
theorem mul_small (hF : IsFmt p emin F) {x y : FVal} (fx : x.isFinite = true) (fy : y.isFinite = true)
    (h : |x.val * y.val| ≤ F.top) (hx : Held p emin F x) (hy : Held p emin F y) :
    (FVal.mul F x y).isFinite = true ∧ (FVal.mul F x y).val = F.rn (x.val * y.val) ∧ Held p emin F (FVal.mul F x y) := by
  obtain ⟨sx, m, rfl⟩ := finite_cases fx
  obtain ⟨sy, n, rfl⟩ := finite_cases fy
  have e : |(fin sx m).val * (fin sy n).val| = m * n := by
    rw [abs_mul]
    have am : |(fin sx m).val| = m := by cases sx <;> simp [val, abs_of_nonneg hx.1]
    have an : |(fin sy n).val| = n := by cases sy <;> simp [val, abs_of_nonneg hy.1]
    rw [am, an]
  rw [e] at h
  have f : (FVal.mul F (fin sx m) (fin sy n)).isFinite = true := by
    show (FVal.round F (sx != sy) (m * n)).isFinite = true
    unfold FVal.round
    rw [if_neg (not_lt.2 ((Order.mono hF.near).le hF.top h))]
    rfl
  refine ⟨f, val_mul hF f, ?_⟩
  exact held_round hF (s := sx != sy) (mul_nonneg hx.1 hy.1)

theorem held_val_rep {x : FVal} (hx : Held p emin F x) (fx : x.isFinite = true) : Rep p emin x.val := by
  obtain ⟨sx, m, rfl⟩ := finite_cases fx
  cases sx
  · exact hx.2.2
  · exact rep_neg hx.2.2

/-- The error of a rounded sum. -/
theorem sum_err (hF : IsFmt p emin F) (hp : 1 ≤ p) {x y : ℚ} (hx : Rep p emin x) (hy : Rep p emin y) :
    |x + y - F.rn (x + y)| ≤ unit p * |x + y| := rel_err hp hF.near ((rep_mult hx).add (rep_mult hy))

/-! ### Absolute comparisons -/

/-- C136: by default, `within_tol_abs` accepts a number with |x| ≤ 1 and the same number plus up to 99 epsilons and
rejects it if 102 epsilons or more are added. -/
theorem C136_abs (hF : IsFmt p emin F) (hp : 16 ≤ p) (he : emin ≤ -(p : Int)) (htop : 2 ≤ F.top) (b : Build) {x : FVal}
    (hx : Held p emin F x) (fx : x.isFinite = true) (h1 : |x.val| ≤ 1) {k : Nat} (hk : 2 * k ≤ 2 ^ p) :
    (k ≤ 99 → withinTolAbs b F.scalar.toScalar x (add F x (FVal.mul F (fin false k) (fin false (epsilon p))))
      (defaultTol F p) = .ok true) ∧
    (102 ≤ k → withinTolAbs b F.scalar.toScalar x (add F x (FVal.mul F (fin false k) (fin false (epsilon p))))
      (defaultTol F p) = .ok false) := by
  have hp1 : 1 ≤ p := by omega
  have hu := unit_posQ p
  have hu' := unit_small hp
  have h16 : 2 ^ 16 ≤ 2 ^ p := Nat.pow_le_pow_right (by decide) hp
  obtain ⟨e1, e2⟩ := mul_epsilon hF hp1 he hk
  obtain ⟨t1, t2⟩ := mul_epsilon hF hp1 he (k := 100) (by omega)
  have ht : defaultTol F p = fin false (200 * unit p) := by
    unfold defaultTol
    have := t1
    norm_num at this
    exact this
  have t2 : Held p emin F (fin false (200 * unit p)) := by
    norm_num at t2; exact t2
  rw [e1, ht]
  have hw : (2 * k : ℚ) * unit p ≤ 1 := by
    unfold unit
    rw [mul_inv_le_iff₀ (by positivity), one_mul]
    exact_mod_cast hk
  have hw0 : 0 ≤ (2 * k : ℚ) * unit p := mul_nonneg (by positivity) hu.le
  obtain ⟨a1, a2⟩ := add_small hF fx (y := fin false (2 * k * unit p)) rfl (by
    show |x.val + 2 * k * unit p| ≤ _
    refine (abs_add_le _ _).trans ?_
    rw [abs_of_nonneg hw0]; linarith)
  have err := sum_err hF hp1 (held_val_rep hx fx) e2.2.2
  have a2 : (add F x (fin false (2 * k * unit p))).val = F.rn (x.val + 2 * k * unit p) := a2
  have bnd : |x.val + 2 * k * unit p| ≤ 1 + 2 * k * unit p := by
    refine (abs_add_le _ _).trans ?_
    rw [abs_of_nonneg hw0]; linarith
  have err' := err.trans (mul_le_mul_of_nonneg_left bnd hu.le)
  rw [← a2] at err'
  obtain ⟨l1, l2⟩ := abs_le.1 err'
  have tz : le (fin false 0) (fin false (200 * unit p)) = true :=
    decide_eq_true (by show (0 : ℚ) ≤ 200 * unit p; linarith)
  obtain ⟨c1, c2⟩ := C135_abs_exact hF b tz rfl t2 fx a1
  refine ⟨fun h => c1 ?_, fun h => ?_⟩
  · have hk' : (k : ℚ) ≤ 99 := by exact_mod_cast h
    show |_| ≤ 200 * unit p
    rw [abs_le]
    constructor <;> nlinarith
  · have hk' : (102 : ℚ) ≤ k := by exact_mod_cast h
    have hr := rep_units (emin := emin) hp1 he (n := 201) (by omega)
    refine c2 (fin false (201 * unit p)) ⟨by positivity, ?_, by exact_mod_cast hr⟩ rfl ?_ ?_
    · linarith
    · show 200 * unit p < 201 * unit p; linarith
    · show 201 * unit p ≤ _
      refine le_trans ?_ (neg_le_abs _)
      nlinarith

/-! ### Relative comparisons -/

theorem rn_abs_le (hF : IsFmt p emin F) {z t : ℚ} (ht : Rep p emin t) (h : |z| ≤ t) : |F.rn z| ≤ t := by
  obtain ⟨h1, h2⟩ := abs_le.1 h
  exact abs_le.2 ⟨(Order.mono hF.near).ge (rep_neg ht) h1, (Order.mono hF.near).le ht h2⟩

/-- How far the computed distance of `x` and `x + x * w` is from `w * |x|`. -/
theorem perturbed {u w x r y D : ℚ} (hu : 0 ≤ u) (hu' : u ≤ 1 / 65536) (hw : 0 ≤ w) (h1 : |x * w - r| ≤ u * |x * w|)
    (h2 : |x + r - y| ≤ u * |x + r|) (h3 : |(|x - y|) - D| ≤ u * |x - y|) :
    (w ≤ 198 * u → D ≤ 200 * (u * |x|)) ∧ (204 * u ≤ w → 201 * (u * max |x| |y|) ≤ D) := by
  have e : |x * w| = w * |x| := by rw [abs_mul, abs_of_nonneg hw]; ring
  rw [e] at h1
  have hX := abs_nonneg x
  have hR := abs_nonneg r
  have hd := abs_nonneg (x - y)
  have r1 : |r| ≤ w * |x| + u * (w * |x|) := by
    have := abs_sub_abs_le_abs_sub r (x * w)
    rw [abs_sub_comm, e] at this; linarith
  have r2 : w * |x| - u * (w * |x|) ≤ |r| := by
    have := abs_sub_abs_le_abs_sub (x * w) r
    rw [e] at this; linarith
  have s1 : |x + r| ≤ |x| + |r| := abs_add_le x r
  have s2 : u * |x + r| ≤ u * |x| + u * |r| := by
    have := mul_le_mul_of_nonneg_left s1 hu; linarith
  have d1 : |x - y| ≤ |r| + u * |x + r| := by
    have := abs_add_le (x + r - y) (-r)
    rw [show x + r - y + -r = x - y by ring, abs_neg] at this; linarith
  have d2 : |r| - u * |x + r| ≤ |x - y| := by
    have := abs_add_le (x + r - y) (-(x - y))
    rw [show x + r - y + -(x - y) = r by ring, abs_neg] at this; linarith
  obtain ⟨D1, D2⟩ := abs_le.1 h3
  have wX : 0 ≤ w * |x| := mul_nonneg hw hX
  have m1 : u * (w * |x|) ≤ 1 / 65536 * (w * |x|) := mul_le_mul_of_nonneg_right hu' wX
  have m2 : u * |r| ≤ 1 / 65536 * |r| := mul_le_mul_of_nonneg_right hu' hR
  have m3 : u * |x - y| ≤ 1 / 65536 * |x - y| := mul_le_mul_of_nonneg_right hu' hd
  have z0 : 0 ≤ u * |x| := mul_nonneg hu hX
  refine ⟨fun h => ?_, fun h => ?_⟩
  · have : w * |x| ≤ 198 * u * |x| := mul_le_mul_of_nonneg_right h hX
    linarith
  · have hM : max |x| |y| ≤ |x| + |x - y| := by
      refine max_le (by linarith) ?_
      have := abs_sub_abs_le_abs_sub y x
      rw [abs_sub_comm] at this; linarith
    have : u * max |x| |y| ≤ u * |x| + u * |x - y| := by
      have := mul_le_mul_of_nonneg_left hM hu; linarith
    have : 204 * u * |x| ≤ w * |x| := mul_le_mul_of_nonneg_right h hX
    linarith

/-- C136: by default, `within_tol_rel` accepts a number with |x| ≤ 1 and the same number enlarged by a factor of 1 plus
up to 99 epsilons; it rejects it for 102 epsilons or more, unless the number is so small that it counts as zero. -/
theorem C136_rel (hF : IsFmt p emin F) (hp : 16 ≤ p) (he : emin ≤ -(3 * p : Int)) (htop : 2 ≤ F.top) (b : Build) {x : FVal}
    (hx : Held p emin F x) (fx : x.isFinite = true) (h1 : |x.val| ≤ 1) {k : Nat} (hk : 2 * k ≤ 2 ^ p) :
    (1 ≤ k → k ≤ 99 →
      withinTolRel b F.scalar.toScalar x (add F x (FVal.mul F x (FVal.mul F (fin false k) (fin false (epsilon p)))))
        (defaultTol F p) (defaultTol F p) = .ok true) ∧
    (102 ≤ k → (defaultTol F p).val < |x.val| →
      withinTolRel b F.scalar.toScalar x (add F x (FVal.mul F x (FVal.mul F (fin false k) (fin false (epsilon p)))))
        (defaultTol F p) (defaultTol F p) = .ok false) := by
  have hp1 : 1 ≤ p := by omega
  have he' : emin ≤ -(p : Int) := by omega
  have hu := unit_posQ p
  have hu' := unit_small hp
  have h16 : 2 ^ 16 ≤ 2 ^ p := Nat.pow_le_pow_right (by decide) hp
  obtain ⟨e1, e2⟩ := mul_epsilon hF hp1 he' hk
  obtain ⟨t1, t2⟩ := mul_epsilon hF hp1 he' (k := 100) (by omega)
  have ht : defaultTol F p = fin false (200 * unit p) := by
    unfold defaultTol
    have := t1
    norm_num at this
    exact this
  have t2 : Held p emin F (fin false (200 * unit p)) := by
    norm_num at t2; exact t2
  rw [e1, ht]
  have hw : (2 * k : ℚ) * unit p ≤ 1 := by
    unfold unit
    rw [mul_inv_le_iff₀ (by positivity), one_mul]
    exact_mod_cast hk
  have hw0 : 0 ≤ (2 * k : ℚ) * unit p := mul_nonneg (by positivity) hu.le
  generalize hwe : (2 * k : ℚ) * unit p = w at *
  have hX := abs_nonneg x.val
  have rep1 : Rep p emin 1 := by
    have := rep_units (emin := emin) hp1 he' (n := 2 ^ p) (le_refl _)
    have e : ((2 ^ p : Nat) : ℚ) * unit p = 1 := by
      unfold unit; push_cast; exact mul_inv_cancel₀ (by positivity)
    rwa [e] at this
  -- the product
  have hxw : |x.val * w| ≤ 1 := by
    rw [abs_mul, abs_of_nonneg hw0]
    nlinarith
  obtain ⟨p1, p2, p3⟩ := mul_small hF fx (y := fin false w) rfl (hxw.trans (by linarith)) hx e2
  have p2 : (FVal.mul F x (fin false w)).val = F.rn (x.val * w) := p2
  generalize FVal.mul F x (fin false w) = R at *
  have hr : |R.val| ≤ 1 := by rw [p2]; exact rn_abs_le hF rep1 hxw
  -- the sum
  obtain ⟨a1, a2⟩ := add_small hF fx p1 ((abs_add_le _ _).trans (by linarith))
  have a3 : Held p emin F (add F x R) := held_add hF _ _
  have errS := sum_err hF hp1 (held_val_rep hx fx) (held_val_rep p3 p1)
  rw [← a2] at errS
  have a4 : (add F x R).val = F.rn (x.val + R.val) := a2
  generalize add F x R = y at *
  -- the distance
  have errD := rel_err hp1 hF.near (x := |x.val - y.val|) (by
    rcases abs_choice (x.val - y.val) with h | h <;> rw [h]
    · exact (rep_mult (held_val_rep hx fx)).sub (rep_mult (held_val_rep a3 a1))
    · exact ((rep_mult (held_val_rep hx fx)).sub (rep_mult (held_val_rep a3 a1))).neg)
  rw [abs_abs] at errD
  have hs : |x.val + R.val| ≤ 2 := (abs_add_le _ _).trans (by linarith)
  have hd : |x.val - y.val| ≤ F.top := by
    have := abs_add_le (x.val + R.val - y.val) (-R.val)
    rw [show x.val + R.val - y.val + -R.val = x.val - y.val by ring, abs_neg] at this
    have : unit p * |x.val + R.val| ≤ 1 / 65536 * 2 := mul_le_mul hu' hs (abs_nonneg _) (by norm_num)
    linarith
  have hD : F.rn |x.val - y.val| ≤ F.top := (Order.mono hF.near).le hF.top hd
  have tz : le (fin false 0) (fin false (200 * unit p)) = true :=
    decide_eq_true (by show (0 : ℚ) ≤ 200 * unit p; linarith)
  rw [rel_outcome hF b tz tz hx a3 fx a1, if_pos hD]
  generalize F.rn |x.val - y.val| = D at *
  have tiny2 : (2 : ℚ) ^ p * 2 ^ emin ≤ unit p * unit p := by
    have a : (2 : ℚ) ^ emin ≤ 2 ^ (-(3 * p : Int)) := zpow_le_zpow_right₀ (by norm_num) he
    have b : (2 : ℚ) ^ (-(3 * p : Int)) = unit p * unit p * unit p := by
      rw [unit_zpow, ← zpow_add₀ (by norm_num), ← zpow_add₀ (by norm_num)]
      congr 1; ring
    have c : (2 : ℚ) ^ p * unit p = 1 := mul_inv_cancel₀ (by positivity)
    calc (2 : ℚ) ^ p * 2 ^ emin ≤ 2 ^ p * (unit p * unit p * unit p) :=
          mul_le_mul_of_nonneg_left (a.trans_eq b) (by positivity)
      _ = (2 ^ p * unit p) * (unit p * unit p) := by ring
      _ = unit p * unit p := by rw [c, one_mul]
  have key : ∀ {n : Nat}, n ≤ 65536 → FVal.round F false (n * unit p) = fin false (n * unit p) := by
    intro n hn
    have hn' : (n : ℚ) ≤ 65536 := by exact_mod_cast hn
    have : (n : ℚ) * unit p ≤ F.top := by nlinarith
    unfold FVal.round
    rw [(Order.mono hF.near).fix (rep_units hp1 he' (by omega)), if_neg (not_lt.2 this)]
  have exw : |x.val * w| = w * |x.val| := by rw [abs_mul, abs_of_nonneg hw0]; ring
  refine ⟨fun hk1 hk99 => ?_, fun h102 hbig => ?_⟩
  · have hk1' : (1 : ℚ) ≤ k := by exact_mod_cast hk1
    have hk99' : (k : ℚ) ≤ 99 := by exact_mod_cast hk99
    have w1 : 2 * unit p ≤ w := by rw [← hwe]; nlinarith
    have w2 : w ≤ 198 * unit p := by rw [← hwe]; nlinarith
    by_cases hn : (2 : ℚ) ^ p * 2 ^ emin ≤ 2 * |x.val * w|
    · have errP := rel_err_normal hp1 hF.near hn
      rw [← p2] at errP
      have := (perturbed hu.le hu' hw0 errP errS errD).1 w2
      have x0 : 0 < |x.val| := by
        rcases hX.lt_or_eq with h | h
        · exact h
        · rw [exw, ← h] at hn
          have : (0 : ℚ) < 2 ^ p * 2 ^ emin := mul_pos (by positivity) (zpow_pos (by norm_num) _)
          linarith
      have m0 : 0 < max |x.val| |y.val| := lt_of_lt_of_le x0 (le_max_left _ _)
      have q : D / max |x.val| |y.val| ≤ (200 : Nat) * unit p := by
        rw [div_le_iff₀ m0]
        have := mul_le_mul_of_nonneg_left (le_max_left |x.val| |y.val|) hu.le
        push_cast
        linarith
      have g := round_mono hF q
      rw [key (by norm_num)] at g
      push_cast at g
      rw [g, Bool.or_true]
    · have hn := not_le.1 hn
      have x1 : |x.val| ≤ unit p := by
        rw [exw] at hn
        by_contra hc
        have hc := not_le.1 hc
        nlinarith
      have r1 : |R.val| ≤ unit p := by
        rw [p2]
        have := rep_units (emin := emin) hp1 he' (n := 1) (by omega)
        rw [Nat.cast_one, one_mul] at this
        refine rn_abs_le hF this ?_
        nlinarith
      have y1 : |y.val| ≤ 2 * unit p := by
        rw [a4]
        have := rep_units (emin := emin) hp1 he' (n := 2) (by omega)
        push_cast at this
        exact rn_abs_le hF this ((abs_add_le _ _).trans (by linarith))
      rw [show le (fin false (max |x.val| |y.val|)) (fin false (200 * unit p)) = true from
        decide_eq_true (by show max |x.val| |y.val| ≤ 200 * unit p; exact max_le (by linarith) (by linarith)), Bool.true_or]
  · have h102' : (102 : ℚ) ≤ k := by exact_mod_cast h102
    have hbig : 200 * unit p < |x.val| := hbig
    have w1 : 204 * unit p ≤ w := by rw [← hwe]; nlinarith
    have hn : (2 : ℚ) ^ p * 2 ^ emin ≤ 2 * |x.val * w| := by
      rw [exw]
      have : unit p * unit p ≤ w * |x.val| := mul_le_mul (by linarith) (by linarith) hu.le hw0
      have : 0 ≤ w * |x.val| := mul_nonneg hw0 hX
      linarith
    have errP := rel_err_normal hp1 hF.near hn
    rw [← p2] at errP
    have := (perturbed hu.le hu' hw0 errP errS errD).2 w1
    have m0 : 200 * unit p < max |x.val| |y.val| := lt_of_lt_of_le hbig (le_max_left _ _)
    have q : (201 : Nat) * unit p ≤ D / max |x.val| |y.val| := by
      rw [le_div_iff₀ (by linarith)]
      push_cast
      linarith
    have g := round_mono hF q
    rw [key (by norm_num)] at g
    rw [show le (fin false (max |x.val| |y.val|)) (fin false (200 * unit p)) = false from
      decide_eq_false (by show ¬ max |x.val| |y.val| ≤ 200 * unit p; exact not_le.2 m0), Bool.false_or]
    congr 1
    by_contra hc
    rw [Bool.not_eq_false] at hc
    have := of_decide_eq_true (le_trans_ieee g hc)
    have : (201 : Nat) * unit p ≤ 200 * unit p := this
    push_cast at this
    linarith

/-! ### Arrays -/

/-- C136: the same for arrays: `within_tol_abs(x, x + k * epsilon)` and `max_abs_error(x, x + k * epsilon) <= tol`. -/
theorem C136_abs_arrays (hF : IsFmt p emin F) (hp : 16 ≤ p) (he : emin ≤ -(p : Int)) (htop : 2 ≤ F.top) (b : Build)
    {a1 a2 : Acc σ FVal} {sh : Nat × Nat} {l : List FVal} {k : Nat} (hk : 2 * k ≤ 2 ^ p) (h1 : Shaped d a1 s sh l)
    (h2 : Shaped d a2 s sh (l.map fun x => add F x (FVal.mul F (fin false k) (fin false (epsilon p)))))
    (hl : ∀ x ∈ l, Held p emin F x ∧ x.isFinite = true ∧ |x.val| ≤ 1) (hne : l ≠ []) (e : Bool) (dflt : FVal) :
    (k ≤ 99 → withinTolAbsArray b d F.scalar.toScalar a1 a2 (defaultTol F p) s e = .ok true ∧
      ∃ v, maxAbsError b d F.scalar.toScalar a1 a2 s dflt = .ok v ∧ le v (defaultTol F p) = true) ∧
    (102 ≤ k → withinTolAbsArray b d F.scalar.toScalar a1 a2 (defaultTol F p) s e = .ok false ∧
      ∃ v, maxAbsError b d F.scalar.toScalar a1 a2 s dflt = .ok v ∧ le v (defaultTol F p) = false) := by
  obtain ⟨x, xs, rfl⟩ := List.exists_cons_of_ne_nil hne
  have hp1 : 1 ≤ p := by omega
  have h16 : 2 ^ 16 ≤ 2 ^ p := Nat.pow_le_pow_right (by decide) hp
  have hu := unit_posQ p
  obtain ⟨e1, e2⟩ := mul_epsilon hF hp1 he hk
  have ht : defaultTol F p = fin false (200 * unit p) := by
    unfold defaultTol
    have := (mul_epsilon hF hp1 he (k := 100) (by omega)).1
    norm_num at this
    exact this
  have tz : le (fin false 0) (defaultTol F p) = true := by
    rw [ht]; exact decide_eq_true (by show (0 : ℚ) ≤ 200 * unit p; linarith)
  have hw : (2 * k : ℚ) * unit p ≤ 1 := by
    unfold unit
    rw [mul_inv_le_iff₀ (by positivity), one_mul]
    exact_mod_cast hk
  have hw0 : 0 ≤ (2 * k : ℚ) * unit p := mul_nonneg (by positivity) hu.le
  have mem : ∀ q ∈ List.zip (x :: xs) ((x :: xs).map fun x => add F x (FVal.mul F (fin false k) (fin false (epsilon p)))),
      q.1 ∈ x :: xs ∧ q.2 = add F q.1 (FVal.mul F (fin false k) (fin false (epsilon p))) := by
    generalize x :: xs = l
    intro q hq
    induction l with
    | nil => simp at hq
    | cons z zs ih =>
      rw [List.map_cons, List.zip_cons_cons, List.mem_cons] at hq
      rcases hq with rfl | hq
      · exact ⟨by simp, rfl⟩
      · exact ⟨List.mem_cons_of_mem _ (ih hq).1, (ih hq).2⟩
  rw [List.map_cons] at h2 mem
  obtain ⟨v, g1, g2⟩ := C135_same_abs (F := F) b h1 h2 dflt (by
    intro q hq
    obtain ⟨m1, m2⟩ := mem q hq
    obtain ⟨c1, c2, c3⟩ := hl q.1 m1
    rw [m2, e1, absError_ieee, ne_eq, Res.ok.injEq, absV_nan]
    have f := (add_small hF c2 (y := fin false (2 * k * unit p)) rfl (by
      show |q.1.val + 2 * k * unit p| ≤ _
      refine (abs_add_le _ _).trans ?_
      rw [abs_of_nonneg hw0]; linarith)).1
    obtain ⟨d1, d2⟩ := distance_value hF c2 f
    intro hc
    rcases le_or_gt (F.rn |q.1.val - (add F q.1 (fin false (2 * k * unit p))).val|) F.top with h | h
    · have := (d1 h).1; rw [hc] at this; simp [absV, isFinite] at this
    · have := d2 h; rw [hc] at this; simp [absV] at this)
  have hsame := Shaped.same h1 h2
  rw [decide_eq_true rfl] at hsame
  have all : ∀ r : Bool, (∀ z ∈ x :: xs, withinTolAbs b F.scalar.toScalar z
      (add F z (FVal.mul F (fin false k) (fin false (epsilon p)))) (defaultTol F p) = .ok r) →
      withinTolAbsArray b d F.scalar.toScalar a1 a2 (defaultTol F p) s e = .ok r := by
    intro r hr
    unfold withinTolAbsArray
    rw [hsame, assertDebug_true, Res.ok_bind, Elems.empty (Shaped.elems h1), Res.ok_bind, if_neg (by simp)]
    rw [((C54_pairwise b h1 h2 (f := fun x y => withinTolAbs b F.scalar.toScalar x y (defaultTol F p))
      (p := fun _ _ => r = true) (fun q hq => by
        obtain ⟨m1, m2⟩ := mem q hq
        rw [m2, hr q.1 m1, Bool.decide_eq_true]) false).2 (by simp)).2.1]
    congr 1
    cases r
    · exact decide_eq_false fun hc => absurd (hc (x, _) (by rw [List.zip_cons_cons]; exact List.mem_cons_self)) (by decide)
    · exact decide_eq_true fun _ _ => rfl
  refine ⟨fun hk' => ?_, fun hk' => ?_⟩
  · have := all true fun x hx => (C136_abs hF hp he htop b (hl x hx).1 (hl x hx).2.1 (hl x hx).2.2 hk).1 hk'
    refine ⟨this, v, g1, ?_⟩
    rw [g2 _ tz e] at this
    simpa using this
  · have := all false fun x hx => (C136_abs hF hp he htop b (hl x hx).1 (hl x hx).2.1 (hl x hx).2.2 hk).2 hk'
    refine ⟨this, v, g1, ?_⟩
    rw [g2 _ tz e] at this
    simpa using this

/-- C136: the same for arrays: `within_tol_rel(x, x + x * (k * epsilon))`.  It is rejected as soon as one element does
not count as zero. -/
theorem C136_rel_arrays (hF : IsFmt p emin F) (hp : 16 ≤ p) (he : emin ≤ -(3 * p : Int)) (htop : 2 ≤ F.top) (b : Build)
    {a1 a2 : Acc σ FVal} {sh : Nat × Nat} {l : List FVal} {k : Nat} (hk : 2 * k ≤ 2 ^ p) (h1 : Shaped d a1 s sh l)
    (h2 : Shaped d a2 s sh
      (l.map fun x => add F x (FVal.mul F x (FVal.mul F (fin false k) (fin false (epsilon p))))))
    (hl : ∀ x ∈ l, Held p emin F x ∧ x.isFinite = true ∧ |x.val| ≤ 1) (hne : l ≠ []) (e : Bool) :
    (1 ≤ k → k ≤ 99 →
      withinTolRelArray b d F.scalar.toScalar a1 a2 (defaultTol F p) (defaultTol F p) s e = .ok true) ∧
    (102 ≤ k → (∃ x ∈ l, (defaultTol F p).val < |x.val|) →
      withinTolRelArray b d F.scalar.toScalar a1 a2 (defaultTol F p) (defaultTol F p) s e = .ok false) := by
  have hsame := Shaped.same h1 h2
  rw [decide_eq_true rfl] at hsame
  have ht : defaultTol F p = fin false (200 * unit p) := by
    unfold defaultTol
    have h16 : 2 ^ 16 ≤ 2 ^ p := Nat.pow_le_pow_right (by decide) hp
    have := (mul_epsilon hF (by omega) (by omega) (k := 100) (by omega)).1
    norm_num at this
    exact this
  have tz : le (fin false 0) (defaultTol F p) = true := by
    rw [ht]; exact decide_eq_true (by show (0 : ℚ) ≤ 200 * unit p; linarith [unit_posQ p])
  have unf : withinTolRelArray b d F.scalar.toScalar a1 a2 (defaultTol F p) (defaultTol F p) s e =
      Ops.allOf2 b d (fun x y => withinTolRel b F.scalar.toScalar x y (defaultTol F p) (defaultTol F p)) a1 a2 s false := by
    unfold withinTolRelArray
    have : l.isEmpty = false := by simpa using hne
    rw [hsame, assertDebug_true, Res.ok_bind, Elems.empty (Shaped.elems h1), Res.ok_bind, this, if_neg (by decide)]
  obtain ⟨f, hf⟩ : ∃ f : FVal → FVal → Bool, ∀ x y,
      withinTolRel b F.scalar.toScalar x y (defaultTol F p) (defaultTol F p) = .ok (f x y) :=
    ⟨_, fun x y => withinTolRel_ieee b tz tz x y⟩
  rw [unf, ((C54_pairwise b h1 h2 (p := fun x y => f x y = true)
    (fun q _ => by rw [hf, Bool.decide_eq_true]) false).2 hne).2.1]
  have mem : ∀ (g : FVal → FVal) (q : FVal × FVal), q ∈ List.zip l (l.map g) ↔ q.1 ∈ l ∧ q.2 = g q.1 := by
    intro g q
    rw [← List.map_id l, List.map_map, List.zip_map', List.mem_map, List.map_id]
    constructor
    · rintro ⟨x, hx, rfl⟩; exact ⟨hx, rfl⟩
    · rintro ⟨hx, h⟩; exact ⟨q.1, hx, Prod.ext rfl h.symm⟩
  refine ⟨fun k1 k2 => ?_, fun k1 ⟨x, hx, hb⟩ => ?_⟩
  · congr 1
    refine decide_eq_true fun q hq => ?_
    obtain ⟨m1, m2⟩ := (mem _ q).1 hq
    have := (C136_rel hF hp he htop b (hl _ m1).1 (hl _ m1).2.1 (hl _ m1).2.2 hk).1 k1 k2
    rw [← m2, hf] at this
    simpa using this
  · congr 1
    refine decide_eq_false fun hc => ?_
    have := (C136_rel hF hp he htop b (hl _ hx).1 (hl _ hx).2.1 (hl _ hx).2.2 hk).2 k1 hb
    rw [hf, Res.ok.injEq] at this
    have h := hc (x, add F x (FVal.mul F x (FVal.mul F (fin false k) (fin false (epsilon p))))) ((mem _ _).2 ⟨hx, rfl⟩)
    rw [this] at h
    exact absurd h (by decide)

/-! ### The hypotheses hold in concrete cases -/

open Sample

/-- In single precision: -1 and 1 plus 10 and plus 1000 epsilons, the numbers of tests/error_tools.cpp. -/
example : ∃ F : Fmt, IsFmt 24 (-149) F ∧ F.top = 2 ∧
    withinTolAbs ⟨false, true, false⟩ F.scalar.toScalar (fin true 1)
      (add F (fin true 1) (FVal.mul F (fin false (10 : Nat)) (fin false (epsilon 24)))) (defaultTol F 24) = .ok true ∧
    withinTolAbs ⟨false, true, false⟩ F.scalar.toScalar (fin true 1)
      (add F (fin true 1) (FVal.mul F (fin false (1000 : Nat)) (fin false (epsilon 24)))) (defaultTol F 24) = .ok false ∧
    withinTolRel ⟨false, true, false⟩ F.scalar.toScalar (fin false 1)
      (add F (fin false 1) (FVal.mul F (fin false 1) (FVal.mul F (fin false (10 : Nat)) (fin false (epsilon 24)))))
      (defaultTol F 24) (defaultTol F 24) = .ok true ∧
    withinTolRel ⟨false, true, false⟩ F.scalar.toScalar (fin false 1)
      (add F (fin false 1) (FVal.mul F (fin false 1) (FVal.mul F (fin false (1000 : Nat)) (fin false (epsilon 24)))))
      (defaultTol F 24) (defaultTol F 24) = .ok false := by
  obtain ⟨F, hF, ht⟩ := exists_fmt (p := 24) (emin := -149) (by norm_num) (by norm_num)
  have o := fun sg => one_held hF (by norm_num) (by norm_num) sg
  have hd : (defaultTol F 24).val < 1 := by
    have := (mul_epsilon hF (by norm_num) (by norm_num) (k := 100) (by norm_num)).1
    unfold defaultTol
    norm_num at this
    rw [this]
    show 200 * unit 24 < 1
    norm_num [unit]
  refine ⟨F, hF, ht, (C136_abs hF (by norm_num) (by norm_num) ht.ge _ (o true) rfl (by norm_num [val]) (by norm_num)).1
      (by norm_num),
    (C136_abs hF (by norm_num) (by norm_num) ht.ge _ (o true) rfl (by norm_num [val]) (by norm_num)).2 (by norm_num),
    (C136_rel hF (by norm_num) (by norm_num) ht.ge _ (o false) rfl (by norm_num [val]) (by norm_num)).1
      (by norm_num) (by norm_num),
    (C136_rel hF (by norm_num) (by norm_num) ht.ge _ (o false) rfl (by norm_num [val]) (by norm_num)).2 (by norm_num)
      (by rw [show |(fin false 1).val| = 1 by norm_num [val]]; exact hd)⟩

/-- The same with an array of 1 and -1 and an array of the perturbed numbers. -/
example : ∃ F : Fmt, IsFmt 24 (-149) F ∧
    withinTolAbsArray ⟨false, true, false⟩ .one F.scalar.toScalar (lit [fin false 1, fin true 1])
      (lit ([fin false 1, fin true 1].map fun x => add F x (FVal.mul F (fin false (10 : Nat)) (fin false (epsilon 24)))))
      (defaultTol F 24) () false = .ok true ∧
    withinTolRelArray ⟨false, true, false⟩ .one F.scalar.toScalar (lit [fin false 1, fin true 1])
      (lit ([fin false 1, fin true 1].map fun x =>
        add F x (FVal.mul F x (FVal.mul F (fin false (10 : Nat)) (fin false (epsilon 24))))))
      (defaultTol F 24) (defaultTol F 24) () false = .ok true := by
  obtain ⟨F, hF, ht⟩ := exists_fmt (p := 24) (emin := -149) (by norm_num) (by norm_num)
  have o := fun sg => one_held hF (by norm_num) (by norm_num) sg
  have all : ∀ x ∈ [fin false 1, fin true 1], Held 24 (-149) F x ∧ x.isFinite = true ∧ |x.val| ≤ 1 := by
    simp [o, isFinite, val]
  exact ⟨F, hF, ((C136_abs_arrays hF (by norm_num) (by norm_num) ht.ge _ (by norm_num)
      (lit_shaped () [fin false 1, fin true 1]) (lit_shaped () _) all (by simp) false (fin false 0)).1 (by norm_num)).1,
    (C136_rel_arrays hF (by norm_num) (by norm_num) ht.ge _ (by norm_num)
      (lit_shaped () [fin false 1, fin true 1]) (lit_shaped () _) all (by simp) false).1 (by norm_num) (by norm_num)⟩

end Spp.Props
