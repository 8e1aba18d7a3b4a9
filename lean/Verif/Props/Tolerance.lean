import Verif.Props.IeeeArith
import Verif.Props.IeeeFinite
import Verif.Lemmas.Order

/-
C135: comparisons with a tolerance and the error functions on floating-point numbers, and how they are related.
-/

set_option linter.unusedSectionVars false

namespace Spp.Props

open Spp.Spec Spp.Lemmas Spp.ErrorTools FVal

variable {σ : Type} {s : σ} {d : Dim} {F : Fmt} {p : Nat} {emin : Int}

/-! ### Auxiliary -/

theorem withinTolAbs_ieee (b : Build) {tol : FVal} (ht : le (fin false 0) tol = true) (x y : FVal) :
    withinTolAbs b F.scalar.toScalar x y tol = .ok (le (absV (sub F x y)) tol) := by
  unfold withinTolAbs
  show (do assertDebug b (le (fin false 0) tol); let a ← F.scalar.abss (sub F x y); pure (le a tol)) = _
  rw [ht, assertDebug_true, Res.ok_bind, abss_ieee]; rfl

theorem withinTolRel_ieee (b : Build) {tol nz : FVal} (ht : le (fin false 0) tol = true)
    (hz : le (fin false 0) nz = true) (x y : FVal) :
    withinTolRel b F.scalar.toScalar x y tol nz =
      .ok (if le (F.scalar.maxs (absV x) (absV y)) nz then true
        else le (FVal.div F (absV (sub F x y)) (F.scalar.maxs (absV x) (absV y))) tol) := by
  unfold withinTolRel
  show (do
    assertDebug b (le (fin false 0) tol)
    assertDebug b (le (fin false 0) nz)
    let abs1 ← F.scalar.abss x
    let abs2 ← F.scalar.abss y
    if le (F.scalar.maxs abs1 abs2) nz then pure true
    else do
      let a ← F.scalar.abss (sub F x y)
      pure (le (FVal.div F a (F.scalar.maxs abs1 abs2)) tol)) = _
  rw [ht, hz, assertDebug_true, Res.ok_bind, Res.ok_bind, abss_ieee, abss_ieee, abss_ieee]
  simp only [Res.ok_bind]
  split <;> rfl

theorem absError_ieee (x y : FVal) : absError F.scalar.toScalar x y = .ok (absV (sub F x y)) := abss_ieee _

theorem relError_ieee (x y : FVal) : relError F.scalar.toScalar x y =
    .ok (if FVal.eq x (fin false 0) || FVal.eq y (fin false 0) then none
      else some (absV (FVal.div F (sub F x y) y))) := by
  unfold relError
  show (if (FVal.eq x (fin false 0) || FVal.eq y (fin false 0)) = true then Res.ok none
    else (do let a ← F.scalar.abss (FVal.div F (sub F x y) y); pure (some a))) = _
  rw [abss_ieee]
  split <;> rfl

/-- Only the number matters in a comparison, not the sign of a zero. -/
theorem le_val {x y t : FVal} (hx : x.isFinite = true) (hy : y.isFinite = true) (h : x.val = y.val) : le x t = le y t := by
  obtain ⟨sx, mx, rfl⟩ := finite_cases hx
  obtain ⟨sy, my, rfl⟩ := finite_cases hy
  cases t <;> simp [le, h]

theorem le_val_right {x y t : FVal} (hx : x.isFinite = true) (hy : y.isFinite = true) (h : x.val = y.val) :
    le t x = le t y := by
  obtain ⟨sx, mx, rfl⟩ := finite_cases hx
  obtain ⟨sy, my, rfl⟩ := finite_cases hy
  cases t <;> simp [le, h]

theorem le_trans_ieee {x y z : FVal} (h1 : le x y = true) (h2 : le y z = true) : le x z = true := by
  rcases x with _ | s | ⟨s, m⟩ <;> rcases y with _ | t | ⟨t, n⟩ <;> rcases z with _ | u | ⟨u, k⟩ <;>
    simp_all [le]
  · rcases h1 with rfl | rfl <;> simp_all
  · linarith

theorem le_iff_not_lt {x y : FVal} (hx : x ≠ nan) (hy : y ≠ nan) : le x y = !lt y x := by
  rcases x with _ | s | ⟨s, m⟩ <;> rcases y with _ | t | ⟨t, n⟩
  case fin.fin =>
    simp only [le, lt]
    rw [← decide_not, decide_eq_decide, not_lt]
  all_goals first | exact absurd rfl hx | exact absurd rfl hy | (cases s <;> first | rfl | (cases t <;> rfl)) | (cases t <;> rfl)

/-- A magnitude that is rounded, compared with a number. -/
theorem le_absV_round (hF : IsFmt p emin F) (sg : Bool) {q : ℚ} (hq : 0 ≤ q) (t : FVal) :
    le (absV (FVal.round F sg q)) t = le (FVal.round F false q) t := by
  have hr := rn_pos_or_zero hF hq
  unfold FVal.round
  by_cases h : F.top < F.rn q
  · rw [if_pos h, if_pos h]; rfl
  · rw [if_neg h, if_neg h]
    refine le_val (by rw [absV_finite]; rfl) rfl ?_
    rw [val_absV]
    cases sg
    · exact abs_of_nonneg hr
    · show |-(F.rn q)| = F.rn q
      rw [abs_neg, abs_of_nonneg hr]

theorem round_mono (hF : IsFmt p emin F) {v w : ℚ} (h : v ≤ w) :
    le (FVal.round F false v) (FVal.round F false w) = true := by
  have := (Order.mono hF.near).mono h
  unfold FVal.round
  by_cases h1 : F.top < F.rn v
  · rw [if_pos h1, if_pos (lt_of_lt_of_le h1 this)]; rfl
  · rw [if_neg h1]
    split
    · rfl
    · exact decide_eq_true this

theorem round_zero (hF : IsFmt p emin F) (sg : Bool) : FVal.round F sg 0 = fin sg 0 := by
  unfold FVal.round
  rw [rn_zero hF, if_neg (not_lt.2 (by linarith [hF.one]))]

/-- The rounded distance of two finite numbers, compared with a number. -/
theorem le_distance (hF : IsFmt p emin F) {x y : FVal} (hx : x.isFinite = true) (hy : y.isFinite = true) (t : FVal) :
    le (absV (sub F x y)) t = le (FVal.round F false |x.val - y.val|) t := by
  obtain ⟨sx, m, rfl⟩ := finite_cases hx
  obtain ⟨sy, n, rfl⟩ := finite_cases hy
  have e : (fin sx m).val + (fin (!sy) n).val = (fin sx m).val - (fin sy n).val := by
    rw [sub_eq_add_neg, ← val_neg]; rfl
  show le (absV (if (fin sx m).val + (fin (!sy) n).val = 0 then fin (sx && !sy) 0
    else FVal.round F (decide ((fin sx m).val + (fin (!sy) n).val < 0)) |(fin sx m).val + (fin (!sy) n).val|)) t = _
  rw [e]
  by_cases h : (fin sx m).val - (fin sy n).val = 0
  · rw [if_pos h, h, abs_zero, round_zero hF]
    refine le_val (by rw [absV_finite]; rfl) rfl ?_
    rw [val_absV]
    cases (sx && !sy) <;> simp [val]
  · rw [if_neg h, le_absV_round hF _ (abs_nonneg _)]

theorem held_absV {x : FVal} (h : Held p emin F x) : Held p emin F (absV x) := by
  rcases x with _ | sx | ⟨sx, m⟩
  · exact h
  · exact h
  · simp only [absV]; split <;> exact h

/-- A quotient, compared with a number. -/
theorem le_quotient (hF : IsFmt p emin F) {x y : FVal} (hx : Held p emin F x) (hy : Held p emin F y)
    (fx : x.isFinite = true) (fy : y.isFinite = true) (h0 : y.val ≠ 0) (t : FVal) :
    le (absV (FVal.div F x y)) t = le (FVal.round F false (|x.val| / |y.val|)) t := by
  obtain ⟨sx, m, rfl⟩ := finite_cases fx
  obtain ⟨sy, n, rfl⟩ := finite_cases fy
  have hn : n ≠ 0 := fun hc => h0 (val_fin_eq_zero.2 hc)
  have am : |(fin sx m).val| = m := by cases sx <;> simp [val, abs_of_nonneg hx.1]
  have an : |(fin sy n).val| = n := by cases sy <;> simp [val, abs_of_nonneg hy.1]
  rw [am, an]
  show le (absV (if n = 0 then _ else FVal.round F (sx != sy) (m / n))) t = _
  rw [if_neg hn, le_absV_round hF _ (div_nonneg hx.1 hy.1)]

/-- The same without the absolute value when both are not negative. -/
theorem le_quotient_nonneg (hF : IsFmt p emin F) {x y : FVal} (hx : Held p emin F x) (hy : Held p emin F y)
    (fx : x.isFinite = true) (fy : y.isFinite = true) (h1 : 0 ≤ x.val) (h0 : 0 < y.val) (t : FVal) :
    le (FVal.div F x y) t = le (FVal.round F false (x.val / y.val)) t := by
  obtain ⟨sx, m, rfl⟩ := finite_cases fx
  obtain ⟨sy, n, rfl⟩ := finite_cases fy
  have hsy : sy = false := by
    cases sy
    · rfl
    · have : (0 : ℚ) < -n := h0
      linarith [hy.1]
  subst hsy
  have hn : n ≠ 0 := fun hc => h0.ne' (val_fin_eq_zero.2 hc)
  show le (if n = 0 then _ else FVal.round F (sx != false) (m / n)) t = _
  rw [if_neg hn]
  cases sx
  · rfl
  · have : m = 0 := by
      have : (0 : ℚ) ≤ -m := h1
      linarith [hx.1]
    subst this
    show le (FVal.round F true (0 / n)) t = le (FVal.round F false (-0 / n)) t
    rw [neg_zero, zero_div, round_zero hF, round_zero hF]
    exact le_val rfl rfl (by simp [val])

/-- The larger one of two magnitudes. -/
theorem larger {x y : FVal} (hx : x.isFinite = true) (hy : y.isFinite = true) :
    (F.scalar.maxs (absV x) (absV y)).isFinite = true ∧
    (F.scalar.maxs (absV x) (absV y)).val = max |x.val| |y.val| ∧
    (Held p emin F x → Held p emin F y → Held p emin F (F.scalar.maxs (absV x) (absV y))) := by
  have fx : (absV x).isFinite = true := by rw [absV_finite]; exact hx
  have fy : (absV y).isFinite = true := by rw [absV_finite]; exact hy
  show (if lt (absV y) (absV x) = true then absV x else absV y).isFinite = true ∧
    (if lt (absV y) (absV x) = true then absV x else absV y).val = _ ∧
    (_ → _ → Held p emin F (if lt (absV y) (absV x) = true then absV x else absV y))
  have hl := lt_finite fy fx
  rw [val_absV, val_absV] at hl
  by_cases h : |y.val| < |x.val|
  · rw [if_pos (by rw [hl]; exact decide_eq_true h)]
    exact ⟨fx, by rw [val_absV, max_eq_left h.le], fun h1 _ => held_absV h1⟩
  · rw [if_neg (by rw [hl]; simpa using h)]
    exact ⟨fy, by rw [val_absV, max_eq_right (not_lt.1 h)], fun _ h2 => held_absV h2⟩

/-- The distance that is computed, when it does not overflow. -/
theorem distance_value (hF : IsFmt p emin F) {x y : FVal} (hx : x.isFinite = true) (hy : y.isFinite = true) :
    (F.rn |x.val - y.val| ≤ F.top → (absV (sub F x y)).isFinite = true ∧ (absV (sub F x y)).val = F.rn |x.val - y.val|) ∧
    (F.top < F.rn |x.val - y.val| → absV (sub F x y) = inf false) := by
  obtain ⟨sx, m, rfl⟩ := finite_cases hx
  obtain ⟨sy, n, rfl⟩ := finite_cases hy
  have e : (fin sx m).val + (fin (!sy) n).val = (fin sx m).val - (fin sy n).val := by
    rw [sub_eq_add_neg, ← val_neg]; rfl
  have u : absV (sub F (fin sx m) (fin sy n)) = absV (if (fin sx m).val - (fin sy n).val = 0 then fin (sx && !sy) 0
      else FVal.round F (decide ((fin sx m).val - (fin sy n).val < 0)) |(fin sx m).val - (fin sy n).val|) := by
    rw [← e]; rfl
  rw [u]
  have hr := rn_pos_or_zero hF (abs_nonneg ((fin sx m).val - (fin sy n).val))
  generalize (fin sx m).val - (fin sy n).val = v at *
  by_cases h : v = 0
  · subst h
    rw [if_pos rfl, abs_zero, rn_zero hF]
    refine ⟨fun _ => ⟨by rw [absV_finite]; rfl, ?_⟩, fun hc => absurd hc (not_lt.2 (by linarith [hF.one]))⟩
    rw [val_absV]
    cases (sx && !sy) <;> simp [val]
  · rw [if_neg h]
    unfold FVal.round
    refine ⟨fun hc => ?_, fun hc => ?_⟩
    · rw [if_neg (not_lt.2 hc)]
      refine ⟨by rw [absV_finite]; rfl, ?_⟩
      rw [val_absV]
      cases decide (v < 0)
      · exact abs_of_nonneg hr
      · show |-(F.rn |v|)| = _
        rw [abs_neg, abs_of_nonneg hr]
    · rw [if_pos hc]; rfl

/-- What `within_tol_rel` computes for finite numbers. -/
theorem rel_outcome (hF : IsFmt p emin F) (b : Build) {tol nz : FVal} (ht : le (fin false 0) tol = true)
    (hz : le (fin false 0) nz = true) {x y : FVal} (hx : Held p emin F x) (hy : Held p emin F y)
    (fx : x.isFinite = true) (fy : y.isFinite = true) :
    withinTolRel b F.scalar.toScalar x y tol nz =
      .ok (le (fin false (max |x.val| |y.val|)) nz ||
        (if F.rn |x.val - y.val| ≤ F.top then le (FVal.round F false (F.rn |x.val - y.val| / max |x.val| |y.val|)) tol
         else le (inf false) tol)) := by
  obtain ⟨m1, m2, m3⟩ := larger (F := F) (p := p) (emin := emin) fx fy
  have m3 := m3 hx hy
  rw [withinTolRel_ieee b ht hz]
  generalize F.scalar.maxs (absV x) (absV y) = M at *
  have hM : le M nz = le (fin false (max |x.val| |y.val|)) nz := le_val m1 rfl m2
  rw [hM]
  by_cases h : le (fin false (max |x.val| |y.val|)) nz = true
  · rw [h]; rfl
  · rw [Bool.not_eq_true] at h
    rw [h, Bool.false_or, if_neg (by decide)]
    congr 1
    have h0 : 0 < M.val := by
      rw [m2]
      rcases (le_max_of_le_left (abs_nonneg x.val) : (0 : ℚ) ≤ max |x.val| |y.val|).lt_or_eq with hc | hc
      · exact hc
      · rw [← hc, hz] at h; exact absurd h (by decide)
    obtain ⟨d1, d2⟩ := distance_value hF fx fy
    by_cases hr : F.rn |x.val - y.val| ≤ F.top
    · obtain ⟨d3, d4⟩ := d1 hr
      rw [if_pos hr, le_quotient_nonneg hF (x := absV (sub F x y)) (held_absV (held_add hF _ _)) m3 d3 m1 (by rw [val_absV]; exact abs_nonneg _) h0,
        d4, m2]
    · rw [if_neg hr, d2 (not_le.1 hr)]
      obtain ⟨sM, n, rfl⟩ := finite_cases m1
      cases sM
      · rfl
      · have : (0 : ℚ) < -n := h0
        linarith [m3.1]

/-! ### Single numbers -/

/-- C135: `within_tol_abs` does not depend on the order of the numbers. -/
theorem C135_abs_symmetric (hF : IsFmt p emin F) (b : Build) {tol : FVal} (ht : le (fin false 0) tol = true) (x y : FVal) :
    withinTolAbs b F.scalar.toScalar x y tol = withinTolAbs b F.scalar.toScalar y x tol := by
  rw [withinTolAbs_ieee b ht, withinTolAbs_ieee b ht]
  congr 1
  rcases x with _ | sx | ⟨sx, m⟩ <;> rcases y with _ | sy | ⟨sy, n⟩
  case fin.fin => rw [le_distance hF rfl rfl, le_distance hF rfl rfl, abs_sub_comm]
  all_goals first | rfl | (cases sx <;> first | rfl | (cases sy <;> rfl)) | (cases sy <;> rfl)

/-- C135: on finite numbers neither does `within_tol_rel`. -/
theorem C135_rel_symmetric (hF : IsFmt p emin F) (b : Build) {tol nz : FVal} (ht : le (fin false 0) tol = true)
    (hz : le (fin false 0) nz = true) {x y : FVal} (hx : Held p emin F x) (hy : Held p emin F y)
    (fx : x.isFinite = true) (fy : y.isFinite = true) :
    withinTolRel b F.scalar.toScalar x y tol nz = withinTolRel b F.scalar.toScalar y x tol nz := by
  rw [rel_outcome hF b ht hz hx hy fx fy, rel_outcome hF b ht hz hy hx fy fx, max_comm, abs_sub_comm]

/-- C135: a finite number is within every tolerance of itself. -/
theorem C135_reflexive (hF : IsFmt p emin F) (b : Build) {tol nz : FVal} (ht : le (fin false 0) tol = true)
    (hz : le (fin false 0) nz = true) {x : FVal} (hh : Held p emin F x) (hx : x.isFinite = true) :
    withinTolAbs b F.scalar.toScalar x x tol = .ok true ∧ withinTolRel b F.scalar.toScalar x x tol nz = .ok true := by
  constructor
  · rw [withinTolAbs_ieee b ht, le_distance hF hx hx, sub_self, abs_zero, round_zero hF, ht]
  · rw [rel_outcome hF b ht hz hh hh hx hx, sub_self, abs_zero, rn_zero hF, if_pos (by linarith [hF.one]), zero_div,
      round_zero hF, ht, Bool.or_true]

/-- C135: a larger tolerance accepts more. -/
theorem C135_monotone (b : Build) {tol tol' nz nz' : FVal} (ht : le (fin false 0) tol = true)
    (hz : le (fin false 0) nz = true) (h1 : le tol tol' = true) (h2 : le nz nz' = true) (x y : FVal) :
    (withinTolAbs b F.scalar.toScalar x y tol = .ok true → withinTolAbs b F.scalar.toScalar x y tol' = .ok true) ∧
    (withinTolRel b F.scalar.toScalar x y tol nz = .ok true →
      withinTolRel b F.scalar.toScalar x y tol' nz' = .ok true) := by
  have ht' := le_trans_ieee ht h1
  have hz' := le_trans_ieee hz h2
  rw [withinTolAbs_ieee b ht, withinTolAbs_ieee b ht', withinTolRel_ieee b ht hz, withinTolRel_ieee b ht' hz']
  simp only [Res.ok.injEq]
  refine ⟨fun h => le_trans_ieee h h1, fun h => ?_⟩
  by_cases hc : le (F.scalar.maxs (absV x) (absV y)) nz = true
  · rw [if_pos (le_trans_ieee hc h2)]
  · rw [if_neg hc] at h
    split
    · rfl
    · exact le_trans_ieee h h1

/-- C135: `within_tol_abs` accepts all pairs of finite numbers whose exact distance is at most the tolerance, and rejects
all pairs whose exact distance is at least some floating-point number above it: rounding the distance matters only
between the tolerance and the next number. -/
theorem C135_abs_exact (hF : IsFmt p emin F) (b : Build) {tol : FVal} (ht : le (fin false 0) tol = true)
    (ft : tol.isFinite = true) (htol : Held p emin F tol) {x y : FVal} (fx : x.isFinite = true) (fy : y.isFinite = true) :
    (|x.val - y.val| ≤ tol.val → withinTolAbs b F.scalar.toScalar x y tol = .ok true) ∧
    (∀ t : FVal, Held p emin F t → t.isFinite = true → tol.val < t.val → t.val ≤ |x.val - y.val| →
      withinTolAbs b F.scalar.toScalar x y tol = .ok false) := by
  rw [withinTolAbs_ieee b ht, le_distance hF fx fy]
  have key : ∀ {t : FVal}, Held p emin F t → t.isFinite = true → 0 ≤ t.val → FVal.round F false t.val = fin false t.val := by
    intro t h1 h2 h3
    obtain ⟨st, m, rfl⟩ := finite_cases h2
    obtain ⟨a1, a2, a3⟩ := h1
    have hm : (fin st m).val = m := by
      cases st
      · rfl
      · have : (0 : ℚ) ≤ -m := h3
        have : m = 0 := by linarith
        subst this; simp [val]
    rw [hm]
    unfold FVal.round
    rw [(Order.mono hF.near).fix a3, if_neg (not_lt.2 a2)]
  have t0 : 0 ≤ tol.val := by
    obtain ⟨st, m, rfl⟩ := finite_cases ft
    rw [le_finite rfl rfl] at ht
    exact of_decide_eq_true ht
  refine ⟨fun h => ?_, fun t h1 h2 h3 h4 => ?_⟩
  · have := round_mono hF h
    rw [key htol ft t0] at this
    rw [← le_val_right (x := fin false tol.val) (y := tol) rfl ft rfl, this]
  · have a := round_mono hF h4
    rw [key h1 h2 (by linarith)] at a
    congr 1
    by_contra hc
    rw [Bool.not_eq_false] at hc
    have := le_trans_ieee a hc
    rw [le_finite rfl ft] at this
    have := of_decide_eq_true this
    exact absurd this (not_le.2 h3)

/-- C135: if the relative error of an approximation exists and is at most `tol`, then `within_tol_rel` accepts the pair
for this tolerance (any threshold `near_zero`). -/
theorem C135_rel_error (hF : IsFmt p emin F) (b : Build) {tol nz : FVal} (ht : le (fin false 0) tol = true)
    (hz : le (fin false 0) nz = true) (ft : tol.isFinite = true) {x y r : FVal} (hx : Held p emin F x)
    (hy : Held p emin F y) (fx : x.isFinite = true) (fy : y.isFinite = true)
    (hr : relError F.scalar.toScalar x y = .ok (some r)) (h : le r tol = true) :
    withinTolRel b F.scalar.toScalar x y tol nz = .ok true := by
  rw [relError_ieee] at hr
  have h0 : ¬ (FVal.eq x (fin false 0) || FVal.eq y (fin false 0)) = true := by
    intro hc; rw [if_pos hc] at hr; simp at hr
  rw [if_neg h0] at hr
  have hy0 : y.val ≠ 0 := by
    intro hc
    apply h0
    obtain ⟨sy, n, rfl⟩ := finite_cases fy
    rw [show FVal.eq (fin sy n) (fin false 0) = true from by
      simp only [FVal.eq]; exact decide_eq_true (by rw [hc]; rfl)]
    simp
  have hr' : absV (FVal.div F (sub F x y) y) = r := by simpa using hr
  rw [← hr'] at h
  rw [rel_outcome hF b ht hz hx hy fx fy]
  obtain ⟨d1, d2⟩ := distance_value hF fx fy
  by_cases hc : F.rn |x.val - y.val| ≤ F.top
  · obtain ⟨d3, d4⟩ := d1 hc
    rw [absV_finite] at d3
    rw [val_absV] at d4
    rw [le_quotient hF (x := sub F x y) (held_add hF _ _) hy d3 fy hy0, d4] at h
    rw [if_pos hc]
    have hp : 0 < |y.val| := abs_pos.2 hy0
    have := round_mono hF (div_le_div_of_nonneg_left (rn_pos_or_zero hF (abs_nonneg (x.val - y.val))) hp
      (le_max_right |x.val| |y.val|))
    rw [le_trans_ieee this h, Bool.or_true]
  · exfalso
    have d := d2 (not_le.1 hc)
    obtain ⟨sy, n, rfl⟩ := finite_cases fy
    obtain ⟨st, k, rfl⟩ := finite_cases ft
    rcases hs : sub F x (fin sy n) with _ | sg | ⟨sg, m⟩
    · rw [hs] at d; simp [absV] at d
    · rw [hs] at h; simp [FVal.div, absV, le] at h
    · rw [hs] at d
      have := absV_finite (fin sg m)
      rw [d] at this
      simp [isFinite] at this

/-! ### Arrays -/

/-- When the first element is not NaN, `norm_inf` is at most a bound exactly if the absolute values of all elements
that are not NaN are. -/
theorem norm_inf_le {a : Acc σ FVal} {x : FVal} {xs : List FVal} (h : Elems d a s (x :: xs)) (hx : x ≠ nan) (dflt : FVal) :
    ∃ v, Ops.normInf F.scalar.toScalar a s dflt = .ok v ∧
      ∀ tol : FVal, le v tol = true ↔ ∀ y ∈ x :: xs, y = nan ∨ le (absV y) tol = true := by
  obtain ⟨v, h1, h2, ⟨y, hy, h3⟩, h4⟩ := (C92_norm_inf h (F := F) dflt).2 hx
  rw [abss_ieee] at h3
  cases h3
  refine ⟨_, h1, fun tol => ⟨fun hle z hz => ?_, fun hle => ?_⟩⟩
  · by_cases hn : z = nan
    · exact .inl hn
    · have := h4 z hz _ (abss_ieee z)
      refine .inr (le_trans_ieee ?_ hle)
      rw [le_iff_not_lt (fun hc => hn (absV_nan.1 hc)) h2, this]; rfl
  · exact (hle y hy).resolve_left fun hc => h2 (absV_nan.2 hc)

theorem maxAbsError_ieee (b : Build) {a1 a2 : Acc σ FVal} {sh : Nat × Nat} {x y : FVal} {xs ys : List FVal}
    (h1 : Shaped d a1 s sh (x :: xs)) (h2 : Shaped d a2 s sh (y :: ys)) (dflt : FVal) :
    ∃ a, Elems d a s (sub F x y :: (xs.zip ys).map fun q => sub F q.1 q.2) ∧
      maxAbsError b d F.scalar.toScalar a1 a2 s dflt = Ops.normInf F.scalar.toScalar a s (fin false 0) := by
  obtain ⟨g1, g2⟩ := Shaped.binary h1 h2 (f := F.scalar.sub) (g := sub F) (fun _ _ => rfl) b
  refine ⟨Acc.binary F.scalar.sub a1 a2, ?_, ?_⟩
  · have := Shaped.elems g2
    rwa [zipWith_map] at this
  · have hsame := Shaped.same h1 h2
    rw [decide_eq_true rfl] at hsame
    unfold maxAbsError
    rw [hsame, assertDebug_true, Res.ok_bind, Elems.empty (Shaped.elems h1), Res.ok_bind, if_neg (by simp), g1]
    rfl

/-- C135: `max_abs_error` is at most a tolerance exactly if all differences that are not NaN are within it, provided
that the first difference is not NaN; in that case the result is NaN. -/
theorem C135_max_abs (b : Build) {a1 a2 : Acc σ FVal} {sh : Nat × Nat} {x y : FVal} {xs ys : List FVal}
    (h1 : Shaped d a1 s sh (x :: xs)) (h2 : Shaped d a2 s sh (y :: ys)) (dflt : FVal) :
    ∃ v, maxAbsError b d F.scalar.toScalar a1 a2 s dflt = .ok v ∧
      (absError F.scalar.toScalar x y = .ok nan → v = nan) ∧
      (absError F.scalar.toScalar x y ≠ .ok nan → ∀ tol : FVal, le (fin false 0) tol = true →
        (le v tol = true ↔ ∀ q ∈ List.zip (x :: xs) (y :: ys), absError F.scalar.toScalar q.1 q.2 = .ok nan ∨
          withinTolAbs b F.scalar.toScalar q.1 q.2 tol = .ok true)) := by
  obtain ⟨a, g1, g2⟩ := maxAbsError_ieee (F := F) b h1 h2 dflt
  simp only [absError_ieee, ne_eq, Res.ok.injEq, absV_nan]
  rw [g2]
  by_cases hc : sub F x y = nan
  · exact ⟨nan, (C92_norm_inf g1 (F := F) _).1 hc, fun _ => rfl, fun h => absurd hc h⟩
  · obtain ⟨v, h3, h4⟩ := norm_inf_le (F := F) g1 hc (fin false 0)
    refine ⟨v, h3, fun h => absurd h hc, fun _ tol ht => ?_⟩
    rw [h4 tol]
    simp only [withinTolAbs_ieee b ht, Res.ok.injEq, List.zip_cons_cons, List.forall_mem_cons, List.forall_mem_map]

/-- C135: if no difference is NaN, `within_tol_abs` accepts the arrays exactly if `max_abs_error` is at most the
tolerance. -/
theorem C135_same_abs (b : Build) {a1 a2 : Acc σ FVal} {sh : Nat × Nat} {x y : FVal} {xs ys : List FVal}
    (h1 : Shaped d a1 s sh (x :: xs)) (h2 : Shaped d a2 s sh (y :: ys)) (dflt : FVal)
    (hn : ∀ q ∈ List.zip (x :: xs) (y :: ys), absError F.scalar.toScalar q.1 q.2 ≠ .ok nan) :
    ∃ v, maxAbsError b d F.scalar.toScalar a1 a2 s dflt = .ok v ∧
      ∀ tol : FVal, le (fin false 0) tol = true → ∀ e,
        withinTolAbsArray b d F.scalar.toScalar a1 a2 tol s e = .ok (le v tol) := by
  obtain ⟨v, k1, -, k2⟩ := C135_max_abs (F := F) b h1 h2 dflt
  refine ⟨v, k1, fun tol ht e => ?_⟩
  have k3 := k2 (hn (x, y) (by simp)) tol ht
  have hsame := Shaped.same h1 h2
  rw [decide_eq_true rfl] at hsame
  unfold withinTolAbsArray
  rw [hsame, assertDebug_true, Res.ok_bind, Elems.empty (Shaped.elems h1), Res.ok_bind, if_neg (by simp)]
  rw [((C54_pairwise b h1 h2 (f := fun x y => withinTolAbs b F.scalar.toScalar x y tol)
    (p := fun x y => le (absV (sub F x y)) tol = true)
    (fun q _ => by rw [withinTolAbs_ieee b ht, Bool.decide_eq_true]) false).2 (by simp)).2.1]
  congr 1
  rw [Bool.eq_iff_iff, decide_eq_true_iff, k3]
  refine forall₂_congr fun q hq => ?_
  rw [withinTolAbs_ieee b ht, Res.ok.injEq]
  exact ⟨.inr, fun h => h.resolve_left (hn q hq)⟩

theorem hasZero_ieee {a : Acc σ FVal} {l : List FVal} (h : Elems d a s l) (hne : l ≠ []) (dflt : Bool) :
    Ops.hasZero F.scalar.toScalar a s dflt = .ok (decide (∃ x ∈ l, FVal.eq x (fin false 0) = true)) :=
  ((C54_quantifiers h (f := fun x => .ok (FVal.eq x (fin false 0))) (p := fun x => FVal.eq x (fin false 0) = true)
    (fun x _ => by rw [Bool.decide_eq_true]) dflt).2 hne).1

theorem zip_quotients {l1 l2 : List FVal} (hl : l1.length = l2.length) :
    List.zipWith (FVal.div F) (List.zipWith (sub F) l1 l2) l2 = (l1.zip l2).map fun q => FVal.div F (sub F q.1 q.2) q.2 := by
  induction l1 generalizing l2 with
  | nil => rfl
  | cons x xs ih => cases l2 with
    | nil => rfl
    | cons y ys =>
      simp only [List.zipWith_cons_cons, List.zip_cons_cons, List.map_cons]
      rw [ih (by simpa using hl)]

theorem zip_zero {l1 l2 : List FVal} (hl : l1.length = l2.length) (z : FVal → Bool) :
    ((∃ x ∈ l1, z x = true) ∨ ∃ x ∈ l2, z x = true) ↔ ∃ q ∈ l1.zip l2, (z q.1 || z q.2) = true := by
  induction l1 generalizing l2 with
  | nil => cases l2 with
    | nil => simp
    | cons => simp at hl
  | cons x xs ih => cases l2 with
    | nil => simp at hl
    | cons y ys =>
      have := ih (l2 := ys) (by simpa using hl)
      simp only [List.zip_cons_cons, List.exists_mem_cons_iff, Bool.or_eq_true] at this ⊢
      rw [← this]
      constructor
      · rintro ((h | h) | (h | h))
        · exact .inl (.inl h)
        · exact .inr (.inl h)
        · exact .inl (.inr h)
        · exact .inr (.inr h)
      · rintro ((h | h) | (h | h))
        · exact .inl (.inl h)
        · exact .inr (.inl h)
        · exact .inl (.inr h)
        · exact .inr (.inr h)

/-- C135: `max_rel_error` is none exactly if some relative error is; otherwise it is at most a tolerance exactly if all
relative errors that are not NaN are, provided that the first is not NaN, in which case the result is NaN. -/
theorem C135_max_rel (b : Build) {a1 a2 : Acc σ FVal} {sh : Nat × Nat} {x y : FVal} {xs ys : List FVal}
    (h1 : Shaped d a1 s sh (x :: xs)) (h2 : Shaped d a2 s sh (y :: ys)) (dflt : FVal) :
    ((∃ q ∈ List.zip (x :: xs) (y :: ys), relError F.scalar.toScalar q.1 q.2 = .ok none) →
      maxRelError b d F.scalar.toScalar a1 a2 s dflt = .ok none) ∧
    ((∀ q ∈ List.zip (x :: xs) (y :: ys), relError F.scalar.toScalar q.1 q.2 ≠ .ok none) →
      ∃ v, maxRelError b d F.scalar.toScalar a1 a2 s dflt = .ok (some v) ∧
        (relError F.scalar.toScalar x y = .ok (some nan) → v = nan) ∧
        (relError F.scalar.toScalar x y ≠ .ok (some nan) → ∀ tol : FVal,
          (le v tol = true ↔ ∀ q ∈ List.zip (x :: xs) (y :: ys), ∀ r, relError F.scalar.toScalar q.1 q.2 = .ok (some r) →
            r = nan ∨ le r tol = true))) := by
  have hsame := Shaped.same h1 h2
  rw [decide_eq_true rfl] at hsame
  have hl : (x :: xs).length = (y :: ys).length := by rw [Shaped.len h1, Shaped.len h2]
  obtain ⟨g1, g2⟩ := Shaped.binary h1 h2 (f := F.scalar.sub) (g := sub F) (fun _ _ => rfl) b
  obtain ⟨g3, g4⟩ := Shaped.binary g2 h2 (f := F.scalar.div) (g := FVal.div F) (fun _ _ => rfl) b
  rw [zip_quotients hl] at g4
  have g5 := Shaped.elems g4
  rw [List.zip_cons_cons, List.map_cons] at g5
  have unf : maxRelError b d F.scalar.toScalar a1 a2 s dflt =
      if (∃ q ∈ List.zip (x :: xs) (y :: ys), (FVal.eq q.1 (fin false 0) || FVal.eq q.2 (fin false 0)) = true) then .ok none
      else (do
        let v ← Ops.normInf F.scalar.toScalar (Acc.binary F.scalar.div (Acc.binary F.scalar.sub a1 a2) a2) s (fin false 0)
        pure (some v)) := by
    unfold maxRelError
    rw [hsame, assertDebug_true, Res.ok_bind, Elems.empty (Shaped.elems h1), Res.ok_bind, if_neg (by simp),
      hasZero_ieee (Shaped.elems h1) (by simp), Res.ok_bind, hasZero_ieee (Shaped.elems h2) (by simp), Res.ok_bind]
    have z := zip_zero hl (fun x => FVal.eq x (fin false 0))
    by_cases hz : ∃ q ∈ List.zip (x :: xs) (y :: ys), (FVal.eq q.1 (fin false 0) || FVal.eq q.2 (fin false 0)) = true
    · rw [if_pos hz, if_pos (by rw [Bool.or_eq_true, decide_eq_true_iff, decide_eq_true_iff]; exact z.2 hz)]; rfl
    · rw [if_neg hz, if_neg (by rw [Bool.or_eq_true, decide_eq_true_iff, decide_eq_true_iff]; exact fun h => hz (z.1 h))]
      rw [g1, Res.ok_bind, g3, Res.ok_bind]
      rfl
  have none_iff : ∀ q : FVal × FVal, relError F.scalar.toScalar q.1 q.2 = .ok none ↔
      (FVal.eq q.1 (fin false 0) || FVal.eq q.2 (fin false 0)) = true := by
    intro q
    rw [relError_ieee]
    split <;> simp_all
  rw [unf]
  refine ⟨fun ⟨q, hq, h⟩ => if_pos ⟨q, hq, (none_iff q).1 h⟩, fun h => ?_⟩
  have h' : ∀ q ∈ List.zip (x :: xs) (y :: ys),
      ¬ (FVal.eq q.1 (fin false 0) || FVal.eq q.2 (fin false 0)) = true :=
    fun q hq hc => h q hq ((none_iff q).2 hc)
  have e : ∀ q ∈ List.zip (x :: xs) (y :: ys),
      relError F.scalar.toScalar q.1 q.2 = .ok (some (absV (FVal.div F (sub F q.1 q.2) q.2))) := by
    intro q hq
    rw [relError_ieee, if_neg (h' q hq)]
  rw [if_neg (fun ⟨q, hq, hc⟩ => h' q hq hc), show relError F.scalar.toScalar x y = _ from e (x, y) (by simp)]
  simp only [ne_eq, Res.ok.injEq, Option.some.injEq, absV_nan]
  by_cases hc : FVal.div F (sub F x y) y = nan
  · refine ⟨nan, ?_, fun _ => rfl, fun h => absurd hc h⟩
    rw [(C92_norm_inf g5 (F := F) _).1 hc]; rfl
  · obtain ⟨v, h3, h4⟩ := norm_inf_le (F := F) g5 hc (fin false 0)
    refine ⟨v, by rw [h3]; rfl, fun h => absurd h hc, fun _ tol => ?_⟩
    rw [h4 tol, ← List.map_cons (f := fun q : FVal × FVal => FVal.div F (sub F q.1 q.2) q.2) (a := (x, y)),
      List.forall_mem_map, ← List.zip_cons_cons]
    refine forall₂_congr fun q hq => ?_
    rw [e q hq]
    simp only [Res.ok.injEq, Option.some.injEq, forall_eq', absV_nan]

/-- C135: if `max_rel_error` of arrays of finite numbers exists and is at most a finite tolerance, `within_tol_rel`
accepts the arrays for it. -/
theorem C135_rel_arrays (hF : IsFmt p emin F) (b : Build) {a1 a2 : Acc σ FVal} {sh : Nat × Nat} {x y : FVal}
    {xs ys : List FVal} (h1 : Shaped d a1 s sh (x :: xs)) (h2 : Shaped d a2 s sh (y :: ys)) (dflt : FVal)
    (hh : ∀ q ∈ List.zip (x :: xs) (y :: ys), Held p emin F q.1 ∧ Held p emin F q.2 ∧
      q.1.isFinite = true ∧ q.2.isFinite = true)
    {tol nz : FVal} (ht : le (fin false 0) tol = true) (hz : le (fin false 0) nz = true) (ft : tol.isFinite = true) {v : FVal}
    (hv : maxRelError b d F.scalar.toScalar a1 a2 s dflt = .ok (some v)) (hle : le v tol = true) (e : Bool) :
    withinTolRelArray b d F.scalar.toScalar a1 a2 tol nz s e = .ok true := by
  obtain ⟨k1, k2⟩ := C135_max_rel (F := F) b h1 h2 dflt
  have hne : ∀ q ∈ List.zip (x :: xs) (y :: ys), relError F.scalar.toScalar q.1 q.2 ≠ .ok none := by
    intro q hq hc
    rw [k1 ⟨q, hq, hc⟩] at hv
    simp at hv
  obtain ⟨v', k3, k4, k5⟩ := k2 hne
  rw [hv] at k3
  cases k3
  have hx : relError F.scalar.toScalar x y ≠ .ok (some nan) := by
    intro hc
    rw [k4 hc] at hle
    simp [le] at hle
  have k6 := (k5 hx tol).1 hle
  have acc : ∀ q ∈ List.zip (x :: xs) (y :: ys), withinTolRel b F.scalar.toScalar q.1 q.2 tol nz = .ok true := by
    intro q hq
    obtain ⟨q1, q2, q3, q4⟩ := hh q hq
    have hr := hne q hq
    have hform := relError_ieee (F := F) q.1 q.2
    rw [hform] at hr
    split at hform
    · rename_i hc; rw [if_pos hc] at hr; exact absurd rfl hr
    · rename_i hc
      refine C135_rel_error hF b ht hz ft q1 q2 q3 q4 hform ((k6 q hq _ hform).resolve_left fun hn => ?_)
      -- quotients of finite numbers by numbers other than zero are not NaN
      rw [absV_nan] at hn
      obtain ⟨s1, m, e1⟩ := finite_cases q3
      obtain ⟨s2, n, e2⟩ := finite_cases q4
      have hn0 : n ≠ 0 := by
        intro h0
        apply hc
        rw [e2, h0]
        cases s2 <;> simp [FVal.eq, val]
      rcases hs : sub F q.1 q.2 with _ | sg | ⟨sg, k⟩
      · have := distance_value hF q3 q4
        rw [hs] at this
        rcases le_or_gt (F.rn |q.1.val - q.2.val|) F.top with h | h
        · have := (this.1 h).1; simp [absV, isFinite] at this
        · have := this.2 h; simp [absV] at this
      · rw [hs, e2] at hn; simp [FVal.div] at hn
      · rw [hs, e2] at hn
        simp only [FVal.div, hn0, if_false] at hn
        revert hn
        unfold FVal.round
        split <;> simp
  have hsame := Shaped.same h1 h2
  rw [decide_eq_true rfl] at hsame
  unfold withinTolRelArray
  rw [hsame, assertDebug_true, Res.ok_bind, Elems.empty (Shaped.elems h1), Res.ok_bind, if_neg (by simp)]
  rw [((C54_pairwise b h1 h2 (f := fun x y => withinTolRel b F.scalar.toScalar x y tol nz) (p := fun _ _ => True)
    (fun q hq => by rw [acc q hq]; rfl) false).2 (by simp)).2.1]
  simp

/-! ### The hypotheses hold in concrete cases -/

open Sample

theorem top_held (hF : IsFmt p emin F) (sg : Bool) : Held p emin F (fin sg F.top) :=
  ⟨by linarith [hF.one], le_refl _, hF.top⟩

/-- Both comparisons of 1 and -1 do not depend on the order, and accept 1 and 1. -/
example : ∃ F : Fmt, IsFmt 24 (-149) F ∧
    withinTolAbs ⟨false, true, false⟩ F.scalar.toScalar (fin false 1) (fin true 1) (fin false 0) =
      withinTolAbs ⟨false, true, false⟩ F.scalar.toScalar (fin true 1) (fin false 1) (fin false 0) ∧
    withinTolRel ⟨false, true, false⟩ F.scalar.toScalar (fin false 1) (fin true 1) (fin false 0) (fin false 0) =
      withinTolRel ⟨false, true, false⟩ F.scalar.toScalar (fin true 1) (fin false 1) (fin false 0) (fin false 0) ∧
    withinTolRel ⟨false, true, false⟩ F.scalar.toScalar (fin false 1) (fin false 1) (fin false 0) (fin false 0) = .ok true := by
  obtain ⟨F, hF, -⟩ := exists_fmt (p := 24) (emin := -149) (by norm_num) (by norm_num)
  have o := fun sg => one_held hF (by norm_num) (by norm_num) sg
  exact ⟨F, hF, C135_abs_symmetric hF _ (by decide +kernel) _ _, C135_rel_symmetric hF _ (by decide +kernel) (by decide +kernel)
    (o false) (o true) rfl rfl, (C135_reflexive hF _ (by decide +kernel) (by decide +kernel) (o false) rfl).2⟩

/-- 1 and -1 are within 2 of each other but not within 1; the larger tolerance infinity accepts them too. -/
example : ∃ F : Fmt, IsFmt 24 (-149) F ∧
    withinTolAbs ⟨false, true, false⟩ F.scalar.toScalar (fin false 1) (fin true 1) (fin false 2) = .ok true ∧
    withinTolAbs ⟨false, true, false⟩ F.scalar.toScalar (fin false 1) (fin true 1) (fin false 1) = .ok false ∧
    withinTolAbs ⟨false, true, false⟩ F.scalar.toScalar (fin false 1) (fin true 1) (inf false) = .ok true := by
  obtain ⟨F, hF, ht⟩ := exists_fmt (p := 24) (emin := -149) (by norm_num) (by norm_num)
  have o := fun sg => one_held hF (by norm_num) (by norm_num) sg
  have t2 : Held 24 (-149) F (fin false 2) := ht ▸ top_held hF false
  have h := (C135_abs_exact hF ⟨false, true, false⟩ (tol := fin false 2) (by decide +kernel) rfl t2 (x := fin false 1)
    (y := fin true 1) rfl rfl).1 (by decide +kernel)
  exact ⟨F, hF, h, (C135_abs_exact hF _ (by decide +kernel) rfl (o false) rfl rfl).2 (fin false 2) t2 rfl (by decide +kernel)
    (by decide +kernel), (C135_monotone _ (nz := fin false 0) (nz' := fin false 0) (by decide +kernel) (by decide +kernel)
      (by decide +kernel) (by decide +kernel) _ _).1 h⟩

/-- The relative error of 1 as an approximation of -1 is at most 2, hence the pair is accepted for 2, also in arrays. -/
example : ∃ F : Fmt, IsFmt 24 (-149) F ∧
    withinTolRel ⟨false, true, false⟩ F.scalar.toScalar (fin false 1) (fin true 1) (fin false 2) (fin false 0) = .ok true ∧
    withinTolRelArray ⟨false, true, false⟩ .one F.scalar.toScalar (lit [fin false 1, fin false 1])
      (lit [fin true 1, fin true 1]) (fin false 2) (fin false 0) () false = .ok true := by
  obtain ⟨F, hF, ht⟩ := exists_fmt (p := 24) (emin := -149) (by norm_num) (by norm_num)
  have o := fun sg => one_held hF (by norm_num) (by norm_num) sg
  have t2 : F.rn 2 = 2 := (Order.mono hF.near).fix (ht ▸ hF.top)
  have e : sub F (fin false 1) (fin true 1) = fin false 2 := by
    show (if (1 : ℚ) + 1 = 0 then _ else FVal.round F (decide ((1 : ℚ) + 1 < 0)) |(1 : ℚ) + 1|) = _
    norm_num [FVal.round, t2, ht]
  have e' : absV (FVal.div F (fin false 2) (fin true 1)) = fin false 2 := by
    norm_num [FVal.div, FVal.round, t2, ht, absV, val]
  have hr : relError F.scalar.toScalar (fin false 1) (fin true 1) = .ok (some (fin false 2)) := by
    rw [relError_ieee, e, e', if_neg (by decide +kernel)]
  refine ⟨F, hF, C135_rel_error hF _ (by decide +kernel) (by decide +kernel) rfl (o false) (o true) rfl rfl hr
    (by decide +kernel), ?_⟩
  have s1 := lit_shaped () [fin false 1, fin false 1]
  have s2 := lit_shaped () [fin true 1, fin true 1]
  obtain ⟨v, h1, -, h2⟩ := (C135_max_rel (F := F) ⟨false, true, false⟩ s1 s2 (fin false 0)).2 (by simp [hr])
  exact C135_rel_arrays hF _ s1 s2 (fin false 0) (by simp [o, isFinite]) (by decide +kernel) (by decide +kernel) rfl h1
    ((h2 (by simp [hr]) _).2 (by simp [hr, le, val])) false

/-- The converse fails: 2 is an approximation of 1 with relative error 1, but within one half in `within_tol_rel`,
which divides by the larger magnitude. -/
theorem C135_rel_converse_fails :
    relError tiny.scalar.toScalar (fin false 2) (fin false 1) = .ok (some (fin false 1)) ∧
    withinTolRel ⟨false, true, false⟩ tiny.scalar.toScalar (fin false 2) (fin false 1) (fin false (1/2)) (fin false 0) =
      .ok true := by
  refine ⟨?_, ?_⟩ <;> decide +kernel

/-- With an infinite tolerance the relative error infinity of an infinite approximation is at most the tolerance, but
`within_tol_rel` rejects the pair. -/
theorem C135_infinite_tolerance (b : Build) :
    relError F.scalar.toScalar (inf false) (fin false 1) = .ok (some (inf false)) ∧
    le (inf false) (inf false) = true ∧
    withinTolRel b F.scalar.toScalar (inf false) (fin false 1) (inf false) (fin false 0) = .ok false := by
  refine ⟨?_, rfl, ?_⟩
  · rw [relError_ieee]; rfl
  · rw [withinTolRel_ieee b (by decide +kernel) (by decide +kernel)]; rfl

/-- A NaN that is not first is not visible in `max_abs_error`, but `within_tol_abs` rejects the arrays. -/
theorem C135_nan_differs :
    maxAbsError ⟨false, true, false⟩ .one tiny.scalar.toScalar (lit [fin false 3, nan]) (lit [fin false 1, fin false 1]) ()
      (fin false 0) = .ok (fin false 2) ∧
    withinTolAbsArray ⟨false, true, false⟩ .one tiny.scalar.toScalar (lit [fin false 3, nan])
      (lit [fin false 1, fin false 1]) (fin false 2) () true = .ok false := by
  refine ⟨?_, ?_⟩ <;> decide +kernel

example : ∃ v, maxAbsError ⟨false, true, false⟩ .one tiny.scalar.toScalar (lit [fin false 3, fin true 1])
      (lit [fin false 1, fin false 4]) () (fin false 0) = .ok v ∧
    ∀ tol : FVal, le (fin false 0) tol = true → ∀ e, withinTolAbsArray ⟨false, true, false⟩ .one tiny.scalar.toScalar
      (lit [fin false 3, fin true 1]) (lit [fin false 1, fin false 4]) tol () e = .ok (le v tol) :=
  C135_same_abs (F := tiny) _ (lit_shaped () [fin false 3, fin true 1]) (lit_shaped () [fin false 1, fin false 4]) _ (by
    simp only [List.zip_cons_cons, List.forall_mem_cons]
    refine ⟨by decide +kernel, by decide +kernel, by simp⟩)

example : ∃ v, maxAbsError ⟨false, true, false⟩ .one tiny.scalar.toScalar (lit [fin false 3, nan])
      (lit [fin false 1, fin false 4]) () (fin false 0) = .ok v ∧ le v (fin false 2) = true := by
  obtain ⟨v, h1, -, h2⟩ := C135_max_abs (F := tiny) ⟨false, true, false⟩ (lit_shaped () [fin false 3, nan])
    (lit_shaped () [fin false 1, fin false 4]) (fin false 0)
  refine ⟨v, h1, (h2 (by decide +kernel) _ (by decide +kernel)).2 ?_⟩
  simp only [List.zip_cons_cons, List.forall_mem_cons]
  refine ⟨.inr (by decide +kernel), .inl (by decide +kernel), by simp⟩

example : maxRelError ⟨false, true, false⟩ .one tiny.scalar.toScalar (lit [fin false 3, nan])
      (lit [fin false 1, fin true 0]) () (fin false 0) = .ok none ∧
    ∃ v, maxRelError ⟨false, true, false⟩ .one tiny.scalar.toScalar (lit [fin false 3, fin false 4])
      (lit [fin false 1, fin true 2]) () (fin false 0) = .ok (some v) ∧ le v (fin false 3) = true := by
  refine ⟨(C135_max_rel (F := tiny) _ (lit_shaped () [fin false 3, nan]) (lit_shaped () [fin false 1, fin true 0]) _).1
    ⟨(nan, fin true 0), by simp, by decide +kernel⟩, ?_⟩
  obtain ⟨v, h1, -, h2⟩ := (C135_max_rel (F := tiny) ⟨false, true, false⟩ (lit_shaped () [fin false 3, fin false 4])
    (lit_shaped () [fin false 1, fin true 2]) (fin false 0)).2 (by
      simp only [List.zip_cons_cons, List.forall_mem_cons]
      refine ⟨by decide +kernel, by decide +kernel, by simp⟩)
  refine ⟨v, h1, (h2 (by decide +kernel) _).2 ?_⟩
  simp only [List.zip_cons_cons, List.forall_mem_cons]
  refine ⟨fun r hr => .inr ?_, fun r hr => .inr ?_, by simp⟩
  · have : relError tiny.scalar.toScalar (fin false 3) (fin false 1) = .ok (some (fin false 2)) := by decide +kernel
    rw [this] at hr; cases hr; decide +kernel
  · have : relError tiny.scalar.toScalar (fin false 4) (fin true 2) = .ok (some (fin false 3)) := by decide +kernel
    rw [this] at hr; cases hr; decide +kernel

end Spp.Props
