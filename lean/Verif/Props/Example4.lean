import Verif.Model.Example4
import Verif.Props.StablePoly
import Verif.Props.Rounding
import Verif.Spec.Measure
import Verif.Props.Ieee
import Verif.Props.Poly
import Verif.Props.ErrorTools

/-
C138: the accuracy experiment in examples/example4.cpp.
-/

set_option linter.unusedSectionVars false

namespace Spp.Props

open Spec Examples Lemmas

variable {α β : Type}

/-! ### Outcomes -/

/-- What the loop computes from the errors of the iterations, in an arithmetic whose addition is `add`. -/
theorem stats_fold (sq : Scalar β) {add : β → β → β} (hadd : ∀ x y, sq.add x y = .ok (add x y))
    (g : α × List α → Res (Option β × Option β)) (errs : α × List α → β × β)
    (draws : List (α × List α)) (h : ∀ q ∈ draws, g q = .ok (some (errs q).1, some (errs q).2)) (st : Stats β) :
    draws.foldlM (fun st q => do
      let e ← g q
      record sq st e) st =
    .ok ⟨(draws.map fun q => (errs q).1).foldl sq.maxs st.maxErr, (draws.map fun q => (errs q).1).foldl add st.sumErr,
      (draws.map fun q => (errs q).2).foldl sq.maxs st.maxStable,
      (draws.map fun q => (errs q).2).foldl add st.sumStable⟩ := by
  induction draws generalizing st with
  | nil => rfl
  | cons q draws ih =>
    rw [List.foldlM_cons, h q List.mem_cons_self, Res.ok_bind]
    have e : record sq st (some (errs q).1, some (errs q).2) = .ok ⟨sq.maxs st.maxErr (errs q).1,
        add st.sumErr (errs q).1, sq.maxs st.maxStable (errs q).2, add st.sumStable (errs q).2⟩ := by
      show (sq.add st.sumErr (errs q).1 >>= _) = _
      rw [hadd, Res.ok_bind, hadd]
      rfl
    rw [e, Res.ok_bind, ih fun q hq => h q (List.mem_cons_of_mem _ hq)]
    rfl

/-- C138: if all relative errors exist, the program prints the greatest of zero and the errors (by `maxs`, in the order
of the iterations), and their sum divided by the number of iterations. -/
theorem C138_report (b : Build) (fs : FScalar α) (sq : Scalar β) (widen : α → β) {add div : β → β → β} {num : Int → β}
    (hadd : ∀ x y, sq.add x y = .ok (add x y)) (hdiv : ∀ x y, sq.div x y = .ok (div x y))
    (hnum : ∀ i, sq.ofIndex i = .ok (num i)) (draws : List (α × List α)) (errs : α × List α → β × β)
    (h : ∀ q ∈ draws, polyErrors b fs sq widen q.1 q.2 = .ok (some (errs q).1, some (errs q).2)) :
    polyReport b fs sq widen draws = .ok
      ((draws.map fun q => (errs q).1).foldl sq.maxs sq.zero,
       div ((draws.map fun q => (errs q).1).foldl add sq.zero) (num draws.length),
       (draws.map fun q => (errs q).2).foldl sq.maxs sq.zero,
       div ((draws.map fun q => (errs q).2).foldl add sq.zero) (num draws.length)) := by
  unfold polyReport polyStats
  rw [stats_fold sq hadd (fun q => polyErrors b fs sq widen q.1 q.2) errs draws h, Res.ok_bind, hnum]
  simp only [Res.ok_bind, hdiv]
  rfl

/-- C138: if in some iteration one of the two errors does not exist, and no earlier iteration fails, the program throws. -/
theorem C138_throws (b : Build) (fs : FScalar α) (sq : Scalar β) (widen : α → β) {add : β → β → β}
    (hadd : ∀ x y, sq.add x y = .ok (add x y)) (before after : List (α × List α)) (q : α × List α)
    (errs : α × List α → β × β)
    (h : ∀ q ∈ before, polyErrors b fs sq widen q.1 q.2 = .ok (some (errs q).1, some (errs q).2))
    {e : Option β × Option β} (hq : polyErrors b fs sq widen q.1 q.2 = .ok e) (he : e.1 = none ∨ e.2 = none) :
    polyReport b fs sq widen (before ++ q :: after) = .trap .exception := by
  have : polyStats b fs sq widen (before ++ q :: after) = .trap .exception := by
    unfold polyStats
    rw [List.foldlM_append, stats_fold sq hadd (fun q => polyErrors b fs sq widen q.1 q.2) errs before h, Res.ok_bind,
      List.foldlM_cons]
    show (((polyErrors b fs sq widen q.1 q.2) >>= _) >>= _) = _
    rw [hq, Res.ok_bind]
    obtain ⟨r, t⟩ := e
    rcases he with he | he
    · cases he; rfl
    · cases he; cases r <;> rfl
  unfold polyReport
  rw [this]
  rfl

/-! ### The greatest error -/

/-- C138: with comparisons of numbers the maximum printed is zero or one of the errors, and no error is greater. -/
theorem C138_max {sq : Scalar ℚ} (hlt : ∀ x y, sq.lt x y = decide (x < y)) (z : ℚ) (l : List ℚ) :
    (l.foldl sq.maxs z = z ∨ l.foldl sq.maxs z ∈ l) ∧ z ≤ l.foldl sq.maxs z ∧ ∀ r ∈ l, r ≤ l.foldl sq.maxs z := by
  induction l generalizing z with
  | nil => simp
  | cons x l ih =>
    rw [List.foldl_cons]
    obtain ⟨h1, h2, h3⟩ := ih (sq.maxs z x)
    have hm : (sq.maxs z x = z ∨ sq.maxs z x = x) ∧ z ≤ sq.maxs z x ∧ x ≤ sq.maxs z x := by
      unfold Scalar.maxs
      rw [hlt]
      by_cases h : x < z
      · rw [if_pos (decide_eq_true h)]; exact ⟨.inl rfl, le_rfl, h.le⟩
      · rw [if_neg (by simpa using h)]; exact ⟨.inr rfl, not_lt.1 h, le_rfl⟩
    refine ⟨?_, hm.2.1.trans h2, ?_⟩
    · rcases h1 with h1 | h1
      · rw [h1]
        rcases hm.1 with h | h
        · exact .inl h
        · exact .inr (by rw [h]; exact List.mem_cons_self)
      · exact .inr (List.mem_cons_of_mem _ h1)
    · intro r hr
      rcases List.mem_cons.1 hr with rfl | hr
      · exact hm.2.2.trans h2
      · exact h3 r hr

/-! ### Accuracy -/

variable {p q : Nat} {rn rq : ℚ → ℚ} {pow : ℚ → ℚ → ℚ} {sqrt : ℚ → ℚ} {σ : Type} {s : σ}

theorem zip_powers (f : ℚ → ℚ) (x : ℚ) (cs : List ℚ) :
    ((List.zip cs (List.zip (List.replicate cs.length x) (List.range cs.length))).map
      (fun q => f q.1 * q.2.1 ^ q.2.2)).sum = ∑ i ∈ Finset.range cs.length, f (cs.getD i 0) * x ^ i := by
  have key : ∀ (l : List ℚ) (k : Nat), ((List.zip l (List.zip (List.replicate l.length x)
      ((List.range l.length).map (fun i => k + i)))).map (fun q => f q.1 * q.2.1 ^ q.2.2)).sum =
      ∑ i ∈ Finset.range l.length, f (l.getD i 0) * x ^ (k + i) := by
    intro l
    induction l with
    | nil => intro k; simp
    | cons c l ih =>
      intro k
      have h := ih (k + 1)
      have e : (List.range l.length).map (fun i => k + 1 + i) = (List.range l.length).map (fun i => k + (i + 1)) :=
        List.map_congr_left fun i _ => by omega
      rw [e] at h
      rw [List.length_cons, List.range_succ_eq_map, List.map_cons, List.map_map, List.replicate_succ,
        List.zip_cons_cons, List.zip_cons_cons, List.map_cons, List.sum_cons, Finset.sum_range_succ']
      simp only [List.getD_cons_succ, List.getD_cons_zero]
      rw [add_comm]
      congr 1
      have e2 : ∀ i, k + (i + 1) = k + 1 + i := by intro i; omega
      rw [show (∑ i ∈ Finset.range l.length, f (l.getD i 0) * x ^ (k + (i + 1))) =
        ∑ i ∈ Finset.range l.length, f (l.getD i 0) * x ^ (k + 1 + i) from
          Finset.sum_congr rfl fun i _ => by rw [e2], ← h]
      rfl
  have := key cs 0
  simpa using this

/-- C138: the error of `stable_polynomial(c, x)` with `n` coefficients is one rounding and terms of second order,
relative to the polynomial of the absolute values. -/
theorem C138_stable_polynomial (hp : 2 ≤ p) (h : NearestX p rn) (b : Build) {C : Acc σ ℚ} {cs : List ℚ}
    (hC : Elems .one C s cs) (hne : cs ≠ []) (hsmall : cs.length ≤ 2 ^ 31) (hc : ∀ c ∈ cs, RepX p c) {x : ℚ}
    (hx : RepX p x) (dflt : ℚ) :
    let exact := ∑ i ∈ Finset.range cs.length, cs.getD i 0 * x ^ i
    let size := ∑ i ∈ Finset.range cs.length, |cs.getD i 0| * |x| ^ i
    let D := 2 * ((1 + unit p) ^ (2 * (cs.length - 1)) - 1) ^ 2
    let G := (1 + unit p) ^ (2 * cs.length) - 1
    ∃ v, Stable.polynomial b (rounded rn pow sqrt) C x s dflt = .ok v ∧
      |v - exact| ≤ unit p * |exact| +
        (1 + unit p) * (D + G ^ 2 * (1 + 2 * ((1 + unit p) ^ (cs.length - 1) - 1) + D)) * size := by
  intro exact size D G
  have hne' : cs.isEmpty = false := by simpa using hne
  obtain ⟨X, e1, e2⟩ := const_elems (σ := σ) (s := s) b cs.length (by omega) x
  obtain ⟨P, p1, p2⟩ := powers_elems (σ := σ) (s := s) b cs.length
  have ep : (List.range cs.length).map (fun i : Nat => SInt.cast .int i) =
      (List.range cs.length).map (fun i : Nat => (i : Int)) :=
    List.map_congr_left fun i hi => int_cast_small (by rw [List.mem_range] at hi; omega)
  rw [ep] at p2
  unfold Stable.polynomial
  rw [Elems.empty hC, hne', Elems.rows hC]
  simp only [Res.ok_bind, Bool.false_eq_true, if_false, e1, p1]
  obtain ⟨v, v1, v2⟩ := C62_bound (pow := pow) (sqrt := sqrt) hp h b hC e2 p2 (by simp) (by simp) hne (by omega) hc
    (by intro y hy; rw [List.eq_of_mem_replicate hy]; exact hx)
    (N := cs.length - 1) (by intro i hi; rw [List.mem_range] at hi; omega) (rounded rn pow sqrt).zero
  refine ⟨v, v1, ?_⟩
  have z1 := zip_powers id x cs
  have z2 : ((List.zip cs (List.zip (List.replicate cs.length x) (List.range cs.length))).map
      (fun q => |q.1| * |q.2.1| ^ q.2.2)).sum = size := by
    have := zip_powers (fun c => |c|) |x| cs
    rw [← List.map_replicate] at this
    refine Eq.trans ?_ this
    rw [List.zip_map_left, List.zip_map_right, List.map_map]
    rfl
  simp only [id] at z1
  rw [z1, z2] at v2
  exact v2

theorem coeffs_elems {α : Type} (C : List α) : Elems .one (coeffs C) () C :=
  elems_of rfl rfl (fun i hi => by
    show rd C (i : Int) = _
    rw [rd_nat hi])

theorem widened_elems {α β : Type} (w : α → β) (C : List α) : Elems .one (widened w C) () (C.map w) :=
  elems_of (by rw [List.length_map]; rfl) (by rw [List.length_map]; rfl) (fun i hi => by
    rw [List.length_map] at hi
    show (rd C (i : Int) >>= fun c => pure (w c)) = _
    rw [rd_nat hi, List.getElem_map]; rfl)

/-- `rel_error` with the reference value known up to `B`. -/
theorem relError_measures (hq : 2 ≤ q) (h : NearestX q rq) {v r P B : ℚ} (hB : |r - P| ≤ B) (hP : B < |P|)
    (hv : v ≠ 0) : ∃ e, ErrorTools.relError (rounded rq pow sqrt).toScalar v r = .ok (some e) ∧
      Measures (unit q) B P v e := by
  have hf := flX_nearestX hq h
  have hu0 : 0 < unit q := hf.pos
  have hu1 : unit q ≤ 1 := by
    unfold unit
    exact inv_le_one_of_one_le₀ (one_le_pow₀ (by norm_num))
  have hr : r ≠ 0 := by
    rintro rfl
    rw [zero_sub, abs_neg] at hB
    linarith
  have ab : ∀ y : ℚ, (if (0 : ℚ) < y then y else -y) = |y| := by
    intro y
    split
    · next hy => rw [abs_of_pos hy]
    · next hy => rw [abs_of_nonpos (not_lt.1 hy)]
  refine ⟨|rq (rq (v - r) / r)|, ?_, ?_⟩
  · unfold ErrorTools.relError
    rw [if_neg (by simp [rounded, hv, hr])]
    show (Scalar.abss _ (rq (rq (v - r) / r)) >>= _) = _
    have : Scalar.abss (rounded rq pow sqrt).toScalar (rq (rq (v - r) / r)) = .ok |rq (rq (v - r) / r)| := by
      unfold Scalar.abss
      rw [← ab]
      by_cases hy : (0 : ℚ) < rq (rq (v - r) / r)
      · rw [if_pos (by simpa [rounded] using hy), if_pos hy]
      · rw [if_neg (by simpa [rounded] using hy), if_neg hy]; rfl
    rw [this]
    rfl
  · have e1 := hf.relX (v - r)
    have e2 := hf.relX (rq (v - r) / r)
    set w := unit q
    set d := rq (v - r)
    set y := rq (d / r)
    have hrp : 0 < |r| := abs_pos.2 hr
    have d1 : |d| ≤ (1 + w) * |v - r| := by
      have := abs_sub_abs_le_abs_sub d (v - r)
      rw [abs_sub_comm d] at this
      linarith
    have d2 : (1 - w) * |v - r| ≤ |d| := by
      have := abs_sub_abs_le_abs_sub (v - r) d
      linarith
    have y1 : |y| ≤ (1 + w) * |d / r| := by
      have := abs_sub_abs_le_abs_sub y (d / r)
      rw [abs_sub_comm y] at this
      linarith
    have y2 : (1 - w) * |d / r| ≤ |y| := by
      have := abs_sub_abs_le_abs_sub (d / r) y
      linarith
    rw [abs_div] at y1 y2
    have t1 : |v - r| ≤ |v - P| + B := by
      have := abs_sub_le v P r
      rw [abs_sub_comm P r] at this
      linarith
    have t2 : |v - P| - B ≤ |v - r| := by
      have := abs_sub_le v r P
      linarith
    have r1 : |r| ≤ |P| + B := by
      have := abs_sub_abs_le_abs_sub r P
      linarith
    have r2 : |P| - B ≤ |r| := by
      have := abs_sub_abs_le_abs_sub P r
      rw [abs_sub_comm P] at this
      linarith
    have hB0 : 0 ≤ B := (abs_nonneg _).trans hB
    constructor
    · by_cases hs : |v - P| - B ≤ 0
      · exact (div_nonpos_of_nonpos_of_nonneg (mul_nonpos_of_nonneg_of_nonpos (sq_nonneg _) hs)
          (by linarith [abs_nonneg P])).trans (abs_nonneg _)
      · have hs' : 0 ≤ |v - P| - B := (not_le.1 hs).le
        refine le_trans ?_ y2
        rw [div_le_iff₀ (by linarith [abs_nonneg P])]
        have a1 : (1 - w) * (|v - P| - B) ≤ |d| := (mul_le_mul_of_nonneg_left t2 (by linarith)).trans d2
        have a2 : |d| ≤ |d| / |r| * (|P| + B) := by
          rw [div_mul_eq_mul_div, le_div_iff₀ hrp]
          exact mul_le_mul_of_nonneg_left r1 (abs_nonneg _)
        calc (1 - w) ^ 2 * (|v - P| - B) = (1 - w) * ((1 - w) * (|v - P| - B)) := by ring
          _ ≤ (1 - w) * (|d| / |r| * (|P| + B)) := mul_le_mul_of_nonneg_left (a1.trans a2) (by linarith)
          _ = _ := by ring
    · refine y1.trans ?_
      have a1 : |d| ≤ (1 + w) * (|v - P| + B) := d1.trans (mul_le_mul_of_nonneg_left t1 (by linarith))
      have a2 : |d| / |r| ≤ (1 + w) * (|v - P| + B) / (|P| - B) :=
        div_le_div₀ ((abs_nonneg _).trans a1) a1 (by linarith) r2
      calc (1 + w) * (|d| / |r|) ≤ (1 + w) * ((1 + w) * (|v - P| + B) / (|P| - B)) :=
            mul_le_mul_of_nonneg_left a2 (by linarith)
        _ = _ := by ring

/-- C138: one iteration.  The numbers `v` and `t` are computed by `polynomial` and `stable_polynomial` in the narrow
type with at most the errors given; the relative errors measured with the wide type differ from the true ones as
`Measures` says, where `B` bounds the error of `polynomial` in the wide type.  They do not exist exactly if one of the
two numbers is zero. -/
theorem C138_iteration (hp : 2 ≤ p) (h : NearestX p rn) (hq : 2 ≤ q) (h' : NearestX q rq) (b : Build)
    {cs : List ℚ} (hne : cs ≠ []) (hsmall : cs.length ≤ 2 ^ 31) (hc : ∀ c ∈ cs, RepX p c) {x : ℚ} (hx : RepX p x)
    {pow' : ℚ → ℚ → ℚ} {sqrt' : ℚ → ℚ} :
    let exact := ∑ i ∈ Finset.range cs.length, cs.getD i 0 * x ^ i
    let size := ∑ i ∈ Finset.range cs.length, |cs.getD i 0| * |x| ^ i
    let D := 2 * ((1 + unit p) ^ (2 * (cs.length - 1)) - 1) ^ 2
    let G := (1 + unit p) ^ (2 * cs.length) - 1
    let B := ((1 + unit q) ^ (2 * (cs.length - 1)) - 1) * size
    B < |exact| →
    ∃ v t,
      |v - exact| ≤ ((1 + unit p) ^ (2 * (cs.length - 1)) - 1) * size ∧
      |t - exact| ≤ unit p * |exact| +
        (1 + unit p) * (D + G ^ 2 * (1 + 2 * ((1 + unit p) ^ (cs.length - 1) - 1) + D)) * size ∧
      (v ≠ 0 → t ≠ 0 → ∃ r r', polyErrors b (rounded rn pow sqrt) (rounded rq pow' sqrt').toScalar id x cs =
          .ok (some r, some r') ∧ Measures (unit q) B exact v r ∧ Measures (unit q) B exact t r') ∧
      (v = 0 ∨ t = 0 → ∃ e, polyErrors b (rounded rn pow sqrt) (rounded rq pow' sqrt').toScalar id x cs = .ok e ∧
          (e.1 = none ∨ e.2 = none)) := by
  intro exact size D G B hB
  have hC := coeffs_elems cs
  have hW : Elems .one (widened id cs) () cs := by
    have := widened_elems (id : ℚ → ℚ) cs
    rwa [List.map_id] at this
  obtain ⟨v, v1, v2⟩ := C102_polynomial (pow := pow) (sqrt := sqrt) hp h b hC (by omega) hne x 0
  obtain ⟨t, t1, t2⟩ := C138_stable_polynomial (pow := pow) (sqrt := sqrt) hp h b hC hne hsmall hc hx 0
  obtain ⟨r, r1, r2⟩ := C102_polynomial (pow := pow') (sqrt := sqrt') hq h' b hW (by omega) hne x 0
  have un : polyErrors b (rounded rn pow sqrt) (rounded rq pow' sqrt').toScalar id x cs = (do
      let rel ← ErrorTools.relError (rounded rq pow' sqrt').toScalar v r
      let relStable ← ErrorTools.relError (rounded rq pow' sqrt').toScalar t r
      pure (rel, relStable)) := by
    unfold polyErrors
    have v1' : Ops.polynomial b (rounded rn pow sqrt).toArith (coeffs cs) x ()
      (rounded rn pow sqrt).zero = .ok v := v1
    have t1' : Stable.polynomial b (rounded rn pow sqrt) (coeffs cs) x () (rounded rn pow sqrt).zero = .ok t := t1
    have r1' : Ops.polynomial b (rounded rq pow' sqrt').toScalar.toArith (widened id cs) (id x) ()
      (rounded rq pow' sqrt').toScalar.zero = .ok r := r1
    rw [v1', Res.ok_bind, t1', Res.ok_bind, r1', Res.ok_bind]
    rfl
  have zero : ∀ r, ErrorTools.relError (rounded rq pow' sqrt').toScalar 0 r = .ok none := by
    intro r
    unfold ErrorTools.relError
    rw [if_pos (by simp [rounded])]
    rfl
  refine ⟨v, t, v2, t2, fun hv ht => ?_, fun hz => ?_⟩
  · obtain ⟨e, e1, e2⟩ := relError_measures (pow := pow') (sqrt := sqrt') hq h' (P := exact) (B := B) r2 hB hv
    obtain ⟨e', e1', e2'⟩ := relError_measures (pow := pow') (sqrt := sqrt') hq h' (P := exact) (B := B) r2 hB ht
    exact ⟨e, e', by rw [un, e1, Res.ok_bind, e1', Res.ok_bind]; rfl, e2, e2'⟩
  · by_cases hv : v = 0
    · by_cases ht : t = 0
      · exact ⟨(none, none), by rw [un, hv, zero, Res.ok_bind, ht, zero]; rfl, .inl rfl⟩
      · obtain ⟨e', e1', _⟩ := relError_measures (pow := pow') (sqrt := sqrt') hq h' (P := exact) (B := B) r2 hB ht
        exact ⟨(none, some e'), by rw [un, hv, zero, Res.ok_bind, e1']; rfl, .inl rfl⟩
    · have ht : t = 0 := hz.resolve_left hv
      obtain ⟨e, e1, _⟩ := relError_measures (pow := pow') (sqrt := sqrt') hq h' (P := exact) (B := B) r2 hB hv
      exact ⟨(some e, none), by rw [un, e1, Res.ok_bind, ht, zero]; rfl, .inr rfl⟩

/-- C138: in exact arithmetic both errors are zero, unless the polynomial is zero at the point: then they do not exist. -/
theorem C138_exact {K : Type} [Field K] [LinearOrder K] [IsStrictOrderedRing K] {pow pow' : K → K → K}
    {sqrt sqrt' : K → K} (b : Build) (cs : List K) (hne : cs ≠ []) (hsmall : cs.length ≤ 2 ^ 31) (x : K) :
    polyErrors b (exactF K pow sqrt) (exactS K pow' sqrt') id x cs =
      .ok (if ∑ i ∈ Finset.range cs.length, cs.getD i 0 * x ^ i = 0 then (none, none) else (some 0, some 0)) := by
  have hC := coeffs_elems cs
  have hW : Elems .one (widened id cs) () cs := by
    have := widened_elems (id : K → K) cs
    rwa [List.map_id] at this
  have v1 : Ops.polynomial b (exactF K pow sqrt).toArith (coeffs cs) x () (exactF K pow sqrt).zero = .ok _ :=
    C55_polynomial (pow := pow) (sqrt := sqrt) b hC (by omega) hne x 0
  have t1 : Stable.polynomial b (exactF K pow sqrt) (coeffs cs) x () (exactF K pow sqrt).zero = .ok _ :=
    C62_polynomial (pow := pow) (sqrt := sqrt) b hC hne hsmall x 0
  have r1 : Ops.polynomial b (exactS K pow' sqrt').toArith (widened id cs) (id x) ()
      (exactS K pow' sqrt').zero = .ok _ := C55_polynomial (pow := pow') (sqrt := sqrt') b hW (by omega) hne x 0
  unfold polyErrors
  rw [v1, Res.ok_bind, t1, Res.ok_bind, r1, Res.ok_bind]
  simp only [id]
  rw [(C70_errors _ _).2, Res.ok_bind]
  simp only [or_self, sub_self, abs_zero, zero_div]
  split <;> rfl

/-- C138: an error that is NaN does not stay in the maximum: the next error replaces it, whatever came before. -/
theorem C138_nan {F : Fmt} (m r : FVal) (l l' : List FVal) :
    (l ++ .nan :: r :: l').foldl F.scalar.maxs m = l'.foldl F.scalar.maxs r := by
  rw [List.foldl_append, List.foldl_cons, List.foldl_cons]
  rw [((C91_min_max (F := F) (l.foldl F.scalar.maxs m) .nan).1 (.inr (.inl rfl))).2,
    ((C91_min_max (F := F) .nan r).1 (.inl rfl)).2]

section examples

/-- `1 + 2 x + 3 x^2` at `x = 1/2` in double precision, measured with quadruple precision: the error of `polynomial` is
below `2^-49`, that of `stable_polynomial` below `2^-52`, and both are measured as such. -/
example : ∃ rn rq, NearestX 53 rn ∧ NearestX 113 rq ∧ ∃ r t,
    polyErrors ⟨false, true, false⟩ (rounded rn (fun x _ => x) id) (rounded rq (fun x _ => x) id).toScalar id (1 / 2)
      [1, 2, 3] = .ok (some r, some t) ∧ r < 1 / 2 ^ 50 ∧ t < 1 / 2 ^ 52 := by
  obtain ⟨rn, h⟩ := exists_nearestX (p := 53) (by norm_num)
  obtain ⟨rq, h'⟩ := exists_nearestX (p := 113) (by norm_num)
  obtain ⟨v, t, v1, t1, k, -⟩ := C138_iteration (pow := fun x _ => x) (sqrt := id) (pow' := fun x _ => x) (sqrt' := id)
    (by norm_num) h (by norm_num) h' ⟨false, true, false⟩ (cs := [1, 2, 3]) (by simp) (by norm_num)
    (by
      intro c hc
      simp only [List.mem_cons, List.not_mem_nil, or_false] at hc
      rcases hc with rfl | rfl | rfl
      · exact ⟨1, 0, by norm_num, by norm_num⟩
      · exact ⟨2, 0, by norm_num, by norm_num⟩
      · exact ⟨3, 0, by norm_num, by norm_num⟩)
    (x := 1 / 2) ⟨1, -1, by norm_num, by norm_num⟩ (by norm_num [Finset.sum_range_succ, unit, abs_of_pos])
  have key : ∀ {w B v r c : ℚ}, 0 ≤ w → w ≤ 1 / 1000 → B ≤ 1 / 2 ^ 60 → |v - 11 / 4| ≤ c →
      Measures w B (11 / 4) v r → r ≤ 1.01 * (c + 1 / 2 ^ 60) / 2.7 := by
    intro w B v r c h1 h2 h3 h4 h5
    refine h5.2.trans ?_
    rw [abs_of_pos (by norm_num : (0 : ℚ) < 11 / 4)]
    have hc : 0 ≤ c := (abs_nonneg _).trans h4
    have hB : B ≤ 1 / 20 := h3.trans (by norm_num)
    refine div_le_div₀ (by positivity) ?_ (by norm_num) (by linarith)
    exact (mul_le_mul_of_nonneg_left (add_le_add h4 h3) (sq_nonneg _)).trans
      (mul_le_mul_of_nonneg_right (by nlinarith) (by positivity))
  have ex : (∑ i ∈ Finset.range [(1 : ℚ), 2, 3].length, [(1 : ℚ), 2, 3].getD i 0 * (1 / 2) ^ i) = 11 / 4 := by
    norm_num [Finset.sum_range_succ]
  have sz : (∑ i ∈ Finset.range [(1 : ℚ), 2, 3].length, |[(1 : ℚ), 2, 3].getD i 0| * |(1 / 2 : ℚ)| ^ i) = 11 / 4 := by
    norm_num [Finset.sum_range_succ, abs_of_pos]
  rw [ex] at v1 t1 k
  rw [sz] at v1 t1 k
  replace v1 : |v - 11 / 4| ≤ 12 / 2 ^ 53 := v1.trans (by norm_num [unit])
  replace t1 : |t - 11 / 4| ≤ 3 / 2 ^ 53 := t1.trans (by norm_num [unit, abs_of_pos])
  have hv : v ≠ 0 := by
    rintro rfl
    norm_num [abs_of_pos] at v1
  have ht : t ≠ 0 := by
    rintro rfl
    norm_num [abs_of_pos] at t1
  obtain ⟨r, r', e1, e2, e3⟩ := k hv ht
  exact ⟨rn, rq, h, h', r, r', e1,
    (key (by norm_num [unit]) (by norm_num [unit]) (by norm_num [unit]) v1 e2).trans_lt (by norm_num),
    (key (by norm_num [unit]) (by norm_num [unit]) (by norm_num [unit]) t1 e3).trans_lt (by norm_num)⟩

/-- The polynomial `0`: there is no relative error. -/
example : polyReport ⟨false, true, false⟩ (exactF ℚ (fun x _ => x) id) (exactS ℚ (fun x _ => x) id) id
    [(1, [0])] = .trap .exception :=
  C138_throws (add := fun x y => x + y) _ _ _ _ (fun _ _ => rfl) [] [] _ (fun _ => (0, 0)) (by simp)
    (C138_exact _ [0] (by simp) (by simp) 1) (.inl (by simp))

/-- Two iterations in exact arithmetic: all errors are zero. -/
example : polyReport ⟨false, true, false⟩ (exactF ℚ (fun x _ => x) id) (exactS ℚ (fun x _ => x) id) id
    [(1, [1, 2]), (1, [3])] = .ok (0, 0, 0, 0) := by
  rw [C138_report (add := fun x y => x + y) (div := fun x y => x / y) (num := fun i => (i : ℚ)) _ _ _ _ (fun _ _ => rfl)
    (fun _ _ => rfl) (fun _ => rfl) _ (fun _ => (0, 0)) (by
      intro q hq
      simp only [List.mem_cons, List.not_mem_nil, or_false] at hq
      rcases hq with rfl | rfl
      · rw [C138_exact _ _ (by simp) (by simp)]; norm_num [Finset.sum_range_succ]
      · rw [C138_exact _ _ (by simp) (by simp)]; norm_num [Finset.sum_range_succ])]
  norm_num [exactS, Scalar.maxs]

/-- The greatest of three errors. -/
example : ∃ m, [3, 5, 4].foldl (exactF ℚ (fun x _ => x) id).toScalar.maxs 0 = m ∧ m ∈ [(3 : ℚ), 5, 4] ∧ 5 ≤ m := by
  obtain ⟨h1, -, h3⟩ := C138_max (sq := (exactF ℚ (fun x _ => x) id).toScalar) (fun _ _ => rfl) 0 [3, 5, 4]
  have h5 := h3 5 (by simp)
  refine ⟨_, rfl, ?_, h5⟩
  rcases h1 with h1 | h1
  · rw [h1] at h5; norm_num at h5
  · exact h1

end examples

end Spp.Props
