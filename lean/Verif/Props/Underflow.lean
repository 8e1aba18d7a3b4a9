import Verif.Props.IeeeMore

/-
C137: rounding errors of inner products, means and polynomials when intermediate results may be too small for full
precision.  The bounds of C73 and C102 exclude this; here every multiplication and division may in addition lose half
of the least positive number.
-/

set_option linter.unusedSectionVars false

namespace Spp.Props

open Spp.Spec Spp.Lemmas FVal

variable {σ : Type} {s : σ} {d : Dim} {p : Nat} {emin : Int} {rn : ℚ → ℚ} {pow : ℚ → ℚ → ℚ} {sqrt : ℚ → ℚ} {F : Fmt}

/-- Rounding has a small relative error after a correction of at most half of the least positive number. -/
theorem under_err (hp : 1 ≤ p) (h : Nearest p emin rn) (x : ℚ) :
    ∃ e, |e| ≤ 2 ^ emin / 2 ∧ |x - (rn x - e)| ≤ unit p * |x| := by
  obtain ⟨k, h1, h2, h3⟩ := binade p emin x
  have hu : unit p * 2 ^ p = 1 := inv_mul_cancel₀ (by positivity)
  have hup : 0 < unit p := inv_pos.2 (by positivity)
  have hh := near_half hp h h1 h2.le
  rcases h3 with h3 | rfl
  · refine ⟨0, by rw [abs_zero]; have := two_zpow_pos emin; positivity, ?_⟩
    rw [sub_zero]
    have := mul_le_mul_of_nonneg_left h3 hup.le
    rw [← mul_assoc, hu, one_mul] at this
    linarith
  · refine ⟨rn x - x, by rwa [abs_sub_comm], ?_⟩
    rw [show x - (rn x - (rn x - x)) = 0 by ring, abs_zero]
    positivity

theorem under_abs (hp : 1 ≤ p) (h : Nearest p emin rn) (x : ℚ) : |rn x - x| ≤ unit p * |x| + 2 ^ emin / 2 := by
  obtain ⟨e, h1, h2⟩ := under_err hp h x
  have : rn x - x = e - (x - (rn x - e)) := by ring
  rw [this]
  refine (abs_sub _ _).trans ?_
  linarith

/-- As `Close.round`, for any number with a small relative error. -/
theorem _root_.Spp.Lemmas.Close.step {u : ℚ} (hu : 0 < u) {v w V M : ℚ} {k : Nat} (h : Close u v V M k) (hw : |v - w| ≤ u * |v|) :
    Close u w V M (k + 1) := by
  refine ⟨?_, h.2⟩
  have h2 := mul_le_mul_of_nonneg_left h.abs hu.le
  have h3 : |w - V| ≤ |v - V| + |v - w| := by
    have e : w - V = (v - V) - (v - w) := by ring
    rw [e]; exact abs_sub _ _
  have h4 := h.1
  have h5 : ((1 + u) ^ (k + 1) - 1) * M = ((1 + u) ^ k - 1) * M + u * ((1 + u) ^ k * M) := by
    rw [pow_succ]; ring
  rw [h5]
  linarith

/-! ### Polynomials -/

/-- Horner's rule with underflow: the computed value is close to the exact value of a polynomial whose coefficients
differ by at most half of the least positive number. -/
theorem horner_under (hp : 2 ≤ p) (h : Nearest p emin rn) (x : ℚ) (m : List ℚ) (hm : ∀ c ∈ m, Rep p emin c) {z : ℚ}
    (hz : Rep p emin z) :
    Rep p emin (m.foldr (fun c acc => rn (c + rn (acc * x))) z) ∧ ∃ P M,
      Close (unit p) (m.foldr (fun c acc => rn (c + rn (acc * x))) z) P M (2 * m.length) ∧
      |P - m.foldr (fun c acc => c + acc * x) z| ≤ 2 ^ emin / 2 * ∑ i ∈ Finset.range m.length, |x| ^ i ∧
      M ≤ m.foldr (fun c acc => |c| + acc * |x|) |z| + 2 ^ emin / 2 * ∑ i ∈ Finset.range m.length, |x| ^ i := by
  have hf := fl_nearest hp h
  induction m with
  | nil => exact ⟨hz, z, |z|, Close.refl z, by simp, by simp⟩
  | cons c m ih =>
    obtain ⟨hv, P, M, h1, h2, h3⟩ := ih fun y hy => hm y (List.mem_cons_of_mem _ hy)
    have hc := hm c List.mem_cons_self
    simp only [List.foldr_cons, List.length_cons]
    generalize m.foldr (fun c acc => rn (c + rn (acc * x))) z = v at *
    generalize m.foldr (fun c acc => c + acc * x) z = E at *
    generalize m.foldr (fun c acc => |c| + acc * |x|) |z| = A at *
    obtain ⟨e, e1, e2⟩ := under_err (by omega) h (v * x)
    have k1 := (h1.mul hf.pos (Close.refl (u := unit p) x)).step hf.pos e2
    have k2 := ((Close.refl (u := unit p) (c + e)).mono hf.pos (Nat.zero_le _)).add k1
    rw [show c + e + (rn (v * x) - e) = c + rn (v * x) by ring] at k2
    have k3 := k2.step hf.pos (hf.rel c _ hc (hf.good (v * x)))
    have hS : ∑ i ∈ Finset.range (m.length + 1), |x| ^ i = 1 + (∑ i ∈ Finset.range m.length, |x| ^ i) * |x| := by
      rw [Finset.sum_range_succ', Finset.sum_mul, pow_zero, add_comm]
      simp only [pow_succ]
    refine ⟨hf.good _, c + e + P * x, |c + e| + M * |x|, ?_, ?_, ?_⟩
    · rwa [show 2 * m.length + 0 + 1 + 1 = 2 * (m.length + 1) by omega] at k3
    · rw [hS, show c + e + P * x - (c + E * x) = e + (P - E) * x by ring]
      refine (abs_add_le _ _).trans ?_
      rw [abs_mul]
      have := mul_le_mul_of_nonneg_right h2 (abs_nonneg x)
      linarith
    · rw [hS]
      have k4 := mul_le_mul_of_nonneg_right h3 (abs_nonneg x)
      have k5 := abs_add_le c e
      linarith

/-- C137: `polynomial(c, x)` of degree `m` in a format with a least exponent, for representable coefficients: the error
is at most `2m` roundings relative to the polynomial of the absolute values, and for each of the `m` multiplications
half of the least positive number, multiplied by the powers of `|x|` that follow. -/
theorem C137_polynomial (hp : 2 ≤ p) (h : Nearest p emin rn) (b : Build) {a : Acc σ ℚ} {l : List ℚ}
    (ha : Elems .one a s l) (hsmall : (l.length : Int) < 2 ^ 63 - 1) (hl : ∀ c ∈ l, Rep p emin c) (hne : l ≠ [])
    (x dflt : ℚ) :
    ∃ v, Ops.polynomial b (rounded rn pow sqrt).toScalar.toArith a x s dflt = .ok v ∧
      |v - ∑ i ∈ Finset.range l.length, l.getD i 0 * x ^ i| ≤
        ((1 + unit p) ^ (2 * (l.length - 1)) - 1) * ∑ i ∈ Finset.range l.length, |l.getD i 0| * |x| ^ i +
        (1 + unit p) ^ (2 * (l.length - 1)) * (2 ^ emin / 2 * ∑ i ∈ Finset.range (l.length - 1), |x| ^ i) := by
  have hf := fl_nearest hp h
  refine ⟨_, (polynomial_eq b _ ha hsmall hne x dflt).trans (foldlM_pure (g := fun acc c => rn (c + rn (acc * x))) _ _
    fun _ _ _ => rfl), ?_⟩
  obtain ⟨-, P, M, h1, h2, h3⟩ := horner_under hp h x l.dropLast
    (fun c hc => hl c (List.dropLast_subset l hc)) (hl _ (List.getLast_mem hne))
  have e1 := horner_foldl l hne x
  have e2 := horner_foldl (l.map abs) (by simpa using hne) |x|
  rw [List.getLast_map, ← List.map_dropLast, ← List.map_reverse, List.foldl_map] at e2
  rw [List.foldl_reverse] at e1 e2 ⊢
  rw [e1] at h2
  rw [e2, List.length_map] at h3
  rw [List.length_dropLast] at h1 h2 h3
  have e3 : ∑ i ∈ Finset.range l.length, (l.map abs).getD i 0 * |x| ^ i =
      ∑ i ∈ Finset.range l.length, |l.getD i 0| * |x| ^ i := by
    refine Finset.sum_congr rfl fun i hi => ?_
    congr 1
    rw [Finset.mem_range] at hi
    rw [List.getD_eq_getElem _ _ (by simpa using hi), List.getD_eq_getElem _ _ hi, List.getElem_map]
  rw [e3] at h3
  have hg := growth_nonneg hf.pos (2 * (l.length - 1))
  have h4 := h1.1.trans (mul_le_mul_of_nonneg_left h3 hg)
  generalize l.dropLast.foldr (fun c acc => rn (c + rn (acc * x))) (l.getLast hne) = v at *
  generalize ∑ i ∈ Finset.range l.length, l.getD i 0 * x ^ i = E at *
  have h5 : |v - E| ≤ |v - P| + |P - E| := by
    have := abs_add_le (v - P) (P - E)
    rwa [sub_add_sub_cancel] at this
  nlinarith

/-! ### Inner products and means -/

theorem sum_under (hp : 1 ≤ p) (h : Nearest p emin rn) (l : List ℚ) :
    |(l.map rn).sum - l.sum| ≤ unit p * (l.map abs).sum + l.length * (2 ^ emin / 2) ∧
    ((l.map rn).map abs).sum ≤ (1 + unit p) * (l.map abs).sum + l.length * (2 ^ emin / 2) := by
  induction l with
  | nil => simp
  | cons x l ih =>
    have h1 := under_abs hp h x
    simp only [List.map_cons, List.sum_cons, List.length_cons]
    push_cast
    refine ⟨?_, ?_⟩
    · have := abs_add_le (rn x - x) ((l.map rn).sum - l.sum)
      rw [show rn x - x + ((l.map rn).sum - l.sum) = rn x + (l.map rn).sum - (x + l.sum) by ring] at this
      nlinarith [ih.1]
    · have : |rn x| ≤ |x| + |rn x - x| := by
        have := abs_add_le x (rn x - x)
        rwa [add_sub_cancel] at this
      nlinarith [ih.2]

/-- C137: `dot_prod(A, B)` of `n` elements in a format with a least exponent: the error is at most `n` roundings
relative to the sum of the absolute products, and half of the least positive number for each product. -/
theorem C137_dot (hp : 2 ≤ p) (h : Nearest p emin rn) (b : Build) {a1 a2 : Acc σ ℚ} {sh : Nat × Nat} {xs ys : List ℚ}
    (h1 : Shaped d a1 s sh xs) (h2 : Shaped d a2 s sh ys) (hne : xs ≠ []) (dflt : ℚ) :
    ∃ v, Ops.dotProd b d (rounded rn pow sqrt).toScalar.toArith a1 a2 s dflt = .ok v ∧
      |v - (List.zipWith (· * ·) xs ys).sum| ≤
        ((1 + unit p) ^ xs.length - 1) * ((List.zipWith (· * ·) xs ys).map abs).sum +
        (1 + unit p) ^ (xs.length - 1) * (xs.length * (2 ^ emin / 2)) := by
  have hf := fl_nearest hp h
  refine ⟨_, plainDot_rounded hf b h1 h2 hne dflt, ?_⟩
  have hlen : xs.length = ys.length := (Shaped.len h1).trans (Shaped.len h2).symm
  have hpos : 0 < xs.length := List.length_pos_iff.2 hne
  generalize hw : List.zipWith (· * ·) xs ys = w
  have hwl : w.length = xs.length := by rw [← hw, List.length_zipWith]; omega
  have k1 := runningSum_zero_err hf (l := w.map rn) (fun y hy => by
    obtain ⟨x, _, rfl⟩ := List.mem_map.1 hy
    exact hf.good x)
  obtain ⟨k2, k3⟩ := sum_under (by omega) h w
  rw [List.length_map, hwl] at k1
  rw [hwl] at k2 k3
  have hg := growth_nonneg hf.pos (xs.length - 1)
  have k4 := k1.trans (mul_le_mul_of_nonneg_left k3 hg)
  have k5 := abs_add_le (runningSum rn 0 (w.map rn) - (w.map rn).sum) ((w.map rn).sum - w.sum)
  rw [sub_add_sub_cancel] at k5
  have k6 : (1 + unit p) ^ xs.length = (1 + unit p) ^ (xs.length - 1) * (1 + unit p) := by
    rw [← pow_succ]; congr 1; omega
  rw [k6]
  nlinarith

/-- C137: `mean(A)` of `n` representable elements in a format with a least exponent: the error is at most `n` roundings
relative to the mean of the absolute values and half of the least positive number. -/
theorem C137_mean (hp : 2 ≤ p) (he : emin ≤ 0) (h : Nearest p emin rn) {a : Acc σ ℚ} {l : List ℚ} (ha : Elems d a s l)
    (hl : ∀ x ∈ l, Rep p emin x) (hne : l ≠ []) (hn : l.length < 2 ^ p) (dflt : ℚ) :
    ∃ v, Ops.mean (rounded rn pow sqrt).toScalar.toArith a s dflt = .ok v ∧
      |v - l.sum / l.length| ≤ ((1 + unit p) ^ l.length - 1) * ((l.map abs).sum / l.length) + 2 ^ emin / 2 := by
  have hf := fl_nearest hp h
  have hne' : l.isEmpty = false := by simpa using hne
  have hpos : 0 < l.length := List.length_pos_iff.2 hne
  have hposq : (0 : ℚ) < l.length := by exact_mod_cast hpos
  have hfix : rn (l.length : ℚ) = l.length := hf.fix _ ⟨l.length, 0, by
    rw [abs_of_nonneg (by omega)]; exact_mod_cast hn, he, by simp⟩
  have e1 := plainSum_rounded (pow := pow) (sqrt := sqrt) hf ha hl hne 0
  have e2 := runningSum_zero_err hf hl
  generalize runningSum rn 0 l = v at *
  refine ⟨rn (v / l.length), ?_, ?_⟩
  · unfold Ops.mean
    rw [Elems.empty ha, hne', Elems.size ha]
    show ((Ops.sum (rounded rn pow sqrt).toScalar.toArith a s 0) >>= _) = _
    rw [e1]
    show Res.ok (rn (v / rn ((l.length : Int) : ℚ))) = _
    rw [Int.cast_natCast, hfix]
  · have hc : Close (unit p) v l.sum (l.map abs).sum (l.length - 1) := ⟨e2, abs_sum_le l⟩
    have hc := close_div hf.pos hc hposq
    obtain ⟨e, k1, k2⟩ := under_err (by omega) h (v / l.length)
    have k3 := (hc.step hf.pos k2).1
    rw [show l.length - 1 + 1 = l.length by omega] at k3
    have := abs_add_le (rn (v / l.length) - e - l.sum / l.length) e
    rw [show rn (v / l.length) - e - l.sum / l.length + e = rn (v / l.length) - l.sum / l.length by ring] at this
    linarith

/-! ### Compensated inner products -/

theorem twoProds_any (x y : ℚ) :
    (rounded rn pow sqrt).twoProds x y = .ok (rn (x * y), rn (x * y - rn (x * y))) := by
  show (Res.ok (rn (x * y), rn (x * y + -rn (x * y))) : Res (ℚ × ℚ)) = _
  rw [← sub_eq_add_neg]

theorem dot_fold_any {G : ℚ → Prop} {u : ℚ} (h : Fl G u rn) (qs : List (ℚ × ℚ)) {a c : ℚ} (ha : G a) :
    qs.foldlM (dotStep (rounded rn pow sqrt)) (a, c) =
      .ok (runningSum rn a ((qs.map fun q => q.1 * q.2).map rn),
        runningSum rn c (List.zipWith (fun q r => rn (q + r))
          (sumErrors rn a ((qs.map fun q => q.1 * q.2).map rn))
          ((qs.map fun q => q.1 * q.2).map (fun v => rn (v - rn v))))) := by
  induction qs generalizing a c with
  | nil => rfl
  | cons q qs ih =>
    have e : dotStep (rounded rn pow sqrt) (a, c) q =
        .ok (rn (a + rn (q.1 * q.2)),
          rn (c + rn (a + rn (q.1 * q.2) - rn (a + rn (q.1 * q.2)) + rn (q.1 * q.2 - rn (q.1 * q.2))))) := by
      unfold dotStep
      rw [twoProds_any, Res.ok_bind, twoSums_fl h ha (h.good _)]
      rfl
    rw [List.foldlM_cons, e, Res.ok_bind, ih (h.good _)]
    rfl

theorem stableDot_any {G : ℚ → Prop} {u : ℚ} (h : Fl G u rn) (b : Build) {a1 a2 : Acc σ ℚ} {sh : Nat × Nat}
    {xs ys : List ℚ} (h1 : Shaped d a1 s sh xs) (h2 : Shaped d a2 s sh ys) (hne : xs ≠ []) (dflt : ℚ) :
    Stable.dotProd b d (rounded rn pow sqrt) a1 a2 s dflt =
      .ok (rn (runningSum rn 0 ((List.zipWith (· * ·) xs ys).map rn) +
        runningSum rn 0 (List.zipWith (fun q r => rn (q + r))
          (sumErrors rn 0 ((List.zipWith (· * ·) xs ys).map rn))
          ((List.zipWith (· * ·) xs ys).map (fun v => rn (v - rn v)))))) := by
  have hl : xs.length = ys.length := (Shaped.len h1).trans (Shaped.len h2).symm
  cases xs with
  | nil => exact absurd rfl hne
  | cons x xs => cases ys with
    | nil => simp at hl
    | cons y ys =>
      have hz : (List.zip xs ys).map (fun q => q.1 * q.2) = List.zipWith (· * ·) xs ys := by
        rw [List.zip, List.map_zipWith]
      rw [stableDot_eq b _ h1 h2, twoProds_any, Res.ok_bind, dot_fold_any h _ (h.good _), Res.ok_bind, hz]
      show Res.ok (rn _) = _
      simp only [List.zipWith_cons_cons, List.map_cons, runningSum, sumErrors, zero_add,
        h.fix _ (h.good _), sub_self]

theorem zip_rounded {G : ℚ → Prop} {u : ℚ} (h : Fl G u rn) : ∀ (l1 l2 : List ℚ), (∀ v ∈ l1, G v) → (∀ v ∈ l2, G v) →
    l1.length = l2.length →
    |(List.zipWith (fun q r => rn (q + r)) l1 l2).sum - (l1.sum + l2.sum)| ≤
      u * ((l1.map abs).sum + (l2.map abs).sum) ∧
    ((List.zipWith (fun q r => rn (q + r)) l1 l2).map abs).sum ≤
      (1 + u) * ((l1.map abs).sum + (l2.map abs).sum)
  | [], [], _, _, _ => by simp
  | x :: l1, y :: l2, g1, g2, hlen => by
      have hu := h.pos
      obtain ⟨i1, i2⟩ := zip_rounded h l1 l2 (fun v hv => g1 v (List.mem_cons_of_mem _ hv))
        (fun v hv => g2 v (List.mem_cons_of_mem _ hv)) (by simpa using hlen)
      have r1 := h.rel x y (g1 x List.mem_cons_self) (g2 y List.mem_cons_self)
      have r2 := abs_le_of_rel r1
      have r3 := abs_add_le x y
      simp only [List.zipWith_cons_cons, List.sum_cons, List.map_cons]
      constructor
      · have e : rn (x + y) + (List.zipWith (fun q r => rn (q + r)) l1 l2).sum -
            (x + l1.sum + (y + l2.sum)) = ((List.zipWith (fun q r => rn (q + r)) l1 l2).sum -
            (l1.sum + l2.sum)) - (x + y - rn (x + y)) := by ring
        rw [e]
        refine (abs_sub _ _).trans ?_
        nlinarith
      · nlinarith
  | [], _ :: _, _, _, h => by simp at h
  | _ :: _, [], _, _, h => by simp at h

/-- C137: `stable_dot_prod(A, B)` of `n` elements in a format with a least exponent: one rounding of the result, terms
of second order relative to the sum of the absolute products, and about half of the least positive number for each
product. -/
theorem C137_stable_dot (hp : 2 ≤ p) (h : Nearest p emin rn) (b : Build) {a1 a2 : Acc σ ℚ} {sh : Nat × Nat}
    {xs ys : List ℚ} (h1 : Shaped d a1 s sh xs) (h2 : Shaped d a2 s sh ys) (hne : xs ≠ []) (dflt : ℚ) :
    ∃ v, Stable.dotProd b d (rounded rn pow sqrt) a1 a2 s dflt = .ok v ∧
      |v - (List.zipWith (· * ·) xs ys).sum| ≤ unit p * |(List.zipWith (· * ·) xs ys).sum| + (1 + unit p) *
        ((((1 + unit p) ^ xs.length - 1) ^ 2 + (1 + unit p) ^ xs.length * unit p ^ 2) *
            ((List.zipWith (· * ·) xs ys).map abs).sum +
          ((1 + unit p) ^ (2 * xs.length) + unit p) * (xs.length * (2 ^ emin / 2))) := by
  have hf := fl_nearest hp h
  have hu := hf.pos
  refine ⟨_, stableDot_any hf b h1 h2 hne dflt, ?_⟩
  refine final_add_err hf (runningSum_rep hf hf.zero _) (runningSum_rep hf hf.zero _) ?_
  have hlen : xs.length = ys.length := (Shaped.len h1).trans (Shaped.len h2).symm
  have hpos : 0 < xs.length := List.length_pos_iff.2 hne
  generalize hw : List.zipWith (· * ·) xs ys = l
  have hll : l.length = xs.length := by rw [← hw, List.length_zipWith]; omega
  rw [← hll] at hpos ⊢
  clear hw hll hlen hne h1 h2
  have hgood : ∀ v ∈ l.map rn, Rep p emin v := by
    intro v hv
    obtain ⟨w, _, rfl⟩ := List.mem_map.1 hv
    exact hf.good _
  have htg : ∀ v ∈ l.map (fun v => rn (v - rn v)), Rep p emin v := by
    intro v hv
    obtain ⟨w, _, rfl⟩ := List.mem_map.1 hv
    exact hf.good _
  have hE := errors_rep hf hgood hf.zero
  have hEl : (sumErrors rn 0 (l.map rn)).length = (l.map (fun v => rn (v - rn v))).length := by
    rw [errors_length, List.length_map, List.length_map]
  have htot := errors_total rn 0 (l.map rn)
  obtain ⟨k1, k2⟩ := zip_rounded hf _ _ hE htg hEl
  have k3 := runningSum_zero_err hf (l := List.zipWith (fun q r => rn (q + r)) (sumErrors rn 0 (l.map rn))
    (l.map (fun v => rn (v - rn v)))) (by
      intro v hv
      rw [List.mem_iff_getElem] at hv
      obtain ⟨i, hi, rfl⟩ := hv
      rw [List.getElem_zipWith]
      exact hf.good _)
  rw [List.length_zipWith, hEl, List.length_map, min_self] at k3
  have k4 := errors_zero_bound hf hgood
  rw [List.length_map] at k4
  -- the products that are lost
  obtain ⟨q1, q2⟩ := sum_under (by omega) h l
  have hW : l.sum - (l.map rn).sum = (l.map fun v => v - rn v).sum := by
    clear * -
    induction l with
    | nil => simp
    | cons x l ih => simp only [List.map_cons, List.sum_cons]; linarith
  have q3 : ((l.map fun v => v - rn v).map abs).sum ≤ unit p * (l.map abs).sum + l.length * (2 ^ emin / 2) := by
    clear * - hp h
    induction l with
    | nil => simp
    | cons x l ih =>
      have := under_abs (by omega) h x
      rw [abs_sub_comm] at this
      simp only [List.map_cons, List.sum_cons, List.length_cons]
      push_cast
      linarith
  obtain ⟨q4, q5⟩ := sum_under (by omega) h (l.map fun v => v - rn v)
  rw [show (l.map fun v => v - rn v).map rn = l.map fun v => rn (v - rn v) by rw [List.map_map]; rfl,
    List.length_map] at q4 q5
  have e6 : (1 + unit p) ^ l.length = (1 + unit p) ^ (l.length - 1) * (1 + unit p) := by
    rw [← pow_succ]; congr 1; omega
  have hg := growth_nonneg hu (l.length - 1)
  have e7 : (1 + unit p) ^ (2 * l.length) = ((1 + unit p) ^ l.length) ^ 2 := by rw [← pow_mul, Nat.mul_comm]
  rw [e7, e6]
  have hη : 0 ≤ (l.length : ℚ) * (2 ^ emin / 2) := by have := two_zpow_pos emin; positivity
  have hM := sum_abs_nonneg l
  generalize List.zipWith (fun q r => rn (q + r)) (sumErrors rn 0 (l.map rn)) (l.map (fun v => rn (v - rn v))) = cs at *
  generalize runningSum rn 0 cs = C at *
  generalize cs.sum = c1 at *
  generalize (cs.map abs).sum = c2 at *
  generalize runningSum rn 0 (l.map rn) = S at *
  generalize (l.map fun v => rn (v - rn v)).sum = t1 at *
  generalize ((l.map fun v => rn (v - rn v)).map abs).sum = t2 at *
  generalize ((l.map fun v => v - rn v).map abs).sum = w2 at *
  generalize (l.map fun v => v - rn v).sum = w1 at *
  generalize ((sumErrors rn 0 (l.map rn)).map abs).sum = s2 at *
  generalize (sumErrors rn 0 (l.map rn)).sum = s1 at *
  generalize ((l.map rn).map abs).sum = h2 at *
  generalize (l.map rn).sum = h1 at *
  generalize (l.map abs).sum = M at *
  generalize (l.length : ℚ) * (2 ^ emin / 2) = η at *
  generalize l.sum = V at *
  generalize unit p = u at *
  generalize (1 + u) ^ (l.length - 1) = A at *
  have e8 : S + C - V = (C - c1) + (c1 - (s1 + t1)) + (t1 - w1) := by linarith
  have e9 : |S + C - V| ≤ |C - c1| + |c1 - (s1 + t1)| + |t1 - w1| := by
    rw [e8]
    exact (abs_add_le _ _).trans (add_le_add (abs_add_le _ _) le_rfl)
  -- T bounds the exact corrections
  have hs2 : s2 ≤ (A - 1) * ((1 + u) * M + η) := k4.trans (mul_le_mul_of_nonneg_left q2 hg)
  have ht2 : t2 ≤ (1 + u) * (u * M + η) + η :=
    q5.trans (by have := mul_le_mul_of_nonneg_left q3 (show 0 ≤ 1 + u by linarith); linarith)
  have f1 : |C - c1| ≤ (A - 1) * ((1 + u) * (s2 + t2)) := k3.trans (mul_le_mul_of_nonneg_left k2 hg)
  have f2 : |S + C - V| ≤ (A * (1 + u) - 1) * (s2 + t2) + (u * (u * M + η) + η) := by
    have := mul_le_mul_of_nonneg_left q3 hu.le
    linarith
  have hG : 0 ≤ A * (1 + u) - 1 := by nlinarith
  have f3 := mul_le_mul_of_nonneg_left (add_le_add hs2 ht2) hG
  have f4 : (A - 1) * ((1 + u) * M + η) + ((1 + u) * (u * M + η) + η) ≤
      (A * (1 + u) - 1 + u ^ 2) * M + (A * (1 + u) + 1) * η := by
    nlinarith [mul_nonneg (mul_nonneg hg hu.le) hη]
  have f5 := mul_le_mul_of_nonneg_left f4 hG
  refine f2.trans ?_
  nlinarith

/-! ### IEEE values -/

/-- C137: with IEEE numbers, whatever the elements are, a finite result of `dot_prod`, `stable_dot_prod` and
`polynomial` satisfies these bounds.  No assumption on underflow is left. -/
theorem C137_ieee (hp : 2 ≤ p) (hF : IsFmt p emin F) (b : Build) {a1 a2 c : Acc σ FVal} {sh : Nat × Nat}
    {l1 l2 l : List FVal} (h1 : Shaped d a1 s sh l1) (h2 : Shaped d a2 s sh l2) (hne : l1 ≠ [])
    (hc : Elems .one c s l) (hsmall : (l.length : Int) < 2 ^ 63 - 1) (hh : ∀ x ∈ l, Held p emin F x) (hl : l ≠ [])
    (x dflt : FVal) :
    (∃ v, Ops.dotProd b d F.scalar.toArith a1 a2 s dflt = .ok v ∧ (v.isFinite = true →
      |v.val - (List.zipWith (· * ·) (l1.map val) (l2.map val)).sum| ≤
        ((1 + unit p) ^ l1.length - 1) * ((List.zipWith (· * ·) (l1.map val) (l2.map val)).map abs).sum +
        (1 + unit p) ^ (l1.length - 1) * (l1.length * (2 ^ emin / 2)))) ∧
    (∃ v, Stable.dotProd b d F.scalar a1 a2 s dflt = .ok v ∧ (v.isFinite = true →
      |v.val - (List.zipWith (· * ·) (l1.map val) (l2.map val)).sum| ≤
        unit p * |(List.zipWith (· * ·) (l1.map val) (l2.map val)).sum| + (1 + unit p) *
          ((((1 + unit p) ^ l1.length - 1) ^ 2 + (1 + unit p) ^ l1.length * unit p ^ 2) *
              ((List.zipWith (· * ·) (l1.map val) (l2.map val)).map abs).sum +
            ((1 + unit p) ^ (2 * l1.length) + unit p) * (l1.length * (2 ^ emin / 2))))) ∧
    (∃ v, Ops.polynomial b F.scalar.toArith c x s dflt = .ok v ∧ (v.isFinite = true →
      |v.val - ∑ i ∈ Finset.range l.length, (l.map val).getD i 0 * x.val ^ i| ≤
        ((1 + unit p) ^ (2 * (l.length - 1)) - 1) *
          ∑ i ∈ Finset.range l.length, |(l.map val).getD i 0| * |x.val| ^ i +
        (1 + unit p) ^ (2 * (l.length - 1)) * (2 ^ emin / 2 * ∑ i ∈ Finset.range (l.length - 1), |x.val| ^ i))) := by
  have hll : l2.length = l1.length := (Shaped.len h2).trans (Shaped.len h1).symm
  have s1 := Sample.lit_shaped () (l1.map val)
  have s2 := Sample.lit_shaped () (l2.map val)
  rw [List.length_map] at s1 s2
  rw [hll] at s2
  have hne' : l1.map val ≠ [] := by simpa using hne
  have hl' : l.map val ≠ [] := by simpa using hl
  have hs := Shaped.elems (Sample.lit_shaped () (l.map val))
  obtain ⟨⟨v1, e1, k1⟩, ⟨v3, e3, k3⟩⟩ := C93_if_finite_dot (pow := fun x _ => x) (sqrt := id) hF b h1 h2 s1 s2 hne dflt 0
  obtain ⟨v2, e2, k2⟩ := C93_if_finite_polynomial (pow := fun x _ => x) (sqrt := id) hF b b hc hs hsmall hl x dflt 0
  refine ⟨⟨v1, e1, fun hf => ?_⟩, ⟨v3, e3, fun hf => ?_⟩, ⟨v2, e2, fun hf => ?_⟩⟩
  · obtain ⟨v, g1, g2⟩ := C137_dot (pow := fun x _ => x) (sqrt := id) hp hF.near b s1 s2 hne' 0
    rw [show Ops.dotProd b _ (rounded F.rn (fun x _ => x) id).toScalar.toArith _ _ _ _ = _ from (k1 hf).2] at g1
    cases g1
    rwa [List.length_map] at g2
  · obtain ⟨v, g1, g2⟩ := C137_stable_dot (pow := fun x _ => x) (sqrt := id) hp hF.near b s1 s2 hne' 0
    rw [(k3 hf).2] at g1
    cases g1
    rwa [List.length_map] at g2
  · obtain ⟨v, g1, g2⟩ := C137_polynomial (pow := fun x _ => x) (sqrt := id) hp hF.near b hs
      (by simpa using hsmall) (held_rep hh) hl' x.val 0
    rw [show Ops.polynomial b (rounded F.rn (fun x _ => x) id).toScalar.toArith _ _ _ _ = _ from (k2 hf).2] at g1
    cases g1
    rwa [List.length_map] at g2

/-! ### The additional terms are needed -/

/-- Numbers below half of the least positive number round to zero. -/
theorem tiny_zero (h : Nearest p emin rn) {x : ℚ} (hx : |x| < 2 ^ emin / 2) : rn x = 0 := by
  obtain ⟨m, e, -, he, hr⟩ := h.rep x
  by_contra hne
  have hm : m ≠ 0 := by rintro rfl; exact hne (by rw [hr]; simp)
  have h1 : (2 : ℚ) ^ emin ≤ |rn x| := by
    rw [hr, abs_mul, abs_of_pos (two_zpow_pos e)]
    have : (1 : ℚ) ≤ |(m : ℚ)| := by exact_mod_cast Int.one_le_abs hm
    have h2 := zpow_mono he
    nlinarith [two_zpow_pos e]
  have h2 := h.near x 0 rep_zero
  rw [sub_zero] at h2
  have h3 : |rn x| ≤ |x| + |x - rn x| := by
    have := abs_sub x (x - rn x)
    rwa [sub_sub_cancel] at this
  linarith

/-- C137: `dot_prod` and `stable_dot_prod` of one number `x` with itself, if `x * x` is below half of the least positive
number, are both zero.  So no bound relative to the sum of the absolute products holds for all arrays. -/
theorem C137_lost (hp : 2 ≤ p) (h : Nearest p emin rn) (b : Build) {a : Acc σ ℚ} {sh : Nat × Nat} {x : ℚ}
    (ha : Shaped d a s sh [x]) (hx : x * x < 2 ^ emin / 2) (dflt : ℚ) :
    Ops.dotProd b d (rounded rn pow sqrt).toScalar.toArith a a s dflt = .ok 0 ∧
    Stable.dotProd b d (rounded rn pow sqrt) a a s dflt = .ok 0 := by
  have hf := fl_nearest hp h
  have h0 : rn 0 = 0 := hf.fix _ hf.zero
  have h1 : rn (x * x) = 0 := tiny_zero h (by rwa [abs_mul_self])
  constructor
  · rw [plainDot_rounded hf b ha ha (by simp)]
    simp [runningSum, h1, h0]
  · rw [stableDot_any hf b ha ha (by simp)]
    simp [runningSum, sumErrors, h1, h0]

/-! ### Concrete cases -/

open Sample

-- in double precision, for the arrays 3, 2^-600 and 5, 2^-600; the coefficients 1, 2^-600 at 2^-600; the mean of two
-- least positive numbers and zero
example : ∃ rn, Nearest 53 (-1074) rn ∧
    (∃ v, Ops.dotProd ⟨false, true, false⟩ .one (rounded rn (fun x _ => x) id).toScalar.toArith
      (lit [3, 2 ^ (-600 : Int)]) (lit [5, 2 ^ (-600 : Int)]) () 0 = .ok v ∧
      |v - (15 + 2 ^ (-1200 : Int))| ≤ ((1 + unit 53) ^ 2 - 1) * (15 + 2 ^ (-1200 : Int)) +
        (1 + unit 53) * (2 * (2 ^ (-1074 : Int) / 2))) ∧
    (∃ v, Ops.mean (rounded rn (fun x _ => x) id).toScalar.toArith
      (lit [2 ^ (-1074 : Int), 2 ^ (-1074 : Int), 0]) () 0 = .ok v ∧
      |v - (2 ^ (-1074 : Int) + 2 ^ (-1074 : Int)) / 3| ≤ ((1 + unit 53) ^ 3 - 1) *
        ((2 ^ (-1074 : Int) + 2 ^ (-1074 : Int)) / 3) + 2 ^ (-1074 : Int) / 2) ∧
    (Ops.dotProd ⟨false, true, false⟩ .one (rounded rn (fun x _ => x) id).toScalar.toArith
      (lit [2 ^ (-600 : Int)]) (lit [2 ^ (-600 : Int)]) () 0 = .ok 0) := by
  obtain ⟨rn, h⟩ := exists_nearest (p := 53) (by norm_num) (-1074)
  have p0 : (0 : ℚ) < 2 ^ (-1074 : Int) := two_zpow_pos _
  have p1 : (2 : ℚ) ^ (-600 : Int) * 2 ^ (-600 : Int) = 2 ^ (-1200 : Int) := by
    rw [← zpow_add₀ (by norm_num)]; norm_num
  have p2 : (0 : ℚ) < 2 ^ (-1200 : Int) := two_zpow_pos _
  have p3 : (2 : ℚ) ^ (-1200 : Int) < 2 ^ (-1074 : Int) / 2 := by
    have e : (2 : ℚ) ^ (-1074 : Int) / 2 = 2 ^ (-1075 : Int) := by
      rw [show (-1074 : Int) = -1075 + 1 by norm_num, zpow_add₀ (by norm_num), zpow_one]; ring
    rw [e]
    exact zpow_lt_zpow_right₀ (by norm_num) (by norm_num)
  have r1 : Rep 53 (-1074) (2 ^ (-1074 : Int)) := ⟨1, -1074, by norm_num, by norm_num, by simp⟩
  refine ⟨rn, h, ?_, ?_, ?_⟩
  · obtain ⟨v, e1, e2⟩ := C137_dot (pow := fun x _ => x) (sqrt := id) (by norm_num) h ⟨false, true, false⟩
      (lit_shaped () [(3 : ℚ), 2 ^ (-600 : Int)]) (lit_shaped () [(5 : ℚ), 2 ^ (-600 : Int)]) (by simp) 0
    refine ⟨v, e1, ?_⟩
    simp only [List.zipWith_cons_cons, List.zipWith_nil_left, List.sum_cons, List.sum_nil, List.map_cons, List.map_nil,
      List.length_cons, List.length_nil, p1, abs_of_pos p2] at e2
    norm_num [abs_of_pos] at e2 ⊢
    linarith
  · obtain ⟨v, e1, e2⟩ := C137_mean (pow := fun x _ => x) (sqrt := id) (by norm_num) (by norm_num) h
      (Shaped.elems (lit_shaped () [(2 : ℚ) ^ (-1074 : Int), 2 ^ (-1074 : Int), 0]))
      (by simp only [List.mem_cons, List.not_mem_nil, or_false]; rintro x (rfl | rfl | rfl); exacts [r1, r1, rep_zero])
      (by simp) (by norm_num) 0
    refine ⟨v, e1, ?_⟩
    simp only [List.sum_cons, List.sum_nil, List.map_cons, List.map_nil, List.length_cons, List.length_nil,
      abs_of_pos p0, abs_zero, add_zero] at e2
    exact_mod_cast e2
  · exact (C137_lost (by norm_num) h _ (lit_shaped () [(2 : ℚ) ^ (-600 : Int)]) (by rw [p1]; exact p3) 0).1

-- 1 + 2^-600 x at x = 2^-600: the value 1 differs from the exact one by 2^-1200
example : ∃ rn, Nearest 53 (-1074) rn ∧
    ∃ v, Ops.polynomial ⟨false, true, false⟩ (rounded rn (fun x _ => x) id).toScalar.toArith
      (lit [1, 2 ^ (-600 : Int)]) (2 ^ (-600 : Int)) () 0 = .ok v ∧
      |v - (1 + 2 ^ (-1200 : Int))| ≤ ((1 + unit 53) ^ 2 - 1) * (1 + 2 ^ (-1200 : Int)) +
        (1 + unit 53) ^ 2 * (2 ^ (-1074 : Int) / 2) := by
  obtain ⟨rn, h⟩ := exists_nearest (p := 53) (by norm_num) (-1074)
  have p1 : (2 : ℚ) ^ (-600 : Int) * 2 ^ (-600 : Int) = 2 ^ (-1200 : Int) := by
    rw [← zpow_add₀ (by norm_num)]; norm_num
  have p2 : (0 : ℚ) < 2 ^ (-600 : Int) := two_zpow_pos _
  obtain ⟨v, e1, e2⟩ := C137_polynomial (pow := fun x _ => x) (sqrt := id) (by norm_num) h ⟨false, true, false⟩
    (Shaped.elems (lit_shaped () [(1 : ℚ), 2 ^ (-600 : Int)])) (by norm_num)
    (by simp only [List.mem_cons, List.not_mem_nil, or_false]
        rintro x (rfl | rfl)
        · exact ⟨1, 0, by norm_num, by norm_num, by simp⟩
        · exact ⟨1, -600, by norm_num, by norm_num, by simp⟩)
    (by simp) (2 ^ (-600 : Int)) 0
  refine ⟨rn, h, v, e1, ?_⟩
  simp only [List.length_cons, List.length_nil, Finset.sum_range_succ, Finset.sum_range_zero, List.getD_cons_zero,
    List.getD_cons_succ, pow_zero, pow_one, mul_one, zero_add, p1, abs_of_pos p2, abs_one] at e2
  exact e2

-- IEEE numbers: the arrays 1, 1 and 1, -1, and the coefficients 1, -1 at 1
example : ∃ F, IsFmt 24 (-149) F ∧
    ∃ v, Stable.dotProd ⟨false, true, false⟩ .one F.scalar (lit [fin false 1, fin false 1])
      (lit [fin false 1, fin true 1]) () (fin false 0) = .ok v ∧ (v.isFinite = true →
      |v.val - 0| ≤ (1 + unit 24) * ((((1 + unit 24) ^ 2 - 1) ^ 2 + (1 + unit 24) ^ 2 * unit 24 ^ 2) * 2 +
        ((1 + unit 24) ^ 4 + unit 24) * (2 * (2 ^ (-149 : Int) / 2)))) := by
  obtain ⟨F, hF, -⟩ := exists_fmt (p := 24) (emin := -149) (by norm_num) (by norm_num)
  have hs := lit_shaped () [fin false 1, fin true 1]
  obtain ⟨-, ⟨v, h1, h2⟩, -⟩ := C137_ieee (by norm_num) hF ⟨false, true, false⟩
    (lit_shaped () [fin false 1, fin false 1]) hs (by simp) (Shaped.elems hs) (by norm_num)
    (by simp [one_held hF]) (by simp) (fin false 1) (fin false 0)
  refine ⟨F, hF, v, h1, fun hf => ?_⟩
  have := h2 hf
  norm_num [val] at this ⊢
  linarith

end Spp.Props
