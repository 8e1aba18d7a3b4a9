import Verif.Lemmas.Stable

/-
Lemmas for compensated inner products, blocked sums and compensated products.
-/

set_option linter.unusedSectionVars false

namespace Spp.Lemmas

open Spp.Spec

variable {σ : Type} {G : ℚ → Prop} {u : ℚ} {rn : ℚ → ℚ} {pow : ℚ → ℚ → ℚ} {sqrt : ℚ → ℚ}

/-! ### Inner products -/

/-- One pass of the loop of `stable_dot_prod`. -/
def dotStep {α : Type} (fs : FScalar α) (ps : α × α) (q : α × α) : Res (α × α) := do
  let hr ← fs.twoProds q.1 q.2
  let pq ← fs.twoSums ps.1 hr.1
  let t ← fs.add pq.2 hr.2
  let t ← fs.add ps.2 t
  pure (pq.1, t)

theorem stableDot_eq {α : Type} {d : Dim} (b : Build) (fs : FScalar α) {a1 a2 : Acc σ α} {s : σ}
    {sh : Nat × Nat} {x y : α} {xs ys : List α} (h1 : Shaped d a1 s sh (x :: xs))
    (h2 : Shaped d a2 s sh (y :: ys)) (dflt : α) :
    Stable.dotProd b d fs a1 a2 s dflt = (do
      let ps ← fs.twoProds x y
      let ps ← (List.zip xs ys).foldlM (dotStep fs) ps
      fs.add ps.1 ps.2) := by
  have hsame := Props.Shaped.same h1 h2
  rw [decide_eq_true rfl] at hsame
  have e1 := Props.Shaped.elems h1
  have e2 := Props.Shaped.elems h2
  have hl : xs.length = ys.length := by
    have := (Props.Shaped.len h1).trans (Props.Shaped.len h2).symm
    simpa using this
  have u1 : a1.un s 0 = .ok x := Elems.un (i := 0) e1 (by simp)
  have u2 : a2.un s 0 = .ok y := Elems.un (i := 0) e2 (by simp)
  unfold Stable.dotProd
  rw [hsame, assertDebug_true, Res.ok_bind, Elems.empty e1, Elems.size e1, u1, u2]
  simp only [Res.ok_bind, List.isEmpty_cons, Bool.false_eq_true, if_false]
  refine bind_congr fun ps => ?_
  congr 1
  have el : ((List.length (x :: xs) : Int)).toNat - 1 = (List.zip xs ys).length := by
    rw [List.length_zip, List.length_cons]; omega
  rw [el]
  rw [← foldN_list (l := List.zip xs ys) (p := fun k => do
      let x ← a1.un s ((k + 1 : Nat) : Int)
      let y ← a2.un s ((k + 1 : Nat) : Int)
      pure (x, y)) (fun k hk => ?_) (dotStep fs)]
  · refine foldN_congr _ fun k r hk => ?_
    rw [List.length_zip] at hk
    rw [Elems.un e1 (by simp; omega), Elems.un e2 (by simp; omega)]
    rfl
  · rw [List.length_zip] at hk
    rw [Elems.un e1 (by simp; omega), Elems.un e2 (by simp; omega), List.getElem_zip]
    rfl

theorem twoSums_fl (h : Fl G u rn) {a b : ℚ} (ha : G a) (hb : G b) :
    (rounded rn pow sqrt).twoSums a b = .ok (rn (a + b), a + b - rn (a + b)) := by
  show (Res.ok (rn (a + b), rn (rn (a - rn (rn (a + b) - rn (rn (a + b) - a))) +
    rn (b - rn (rn (a + b) - a)))) : Res (ℚ × ℚ)) = _
  rw [h.two a b ha hb]

theorem twoProds_fl (h : Fl G u rn) {x y : ℚ} (hg : G (x * y - rn (x * y))) :
    (rounded rn pow sqrt).twoProds x y = .ok (rn (x * y), x * y - rn (x * y)) := by
  show (Res.ok (rn (x * y), rn (x * y + -rn (x * y))) : Res (ℚ × ℚ)) = _
  rw [← sub_eq_add_neg, h.fix _ hg]

theorem dot_fold (h : Fl G u rn) {qs : List (ℚ × ℚ)}
    (hq : ∀ q ∈ qs, G (q.1 * q.2 - rn (q.1 * q.2))) {a c : ℚ} (ha : G a) :
    qs.foldlM (dotStep (rounded rn pow sqrt)) (a, c) =
      .ok (runningSum rn a ((qs.map fun q => q.1 * q.2).map rn),
        runningSum rn c (List.zipWith (fun q r => rn (q + r))
          (sumErrors rn a ((qs.map fun q => q.1 * q.2).map rn))
          ((qs.map fun q => q.1 * q.2).map (fun v => v - rn v)))) := by
  induction qs generalizing a c with
  | nil => rfl
  | cons q qs ih =>
    have e : dotStep (rounded rn pow sqrt) (a, c) q =
        .ok (rn (a + rn (q.1 * q.2)),
          rn (c + rn (a + rn (q.1 * q.2) - rn (a + rn (q.1 * q.2)) +
            (q.1 * q.2 - rn (q.1 * q.2))))) := by
      unfold dotStep
      rw [twoProds_fl h (hq q (List.mem_cons_self ..)), Res.ok_bind, twoSums_fl h ha (h.good _)]
      rfl
    rw [List.foldlM_cons, e, Res.ok_bind, ih (fun r hr => hq r (List.mem_cons_of_mem _ hr)) (h.good _)]
    rfl

/-- `stable_dot_prod` in floating-point arithmetic. -/
theorem stableDot_fl {d : Dim} (h : Fl G u rn) (b : Build) {a1 a2 : Acc σ ℚ} {s : σ} {sh : Nat × Nat}
    {xs ys : List ℚ} (h1 : Shaped d a1 s sh xs) (h2 : Shaped d a2 s sh ys) (hne : xs ≠ [])
    (hq : ∀ v ∈ List.zipWith (· * ·) xs ys, G (v - rn v)) (dflt : ℚ) :
    Stable.dotProd b d (rounded rn pow sqrt) a1 a2 s dflt =
      .ok (rn (runningSum rn 0 ((List.zipWith (· * ·) xs ys).map rn) +
        runningSum rn 0 (corrections rn (List.zipWith (· * ·) xs ys)))) := by
  have hl : xs.length = ys.length := (Props.Shaped.len h1).trans (Props.Shaped.len h2).symm
  cases xs with
  | nil => exact absurd rfl hne
  | cons x xs => cases ys with
    | nil => simp at hl
    | cons y ys =>
      have hz : (List.zip xs ys).map (fun q => q.1 * q.2) = List.zipWith (· * ·) xs ys := by
        rw [List.zip, List.map_zipWith]
      have hq' : ∀ q ∈ List.zip xs ys, G (q.1 * q.2 - rn (q.1 * q.2)) := fun q hm => by
        refine hq _ ?_
        rw [List.zipWith_cons_cons, ← hz]
        exact List.mem_cons_of_mem _ (List.mem_map_of_mem (f := fun q : ℚ × ℚ => q.1 * q.2) hm)
      have h0 : G (x * y - rn (x * y)) := hq _ (by simp)
      rw [stableDot_eq b _ h1 h2, twoProds_fl h h0, Res.ok_bind, dot_fold h hq' (h.good _), Res.ok_bind, hz]
      show Res.ok (rn _) = _
      unfold corrections
      simp only [List.zipWith_cons_cons, List.map_cons, runningSum, sumErrors, zero_add,
        h.fix _ (h.good _), sub_self, h.fix _ h0]

theorem zipWith_sum (f : ℚ → ℚ → ℚ) (g1 g2 : ℚ → ℚ) (hf : ∀ x y, f x y ≤ g1 x + g2 y) :
    ∀ l1 l2 : List ℚ, l1.length = l2.length →
      (List.zipWith f l1 l2).sum ≤ (l1.map g1).sum + (l2.map g2).sum
  | [], [], _ => by simp
  | x :: l1, y :: l2, h => by
      have := zipWith_sum f g1 g2 hf l1 l2 (by simpa using h)
      simp only [List.zipWith_cons_cons, List.sum_cons, List.map_cons]
      linarith [hf x y]
  | [], _ :: _, h => by simp at h
  | _ :: _, [], h => by simp at h

theorem sum_map_le {f g : ℚ → ℚ} : ∀ {l : List ℚ}, (∀ x ∈ l, f x ≤ g x) →
    (l.map f).sum ≤ (l.map g).sum
  | [], _ => by simp
  | x :: l, h => by
      have h1 := sum_map_le (l := l) fun y hy => h y (List.mem_cons_of_mem _ hy)
      have h2 := h x (List.mem_cons_self ..)
      simp only [List.map_cons, List.sum_cons]
      linarith

theorem sum_map_const_mul (c : ℚ) (f : ℚ → ℚ) (l : List ℚ) :
    (l.map fun x => c * f x).sum = c * (l.map f).sum := by
  induction l with
  | nil => simp
  | cons x l ih => simp only [List.map_cons, List.sum_cons, ih]; ring

/-- The sum of the corrections is close to the exact error of the uncorrected inner product. -/
theorem corrections_err (h : Fl G u rn) {l : List ℚ} (hg : ∀ v ∈ l, G (v - rn v))
    (hrel : ∀ v ∈ l, |v - rn v| ≤ u * |v|) :
    |runningSum rn 0 (corrections rn l) - (l.sum - runningSum rn 0 (l.map rn))| ≤
      ((1 + u) ^ l.length - 1) ^ 2 * (l.map abs).sum := by
  set hs := l.map rn with hhs
  set rs := l.map (fun v => v - rn v) with hrs
  have hu := h.pos
  have hgood : ∀ v ∈ hs, G v := by
    intro v hv
    rw [hhs, List.mem_map] at hv
    obtain ⟨w, _, rfl⟩ := hv
    exact h.good _
  have hrg : ∀ v ∈ rs, G v := by
    intro v hv
    rw [hrs, List.mem_map] at hv
    obtain ⟨w, hw, rfl⟩ := hv
    exact hg w hw
  have hE := errors_rep h hgood h.zero
  have hEl : (sumErrors rn 0 hs).length = rs.length := by
    rw [errors_length, hhs, hrs, List.length_map, List.length_map]
  -- the exact corrections
  have hsum : l.sum - runningSum rn 0 hs = (sumErrors rn 0 hs).sum + rs.sum := by
    have h1 := errors_total rn 0 hs
    have h2 : hs.sum + rs.sum = l.sum := by
      rw [hhs, hrs]
      clear * -
      induction l with
      | nil => simp
      | cons x l ih => simp only [List.map_cons, List.sum_cons]; linarith
    linarith
  -- total size of the exact corrections
  have hT : ((sumErrors rn 0 hs).map abs).sum + (rs.map abs).sum ≤
      ((1 + u) ^ l.length - 1) * (l.map abs).sum := by
    cases hl : l with
    | nil => rw [hhs, hrs, hl]; simp [sumErrors]
    | cons v0 l0 =>
      rw [← hl]
      have e1 := errors_zero_bound h hgood
      have e2 : (hs.map abs).sum ≤ (1 + u) * (l.map abs).sum := by
        rw [hhs, List.map_map, ← sum_map_const_mul]
        exact sum_map_le fun v hv => abs_le_of_rel (hrel v hv)
      have e3 : (rs.map abs).sum ≤ u * (l.map abs).sum := by
        rw [hrs, List.map_map, ← sum_map_const_mul]
        exact sum_map_le fun v hv => hrel v hv
      have e4 : hs.length = l.length := by rw [hhs, List.length_map]
      rw [e4] at e1
      have hg' := growth_nonneg hu (l.length - 1)
      have e5 := mul_le_mul_of_nonneg_left e2 hg'
      have e6 : (1 + u) ^ l.length = (1 + u) ^ (l.length - 1) * (1 + u) := by
        rw [← pow_succ]; congr 1; rw [hl]; simp
      rw [e6]
      nlinarith
  -- the rounding of the corrections
  unfold corrections
  rw [← hhs, ← hrs]
  have hcg : ∀ v ∈ List.zipWith (fun q r => rn (q + r)) (sumErrors rn 0 hs) rs, G v := by
    intro v hv
    rw [List.mem_iff_getElem] at hv
    obtain ⟨i, hi, rfl⟩ := hv
    rw [List.getElem_zipWith]
    exact h.good _
  have key : ∀ (l1 l2 : List ℚ), (∀ v ∈ l1, G v) → (∀ v ∈ l2, G v) → l1.length = l2.length →
      |(List.zipWith (fun q r => rn (q + r)) l1 l2).sum - (l1.sum + l2.sum)| ≤
        u * ((l1.map abs).sum + (l2.map abs).sum) ∧
      ((List.zipWith (fun q r => rn (q + r)) l1 l2).map abs).sum ≤
        (1 + u) * ((l1.map abs).sum + (l2.map abs).sum) := by
    intro l1
    induction l1 with
    | nil => intro l2 _ _ hlen; cases l2 with
      | nil => simp
      | cons => simp at hlen
    | cons x l1 ih => intro l2 g1 g2 hlen; cases l2 with
      | nil => simp at hlen
      | cons y l2 =>
        obtain ⟨i1, i2⟩ := ih l2 (fun v hv => g1 v (List.mem_cons_of_mem _ hv))
          (fun v hv => g2 v (List.mem_cons_of_mem _ hv)) (by simpa using hlen)
        have r1 := h.rel x y (g1 x (List.mem_cons_self ..)) (g2 y (List.mem_cons_self ..))
        have r2 := abs_le_of_rel r1
        have r3 := abs_add_le x y
        simp only [List.zipWith_cons_cons, List.sum_cons, List.map_cons]
        constructor
        · have e : rn (x + y) + (List.zipWith (fun q r => rn (q + r)) l1 l2).sum -
              (x + l1.sum + (y + l2.sum)) = ((List.zipWith (fun q r => rn (q + r)) l1 l2).sum -
              (l1.sum + l2.sum)) - (x + y - rn (x + y)) := by ring
          rw [e]
          refine (abs_sub _ _).trans ?_
          nlinarith
        · nlinarith
  obtain ⟨k1, k2⟩ := key _ _ hE hrg hEl
  have k3 := runningSum_zero_err h hcg
  have hlen : (List.zipWith (fun q r => rn (q + r)) (sumErrors rn 0 hs) rs).length = l.length := by
    rw [List.length_zipWith, hEl, hrs, List.length_map, min_self]
  rw [hlen] at k3
  rw [hsum]
  generalize List.zipWith (fun q r => rn (q + r)) (sumErrors rn 0 hs) rs = cs at *
  generalize hTT : ((sumErrors rn 0 hs).map abs).sum + (rs.map abs).sum = T at *
  have hg1 := growth_nonneg hu l.length
  cases hl : l with
  | nil =>
    rw [hl] at hlen
    rw [List.length_eq_zero_iff.1 hlen, hhs, hrs, hl]
    simp [runningSum, sumErrors]
  | cons v0 l0 =>
    rw [← hl]
    have hg' := growth_nonneg hu (l.length - 1)
    have e5 := mul_le_mul_of_nonneg_left k2 hg'
    have e6 : (1 + u) ^ l.length = (1 + u) ^ (l.length - 1) * (1 + u) := by
      rw [← pow_succ]; congr 1; rw [hl]; simp
    have e7 : |runningSum rn 0 cs - ((sumErrors rn 0 hs).sum + rs.sum)| ≤
        ((1 + u) ^ l.length - 1) * T := by
      have e : runningSum rn 0 cs - ((sumErrors rn 0 hs).sum + rs.sum) =
          (runningSum rn 0 cs - cs.sum) + (cs.sum - ((sumErrors rn 0 hs).sum + rs.sum)) := by ring
      rw [e]
      refine (abs_add_le _ _).trans ?_
      rw [e6]
      nlinarith
    have e8 := mul_le_mul_of_nonneg_left hT hg1
    rw [sq, mul_assoc]
    linarith

/-- Adding a correction that is off by at most `D` leaves one rounding error. -/
theorem final_add_err (h : Fl G u rn) {S C V D : ℚ} (hS : G S) (hC : G C) (hD : |S + C - V| ≤ D) :
    |rn (S + C) - V| ≤ u * |V| + (1 + u) * D := by
  have hr := h.rel S C hS hC
  have hu := h.pos
  have h1 : |S + C| ≤ |V| + |S + C - V| := by
    have e : S + C = V + (S + C - V) := by ring
    calc |S + C| = |V + (S + C - V)| := by rw [← e]
      _ ≤ _ := abs_add_le _ _
  have h2 : |rn (S + C) - V| ≤ |S + C - rn (S + C)| + |S + C - V| := by
    have e : rn (S + C) - V = (S + C - V) - (S + C - rn (S + C)) := by ring
    rw [e]; exact (abs_sub (S + C - V) (S + C - rn (S + C))).trans (le_of_eq (add_comm _ _))
  have h3 := mul_le_mul_of_nonneg_left h1 hu.le
  have h4 := mul_le_mul_of_nonneg_left hD hu.le
  nlinarith

theorem dot_err (h : Fl G u rn) {l : List ℚ} (hg : ∀ v ∈ l, G (v - rn v))
    (hrel : ∀ v ∈ l, |v - rn v| ≤ u * |v|) :
    |rn (runningSum rn 0 (l.map rn) + runningSum rn 0 (corrections rn l)) - l.sum| ≤
      u * |l.sum| + (1 + u) * (((1 + u) ^ l.length - 1) ^ 2 * (l.map abs).sum) := by
  refine final_add_err h (runningSum_rep h h.zero _) (runningSum_rep h h.zero _) ?_
  have := corrections_err h hg hrel
  have e : runningSum rn 0 (l.map rn) + runningSum rn 0 (corrections rn l) - l.sum =
      runningSum rn 0 (corrections rn l) - (l.sum - runningSum rn 0 (l.map rn)) := by ring
  rw [e]; exact this

/-! ### Inner products in exact arithmetic -/

section exact

variable {K : Type} [Field K] [LinearOrder K] [IsStrictOrderedRing K] {powK : K → K → K}
  {sqrtK : K → K}

theorem twoSums_exact (x y : K) : (exactF K powK sqrtK).twoSums x y = .ok (x + y, 0) := by
  show (Res.ok (x + y, x - (x + y - (x + y - x)) + (y - (x + y - x))) : Res (K × K)) = _
  have : x - (x + y - (x + y - x)) + (y - (x + y - x)) = 0 := by ring
  rw [this]

theorem twoProds_exact (x y : K) : (exactF K powK sqrtK).twoProds x y = .ok (x * y, 0) := by
  show (Res.ok (x * y, x * y + -(x * y)) : Res (K × K)) = _
  rw [add_neg_cancel]

theorem dot_fold_exact (qs : List (K × K)) (a c : K) :
    qs.foldlM (dotStep (exactF K powK sqrtK)) (a, c) =
      .ok (a + (qs.map fun q => q.1 * q.2).sum, c) := by
  induction qs generalizing a with
  | nil => simp
  | cons q qs ih =>
    have e : dotStep (exactF K powK sqrtK) (a, c) q = .ok (a + q.1 * q.2, c) := by
      unfold dotStep
      rw [twoProds_exact, Res.ok_bind, twoSums_exact, Res.ok_bind]
      show (Res.ok (a + q.1 * q.2, c + ((0 : K) + 0)) : Res (K × K)) = _
      rw [add_zero, add_zero]
    rw [List.foldlM_cons, e, Res.ok_bind, ih, List.map_cons, List.sum_cons, add_assoc]

theorem stableDot_exact {d : Dim} (b : Build) {a1 a2 : Acc σ K} {s : σ} {sh : Nat × Nat}
    {xs ys : List K} (h1 : Shaped d a1 s sh xs) (h2 : Shaped d a2 s sh ys) (hne : xs ≠ []) (dflt : K) :
    Stable.dotProd b d (exactF K powK sqrtK) a1 a2 s dflt =
      .ok (List.zipWith (· * ·) xs ys).sum := by
  have hl : xs.length = ys.length := (Props.Shaped.len h1).trans (Props.Shaped.len h2).symm
  cases xs with
  | nil => exact absurd rfl hne
  | cons x xs => cases ys with
    | nil => simp at hl
    | cons y ys =>
      have hz : (List.zip xs ys).map (fun q => q.1 * q.2) = List.zipWith (· * ·) xs ys := by
        rw [List.zip, List.map_zipWith]
      rw [stableDot_eq b _ h1 h2, twoProds_exact, Res.ok_bind, dot_fold_exact, Res.ok_bind, hz]
      show (Res.ok (x * y + _ + 0) : Res K) = _
      rw [add_zero, List.zipWith_cons_cons, List.sum_cons]

end exact

end Spp.Lemmas
