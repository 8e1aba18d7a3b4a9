import Verif.Lemmas.PowProds

/-
Lemmas for compensated products.
-/

set_option linter.unusedSectionVars false

namespace Spp.Lemmas

open Spp.Spec

variable {σ : Type} {G : ℚ → Prop} {u : ℚ} {rn : ℚ → ℚ} {pow : ℚ → ℚ → ℚ} {sqrt : ℚ → ℚ}

theorem runningProd_foldl (rn : ℚ → ℚ) (a : ℚ) (l : List ℚ) :
    runningProd rn a l = l.foldl (fun x y => rn (x * y)) a := by
  induction l generalizing a with
  | nil => rfl
  | cons x l ih => exact ih _

theorem runningProd_append (rn : ℚ → ℚ) (a : ℚ) (l : List ℚ) (x : ℚ) :
    runningProd rn a (l ++ [x]) = rn (runningProd rn a l * x) := by
  rw [runningProd_foldl, runningProd_foldl, List.foldl_append]; rfl

theorem prodErrors_append (rn : ℚ → ℚ) (a : ℚ) (l : List ℚ) (x : ℚ) :
    prodErrors rn a (l ++ [x]) =
      prodErrors rn a l ++ [runningProd rn a l * x - rn (runningProd rn a l * x)] := by
  induction l generalizing a with
  | nil => rfl
  | cons y l ih => simp [prodErrors, runningProd, ih]

theorem prodErrors_length (rn : ℚ → ℚ) (a : ℚ) (l : List ℚ) :
    (prodErrors rn a l).length = l.length := by
  induction l generalizing a with
  | nil => rfl
  | cons y l ih => simp [prodErrors, ih]

theorem errsG_prodErrors (hf : FlX G u rn) {l : List ℚ} (hl : ∀ x ∈ l, G x) {a : ℚ} (ha : G a) :
    errsG (fun x y => rn (x * y)) (fun x y => rn (x * y - rn (x * y))) a l = prodErrors rn a l := by
  induction l generalizing a with
  | nil => rfl
  | cons x l ih =>
    rw [errsG, prodErrors, ih (fun y hy => hl y (List.mem_cons_of_mem _ hy)) (hf.good _),
      hf.fix _ (hf.mulErr _ _ ha (hl x (List.mem_cons_self ..)))]

theorem offG_contributions (rn : ℚ → ℚ) (w : ℚ) (q : List (ℚ × ℚ)) :
    offG (fun x y => rn (x * y)) w q = contributions rn w q := by
  induction q generalizing w with
  | nil => rfl
  | cons p q ih => rw [offG, ih]; rfl

theorem contributions_length (rn : ℚ → ℚ) (w : ℚ) (q : List (ℚ × ℚ)) :
    (contributions rn w q).length = q.length := by
  induction q generalizing w with
  | nil => rfl
  | cons p q ih => simp [contributions, ih]

theorem contributions_scale (c w : ℚ) (q : List (ℚ × ℚ)) :
    contributions id (c * w) q = (contributions id w q).map (c * ·) := by
  induction q generalizing w with
  | nil => rfl
  | cons p q ih =>
    have := ih (w * p.2)
    rw [← mul_assoc] at this
    show c * w * p.1 :: contributions id (c * w * p.2) q = c * (w * p.1) :: _
    rw [this, mul_assoc]; rfl

theorem sum_scale (c : ℚ) (l : List ℚ) : (l.map (c * ·)).sum = c * l.sum := by
  have := sum_map_const_mul c id l
  simpa using this

theorem sum_abs_scale (c : ℚ) (l : List ℚ) :
    ((l.map (c * ·)).map abs).sum = |c| * (l.map abs).sum := by
  have := sum_map_const_mul |c| abs l
  rw [← this, List.map_map]
  congr 1
  refine List.map_congr_left fun x _ => ?_
  exact abs_mul c x

/-- The contributions of the errors of a running product. -/
def prodCorrections (rn rn' : ℚ → ℚ) (a : ℚ) (l : List ℚ) : List ℚ :=
  contributions rn' 1 (List.zip (prodErrors rn a l).reverse l.reverse)

theorem prodCorrections_append (rn : ℚ → ℚ) (a : ℚ) (l : List ℚ) (x : ℚ) :
    prodCorrections rn id a (l ++ [x]) =
      (runningProd rn a l * x - rn (runningProd rn a l * x)) ::
        (prodCorrections rn id a l).map (x * ·) := by
  unfold prodCorrections
  rw [prodErrors_append]
  simp only [List.reverse_append, List.reverse_cons, List.reverse_nil, List.nil_append,
    List.singleton_append, List.zip_cons_cons, contributions, one_mul, id]
  rw [← contributions_scale, mul_one]

/-- The running product and the exact contributions of its errors are the exact product. -/
theorem prod_expand (rn : ℚ → ℚ) (a : ℚ) (l : List ℚ) :
    runningProd rn a l + (prodCorrections rn id a l).sum = a * l.prod := by
  induction l using List.reverseRecOn with
  | nil => simp [runningProd, prodCorrections, prodErrors, contributions]
  | append_singleton l x ih =>
    rw [prodCorrections_append, runningProd_append, List.sum_cons, sum_scale, List.prod_append,
      List.prod_singleton, ← mul_assoc, ← ih]
    ring

theorem runningProd_abs (hf : FlX G u rn) (a : ℚ) (l : List ℚ) :
    |runningProd rn a l| ≤ (1 + u) ^ l.length * |a * l.prod| := by
  induction l using List.reverseRecOn with
  | nil => simp [runningProd]
  | append_singleton l x ih =>
    have h1 := abs_le_of_rel (hf.relX (runningProd rn a l * x))
    rw [runningProd_append, List.prod_append, List.prod_singleton, List.length_append, List.length_singleton,
      pow_succ, ← mul_assoc a, abs_mul (a * l.prod)]
    rw [abs_mul] at h1
    have h2 := mul_le_mul_of_nonneg_right ih (abs_nonneg x)
    have h3 := mul_le_mul_of_nonneg_left h2 (by linarith [hf.pos] : 0 ≤ 1 + u)
    linarith

theorem prodCorrections_abs (hf : FlX G u rn) (a : ℚ) (l : List ℚ) :
    ((prodCorrections rn id a l).map abs).sum ≤ ((1 + u) ^ l.length - 1) * |a * l.prod| := by
  induction l using List.reverseRecOn with
  | nil => simp [prodCorrections, prodErrors, contributions]
  | append_singleton l x ih =>
    have h1 := hf.relX (runningProd rn a l * x)
    rw [abs_mul] at h1
    have h0 := mul_le_mul_of_nonneg_left
      (mul_le_mul_of_nonneg_right (runningProd_abs hf a l) (abs_nonneg x)) hf.pos.le
    have h2 := mul_le_mul_of_nonneg_left ih (abs_nonneg x)
    rw [prodCorrections_append, List.map_cons, List.sum_cons, sum_abs_scale, List.prod_append,
      List.prod_singleton, List.length_append, List.length_singleton, pow_succ, ← mul_assoc a,
      abs_mul (a * l.prod)]
    linarith

theorem contributions_close (hf : FlX G u rn) (q : List (ℚ × ℚ)) {v w : ℚ} {k : Nat}
    (h : Close u v w |w| k) :
    |(contributions rn v q).sum - (contributions id w q).sum| ≤
      ((1 + u) ^ (k + q.length) - 1) * ((contributions id w q).map abs).sum ∧
    ((contributions rn v q).map abs).sum ≤
      (1 + u) ^ (k + q.length) * ((contributions id w q).map abs).sum := by
  induction q generalizing v w k with
  | nil => simp [contributions]
  | cons p q ih =>
    have c1 := ((h.mul hf.pos (Close.refl p.1)).round hf).mono hf.pos
      (show k + 0 + 1 ≤ k + (p :: q).length by simp)
    have c2 := (h.mul hf.pos (Close.refl p.2)).round hf
    rw [← abs_mul] at c1 c2
    obtain ⟨i1, i2⟩ := ih c2
    have e : k + 0 + 1 + q.length = k + (p :: q).length := by simp; omega
    rw [e] at i1 i2
    have e1 : contributions rn v (p :: q) = rn (v * p.1) :: contributions rn (rn (v * p.2)) q := rfl
    have e2 : contributions id w (p :: q) = w * p.1 :: contributions id (w * p.2) q := rfl
    rw [e1, e2]
    simp only [List.sum_cons, List.map_cons]
    constructor
    · have e3 : rn (v * p.1) + (contributions rn (rn (v * p.2)) q).sum -
        (w * p.1 + (contributions id (w * p.2) q).sum) = (rn (v * p.1) - w * p.1) +
        ((contributions rn (rn (v * p.2)) q).sum - (contributions id (w * p.2) q).sum) := by ring
      rw [e3]
      refine (abs_add_le _ _).trans ((add_le_add c1.1 i1).trans (le_of_eq ?_))
      ring
    · refine (add_le_add c1.abs i2).trans (le_of_eq ?_)
      ring

/-- `stable_prod` in floating-point arithmetic. -/
theorem stableProd_fl (hf : FlX G u rn) {d : Dim} {a : Acc σ ℚ} {s : σ} {x : ℚ} {l : List ℚ}
    (h : Elems d a s (x :: l)) (hG : ∀ y ∈ x :: l, G y) (hl : l.length + 1 < 2 ^ 63) (dflt : ℚ) :
    Stable.prod (rounded rn pow sqrt) a s dflt = .ok (rn (runningProd rn x l +
      (if l = [] then 0 else rn (runningSum rn 0 (prodCorrections rn rn x l) +
        runningSum rn 0 (sumErrors rn 0 (prodCorrections rn rn x l)))))) := by
  have hx := hG x (List.mem_cons_self ..)
  have hl' : ∀ y ∈ l, G y := fun y hy => hG y (List.mem_cons_of_mem _ hy)
  have hP := rounded_pure (pow := pow) (sqrt := sqrt) hf
  rw [stableProd_eq (rounded rn pow sqrt) hP.mul hP.prods h hl, errsG_prodErrors hf hl' hx,
    offG_contributions]
  have e1 : (rounded rn pow sqrt).one = 1 := rfl
  have e0 : (rounded rn pow sqrt).zero = 0 := rfl
  rw [e1, e0]
  have hg : ∀ y ∈ contributions rn 1 (List.zip (prodErrors rn x l).reverse l.reverse), G y := by
    generalize List.zip (prodErrors rn x l).reverse l.reverse = q
    generalize (1 : ℚ) = w
    intro y hy
    induction q generalizing w with
    | nil => simp [contributions] at hy
    | cons p q ih =>
      rw [show contributions rn w (p :: q) = rn (w * p.1) :: contributions rn (rn (w * p.2)) q from rfl,
        List.mem_cons] at hy
      rcases hy with rfl | hy
      · exact hf.good _
      · exact ih _ hy
  rw [sumStep_fold hf.toFl hg hf.zero, ← runningProd_foldl]
  split
  · rfl
  · rfl

theorem prod_err (hf : FlX G u rn) {x : ℚ} {l : List ℚ} (hx : G x) :
    |rn (runningProd rn x l +
      (if l = [] then 0 else rn (runningSum rn 0 (prodCorrections rn rn x l) +
        runningSum rn 0 (sumErrors rn 0 (prodCorrections rn rn x l))))) - x * l.prod| ≤
      (u + (1 + u) * (((1 + u) ^ l.length - 1) ^ 2 * (2 + 2 * ((1 + u) ^ l.length - 1) +
        2 * ((1 + u) ^ l.length - 1) ^ 2 + ((1 + u) ^ l.length - 1) ^ 3))) * |x * l.prod| := by
  have hu := hf.pos
  split
  next hl =>
    subst hl
    simp only [runningProd, add_zero, List.prod_nil, mul_one, List.length_nil, pow_zero, sub_self]
    rw [hf.fix _ hx, sub_self, abs_zero]
    positivity
  next hl =>
    have hm : 1 ≤ l.length := List.length_pos_iff.2 hl
    obtain ⟨c1, c2⟩ := contributions_close hf (List.zip (prodErrors rn x l).reverse l.reverse)
      (show Close u 1 1 |1| 0 from Close.refl 1)
    have ez : (List.zip (prodErrors rn x l).reverse l.reverse).length = l.length := by
      simp [prodErrors_length]
    rw [ez, zero_add] at c1 c2
    have hexp := prod_expand rn x l
    have hA := prodCorrections_abs hf x l
    have hG : ∀ y ∈ prodCorrections rn rn x l, G y := by
      unfold prodCorrections
      generalize List.zip (prodErrors rn x l).reverse l.reverse = q
      generalize (1 : ℚ) = w
      intro y hy
      induction q generalizing w with
      | nil => simp [contributions] at hy
      | cons p q ih =>
        rw [show contributions rn w (p :: q) = rn (w * p.1) :: contributions rn (rn (w * p.2)) q from rfl,
          List.mem_cons] at hy
        rcases hy with rfl | hy
        · exact hf.good _
        · exact ih _ hy
    have c3 := compensated_err hf.toFl hG
    have elen : (prodCorrections rn rn x l).length = l.length := by
      rw [prodCorrections, contributions_length, ez]
    rw [elen] at c3
    have hsum := abs_sum_le (prodCorrections rn rn x l)
    have hgood : G (rn (runningSum rn 0 (prodCorrections rn rn x l) +
        runningSum rn 0 (sumErrors rn 0 (prodCorrections rn rn x l)))) := hf.good _
    have hPg : G (runningProd rn x l) := by
      clear * - hx hf
      induction l using List.reverseRecOn with
      | nil => exact hx
      | append_singleton l y ih => rw [runningProd_append]; exact hf.good _
    have hgm := growth_mono hu (show l.length - 1 ≤ l.length by omega)
    have hg0 := growth_nonneg hu (l.length - 1)
    have hu1 : u ≤ (1 + u) ^ l.length - 1 := by
      have := growth_mono hu hm
      rw [pow_one] at this
      linarith
    change |(prodCorrections rn rn x l).sum - (prodCorrections rn id x l).sum| ≤
      _ * ((prodCorrections rn id x l).map abs).sum at c1
    change ((prodCorrections rn rn x l).map abs).sum ≤
      _ * ((prodCorrections rn id x l).map abs).sum at c2
    generalize rn (runningSum rn 0 (prodCorrections rn rn x l) +
        runningSum rn 0 (sumErrors rn 0 (prodCorrections rn rn x l))) = S at *
    generalize (prodCorrections rn rn x l).sum = T at *
    generalize ((prodCorrections rn rn x l).map abs).sum = TT at *
    generalize ((prodCorrections rn id x l).map abs).sum = WW at *
    generalize (prodCorrections rn id x l).sum = W at *
    generalize hP : x * l.prod = P at *
    generalize hH : (1 + u) ^ l.length = A at *
    obtain ⟨H, rfl⟩ : ∃ H, A = 1 + H := ⟨A - 1, by ring⟩
    simp only [add_sub_cancel_left] at *
    generalize (1 + u) ^ (l.length - 1) - 1 = g at *
    have hH0 : 0 ≤ H := hg0.trans hgm
    have hWW : 0 ≤ WW ∨ WW < 0 := le_or_gt _ _
    have hTT : TT ≤ (1 + H) * (H * |P|) := c2.trans (mul_le_mul_of_nonneg_left hA (by linarith))
    have hTW : |T - W| ≤ H * (H * |P|) := c1.trans (mul_le_mul_of_nonneg_left hA hH0)
    have hT0 : 0 ≤ TT := (abs_nonneg _).trans hsum
    have hST : |S - T| ≤ (H + (1 + H) * H ^ 2) * ((1 + H) * (H * |P|)) := by
      have q1 : u * |T| ≤ H * TT := mul_le_mul hu1 hsum (abs_nonneg _) hH0
      have q2 : (1 + u) * g ^ 2 ≤ (1 + H) * H ^ 2 :=
        mul_le_mul (by linarith) (pow_le_pow_left₀ hg0 hgm 2) (by positivity) (by linarith)
      have q3 := mul_le_mul_of_nonneg_right q2 hT0
      have q4 : (H + (1 + H) * H ^ 2) * TT ≤ (H + (1 + H) * H ^ 2) * ((1 + H) * (H * |P|)) :=
        mul_le_mul_of_nonneg_left hTT (by positivity)
      linarith
    have hD : |runningProd rn x l + S - P| ≤
        (H ^ 2 * (2 + 2 * H + 2 * H ^ 2 + H ^ 3)) * |P| := by
      have e : runningProd rn x l + S - P = (S - T) + (T - W) := by rw [← hexp]; ring
      rw [e]
      refine (abs_add_le _ _).trans ((add_le_add hST hTW).trans (le_of_eq ?_))
      ring
    have := final_add_err hf.toFl hPg hgood hD
    refine this.trans (le_of_eq ?_)
    ring

theorem stableProd_exact {K : Type} [Field K] [LinearOrder K] [IsStrictOrderedRing K]
    {powK : K → K → K} {sqrtK : K → K} {d : Dim} {a : Acc σ K} {s : σ} {l : List K}
    (he : Elems d a s l) (hne : l ≠ []) (hl : l.length < 2 ^ 63) (dflt : K) :
    Stable.prod (exactF K powK sqrtK) a s dflt = .ok l.prod := by
  cases l with
  | nil => exact absurd rfl hne
  | cons x l =>
    rw [stableProd_eq (exactF K powK sqrtK) (g := fun x y => x * y) (e := fun _ _ => 0)
      (fun _ _ => rfl) twoProds_exact he (by simpa using hl), sumStep_fold_exact]
    have h0 : ∀ (q : List (K × K)) (w : K), (∀ p ∈ q, p.1 = 0) → (offG (fun x y => x * y) w q).sum = 0 := by
      intro q
      induction q with
      | nil => intro w _; rfl
      | cons p q ih =>
        intro w hq
        rw [offG, List.sum_cons, hq p (List.mem_cons_self ..), mul_zero, zero_add]
        exact ih _ fun r hr => hq r (List.mem_cons_of_mem _ hr)
    have h1 : ∀ (l : List K) (a : K), ∀ e ∈ errsG (fun x y : K => x * y) (fun _ _ => 0) a l, e = 0 := by
      intro l
      induction l with
      | nil => intro a e he; simp [errsG] at he
      | cons y l ih =>
        intro a e he
        rw [errsG, List.mem_cons] at he
        rcases he with rfl | he
        · rfl
        · exact ih _ e he
    rw [h0 _ _ (fun p hp => by
      obtain ⟨hp1, -⟩ := List.of_mem_zip hp
      exact h1 _ _ _ (List.mem_reverse.1 hp1))]
    have hf : ∀ (l : List K) (a : K), l.foldl (fun x y => x * y) a = a * l.prod := by
      intro l
      induction l with
      | nil => intro a; simp
      | cons y l ih => intro a; rw [List.foldl_cons, ih, List.prod_cons, mul_assoc]
    rw [hf, List.prod_cons]
    have e0 : (exactF K powK sqrtK).zero = 0 := rfl
    rw [e0]
    split
    · show (Res.ok (x * l.prod + 0) : Res K) = _
      rw [add_zero]
    · show (Res.ok (x * l.prod + (0 + 0 + 0)) : Res K) = _
      rw [add_zero, add_zero, add_zero]

end Spp.Lemmas
