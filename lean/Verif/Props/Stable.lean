import Verif.Lemmas.StableProd

/-
C58-C61: compensated and blocked sums, products and inner products.  C73: plain sums and inner products.
-/

set_option linter.unusedSectionVars false

namespace Spp.Props

open Spp.Spec Spp.Lemmas

variable {σ : Type} {s : σ} {d : Dim} {p : Nat} {emin : Int} {rn : ℚ → ℚ} {pow : ℚ → ℚ → ℚ}
  {sqrt : ℚ → ℚ}

/-! ### Compensated sums -/

theorem stableSum_rounded {G : ℚ → Prop} {u : ℚ} (hf : Fl G u rn) {a : Acc σ ℚ} {l : List ℚ}
    (h : Elems d a s l) (hl : ∀ x ∈ l, G x) (hne : l ≠ []) (dflt : ℚ) :
    Stable.sum (rounded rn pow sqrt) a s dflt =
      .ok (rn (runningSum rn 0 l + runningSum rn 0 (sumErrors rn 0 l))) := by
  rw [stableSum_eq _ h hne]
  have hs := sumStep_fold (pow := pow) (sqrt := sqrt) hf hl (a := 0) (c := 0) hf.zero
  change List.foldlM _ ((rounded rn pow sqrt).zero, (rounded rn pow sqrt).zero) _ = _ at hs
  rw [hs]; rfl

theorem plainSum_rounded {G : ℚ → Prop} {u : ℚ} (hf : Fl G u rn) {a : Acc σ ℚ} {l : List ℚ}
    (h : Elems d a s l) (hl : ∀ x ∈ l, G x) (hne : l ≠ []) (dflt : ℚ) :
    Ops.sum (rounded rn pow sqrt).toScalar.toArith a s dflt = .ok (runningSum rn 0 l) := by
  cases l with
  | nil => exact absurd rfl hne
  | cons x xs =>
    rw [((C52_left_to_right h (rounded rn pow sqrt).toScalar.toArith dflt).2 x xs rfl).1,
      runningSum, zero_add, hf.fix _ (hl x (List.mem_cons_self ..)), runningSum_foldl]
    exact foldlM_pure (g := fun a y => rn (a + y)) xs x fun _ _ _ => rfl

/-- C58: `stable_sum` adds to what `sum` returns (`S`) the rounded sum of the exact rounding errors of
all its additions (`E`): `S` and the errors make up the exact sum.  So if the errors are added without
further rounding, the result is the correctly rounded sum. -/
theorem C58_compensated (hp : 2 ≤ p) (h : Nearest p emin rn) {a : Acc σ ℚ} {l : List ℚ}
    (ha : Elems d a s l) (hl : ∀ x ∈ l, Rep p emin x) (hne : l ≠ []) (dflt : ℚ) :
    ∃ (S : ℚ) (E : List ℚ),
      Ops.sum (rounded rn pow sqrt).toScalar.toArith a s dflt = .ok S ∧
      E.length = l.length ∧ S + E.sum = l.sum ∧
      Stable.sum (rounded rn pow sqrt) a s dflt = .ok (rn (S + runningSum rn 0 E)) ∧
      (runningSum rn 0 E = E.sum → Stable.sum (rounded rn pow sqrt) a s dflt = .ok (rn l.sum)) := by
  have hf := fl_nearest hp h
  have ht := errors_total rn 0 l
  rw [zero_add] at ht
  have hv := stableSum_rounded (pow := pow) (sqrt := sqrt) hf ha hl hne dflt
  refine ⟨runningSum rn 0 l, sumErrors rn 0 l, plainSum_rounded hf ha hl hne dflt, errors_length _ _ _,
    ht, hv, fun e => ?_⟩
  rw [hv, e, ht]

/-- C58: in exact arithmetic `stable_sum` and `stable_mean` are `sum` and `mean`. -/
theorem C58_exact {K : Type} [Field K] [LinearOrder K] [IsStrictOrderedRing K] {powK : K → K → K}
    {sqrtK : K → K} {a : Acc σ K} {l : List K} (h : Elems d a s l) (hne : l ≠ []) (dflt : K) :
    Stable.sum (exactF K powK sqrtK) a s dflt = .ok l.sum ∧
    Stable.mean (exactF K powK sqrtK) a s dflt = .ok (l.sum / l.length) := by
  refine ⟨stableSum_exact h hne dflt, ?_⟩
  have hne' : l.isEmpty = false := by simpa using hne
  unfold Stable.mean
  rw [Elems.empty h, hne', Elems.size h, stableSum_exact h hne]
  show (Res.ok (l.sum / ((l.length : Int) : K)) : Res K) = _
  rw [Int.cast_natCast]

/-- C58: without elements the result is the default; `stable_mean` divides `stable_sum` by the number
of elements, both rounded. -/
theorem C58_empty_mean (hp : 2 ≤ p) (h : Nearest p emin rn) {a : Acc σ ℚ} {l : List ℚ}
    (ha : Elems d a s l) (dflt : ℚ) :
    (l = [] → Stable.sum (rounded rn pow sqrt) a s dflt = .ok dflt ∧
      Stable.mean (rounded rn pow sqrt) a s dflt = .ok dflt) ∧
    (l ≠ [] → (∀ x ∈ l, Rep p emin x) → ∀ v, Stable.sum (rounded rn pow sqrt) a s dflt = .ok v →
      Stable.mean (rounded rn pow sqrt) a s dflt = .ok (rn (v / rn l.length))) := by
  refine ⟨fun e => ?_, fun hne hl v hv => ?_⟩
  · unfold Stable.mean Stable.sum
    rw [Elems.empty ha, e]
    exact ⟨rfl, rfl⟩
  · have hne' : l.isEmpty = false := by simpa using hne
    have hf := fl_nearest hp h
    rw [stableSum_rounded hf ha hl hne] at hv
    unfold Stable.mean
    rw [Elems.empty ha, hne', Elems.size ha, stableSum_rounded hf ha hl hne]
    injection hv with hv
    rw [hv]
    show (Res.ok (rn (v / rn ((l.length : Int) : ℚ))) : Res ℚ) = _
    rw [Int.cast_natCast]

/-- `(1 + u)^m - 1` is what error analysis calls `γ_m`, or less. -/
theorem growth_gamma {u : ℚ} (hu : 0 < u) {m : Nat} (hm : m * u < 1) :
    (1 + u) ^ m - 1 ≤ m * u / (1 - m * u) := by
  have h1 : 0 < 1 - m * u := by linarith
  rw [le_div_iff₀ h1]
  by_cases h0 : m = 0
  · subst h0; simp
  have hu1 : u < 1 := by
    have : (1 : ℚ) ≤ m := by exact_mod_cast Nat.one_le_iff_ne_zero.2 h0
    nlinarith
  have h2 : 1 - m * u ≤ (1 - u) ^ m := by
    have := one_add_mul_le_pow (a := -u) (by linarith) m
    have e : (1 : ℚ) + m * (-u) = 1 - m * u := by ring
    rwa [e, ← sub_eq_add_neg] at this
  have h3 : (1 + u) ^ m * (1 - u) ^ m ≤ 1 := by
    rw [← mul_pow]
    have : (1 + u) * (1 - u) = 1 - u ^ 2 := by ring
    rw [this]
    refine pow_le_one₀ ?_ ?_
    · nlinarith
    · nlinarith
  have h4 : (1 + u) ^ m * (1 - m * u) ≤ 1 :=
    (mul_le_mul_of_nonneg_left h2 (by positivity)).trans h3
  linarith

/-- C59: the result of `stable_sum` differs from the exact sum by one rounding error and a term of second
order in the unit roundoff `u = 2^-p`, for every precision and every least exponent. -/
theorem C59_bound (hp : 2 ≤ p) (h : Nearest p emin rn) {a : Acc σ ℚ} {l : List ℚ}
    (ha : Elems d a s l) (hl : ∀ x ∈ l, Rep p emin x) (hne : l ≠ []) (dflt : ℚ) :
    ∃ v, Stable.sum (rounded rn pow sqrt) a s dflt = .ok v ∧
      |v - l.sum| ≤ unit p * |l.sum| +
        (1 + unit p) * ((1 + unit p) ^ (l.length - 1) - 1) ^ 2 * (l.map abs).sum :=
  ⟨_, stableSum_rounded (fl_nearest hp h) ha hl hne dflt, compensated_err (fl_nearest hp h) hl⟩

/-- C59: the same with the customary `γ = (n-1)u / (1 - (n-1)u)`. -/
theorem C59_gamma (hp : 2 ≤ p) (h : Nearest p emin rn) {a : Acc σ ℚ} {l : List ℚ}
    (ha : Elems d a s l) (hl : ∀ x ∈ l, Rep p emin x) (hne : l ≠ [])
    (hn : ((l.length - 1 : Nat) : ℚ) * unit p < 1) (dflt : ℚ) :
    ∃ v, Stable.sum (rounded rn pow sqrt) a s dflt = .ok v ∧
      |v - l.sum| ≤ unit p * |l.sum| + (1 + unit p) *
        (((l.length - 1 : Nat) : ℚ) * unit p / (1 - ((l.length - 1 : Nat) : ℚ) * unit p)) ^ 2 *
          (l.map abs).sum := by
  obtain ⟨v, h1, h2⟩ := C59_bound (pow := pow) (sqrt := sqrt) hp h ha hl hne dflt
  have hu := (fl_nearest hp h).pos
  refine ⟨v, h1, h2.trans (add_le_add le_rfl ?_)⟩
  refine mul_le_mul_of_nonneg_right (mul_le_mul_of_nonneg_left ?_ (by linarith)) (sum_abs_nonneg l)
  exact pow_le_pow_left₀ (growth_nonneg hu _) (growth_gamma hu hn) 2

/-- C73: the rounding error of plain `sum`: at most `n - 1` roundings relative to the sum of the absolute
values, so non-negative data are summed with a small relative error. -/
theorem C73_sum (hp : 2 ≤ p) (h : Nearest p emin rn) {a : Acc σ ℚ} {l : List ℚ}
    (ha : Elems d a s l) (hl : ∀ x ∈ l, Rep p emin x) (hne : l ≠ []) (dflt : ℚ) :
    ∃ v, Ops.sum (rounded rn pow sqrt).toScalar.toArith a s dflt = .ok v ∧
      |v - l.sum| ≤ ((1 + unit p) ^ (l.length - 1) - 1) * (l.map abs).sum :=
  ⟨_, plainSum_rounded (fl_nearest hp h) ha hl hne dflt, runningSum_zero_err (fl_nearest hp h) hl⟩

/-! ### Blocked sums -/

/-- C60: `semi_stable_sum` cuts the elements into consecutive blocks of 64 and a remainder; together they
are the elements, each exactly once.  It sums the blocks plainly, adds the block sums as `stable_sum`
does and finally adds the sum of the remainder (from the back). -/
theorem C60_blocks (hp : 2 ≤ p) (h : Nearest p emin rn) (b : Build) {a : Acc σ ℚ} {l : List ℚ}
    (ha : Elems d a s l) (hne : l ≠ []) (hsize : l.length < 2 ^ 63) (dflt : ℚ) :
    (blocks 64 l).flatten ++ afterBlocks 64 l = l ∧ (∀ B ∈ blocks 64 l, B.length = 64) ∧
    (afterBlocks 64 l).length < 64 ∧
    Stable.semiSum b (rounded rn pow sqrt) a s dflt = .ok
      (if l.length < 64 then runningSum rn 0 l.reverse
      else
        let sums := (blocks 64 l).map (runningSum rn 0)
        rn (rn (runningSum rn 0 sums + runningSum rn 0 (sumErrors rn 0 sums)) +
          runningSum rn 0 (afterBlocks 64 l).reverse)) :=
  ⟨blocks_flatten l, fun _ hB => block_len hB, by rw [afterBlocks_len]; exact Nat.mod_lt _ (by omega),
    semiSum_fl (fl_nearest hp h) b ha hne hsize dflt⟩

/-- C60: in exact arithmetic `semi_stable_sum` is `sum`. -/
theorem C60_exact {K : Type} [Field K] [LinearOrder K] [IsStrictOrderedRing K] {powK : K → K → K}
    {sqrtK : K → K} (b : Build) {a : Acc σ K} {l : List K} (h : Elems d a s l)
    (hsize : l.length < 2 ^ 63) (dflt : K) :
    Stable.semiSum b (exactF K powK sqrtK) a s dflt = .ok (if l = [] then dflt else l.sum) := by
  by_cases hne : l = []
  · unfold Stable.semiSum
    rw [Elems.empty h, if_pos hne, hne]; rfl
  · rw [semiSum_exact b h hne hsize, if_neg hne]

/-- C60: the rounding error does not grow with the number of elements to first order: 65 roundings, and
a term of second order in the number of blocks. -/
theorem C60_bound (hp : 2 ≤ p) (h : Nearest p emin rn) (b : Build) {a : Acc σ ℚ} {l : List ℚ}
    (ha : Elems d a s l) (hl : ∀ x ∈ l, Rep p emin x) (hne : l ≠ []) (hsize : l.length < 2 ^ 63)
    (dflt : ℚ) :
    ∃ v, Stable.semiSum b (rounded rn pow sqrt) a s dflt = .ok v ∧
      |v - l.sum| ≤ ((1 + unit p) ^ 65 * (1 + ((1 + unit p) ^ (l.length / 64 - 1) - 1) ^ 2) - 1) *
        (l.map abs).sum :=
  ⟨_, semiSum_fl (fl_nearest hp h) b ha hne hsize dflt, semi_err (fl_nearest hp h) hl⟩

/-! ### Inner products -/

theorem plainDot_rounded {G : ℚ → Prop} {u : ℚ} (hf : Fl G u rn) (b : Build) {a1 a2 : Acc σ ℚ}
    {sh : Nat × Nat} {xs ys : List ℚ} (h1 : Shaped d a1 s sh xs) (h2 : Shaped d a2 s sh ys)
    (hne : xs ≠ []) (dflt : ℚ) :
    Ops.dotProd b d (rounded rn pow sqrt).toScalar.toArith a1 a2 s dflt =
      .ok (runningSum rn 0 ((List.zipWith (· * ·) xs ys).map rn)) := by
  have hl : xs.length = ys.length := (Shaped.len h1).trans (Shaped.len h2).symm
  cases xs with
  | nil => exact absurd rfl hne
  | cons x xs => cases ys with
    | nil => simp at hl
    | cons y ys =>
      have e : List.zipWith (fun x y => rn (x * y)) (x :: xs) (y :: ys) =
          rn (x * y) :: (List.zipWith (· * ·) xs ys).map rn := by
        rw [List.zipWith_cons_cons, List.map_zipWith]
      rw [(C52_dot b h1 h2 (rounded rn pow sqrt).toScalar.toArith (mul := fun x y => rn (x * y))
        (fun _ _ => rfl) dflt).2 _ _ e]
      rw [List.zipWith_cons_cons, List.map_cons, runningSum, zero_add, hf.fix _ (hf.good _),
        runningSum_foldl]
      exact foldlM_pure (g := fun a y => rn (a + y)) _ _ fun _ _ _ => rfl

/-- C61: `stable_dot_prod` adds to what `dot_prod` returns (`S`) the accumulated rounding errors of its
multiplications (`R`) and additions (`Q`), which make up the difference from the exact inner product.
If they are accumulated without further rounding the result is the correctly rounded inner product.
Products must not underflow (be multiples of the smallest positive number). -/
theorem C61_dot_compensated (hp : 2 ≤ p) (h : Nearest p emin rn) (b : Build) {a1 a2 : Acc σ ℚ}
    {sh : Nat × Nat} {xs ys : List ℚ} (h1 : Shaped d a1 s sh xs) (h2 : Shaped d a2 s sh ys)
    (hx : ∀ x ∈ xs, Rep p emin x) (hy : ∀ y ∈ ys, Rep p emin y) (hne : xs ≠ [])
    (hu : ∀ v : ℚ, v ∈ List.zipWith (· * ·) xs ys → ∃ k : Int, v = k * 2 ^ emin) (dflt : ℚ) :
    ∃ (S : ℚ) (Q R : List ℚ),
      Ops.dotProd b d (rounded rn pow sqrt).toScalar.toArith a1 a2 s dflt = .ok S ∧
      Q.length = xs.length ∧ R.length = xs.length ∧
      S + (Q.sum + R.sum) = (List.zipWith (· * ·) xs ys).sum ∧
      (let C := runningSum rn 0 (List.zipWith (fun q r => rn (q + r)) Q R)
       Stable.dotProd b d (rounded rn pow sqrt) a1 a2 s dflt = .ok (rn (S + C)) ∧
       (C = Q.sum + R.sum → Stable.dotProd b d (rounded rn pow sqrt) a1 a2 s dflt =
         .ok (rn (List.zipWith (· * ·) xs ys).sum))) := by
  have hf := fl_nearest hp h
  have hlen : xs.length = ys.length := (Shaped.len h1).trans (Shaped.len h2).symm
  have hg : ∀ v ∈ List.zipWith (· * ·) xs ys, Rep p emin (v - rn v) := by
    intro v hv
    have hm := hu v hv
    rw [List.mem_iff_getElem] at hv
    obtain ⟨i, hi, rfl⟩ := hv
    rw [List.getElem_zipWith] at hm ⊢
    obtain ⟨r, t, -, e2, -, e4, e5⟩ := C12_two_prod (pow := pow) (sqrt := sqrt) (by omega) h
      (hx _ (List.getElem_mem (n := i) (by simp at hi; omega)))
      (hy _ (List.getElem_mem (n := i) (by simp at hi; omega)))
    have e6 := e5.2 hm
    rw [← e2, ← e6, add_sub_cancel_left]
    exact e4
  generalize hv : List.zipWith (· * ·) xs ys = vs at *
  have hvl : vs.length = xs.length := by rw [← hv, List.length_zipWith]; omega
  have ht := errors_total rn 0 (vs.map rn)
  rw [zero_add] at ht
  have htot : runningSum rn 0 (vs.map rn) + ((sumErrors rn 0 (vs.map rn)).sum +
      (vs.map (fun v => v - rn v)).sum) = vs.sum := by
    have h2 : (vs.map rn).sum + (vs.map (fun v => v - rn v)).sum = vs.sum := by
      clear * -
      induction vs with
      | nil => simp
      | cons x l ih => simp only [List.map_cons, List.sum_cons]; linarith
    linarith
  have hval := stableDot_fl (pow := pow) (sqrt := sqrt) hf b h1 h2 hne (by rw [hv]; exact hg) dflt
  rw [hv] at hval
  have hplain := plainDot_rounded (pow := pow) (sqrt := sqrt) hf b h1 h2 hne dflt
  rw [hv] at hplain
  refine ⟨_, _, _, hplain, by rw [errors_length, List.length_map, hvl], by rw [List.length_map, hvl],
    htot, hval, fun e => ?_⟩
  rw [hval, corrections, e, htot]

/-- C61: the error of `stable_dot_prod` is one rounding and a term of second order. -/
theorem C61_dot_bound (hp : 2 ≤ p) (h : Nearest p emin rn) (b : Build) {a1 a2 : Acc σ ℚ}
    {sh : Nat × Nat} {xs ys : List ℚ} (h1 : Shaped d a1 s sh xs) (h2 : Shaped d a2 s sh ys)
    (hx : ∀ x ∈ xs, Rep p emin x) (hy : ∀ y ∈ ys, Rep p emin y) (hne : xs ≠ [])
    (hu : ∀ v : ℚ, v ∈ List.zipWith (· * ·) xs ys → ∃ k : Int, v = k * 2 ^ emin) (dflt : ℚ) :
    ∃ v, Stable.dotProd b d (rounded rn pow sqrt) a1 a2 s dflt = .ok v ∧
      |v - (List.zipWith (· * ·) xs ys).sum| ≤ unit p * |(List.zipWith (· * ·) xs ys).sum| +
        (1 + unit p) * (((1 + unit p) ^ xs.length - 1) ^ 2 *
          ((List.zipWith (· * ·) xs ys).map abs).sum) := by
  have hf := fl_nearest hp h
  have hlen : xs.length = ys.length := (Shaped.len h1).trans (Shaped.len h2).symm
  have hg : ∀ v ∈ List.zipWith (· * ·) xs ys, Rep p emin (v - rn v) := by
    intro v hv
    have hm := hu v hv
    rw [List.mem_iff_getElem] at hv
    obtain ⟨i, hi, rfl⟩ := hv
    rw [List.getElem_zipWith] at hm ⊢
    obtain ⟨r, t, -, e2, -, e4, e5⟩ := C12_two_prod (pow := pow) (sqrt := sqrt) (by omega) h
      (hx _ (List.getElem_mem (n := i) (by simp at hi; omega)))
      (hy _ (List.getElem_mem (n := i) (by simp at hi; omega)))
    have e6 := e5.2 hm
    rw [← e2, ← e6, add_sub_cancel_left]
    exact e4
  refine ⟨_, stableDot_fl hf b h1 h2 hne hg dflt, ?_⟩
  have := dot_err hf hg (fun v hv => rel_err (by omega) h (hu v hv))
  rwa [show (List.zipWith (· * ·) xs ys).length = xs.length by rw [List.length_zipWith]; omega] at this

/-- C73: the rounding error of plain `dot_prod`, when no product underflows. -/
theorem C73_dot (hp : 2 ≤ p) (h : Nearest p emin rn) (b : Build) {a1 a2 : Acc σ ℚ}
    {sh : Nat × Nat} {xs ys : List ℚ} (h1 : Shaped d a1 s sh xs) (h2 : Shaped d a2 s sh ys)
    (hne : xs ≠ []) (hu : ∀ v : ℚ, v ∈ List.zipWith (· * ·) xs ys → ∃ k : Int, v = k * 2 ^ emin) (dflt : ℚ) :
    ∃ v, Ops.dotProd b d (rounded rn pow sqrt).toScalar.toArith a1 a2 s dflt = .ok v ∧
      |v - (List.zipWith (· * ·) xs ys).sum| ≤ ((1 + unit p) ^ xs.length - 1) *
          ((List.zipWith (· * ·) xs ys).map abs).sum := by
  have hf := fl_nearest hp h
  refine ⟨_, plainDot_rounded hf b h1 h2 hne dflt, ?_⟩
  have hlen : xs.length = ys.length := (Shaped.len h1).trans (Shaped.len h2).symm
  have hvl : (List.zipWith (· * ·) xs ys).length = xs.length := by rw [List.length_zipWith]; omega
  have hrel : ∀ v ∈ List.zipWith (· * ·) xs ys, |v - rn v| ≤ unit p * |v| :=
    fun v hv => rel_err (by omega) h (hu v hv)
  generalize List.zipWith (· * ·) xs ys = vs at *
  have e1 := runningSum_zero_err hf (l := vs.map rn) (fun x hx => by
    rw [List.mem_map] at hx
    obtain ⟨w, _, rfl⟩ := hx
    exact h.rep _)
  rw [List.length_map, hvl] at e1
  have e2 : ((vs.map rn).map abs).sum ≤ (1 + unit p) * (vs.map abs).sum := by
    rw [List.map_map, ← sum_map_const_mul]
    exact sum_map_le fun v hv => abs_le_of_rel (hrel v hv)
  have e3 : |(vs.map rn).sum - vs.sum| ≤ unit p * (vs.map abs).sum := by
    clear e1 e2 hvl
    induction vs with
    | nil => simp
    | cons x l ih =>
      have i := ih (fun v hv => hu v (List.mem_cons_of_mem _ hv))
        (fun v hv => hrel v (List.mem_cons_of_mem _ hv))
      have hx := hrel x (List.mem_cons_self ..)
      simp only [List.map_cons, List.sum_cons]
      have e : rn x + (l.map rn).sum - (x + l.sum) = ((l.map rn).sum - l.sum) - (x - rn x) := by ring
      rw [e]
      have := abs_sub ((l.map rn).sum - l.sum) (x - rn x)
      linarith
  have hg := growth_nonneg hf.pos (xs.length - 1)
  have e4 := mul_le_mul_of_nonneg_left e2 hg
  have e5 : (1 + unit p) ^ xs.length = (1 + unit p) ^ (xs.length - 1) * (1 + unit p) := by
    rw [← pow_succ]; congr 1
    have := List.length_pos_iff.2 hne
    omega
  have e6 : runningSum rn 0 (vs.map rn) - vs.sum =
      (runningSum rn 0 (vs.map rn) - (vs.map rn).sum) + ((vs.map rn).sum - vs.sum) := by ring
  rw [e6, e5]
  refine (abs_add_le _ _).trans ?_
  linarith

/-- C61: in exact arithmetic `stable_dot_prod`, `semi_stable_dot_prod` and `stable_prod` are the inner
product and the product. -/
theorem C61_exact {K : Type} [Field K] [LinearOrder K] [IsStrictOrderedRing K] {powK : K → K → K}
    {sqrtK : K → K} (b : Build) {a1 a2 : Acc σ K} {sh : Nat × Nat} {xs ys : List K}
    (h1 : Shaped d a1 s sh xs) (h2 : Shaped d a2 s sh ys) (hne : xs ≠ [])
    (hsize : xs.length < 2 ^ 63) (dflt : K) :
    Stable.dotProd b d (exactF K powK sqrtK) a1 a2 s dflt = .ok (List.zipWith (· * ·) xs ys).sum ∧
    Stable.semiDotProd b d (exactF K powK sqrtK) a1 a2 s dflt =
      .ok (List.zipWith (· * ·) xs ys).sum ∧
    Stable.prod (exactF K powK sqrtK) a1 s dflt = .ok xs.prod := by
  have hlen : xs.length = ys.length := (Shaped.len h1).trans (Shaped.len h2).symm
  refine ⟨stableDot_exact b h1 h2 hne dflt, ?_, stableProd_exact (Shaped.elems h1) hne hsize dflt⟩
  have hsame := Shaped.same h1 h2
  rw [decide_eq_true rfl] at hsame
  have hne' : xs.isEmpty = false := by simpa using hne
  unfold Stable.semiDotProd Tm.mkBinary
  rw [hsame, assertDebug_true, Res.ok_bind, Elems.empty (Shaped.elems h1), hne']
  simp only [Res.ok_bind, Bool.false_eq_true, if_false]
  have he := dot_elems (f := (exactF K powK sqrtK).toScalar.toArith.mul) (g := fun x y => x * y) h1 h2
    (fun _ _ => rfl)
  refine semiSum_exact b he ?_ ?_ _
  · cases xs with
    | nil => exact absurd rfl hne
    | cons x xs => cases ys with
      | nil => simp at hlen
      | cons y ys => simp
  · rw [List.length_zipWith]; omega

/-- C61: shapes must agree in checked builds; without elements the result is the default. -/
theorem C61_edges {α : Type} (fs : FScalar α) (b : Build) {a1 a2 : Acc σ α} {sh1 sh2 : Nat × Nat}
    {l1 l2 : List α} (h1 : Shaped d a1 s sh1 l1) (h2 : Shaped d a2 s sh2 l2) (dflt : α) :
    (b.Checked → sh1 ≠ sh2 → Stable.dotProd b d fs a1 a2 s dflt = .trap b.kind ∧
      Stable.semiDotProd b d fs a1 a2 s dflt = .trap b.kind) ∧
    (sh1 = sh2 → l1 = [] → Stable.dotProd b d fs a1 a2 s dflt = .ok dflt ∧
      Stable.semiDotProd b d fs a1 a2 s dflt = .ok dflt) ∧
    (l1 = [] → Stable.prod fs a1 s dflt = .ok dflt) := by
  refine ⟨fun hb hne => ?_, fun he hl => ?_, fun hl => ?_⟩
  · unfold Stable.dotProd Stable.semiDotProd
    rw [Shaped.same h1 h2, decide_eq_false hne, assertDebug_false hb]
    exact ⟨rfl, rfl⟩
  · unfold Stable.dotProd Stable.semiDotProd
    rw [Shaped.same h1 h2, decide_eq_true he, assertDebug_true, Elems.empty (Shaped.elems h1), hl]
    exact ⟨rfl, rfl⟩
  · unfold Stable.prod
    rw [Elems.empty (Shaped.elems h1), hl]; rfl

/-- C61: `semi_stable_dot_prod` is `semi_stable_sum` of the rounded products. -/
theorem C61_semi_dot (hp : 2 ≤ p) (h : Nearest p emin rn) (b : Build) {a1 a2 : Acc σ ℚ}
    {sh : Nat × Nat} {xs ys : List ℚ} (h1 : Shaped d a1 s sh xs) (h2 : Shaped d a2 s sh ys)
    (hne : xs ≠ []) (hsize : xs.length < 2 ^ 63) (dflt : ℚ) :
    ∃ v, Stable.semiDotProd b d (rounded rn pow sqrt) a1 a2 s dflt = .ok v ∧
      |v - (List.zipWith (fun x y => rn (x * y)) xs ys).sum| ≤
        ((1 + unit p) ^ 65 * (1 + ((1 + unit p) ^ (xs.length / 64 - 1) - 1) ^ 2) - 1) *
          ((List.zipWith (fun x y => rn (x * y)) xs ys).map abs).sum := by
  have hlen : xs.length = ys.length := (Shaped.len h1).trans (Shaped.len h2).symm
  have hsame := Shaped.same h1 h2
  rw [decide_eq_true rfl] at hsame
  have hne' : xs.isEmpty = false := by simpa using hne
  unfold Stable.semiDotProd Tm.mkBinary
  rw [hsame, assertDebug_true, Res.ok_bind, Elems.empty (Shaped.elems h1), hne']
  simp only [Res.ok_bind, Bool.false_eq_true, if_false]
  have he := dot_elems (f := (rounded rn pow sqrt).toScalar.toArith.mul) (g := fun x y => rn (x * y)) h1 h2
    (fun _ _ => rfl)
  have hl : (List.zipWith (fun x y => rn (x * y)) xs ys).length = xs.length := by
    rw [List.length_zipWith]; omega
  have := C60_bound (pow := pow) (sqrt := sqrt) hp h b he (fun x hx => by
    rw [List.mem_iff_getElem] at hx
    obtain ⟨i, hi, rfl⟩ := hx
    rw [List.getElem_zipWith]
    exact h.rep _) (by
    intro e
    rw [e] at hl
    exact hne (List.length_eq_zero_iff.1 hl.symm)) (by rw [hl]; exact hsize) (rounded rn pow sqrt).zero
  rw [hl] at this
  exact this

/-! ### Products -/

/-- C61: the error of `stable_prod` is one rounding and terms of second and higher order (no underflow:
no least exponent). -/
theorem C61_prod_bound (hp : 2 ≤ p) (h : NearestX p rn) {a : Acc σ ℚ} {l : List ℚ}
    (ha : Elems d a s l) (hl : ∀ x ∈ l, RepX p x) (hne : l ≠ []) (hsize : l.length < 2 ^ 63) (dflt : ℚ) :
    ∃ v, Stable.prod (rounded rn pow sqrt) a s dflt = .ok v ∧
      (let g := (1 + unit p) ^ (l.length - 1) - 1
       |v - l.prod| ≤ (unit p + (1 + unit p) * (g ^ 2 * (2 + 2 * g + 2 * g ^ 2 + g ^ 3))) * |l.prod|) := by
  have hf := flX_nearestX hp h
  cases l with
  | nil => exact absurd rfl hne
  | cons x l =>
    refine ⟨_, stableProd_fl hf ha hl (by simpa using hsize) dflt, ?_⟩
    rw [List.prod_cons]
    exact prod_err hf (hl x (List.mem_cons_self ..))

/-- C61: the same bound for `stable_dot_prod` without a least exponent needs no assumption about the
products. -/
theorem C61_dot_bound_unlimited (hp : 2 ≤ p) (h : NearestX p rn) (b : Build) {a1 a2 : Acc σ ℚ}
    {sh : Nat × Nat} {xs ys : List ℚ} (h1 : Shaped d a1 s sh xs) (h2 : Shaped d a2 s sh ys)
    (hx : ∀ x ∈ xs, RepX p x) (hy : ∀ y ∈ ys, RepX p y) (hne : xs ≠ []) (dflt : ℚ) :
    ∃ v, Stable.dotProd b d (rounded rn pow sqrt) a1 a2 s dflt = .ok v ∧
      |v - (List.zipWith (· * ·) xs ys).sum| ≤ unit p * |(List.zipWith (· * ·) xs ys).sum| +
        (1 + unit p) * (((1 + unit p) ^ xs.length - 1) ^ 2 *
          ((List.zipWith (· * ·) xs ys).map abs).sum) := by
  have hf := flX_nearestX hp h
  have hlen : xs.length = ys.length := (Shaped.len h1).trans (Shaped.len h2).symm
  have hg : ∀ v ∈ List.zipWith (· * ·) xs ys, RepX p (v - rn v) := by
    intro v hv
    rw [List.mem_iff_getElem] at hv
    obtain ⟨i, hi, rfl⟩ := hv
    rw [List.getElem_zipWith]
    exact hf.mulErr _ _ (hx _ (List.getElem_mem (by simp at hi; omega)))
      (hy _ (List.getElem_mem (by simp at hi; omega)))
  refine ⟨_, stableDot_fl hf.toFl b h1 h2 hne hg dflt, ?_⟩
  have := dot_err hf.toFl hg (fun v _ => hf.relX v)
  rwa [show (List.zipWith (· * ·) xs ys).length = xs.length by rw [List.length_zipWith]; omega] at this

/-! ### The hypotheses are satisfiable -/

section examples

open Spp.Sample

/-- Double precision: `2^60 + 1 - 2^60` is 1; `sum` returns 0 or something else, `stable_sum` is right up
to the bound. -/
example : ∃ rn, Nearest 53 (-1074) rn ∧
    ∃ v, Stable.sum (rounded rn (fun x _ => x) id) (lit [2 ^ 60, 1, -2 ^ 60]) store 0 = .ok v ∧
      |v - 1| ≤ 1 / 2 ^ 40 := by
  obtain ⟨rn, h⟩ := exists_nearest (p := 53) (by norm_num) (-1074)
  have hr : ∀ x ∈ [(2 ^ 60 : ℚ), 1, -2 ^ 60], Rep 53 (-1074) x := by
    intro x hx
    simp only [List.mem_cons, List.not_mem_nil, or_false] at hx
    rcases hx with rfl | rfl | rfl
    · exact ⟨1, 60, by norm_num, by norm_num, by norm_num⟩
    · exact ⟨1, 0, by norm_num, by norm_num, by norm_num⟩
    · exact ⟨-1, 60, by norm_num, by norm_num, by norm_num⟩
  obtain ⟨v, h1, h2⟩ := C59_bound (pow := fun x _ => x) (sqrt := id) (by norm_num) h
    (Shaped.elems (lit_shaped store [(2 ^ 60 : ℚ), 1, -2 ^ 60])) hr (by simp) 0
  refine ⟨rn, h, v, h1, ?_⟩
  have e : ([(2 ^ 60 : ℚ), 1, -2 ^ 60]).sum = 1 := by norm_num
  rw [e] at h2
  refine h2.trans ?_
  simp only [unit, List.map_cons, List.map_nil, List.sum_cons, List.sum_nil, List.length_cons,
    List.length_nil]
  norm_num [abs_of_nonneg]

example : Stable.semiSum ⟨false, true, false⟩ (exactF ℚ (fun x _ => x) id)
    (lit (List.replicate 200 (1 / 2))) store 0 = .ok 100 := by
  rw [C60_exact _ (Shaped.elems (lit_shaped store (List.replicate 200 (1 / 2 : ℚ))))
    (by rw [List.length_replicate]; norm_num), if_neg (by rw [List.replicate_succ]; exact List.cons_ne_nil _ _),
    List.sum_replicate]
  norm_num

example : ∃ rn, NearestX 24 rn ∧
    ∃ v, Stable.prod (rounded rn (fun x _ => x) id) (lit [3 / 2, 5, -7 / 4, 9]) store 0 = .ok v ∧
    |v - (3 / 2 * 5 * (-7 / 4) * 9)| ≤ 1 / 2 ^ 12 := by
  obtain ⟨rn, h⟩ := exists_nearestX (p := 24) (by norm_num)
  have hr : ∀ x ∈ [(3 / 2 : ℚ), 5, -7 / 4, 9], RepX 24 x := by
    intro x hx
    simp only [List.mem_cons, List.not_mem_nil, or_false] at hx
    rcases hx with rfl | rfl | rfl | rfl
    · exact ⟨3, -1, by norm_num, by norm_num⟩
    · exact ⟨5, 0, by norm_num, by norm_num⟩
    · exact ⟨-7, -2, by norm_num, by norm_num⟩
    · exact ⟨9, 0, by norm_num, by norm_num⟩
  obtain ⟨v, h1, h2⟩ := C61_prod_bound (pow := fun x _ => x) (sqrt := id) (by norm_num) h
    (Shaped.elems (lit_shaped store [(3 / 2 : ℚ), 5, -7 / 4, 9])) hr (by simp) (by simp) 0
  refine ⟨rn, h, v, h1, ?_⟩
  have e : ([(3 / 2 : ℚ), 5, -7 / 4, 9]).prod = 3 / 2 * 5 * (-7 / 4) * 9 := by norm_num
  rw [e] at h2
  refine h2.trans ?_
  simp only [unit, List.length_cons, List.length_nil]
  rw [abs_of_nonpos (by norm_num)]
  norm_num

example : ∃ rn, Nearest 24 (-149) rn ∧
    ∃ v, Stable.dotProd ⟨false, true, false⟩ .one (rounded rn (fun x _ => x) id)
      (lit [2 ^ 60, 1, 3]) (lit [1, 5, -2]) store 0 = .ok v ∧ |v - (2 ^ 60 - 1)| ≤ 2 ^ 38 := by
  obtain ⟨rn, h⟩ := exists_nearest (p := 24) (by norm_num) (-149)
  have hr : ∀ x ∈ [(2 ^ 60 : ℚ), 1, 3], Rep 24 (-149) x := by
    intro x hx
    simp only [List.mem_cons, List.not_mem_nil, or_false] at hx
    rcases hx with rfl | rfl | rfl
    · exact ⟨1, 60, by norm_num, by norm_num, by norm_num⟩
    · exact ⟨1, 0, by norm_num, by norm_num, by norm_num⟩
    · exact ⟨3, 0, by norm_num, by norm_num, by norm_num⟩
  have hr' : ∀ x ∈ [(1 : ℚ), 5, -2], Rep 24 (-149) x := by
    intro x hx
    simp only [List.mem_cons, List.not_mem_nil, or_false] at hx
    rcases hx with rfl | rfl | rfl
    · exact ⟨1, 0, by norm_num, by norm_num, by norm_num⟩
    · exact ⟨5, 0, by norm_num, by norm_num, by norm_num⟩
    · exact ⟨-2, 0, by norm_num, by norm_num, by norm_num⟩
  obtain ⟨v, h1, h2⟩ := C61_dot_bound (pow := fun x _ => x) (sqrt := id) (by norm_num) h
    ⟨false, true, false⟩ (lit_shaped store [(2 ^ 60 : ℚ), 1, 3]) (lit_shaped store [(1 : ℚ), 5, -2]) hr hr'
    (by simp) (by
      intro w hw
      simp only [List.zipWith_cons_cons, List.zipWith_nil_left, List.mem_cons, List.not_mem_nil,
        or_false] at hw
      rcases hw with rfl | rfl | rfl
      · exact ⟨2 ^ 209, by norm_num⟩
      · exact ⟨5 * 2 ^ 149, by norm_num⟩
      · exact ⟨-6 * 2 ^ 149, by norm_num⟩) 0
  refine ⟨rn, h, v, h1, ?_⟩
  have e : (List.zipWith (· * ·) [(2 ^ 60 : ℚ), 1, 3] [(1 : ℚ), 5, -2]).sum = 2 ^ 60 - 1 := by norm_num
  rw [e] at h2
  refine h2.trans ?_
  simp only [unit, List.zipWith_cons_cons, List.zipWith_nil_left, List.map_cons, List.map_nil,
    List.sum_cons, List.sum_nil, List.length_cons, List.length_nil]
  norm_num [abs_of_nonneg]

end examples

end Spp.Props
