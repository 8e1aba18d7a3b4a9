import Verif.Props.Stable
import Verif.Props.Poly
import Verif.Spec.Accuracy
import Mathlib.Data.List.GetD
import Mathlib.Tactic.LinearCombination

/-
C102: rounding errors of products, means, norms and polynomials.
-/

set_option linter.unusedSectionVars false

namespace Spp.Props

open Spp.Spec Spp.Lemmas

variable {σ : Type} {s : σ} {d : Dim} {p : Nat} {emin : Int} {rn : ℚ → ℚ} {pow : ℚ → ℚ → ℚ}
  {sqrt : ℚ → ℚ} {u : ℚ} {G : ℚ → Prop}

theorem close_foldl_add {ι : Type} (hf : FlX G u rn) {f F N : ι → ℚ} {k : Nat} (l : List ι)
    (h : ∀ i ∈ l, Close u (f i) (F i) (N i) k) {z Z M : ℚ} {j : Nat} (hz : Close u z Z M j) (hj : k ≤ j) :
    Close u (l.foldl (fun acc i => rn (acc + f i)) z) (Z + (l.map F).sum) (M + (l.map N).sum) (j + l.length) := by
  induction l generalizing z Z M j with
  | nil => simpa using hz
  | cons i l ih =>
    have h1 := (hz.add ((h i (by simp)).mono hf.pos hj)).round hf
    have := ih (fun i' hi' => h i' (by simp [hi'])) h1 (by omega)
    rw [List.foldl_cons, List.map_cons, List.map_cons, List.sum_cons, List.sum_cons, List.length_cons]
    rw [show Z + (F i + (l.map F).sum) = Z + F i + (l.map F).sum by ring,
      show M + (N i + (l.map N).sum) = M + N i + (l.map N).sum by ring,
      show j + (l.length + 1) = j + 1 + l.length by omega]
    exact this

theorem close_foldl_mul (hf : FlX G u rn) (l : List ℚ) {z Z M : ℚ} {j : Nat} (hz : Close u z Z M j) :
    Close u (l.foldl (fun acc x => rn (acc * x)) z) (Z * l.prod) (M * |l.prod|) (j + l.length) := by
  induction l generalizing z Z M j with
  | nil => simpa using hz
  | cons x l ih =>
    have h1 := (hz.mul hf.pos (Close.refl (u := u) x)).round hf
    have := ih h1
    rw [List.foldl_cons, List.prod_cons, List.length_cons, abs_mul]
    rw [show Z * (x * l.prod) = Z * x * l.prod by ring, show M * (|x| * |l.prod|) = M * |x| * |l.prod| by ring,
      show j + (l.length + 1) = j + 0 + 1 + l.length by omega]
    exact this

/-- C102: a plain product of `n` numbers has a relative error of at most `n - 1` roundings. -/
theorem C102_prod (hp : 2 ≤ p) (h : NearestX p rn) {a : Acc σ ℚ} {l : List ℚ} (ha : Elems d a s l) (hne : l ≠ [])
    (dflt : ℚ) : ∃ v, Ops.prod (rounded rn pow sqrt).toScalar.toArith a s dflt = .ok v ∧
      |v - l.prod| ≤ ((1 + unit p) ^ (l.length - 1) - 1) * |l.prod| := by
  have hf := flX_nearestX hp h
  cases l with
  | nil => exact absurd rfl hne
  | cons x xs =>
    refine ⟨_, ((C52_left_to_right ha (rounded rn pow sqrt).toScalar.toArith dflt).2 x xs rfl).2.trans
      (foldlM_pure (g := fun a y => rn (a * y)) xs x fun _ _ _ => rfl), ?_⟩
    have := (close_foldl_mul hf xs (Close.refl (u := unit p) x)).1
    rw [List.prod_cons, abs_mul, List.length_cons, Nat.add_sub_cancel]
    simpa using this

theorem close_div (hu : 0 < u) {v V M : ℚ} {k : Nat} (h : Close u v V M k) {n : ℚ} (hn : 0 < n) :
    Close u (v / n) (V / n) (M / n) k := by
  refine ⟨?_, ?_⟩
  · rw [← sub_div, abs_div, abs_of_pos hn, div_le_iff₀ hn]
    have := h.1
    rw [mul_assoc, div_mul_cancel₀ _ hn.ne']
    exact this
  · rw [abs_div, abs_of_pos hn]
    exact div_le_div_of_nonneg_right h.2 hn.le

/-- Counts up to `2^p` are represented exactly. -/
theorem round_count (h : NearestX p rn) {n : Nat} (hn : n ≤ 2 ^ p) (hp : 2 ≤ p) : rn (n : ℚ) = n := by
  refine (fl_nearestX hp h).fix _ ?_
  by_cases e : n = 2 ^ p
  · refine ⟨1, p, ?_, ?_⟩
    · simpa using (one_lt_pow₀ (by norm_num) (by omega) : (1 : Int) < 2 ^ p)
    · rw [e]; push_cast; rw [one_mul, zpow_natCast]
  · refine ⟨n, 0, ?_, by simp⟩
    rw [Nat.abs_cast]
    exact_mod_cast (lt_of_le_of_ne hn e)

theorem sum_close (hf : FlX G u rn) {x : ℚ} {xs : List ℚ} :
    Close u (xs.foldl (fun a y => rn (a + y)) x) (x :: xs).sum ((x :: xs).map abs).sum xs.length := by
  have := close_foldl_add hf xs (f := id) (F := id) (N := abs) (k := 0) (fun i _ => Close.refl i)
    (Close.refl (u := u) x) le_rfl
  simpa using this

theorem plainSum_close (hp : 2 ≤ p) (h : NearestX p rn) {a : Acc σ ℚ} {l : List ℚ} (ha : Elems d a s l) (hne : l ≠ [])
    (dflt : ℚ) : ∃ v, Ops.sum (rounded rn pow sqrt).toScalar.toArith a s dflt = .ok v ∧
      Close (unit p) v l.sum (l.map abs).sum (l.length - 1) := by
  cases l with
  | nil => exact absurd rfl hne
  | cons x xs =>
    exact ⟨_, ((C52_left_to_right ha (rounded rn pow sqrt).toScalar.toArith dflt).2 x xs rfl).1.trans
      (foldlM_pure (g := fun a y => rn (a + y)) xs x fun _ _ _ => rfl), sum_close (flX_nearestX hp h)⟩

/-- C102: the error of `mean` of `n` numbers is at most `n` roundings relative to the mean of the absolute values. -/
theorem C102_mean (hp : 2 ≤ p) (h : NearestX p rn) {a : Acc σ ℚ} {l : List ℚ} (ha : Elems d a s l) (hne : l ≠ [])
    (hn : l.length ≤ 2 ^ p) (dflt : ℚ) :
    ∃ v, Ops.mean (rounded rn pow sqrt).toScalar.toArith a s dflt = .ok v ∧
      |v - l.sum / l.length| ≤ ((1 + unit p) ^ l.length - 1) * ((l.map abs).sum / l.length) := by
  have hf := flX_nearestX hp h
  have hne' : l.isEmpty = false := by simpa using hne
  have hpos : 0 < l.length := List.length_pos_iff.2 hne
  obtain ⟨v, e1, e2⟩ := plainSum_close (pow := pow) (sqrt := sqrt) hp h ha hne 0
  refine ⟨rn (v / l.length), ?_, ?_⟩
  · unfold Ops.mean
    rw [Elems.empty ha, hne', Elems.size ha]
    show ((Ops.sum (rounded rn pow sqrt).toScalar.toArith a s 0) >>= _) = _
    rw [e1]
    show Res.ok (rn (v / rn ((l.length : Int) : ℚ))) = _
    rw [Int.cast_natCast, round_count h hn hp]
  · have := ((close_div hf.pos e2 (n := l.length) (by exact_mod_cast hpos)).round hf).1
    rwa [show l.length - 1 + 1 = l.length by omega] at this

theorem abss_rounded (x : ℚ) : (rounded rn pow sqrt).toScalar.abss x = .ok |x| := by
  unfold Scalar.abss
  show (if decide ((0 : ℚ) < x) = true then Res.ok x else Res.ok (-x)) = _
  by_cases h : 0 < x
  · rw [if_pos (decide_eq_true h), abs_of_pos h]
  · rw [if_neg (by simpa using h), abs_of_nonpos (not_lt.1 h)]

theorem abs_values {a : Acc σ ℚ} {l : List ℚ} (ha : Elems d a s l) :
    Elems d (a.unary (rounded rn pow sqrt).toScalar.abss) s (l.map abs) :=
  Elems.unary ha (g := fun x => |x|) fun x _ => abss_rounded x

theorem abs_abs_sum (l : List ℚ) : ((l.map abs).map abs).sum = (l.map abs).sum := by
  rw [List.map_map]
  congr 1
  exact List.map_congr_left fun x _ => by simp

/-- C102: `norm1` has a relative error of at most `n - 1` roundings, with gradual underflow and for numbers of every
size. -/
theorem C102_norm1 (hp : 2 ≤ p) (h : Nearest p emin rn) {a : Acc σ ℚ} {l : List ℚ} (ha : Elems d a s l)
    (hl : ∀ x ∈ l, Rep p emin x) (hne : l ≠ []) (dflt : ℚ) :
    ∃ v, Ops.norm1 (rounded rn pow sqrt).toScalar a s dflt = .ok v ∧
      |v - (l.map abs).sum| ≤ ((1 + unit p) ^ (l.length - 1) - 1) * (l.map abs).sum := by
  have hne' : l.isEmpty = false := by simpa using hne
  obtain ⟨v, e1, e2⟩ := C73_sum (pow := pow) (sqrt := sqrt) hp h (abs_values (rn := rn) (pow := pow) (sqrt := sqrt) ha)
    (fun x hx => by
      obtain ⟨y, hy, rfl⟩ := List.mem_map.1 hx
      rcases abs_choice y with e | e <;> rw [e]
      · exact hl y hy
      · exact rep_neg (hl y hy)) (by simpa using hne) 0
  refine ⟨v, ?_, ?_⟩
  · unfold Ops.norm1
    rw [Elems.empty ha, hne']
    exact e1
  · rwa [abs_abs_sum, List.length_map] at e2

/-- C102: `norm1_scaled` has a relative error of at most `n` roundings. -/
theorem C102_norm1_scaled (hp : 2 ≤ p) (h : NearestX p rn) {a : Acc σ ℚ} {l : List ℚ} (ha : Elems d a s l)
    (hne : l ≠ []) (hn : l.length ≤ 2 ^ p) (dflt : ℚ) :
    ∃ v, Ops.norm1Scaled (rounded rn pow sqrt).toScalar a s dflt = .ok v ∧
      |v - (l.map abs).sum / l.length| ≤ ((1 + unit p) ^ l.length - 1) * ((l.map abs).sum / l.length) := by
  have hne' : l.isEmpty = false := by simpa using hne
  obtain ⟨v, e1, e2⟩ := C102_mean (pow := pow) (sqrt := sqrt) hp h
    (abs_values (rn := rn) (pow := pow) (sqrt := sqrt) ha) (by simpa using hne) (by simpa using hn) 0
  refine ⟨v, ?_, ?_⟩
  · unfold Ops.norm1Scaled
    rw [Elems.empty ha, hne']
    exact e1
  · rwa [abs_abs_sum, List.length_map] at e2

/-! ### Square roots -/

theorem sqrt_close {g u : ℝ} (hu : 0 ≤ u) (hg : 0 ≤ g) {v V r : ℝ} (hv : 0 ≤ v) (hV : 0 ≤ V) (h : |v - V| ≤ g * V)
    (hr : |r - √v| ≤ u * √v) : |r - √V| ≤ ((1 + u) * (1 + g) - 1) * √V := by
  have h1 : |√v - √V| ≤ g * √V := by
    by_cases h0 : V = 0
    · subst h0
      have : v = 0 := by simpa using h
      simp [this]
    · have hs : 0 < √V := Real.sqrt_pos.2 (lt_of_le_of_ne hV (Ne.symm h0))
      have e : (√v - √V) * (√v + √V) = v - V := by
        have a1 := Real.mul_self_sqrt hv
        have a2 := Real.mul_self_sqrt hV
        linear_combination a1 - a2
      have hsum : √V ≤ √v + √V := by linarith [Real.sqrt_nonneg v]
      have h2 : |√v - √V| * √V ≤ |v - V| := by
        rw [← e, abs_mul]
        exact mul_le_mul_of_nonneg_left (hsum.trans (le_abs_self _)) (abs_nonneg _)
      have h3 : |√v - √V| * √V ≤ g * √V * √V := by
        rw [mul_assoc, Real.mul_self_sqrt hV]
        exact h2.trans h
      exact le_of_mul_le_mul_right h3 hs
  have h2 : √v ≤ (1 + g) * √V := by
    have := (abs_le.1 h1).2
    linarith
  have h3 : |r - √V| ≤ |r - √v| + |√v - √V| := by
    have : r - √V = (r - √v) + (√v - √V) := by ring
    rw [this]; exact abs_add_le _ _
  have h4 := mul_le_mul_of_nonneg_left h2 hu
  nlinarith

theorem unit_le (hp : 2 ≤ p) : unit p ≤ 1 / 4 := by
  unfold unit
  rw [show (1 / 4 : ℚ) = (2 ^ 2)⁻¹ by norm_num]
  exact inv_anti₀ (by norm_num) (pow_le_pow_right₀ (by norm_num) hp)

theorem round_nonneg (hf : FlX G u rn) (hu : u ≤ 1) {x : ℚ} (hx : 0 ≤ x) : 0 ≤ rn x := by
  have h1 := hf.relX x
  rw [abs_of_nonneg hx] at h1
  have h2 := (abs_le.1 h1).2
  nlinarith

theorem foldl_nonneg (hf : FlX G u rn) (hu : u ≤ 1) (l : List ℚ) {z : ℚ} (hz : 0 ≤ z) :
    0 ≤ l.foldl (fun acc x => rn (acc + rn (x * x))) z := by
  induction l generalizing z with
  | nil => exact hz
  | cons x l ih =>
    exact ih (round_nonneg hf hu (add_nonneg hz (round_nonneg hf hu (mul_self_nonneg x))))

/-- The sum of squares that `norm2` takes the root of. -/
theorem dotSelf_close (hp : 2 ≤ p) (h : NearestX p rn) (b : Build) {a : Acc σ ℚ} {sh : Nat × Nat} {l : List ℚ}
    (ha : Shaped d a s sh l) (hne : l ≠ []) (dflt : ℚ) :
    ∃ v, Ops.dotProd b d (rounded rn pow sqrt).toScalar.toArith a a s dflt = .ok v ∧ 0 ≤ v ∧
      |v - (l.map (· ^ 2)).sum| ≤ ((1 + unit p) ^ l.length - 1) * (l.map (· ^ 2)).sum := by
  have hf := flX_nearestX hp h
  have hu : unit p ≤ 1 := (unit_le hp).trans (by norm_num)
  cases l with
  | nil => exact absurd rfl hne
  | cons x xs =>
    have ez : List.zipWith (fun a b => rn (a * b)) (x :: xs) (x :: xs) = rn (x * x) :: xs.map (fun y => rn (y * y)) := by
      rw [List.zipWith_cons_cons]
      congr 1
      rw [List.zipWith_self]
    refine ⟨xs.foldl (fun acc y => rn (acc + rn (y * y))) (rn (x * x)), ?_, ?_, ?_⟩
    · rw [(C52_dot b ha ha (rounded rn pow sqrt).toScalar.toArith (mul := fun a b => rn (a * b)) (fun _ _ => rfl) dflt).2
        _ _ ez]
      refine (foldlM_pure (g := fun a y => rn (a + y)) _ _ (fun _ _ _ => rfl)).trans ?_
      rw [List.foldl_map]
    · exact foldl_nonneg hf hu _ (round_nonneg hf hu (mul_self_nonneg x))
    · have hsq : ∀ y : ℚ, Close (unit p) (rn (y * y)) (y ^ 2) (y ^ 2) 1 := by
        intro y
        have := ((Close.refl (u := unit p) y).mul hf.pos (Close.refl y)).round hf
        rw [abs_mul_abs_self] at this
        rwa [← sq] at this ⊢
      have := (close_foldl_add hf xs (k := 1) (fun y _ => hsq y) (hsq x) le_rfl).1
      simp only [List.map_cons, List.sum_cons, List.length_cons]
      rwa [add_comm 1 xs.length] at this

/-- C102: `norm2` of `n` numbers has a relative error of at most `n + 1` roundings. -/
theorem C102_norm2 (hp : 2 ≤ p) (h : NearestX p rn) (hq : AccurateSqrt p sqrt) (b : Build) {a : Acc σ ℚ}
    {sh : Nat × Nat} {l : List ℚ} (ha : Shaped d a s sh l) (hne : l ≠ []) (dflt : ℚ) :
    ∃ v, Ops.norm2 b d (rounded rn pow sqrt).toScalar a s dflt = .ok v ∧
      |(v : ℝ) - √((l.map (· ^ 2)).sum : ℚ)| ≤ ((1 + unit p : ℚ) ^ (l.length + 1) - 1) * √((l.map (· ^ 2)).sum : ℚ) := by
  have hne' : l.isEmpty = false := by simpa using hne
  have hf := flX_nearestX hp h
  obtain ⟨v, e1, e2, e3⟩ := dotSelf_close (pow := pow) (sqrt := sqrt) hp h b ha hne 0
  refine ⟨sqrt v, ?_, ?_⟩
  · unfold Ops.norm2
    rw [Elems.empty (Shaped.elems ha), hne']
    show ((Ops.dotProd b d (rounded rn pow sqrt).toScalar.toArith a a s 0) >>= _) = _
    rw [e1]; rfl
  · have hS : 0 ≤ (l.map (· ^ 2)).sum := List.sum_nonneg fun y hy => by
      obtain ⟨x, _, rfl⟩ := List.mem_map.1 hy; positivity
    have e3' : |(v : ℝ) - ((l.map (· ^ 2)).sum : ℚ)| ≤ (((1 + unit p) ^ l.length - 1 : ℚ) : ℝ) * ((l.map (· ^ 2)).sum : ℚ) := by
      exact_mod_cast e3
    have := sqrt_close (u := (unit p : ℚ)) (by exact_mod_cast hf.pos.le)
      (by exact_mod_cast growth_nonneg hf.pos l.length) (by exact_mod_cast e2) (by exact_mod_cast hS) e3' (hq v e2)
    refine this.trans (le_of_eq ?_)
    push_cast
    ring

/-- C102: as long as the bound is below one, `stable_norm2` has a relative error of two roundings (one for the root)
and terms of second order. -/
theorem C102_stable_norm2 (hp : 2 ≤ p) (h : NearestX p rn) (hq : AccurateSqrt p sqrt) (b : Build) {a : Acc σ ℚ}
    {sh : Nat × Nat} {l : List ℚ} (ha : Shaped d a s sh l) (hl : ∀ x ∈ l, RepX p x) (hne : l ≠ []) {g : ℚ}
    (hg : g = unit p + (1 + unit p) * ((1 + unit p) ^ l.length - 1) ^ 2) (hg1 : g ≤ 1) (dflt : ℚ) :
    ∃ v, Stable.norm2 b d (rounded rn pow sqrt) a s dflt = .ok v ∧
      |(v : ℝ) - √((l.map (· ^ 2)).sum : ℚ)| ≤ ((1 + unit p) * (1 + g) - 1 : ℚ) * √((l.map (· ^ 2)).sum : ℚ) := by
  have hne' : l.isEmpty = false := by simpa using hne
  have hf := flX_nearestX hp h
  have hS : 0 ≤ (l.map (· ^ 2)).sum := List.sum_nonneg fun y hy => by
    obtain ⟨x, _, rfl⟩ := List.mem_map.1 hy; positivity
  have ez : List.zipWith (· * ·) l l = l.map (· ^ 2) := by
    rw [List.zipWith_self]; exact List.map_congr_left fun x _ => (sq x).symm
  have ea : ((l.map (· ^ 2)).map abs).sum = (l.map (· ^ 2)).sum := by
    rw [List.map_map]; congr 1; exact List.map_congr_left fun x _ => by simp
  obtain ⟨v, e1, e2⟩ := C61_dot_bound_unlimited (pow := pow) (sqrt := sqrt) hp h b ha ha hl hl hne 0
  rw [ez, ea, abs_of_nonneg hS] at e2
  have e3 : |v - (l.map (· ^ 2)).sum| ≤ g * (l.map (· ^ 2)).sum := by rw [hg]; linarith
  have hv : 0 ≤ v := by
    have := (abs_le.1 e3).1
    nlinarith
  have hg0 : 0 ≤ g := by
    rw [hg]; have := hf.pos; positivity
  refine ⟨sqrt v, ?_, ?_⟩
  · unfold Stable.norm2
    rw [Elems.empty (Shaped.elems ha), hne']
    show ((Stable.dotProd b d (rounded rn pow sqrt) a a s 0) >>= _) = _
    rw [e1]; rfl
  · have e3' : |(v : ℝ) - ((l.map (· ^ 2)).sum : ℚ)| ≤ (g : ℝ) * ((l.map (· ^ 2)).sum : ℚ) := by exact_mod_cast e3
    have := sqrt_close (u := (unit p : ℚ)) (by exact_mod_cast hf.pos.le) (by exact_mod_cast hg0)
      (by exact_mod_cast hv) (by exact_mod_cast hS) e3' (hq v hv)
    refine this.trans (le_of_eq ?_)
    push_cast
    ring

/-! ### Polynomials -/

/-- C102: Horner's rule of degree `m` (`l` has `m + 1` coefficients) has an error of at most `2m` roundings relative to
the polynomial of the absolute values. -/
theorem C102_polynomial (hp : 2 ≤ p) (h : NearestX p rn) (b : Build) {a : Acc σ ℚ} {l : List ℚ} (ha : Elems .one a s l)
    (hsmall : (l.length : Int) < 2 ^ 63 - 1) (hne : l ≠ []) (x dflt : ℚ) :
    ∃ v, Ops.polynomial b (rounded rn pow sqrt).toScalar.toArith a x s dflt = .ok v ∧
      |v - ∑ i ∈ Finset.range l.length, l.getD i 0 * x ^ i| ≤
        ((1 + unit p) ^ (2 * (l.length - 1)) - 1) * ∑ i ∈ Finset.range l.length, |l.getD i 0| * |x| ^ i := by
  have hf := flX_nearestX hp h
  refine ⟨_, (polynomial_eq b _ ha hsmall hne x dflt).trans (foldlM_pure (g := fun acc c => rn (c + rn (acc * x))) _ _
    fun _ _ _ => rfl), ?_⟩
  have key : ∀ (cs : List ℚ) {z Z M : ℚ} {j : Nat}, Close (unit p) z Z M j →
      Close (unit p) (cs.foldl (fun acc c => rn (c + rn (acc * x))) z) (cs.foldl (fun acc c => c + acc * x) Z)
        (cs.foldl (fun acc c => |c| + acc * |x|) M) (j + 2 * cs.length) := by
    intro cs
    induction cs with
    | nil => intro z Z M j hz; simpa using hz
    | cons c cs ih =>
      intro z Z M j hz
      have h1 := (hz.mul hf.pos (Close.refl (u := unit p) x)).round hf
      have h2 := (((Close.refl (u := unit p) c).mono hf.pos (Nat.zero_le _)).add h1).round hf
      have := ih h2
      rwa [show j + 0 + 1 + 1 + 2 * cs.length = j + 2 * (c :: cs).length by rw [List.length_cons]; omega] at this
  have := (key l.dropLast.reverse (Close.refl (u := unit p) (l.getLast hne))).1
  rw [horner_foldl, List.length_reverse, List.length_dropLast, Nat.zero_add] at this
  refine this.trans (le_of_eq ?_)
  congr 1
  have e := horner_foldl (l.map abs) (by simpa using hne) |x|
  rw [List.getLast_map, ← List.map_dropLast, ← List.map_reverse, List.foldl_map] at e
  rw [e, List.length_map]
  refine Finset.sum_congr rfl fun i hi => ?_
  congr 1
  rw [Finset.mem_range] at hi
  rw [List.getD_eq_getElem _ _ (by simpa using hi), List.getD_eq_getElem _ _ hi, List.getElem_map]

/-- C102: `gpolynomial` of `n` terms, with a power function of relative error at most `k` roundings: the error is at
most `n + k + 1` roundings relative to the sum of the absolute values of the terms. -/
theorem C102_gpolynomial (hp : 2 ≤ p) (h : NearestX p rn) {k : Nat} (hw : AccuratePow p k pow) (b : Build)
    {a X : Acc σ ℚ} {P : Acc σ Int} {cs xs : List ℚ} {ps : List Nat} (ha : Elems .one a s cs) (hX : Elems .one X s xs)
    (hP : Elems .one P s (ps.map (fun p : Nat => (p : Int)))) (hcx : cs.length = xs.length)
    (hxp : xs.length = ps.length) (hps : ∀ q ∈ ps, q ≤ 2 ^ p) (hne : cs ≠ []) (dflt : ℚ) :
    ∃ v, Ops.gpolynomial b (rounded rn pow sqrt).toScalar.toArith (rounded rn pow sqrt).pow a X P s dflt = .ok v ∧
      |v - ((List.zip cs (List.zip xs ps)).map (fun q => q.1 * q.2.1 ^ q.2.2)).sum| ≤
        ((1 + unit p) ^ (cs.length + k + 1) - 1) *
          ((List.zip cs (List.zip xs ps)).map (fun q => |q.1| * |q.2.1| ^ q.2.2)).sum := by
  have hf := flX_nearestX hp h
  have e0 := gpoly_loop b (rounded rn pow sqrt).toScalar.toArith (rounded rn pow sqrt).pow ha hX hP hcx (by simpa using hxp) hne
    (by simp) dflt
  rw [List.zip_map_right, List.zip_map_right, List.foldlM_map] at e0
  refine ⟨_, e0.trans (foldlM_pure (g := fun z q => rn (z + rn (q.1 * pow q.2.1 (q.2.2 : ℚ)))) _ _
    fun z q hq => ?_), ?_⟩
  · have hq2 : q.2.2 ∈ ps := (List.of_mem_zip (List.of_mem_zip hq).2).2
    show Res.ok (rn (z + rn (q.1 * pow q.2.1 (rn (((q.2.2 : Nat) : Int) : ℚ))))) = _
    rw [Int.cast_natCast, round_count h (hps _ hq2) hp]
  · have hc : ∀ q ∈ List.zip cs (List.zip xs ps), Close (unit p) (rn (q.1 * pow q.2.1 (q.2.2 : ℚ)))
        (q.1 * q.2.1 ^ q.2.2) (|q.1| * |q.2.1| ^ q.2.2) (k + 1) := by
      intro q _
      have hpw : Close (unit p) (pow q.2.1 q.2.2) (q.2.1 ^ q.2.2) (|q.2.1| ^ q.2.2) k :=
        ⟨hw q.2.1 q.2.2, by rw [abs_pow]⟩
      have := ((Close.refl (u := unit p) q.1).mul hf.pos hpw).round hf
      rwa [Nat.zero_add] at this
    have := (close_foldl_add hf _ hc (z := 0) (Z := 0) (M := 0) (j := k + 1) ⟨by simp, by simp⟩ le_rfl).1
    rw [zero_add, zero_add] at this
    refine this.trans (le_of_eq ?_)
    congr 3
    simp only [List.length_zip]
    omega

theorem const_values (b : Build) (n : Nat) (x : ℚ) (hn : (n : Int) < 2 ^ 63) :
    ∃ X, Tm.mkConst1D (σ := σ) b (n : Int) x = .ok X ∧ Elems .one X s (List.replicate n x) := by
  refine ⟨_, mkConst1D_ok b x (by omega), List.replicate n (Res.ok x), ?_, by
    show List.replicate n (Res.ok x) = _
    rw [List.map_replicate]⟩
  refine ⟨by rw [List.length_replicate]; rfl, by rw [List.length_replicate]; rfl, fun i hi => ?_⟩
  rw [List.length_replicate] at hi
  show (do let p ← imul 1 (i : Int); let _ ← iadd 0 p; Res.ok x) = _
  rw [imul_ok (by unfold IsIndex; omega), Res.ok_bind, iadd_ok (by unfold IsIndex; omega), Res.ok_bind]
  simp [hi]

theorem zip_replicate_sum (f : ℚ → ℚ → Nat → ℚ) (x : ℚ) : ∀ (cs : List ℚ) (ps : List Nat) (n : Nat), cs.length ≤ n →
    ((List.zip cs (List.zip (List.replicate n x) ps)).map (fun q => f q.1 q.2.1 q.2.2)) =
      (List.zip cs ps).map (fun q => f q.1 x q.2)
  | [], _, _, _ => by simp
  | _ :: _, [], _, _ => by simp
  | c :: cs, q :: ps, n + 1, h => by
    rw [List.replicate_succ, List.zip_cons_cons, List.zip_cons_cons, List.zip_cons_cons, List.map_cons, List.map_cons,
      zip_replicate_sum f x cs ps n (by simpa using h)]

/-- C102: the same for `polynomial(coeffs, x, powers)`. -/
theorem C102_polynomial_powers (hp : 2 ≤ p) (h : NearestX p rn) {k : Nat} (hw : AccuratePow p k pow) (b : Build)
    {a : Acc σ ℚ} {P : Acc σ Int} {cs : List ℚ} {ps : List Nat} (ha : Elems .one a s cs)
    (hP : Elems .one P s (ps.map (fun p : Nat => (p : Int)))) (hcp : cs.length = ps.length)
    (hps : ∀ q ∈ ps, q ≤ 2 ^ p) (hsmall : (cs.length : Int) < 2 ^ 63) (hne : cs ≠ []) (x dflt : ℚ) :
    ∃ v, Ops.polynomialPowers b (rounded rn pow sqrt).toScalar.toArith (rounded rn pow sqrt).pow a x P s dflt = .ok v ∧
      |v - ((List.zip cs ps).map (fun q => q.1 * x ^ q.2)).sum| ≤
        ((1 + unit p) ^ (cs.length + k + 1) - 1) * ((List.zip cs ps).map (fun q => |q.1| * |x| ^ q.2)).sum := by
  have hne' : cs.isEmpty = false := by simpa using hne
  have hpne : ps.map (fun p : Nat => (p : Int)) ≠ [] := by
    intro e; rw [List.map_eq_nil_iff] at e; rw [e] at hcp; simp at hcp; exact hne hcp
  obtain ⟨X, e1, e2⟩ := const_values (s := s) b cs.length x hsmall
  obtain ⟨v, e3, e4⟩ := C102_gpolynomial (sqrt := sqrt) hp h hw b ha e2 hP (by simp) (by simpa using hcp) hps hne
    (rounded rn pow sqrt).toScalar.toArith.zero
  rw [zip_replicate_sum (fun c y q => c * y ^ q) x cs ps _ le_rfl,
    zip_replicate_sum (fun c y q => |c| * |y| ^ q) x cs ps _ le_rfl] at e4
  refine ⟨v, ?_, e4⟩
  unfold Ops.polynomialPowers
  rw [sameSize_one ha hP, decide_eq_true (by simpa using hcp), Elems.empty ha, hne',
    nonNeg_eq hP hpne, decide_eq_true (by simp), Elems.rows ha]
  simp only [assertDebug_true, Res.ok_bind, Bool.false_eq_true, if_false, assertDebugM_ok]
  rw [e1, Res.ok_bind, e3]

/-! ### Scaled norms and the stable versions -/

theorem ratio_close {g u : ℝ} (hu : 0 ≤ u) (hu1 : u < 1) (hg : 0 ≤ g) {v V q Q r : ℝ} (hV : 0 ≤ V) (hQ : 0 < Q)
    (hv : |v - V| ≤ g * V) (hq : |q - Q| ≤ u * Q) (hr : |v / q - r| ≤ u * |v / q|) :
    |r - V / Q| ≤ ((1 + u) * (1 + g) / (1 - u) - 1) * (V / Q) := by
  have hu' : 0 < 1 - u := by linarith
  have q1 : (1 - u) * Q ≤ q := by linarith [(abs_le.1 hq).1]
  have hq0 : 0 < q := lt_of_lt_of_le (by positivity) q1
  have h1 : |v / q - V / Q| ≤ ((1 + g) / (1 - u) - 1) * (V / Q) := by
    have e : v / q - V / Q = ((v - V) * Q - V * (q - Q)) / (q * Q) := by field_simp; ring
    have n : |(v - V) * Q - V * (q - Q)| ≤ (g + u) * V * Q := by
      refine (abs_sub _ _).trans ?_
      rw [abs_mul, abs_mul, abs_of_pos hQ, abs_of_nonneg hV]
      have := mul_le_mul_of_nonneg_right hv hQ.le
      have := mul_le_mul_of_nonneg_left hq hV
      nlinarith
    rw [e, abs_div, abs_of_pos (by positivity : 0 < q * Q), div_le_iff₀ (by positivity)]
    refine n.trans ?_
    have e2 : ((1 + g) / (1 - u) - 1) * (V / Q) * (q * Q) = (g + u) * V * (q / (1 - u)) := by field_simp; ring
    rw [e2]
    refine mul_le_mul_of_nonneg_left ?_ (by positivity)
    rw [le_div_iff₀ hu']; linarith
  have hW : 0 ≤ V / Q := by positivity
  have h2 : |v / q| ≤ (1 + g) / (1 - u) * (V / Q) := by
    have : |v / q| ≤ |v / q - V / Q| + |V / Q| := by
      have e : v / q = (v / q - V / Q) + V / Q := by ring
      calc |v / q| = |(v / q - V / Q) + V / Q| := by rw [← e]
        _ ≤ _ := abs_add_le _ _
    rw [abs_of_nonneg hW] at this
    linarith
  have h3 : |r - V / Q| ≤ |v / q - r| + |v / q - V / Q| := by
    rw [abs_sub_comm (v / q) r]
    have e : r - V / Q = (r - v / q) + (v / q - V / Q) := by ring
    rw [e]; exact abs_add_le _ _
  have h4 := mul_le_mul_of_nonneg_left h2 hu
  have e : ((1 + u) * (1 + g) / (1 - u) - 1) * (V / Q) =
      u * ((1 + g) / (1 - u) * (V / Q)) + ((1 + g) / (1 - u) - 1) * (V / Q) := by field_simp; ring
  rw [e]; linarith

theorem scaled_norm2 (hp : 2 ≤ p) (h : NearestX p rn) (hq : AccurateSqrt p sqrt) {n : Nat} (hn : 0 < n)
    (hn' : n ≤ 2 ^ p) {g S v : ℚ} (hg : 0 ≤ g) (hv : |(v : ℝ) - √(S : ℝ)| ≤ g * √(S : ℝ)) :
    |(rn (v / sqrt (rn (n : ℚ))) : ℝ) - √(S : ℝ) / √(n : ℝ)| ≤
      ((1 + unit p) * (1 + g) / (1 - unit p) - 1 : ℚ) * (√(S : ℝ) / √(n : ℝ)) := by
  have hf := flX_nearestX hp h
  have hu : unit p < 1 := (unit_le hp).trans_lt (by norm_num)
  rw [round_count h hn' hp]
  have h1 := hq (n : ℚ) (by positivity)
  rw [Rat.cast_natCast] at h1
  have h2 : |((v : ℝ) / (sqrt (n : ℚ) : ℚ)) - (rn (v / sqrt (n : ℚ)) : ℚ)| ≤
      (unit p : ℝ) * |(v : ℝ) / (sqrt (n : ℚ) : ℚ)| := by exact_mod_cast hf.relX (v / sqrt (n : ℚ))
  have := ratio_close (u := (unit p : ℚ)) (g := (g : ℝ)) (by exact_mod_cast hf.pos.le) (by exact_mod_cast hu)
    (by exact_mod_cast hg) (Real.sqrt_nonneg _) (Real.sqrt_pos.2 (by exact_mod_cast hn)) hv h1 h2
  refine this.trans (le_of_eq ?_)
  push_cast
  ring

/-- C102: `norm2_scaled` has a relative error of at most `n + 3` roundings (one of them by division). -/
theorem C102_norm2_scaled (hp : 2 ≤ p) (h : NearestX p rn) (hq : AccurateSqrt p sqrt) (b : Build) {a : Acc σ ℚ}
    {sh : Nat × Nat} {l : List ℚ} (ha : Shaped d a s sh l) (hne : l ≠ []) (hn : l.length ≤ 2 ^ p) (dflt : ℚ) :
    ∃ v, Ops.norm2Scaled b d (rounded rn pow sqrt).toScalar a s dflt = .ok v ∧
      |(v : ℝ) - √((l.map (· ^ 2)).sum : ℚ) / √(l.length : ℝ)| ≤
        ((1 + unit p) ^ (l.length + 2) / (1 - unit p) - 1 : ℚ) * (√((l.map (· ^ 2)).sum : ℚ) / √(l.length : ℝ)) := by
  have hne' : l.isEmpty = false := by simpa using hne
  have hf := flX_nearestX hp h
  obtain ⟨v, e1, e2⟩ := C102_norm2 (pow := pow) hp h hq b ha hne 0
  refine ⟨rn (v / sqrt (rn (l.length : ℚ))), ?_, ?_⟩
  · unfold Ops.norm2Scaled
    rw [Elems.empty (Shaped.elems ha), hne', Elems.size (Shaped.elems ha)]
    show ((Ops.norm2 b d (rounded rn pow sqrt).toScalar a s 0) >>= _) = _
    rw [e1]
    show Res.ok (rn (v / sqrt (rn ((l.length : Int) : ℚ)))) = _
    rw [Int.cast_natCast]
  · have := scaled_norm2 hp h hq (List.length_pos_iff.2 hne) hn (growth_nonneg hf.pos (l.length + 1))
      (S := (l.map (· ^ 2)).sum) (v := v) (by push_cast at e2 ⊢; exact e2)
    refine this.trans (le_of_eq ?_)
    congr 2
    ring

/-- C102: `stable_norm2_scaled`. -/
theorem C102_stable_norm2_scaled (hp : 2 ≤ p) (h : NearestX p rn) (hq : AccurateSqrt p sqrt) (b : Build) {a : Acc σ ℚ}
    {sh : Nat × Nat} {l : List ℚ} (ha : Shaped d a s sh l) (hl : ∀ x ∈ l, RepX p x) (hne : l ≠ [])
    (hn : l.length ≤ 2 ^ p) {g : ℚ}
    (hg : g = unit p + (1 + unit p) * ((1 + unit p) ^ l.length - 1) ^ 2) (hg1 : g ≤ 1) (dflt : ℚ) :
    ∃ v, Stable.norm2Scaled b d (rounded rn pow sqrt) a s dflt = .ok v ∧
      |(v : ℝ) - √((l.map (· ^ 2)).sum : ℚ) / √(l.length : ℝ)| ≤
        ((1 + unit p) ^ 2 * (1 + g) / (1 - unit p) - 1 : ℚ) * (√((l.map (· ^ 2)).sum : ℚ) / √(l.length : ℝ)) := by
  have hne' : l.isEmpty = false := by simpa using hne
  have hf := flX_nearestX hp h
  have hu := hf.pos
  have hg0 : 0 ≤ g := by rw [hg]; positivity
  obtain ⟨v, e1, e2⟩ := C102_stable_norm2 (pow := pow) hp h hq b ha hl hne hg hg1 0
  refine ⟨rn (v / sqrt (rn (l.length : ℚ))), ?_, ?_⟩
  · unfold Stable.norm2Scaled
    rw [Elems.empty (Shaped.elems ha), hne', Elems.size (Shaped.elems ha)]
    show ((Stable.norm2 b d (rounded rn pow sqrt) a s 0) >>= _) = _
    rw [e1]
    show Res.ok (rn (v / sqrt (rn ((l.length : Int) : ℚ)))) = _
    rw [Int.cast_natCast]
  · have := scaled_norm2 hp h hq (List.length_pos_iff.2 hne) hn (g := (1 + unit p) * (1 + g) - 1) (by nlinarith)
      (S := (l.map (· ^ 2)).sum) (v := v) e2
    refine this.trans (le_of_eq ?_)
    congr 2
    ring

/-- Dividing a sum by a count and rounding. -/
theorem mean_step (hf : FlX G u rn) {v S B n : ℚ} (hn : 0 < n) (hv : |v - S| ≤ B) :
    |rn (v / n) - S / n| ≤ u * (|S| / n) + (1 + u) * (B / n) := by
  have h1 : |v / n - S / n| ≤ B / n := by
    rw [← sub_div, abs_div, abs_of_pos hn]
    exact div_le_div_of_nonneg_right hv hn.le
  have h2 := hf.relX (v / n)
  have h3 : |v / n| ≤ |v / n - S / n| + |S / n| := by
    have e : v / n = (v / n - S / n) + S / n := by ring
    calc |v / n| = |(v / n - S / n) + S / n| := by rw [← e]
      _ ≤ _ := abs_add_le _ _
  have h4 : |rn (v / n) - S / n| ≤ |v / n - rn (v / n)| + |v / n - S / n| := by
    rw [abs_sub_comm (v / n) (rn _)]
    have e : rn (v / n) - S / n = (rn (v / n) - v / n) + (v / n - S / n) := by ring
    rw [e]; exact abs_add_le _ _
  rw [abs_div S, abs_of_pos hn] at h3
  have h5 := mul_le_mul_of_nonneg_left h3 hf.pos.le
  have h6 := mul_le_mul_of_nonneg_left h1 hf.pos.le
  nlinarith

/-- C102: `stable_mean`: two roundings of the mean and terms of second order. -/
theorem C102_stable_mean (hp : 2 ≤ p) (h : NearestX p rn) {a : Acc σ ℚ} {l : List ℚ} (ha : Elems d a s l)
    (hl : ∀ x ∈ l, RepX p x) (hne : l ≠ []) (hn : l.length ≤ 2 ^ p) (dflt : ℚ) :
    ∃ v, Stable.mean (rounded rn pow sqrt) a s dflt = .ok v ∧
      |v - l.sum / l.length| ≤ unit p * (|l.sum| / l.length) + (1 + unit p) * ((unit p * |l.sum| +
        (1 + unit p) * ((1 + unit p) ^ (l.length - 1) - 1) ^ 2 * (l.map abs).sum) / l.length) := by
  have hf := flX_nearestX hp h
  have hne' : l.isEmpty = false := by simpa using hne
  have hpos : 0 < l.length := List.length_pos_iff.2 hne
  refine ⟨_, ?_, mean_step hf (by exact_mod_cast hpos) (compensated_err (fl_nearestX hp h) hl)⟩
  unfold Stable.mean
  rw [Elems.empty ha, hne', Elems.size ha]
  show ((Stable.sum (rounded rn pow sqrt) a s (rounded rn pow sqrt).toScalar.toArith.zero) >>= _) = _
  rw [stableSum_rounded (fl_nearestX hp h) ha hl hne]
  show Res.ok (rn (_ / rn ((l.length : Int) : ℚ))) = _
  rw [Int.cast_natCast, round_count h hn hp]

theorem abs_repX {l : List ℚ} (hl : ∀ x ∈ l, RepX p x) : ∀ x ∈ l.map abs, RepX p x := by
  intro x hx
  obtain ⟨y, hy, rfl⟩ := List.mem_map.1 hx
  obtain ⟨m, e, hm, rfl⟩ := hl y hy
  exact ⟨|m|, e, by rwa [abs_abs], by rw [abs_mul, abs_of_pos (by positivity : (0 : ℚ) < 2 ^ e)]; push_cast; rfl⟩

theorem sum_abs_sum (l : List ℚ) : |(l.map abs).sum| = (l.map abs).sum :=
  abs_of_nonneg (List.sum_nonneg fun y hy => by obtain ⟨x, _, rfl⟩ := List.mem_map.1 hy; positivity)

/-- C102: `stable_norm1` has a relative error of one rounding and a term of second order. -/
theorem C102_stable_norm1 (hp : 2 ≤ p) (h : NearestX p rn) {a : Acc σ ℚ} {l : List ℚ} (ha : Elems d a s l)
    (hl : ∀ x ∈ l, RepX p x) (hne : l ≠ []) (dflt : ℚ) :
    ∃ v, Stable.norm1 (rounded rn pow sqrt) a s dflt = .ok v ∧
      |v - (l.map abs).sum| ≤
        (unit p + (1 + unit p) * ((1 + unit p) ^ (l.length - 1) - 1) ^ 2) * (l.map abs).sum := by
  have hne' : l.isEmpty = false := by simpa using hne
  have hc := compensated_err (fl_nearestX hp h) (abs_repX hl)
  rw [abs_abs_sum, List.length_map, sum_abs_sum] at hc
  refine ⟨_, ?_, hc.trans (le_of_eq (by ring))⟩
  unfold Stable.norm1
  rw [Elems.empty ha, hne']
  exact stableSum_rounded (fl_nearestX hp h) (abs_values ha) (abs_repX hl) (by simpa using hne) _

/-- C102: `stable_norm1_scaled`. -/
theorem C102_stable_norm1_scaled (hp : 2 ≤ p) (h : NearestX p rn) {a : Acc σ ℚ} {l : List ℚ} (ha : Elems d a s l)
    (hl : ∀ x ∈ l, RepX p x) (hne : l ≠ []) (hn : l.length ≤ 2 ^ p) (dflt : ℚ) :
    ∃ v, Stable.norm1Scaled (rounded rn pow sqrt) a s dflt = .ok v ∧
      |v - (l.map abs).sum / l.length| ≤
        ((1 + unit p) ^ 2 * (1 + ((1 + unit p) ^ (l.length - 1) - 1) ^ 2) - 1) * ((l.map abs).sum / l.length) := by
  have hf := flX_nearestX hp h
  have hne' : l.isEmpty = false := by simpa using hne
  have hpos : 0 < l.length := List.length_pos_iff.2 hne
  obtain ⟨v, e1, e2⟩ := C102_stable_norm1 (pow := pow) (sqrt := sqrt) hp h ha hl hne
    (rounded rn pow sqrt).toScalar.toArith.zero
  refine ⟨rn (v / l.length), ?_, ?_⟩
  · unfold Stable.norm1Scaled
    rw [Elems.empty ha, hne', Elems.size ha]
    show ((Stable.norm1 (rounded rn pow sqrt) a s (rounded rn pow sqrt).toScalar.toArith.zero) >>= _) = _
    rw [e1]
    show Res.ok (rn (v / rn ((l.length : Int) : ℚ))) = _
    rw [Int.cast_natCast, round_count h hn hp]
  · have := mean_step hf (n := l.length) (by exact_mod_cast hpos) e2
    rw [sum_abs_sum] at this
    refine this.trans (le_of_eq ?_)
    ring

/-! ### Cases that meet the hypotheses -/

open Spp.Sample

theorem exists_accurateSqrt (p : Nat) : ∃ sqrt, AccurateSqrt p sqrt := by
  have : ∀ x : ℚ, ∃ y : ℚ, 0 ≤ x → |(y : ℝ) - √(x : ℝ)| ≤ unit p * √(x : ℝ) := by
    intro x
    have hu : (0 : ℝ) < (unit p : ℚ) := by
      have : (0 : ℚ) < unit p := by unfold unit; positivity
      exact_mod_cast this
    by_cases hx : 0 < x
    · have hs : 0 < √(x : ℝ) := Real.sqrt_pos.2 (by exact_mod_cast hx)
      obtain ⟨y, h1, h2⟩ := exists_rat_btwn (show √(x : ℝ) < √(x : ℝ) + unit p * √(x : ℝ) by nlinarith)
      exact ⟨y, fun _ => abs_le.2 ⟨by nlinarith, by linarith⟩⟩
    · refine ⟨0, fun h0 => ?_⟩
      have : x = 0 := le_antisymm (not_lt.1 hx) h0
      simp [this]
  choose f hf using this
  exact ⟨f, hf⟩

/-- Double precision: the norm of `(3, 4)` is 5 up to three roundings. -/
example : ∃ rn sqrt, NearestX 53 rn ∧ AccurateSqrt 53 sqrt ∧
    ∃ v, Ops.norm2 ⟨false, true, false⟩ .one (rounded rn (fun x _ => x) sqrt).toScalar (lit [3, 4]) () 0 = .ok v ∧
      |(v : ℝ) - 5| ≤ 1 / 2 ^ 49 := by
  obtain ⟨rn, h⟩ := exists_nearestX (p := 53) (by norm_num)
  obtain ⟨sqrt, hq⟩ := exists_accurateSqrt 53
  obtain ⟨v, h1, h2⟩ := C102_norm2 (pow := fun x _ => x) (by norm_num) h hq ⟨false, true, false⟩
    (lit_shaped () [(3 : ℚ), 4]) (by simp) 0
  refine ⟨rn, sqrt, h, hq, v, h1, ?_⟩
  have e : √((([(3 : ℚ), 4].map (· ^ 2)).sum : ℚ) : ℝ) = 5 := by
    rw [show ((([(3 : ℚ), 4].map (· ^ 2)).sum : ℚ) : ℝ) = 5 ^ 2 by norm_num]
    exact Real.sqrt_sq (by norm_num)
  rw [e] at h2
  refine h2.trans ?_
  simp only [unit, List.length_cons, List.length_nil]
  norm_num

/-- Single precision: the stable norm, with its hypothesis on the number of elements. -/
example : ∃ rn sqrt, NearestX 24 rn ∧ AccurateSqrt 24 sqrt ∧
    ∃ v, Stable.norm2 ⟨false, true, false⟩ .one (rounded rn (fun x _ => x) sqrt) (lit [3, 4]) () 0 = .ok v ∧
      |(v : ℝ) - 5| ≤ 1 / 2 ^ 19 := by
  obtain ⟨rn, h⟩ := exists_nearestX (p := 24) (by norm_num)
  obtain ⟨sqrt, hq⟩ := exists_accurateSqrt 24
  obtain ⟨v, h1, h2⟩ := C102_stable_norm2 (pow := fun x _ => x) (by norm_num) h hq ⟨false, true, false⟩
    (lit_shaped () [(3 : ℚ), 4])
    (by
      intro x hx
      simp only [List.mem_cons, List.not_mem_nil, or_false] at hx
      rcases hx with rfl | rfl
      · exact ⟨3, 0, by norm_num, by norm_num⟩
      · exact ⟨4, 0, by norm_num, by norm_num⟩) (by simp) rfl (by simp only [unit, List.length_cons, List.length_nil]; norm_num) 0
  refine ⟨rn, sqrt, h, hq, v, h1, ?_⟩
  have e : √((([(3 : ℚ), 4].map (· ^ 2)).sum : ℚ) : ℝ) = 5 := by
    rw [show ((([(3 : ℚ), 4].map (· ^ 2)).sum : ℚ) : ℝ) = 5 ^ 2 by norm_num]
    exact Real.sqrt_sq (by norm_num)
  rw [e] at h2
  refine h2.trans ?_
  simp only [unit, List.length_cons, List.length_nil]
  norm_num

/-- Single precision: Horner's rule for `1 - 3x + x^2` at `x = 1/3`. -/
example : ∃ rn, NearestX 24 rn ∧
    ∃ v, Ops.polynomial ⟨false, true, false⟩ (rounded rn (fun x _ => x) id).toScalar.toArith (lit [1, -3, 1]) (1 / 3) () 0 =
      .ok v ∧ |v - 1 / 9| ≤ 1 / 2 ^ 20 := by
  obtain ⟨rn, h⟩ := exists_nearestX (p := 24) (by norm_num)
  obtain ⟨v, h1, h2⟩ := C102_polynomial (pow := fun x _ => x) (sqrt := id) (by norm_num) h ⟨false, true, false⟩
    (Shaped.elems (lit_shaped () [(1 : ℚ), -3, 1])) (by norm_num) (by simp) (1 / 3) 0
  refine ⟨rn, h, v, h1, ?_⟩
  simp only [unit, List.length_cons, List.length_nil, Finset.sum_range_succ, Finset.sum_range_zero] at h2
  norm_num [abs_of_nonneg] at h2 ⊢
  exact h2.trans (by norm_num)

/-- Powers accurate to one rounding exist. -/
example : AccuratePow 53 1 (fun x y => x ^ y.num.toNat) := by
  intro x n
  have := growth_nonneg (u := unit 53) (by unfold unit; positivity) 1
  simp only [Rat.num_natCast, Int.toNat_natCast, sub_self, abs_zero]
  positivity

/-- Double precision: the mean of three numbers. -/
example : ∃ rn, NearestX 53 rn ∧
    ∃ v, Ops.mean (rounded rn (fun x _ => x) id).toScalar.toArith (lit [1, 2, 4]) () 0 = .ok v ∧ |v - 7 / 3| ≤ 1 / 2 ^ 50 := by
  obtain ⟨rn, h⟩ := exists_nearestX (p := 53) (by norm_num)
  obtain ⟨v, h1, h2⟩ := C102_mean (pow := fun x _ => x) (sqrt := id) (by norm_num) h
    (Shaped.elems (lit_shaped () [(1 : ℚ), 2, 4])) (by simp) (by norm_num) 0
  refine ⟨rn, h, v, h1, ?_⟩
  simp only [unit, List.length_cons, List.length_nil, List.map_cons, List.map_nil, List.sum_cons, List.sum_nil] at h2
  norm_num [abs_of_nonneg] at h2 ⊢
  exact h2.trans (by norm_num)

end Spp.Props
