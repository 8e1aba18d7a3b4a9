import Verif.Props.Extrema
import Mathlib.Algebra.BigOperators.Intervals
import Mathlib.Algebra.BigOperators.Ring.Finset
import Mathlib.Algebra.Order.BigOperators.Group.List
import Mathlib.Algebra.Order.Group.Abs

/-
Properties of polynomial evaluation (C55) and norms (C56).
-/

set_option linter.unusedSectionVars false

namespace Spp.Props
open Spec

variable {σ : Type} {d : Dim} {s : σ}

/-! ### Polynomials -/

/-- `c_0 + c_1 x + c_2 x^2 + ...` by Horner's rule, written on the list of coefficients. -/
theorem horner_sum {R : Type} [CommRing R] (cs : List R) (x : R) :
    cs.foldr (fun c acc => c + acc * x) 0 =
      ∑ i ∈ Finset.range cs.length, cs.getD i 0 * x ^ i := by
  induction cs with
  | nil => simp
  | cons c cs ih =>
    rw [List.foldr_cons, ih, List.length_cons, Finset.sum_range_succ']
    simp only [List.getD_cons_succ, List.getD_cons_zero, pow_zero, mul_one]
    rw [add_comm, Finset.sum_mul]
    congr 1
    refine Finset.sum_congr rfl fun i _ => ?_
    rw [pow_succ, mul_assoc]

/-- The loop of `polynomial`. -/
theorem polynomial_eq {α : Type} (b : Build) (ar : Arith α) {a : Acc σ α} {l : List α}
    (h : Elems .one a s l) (hsmall : (l.length : Int) < 2 ^ 63 - 1) (hne : l ≠ []) (x dflt : α) :
    Ops.polynomial b ar a x s dflt =
      l.dropLast.reverse.foldlM (fun acc c => do let q ← ar.mul acc x; ar.add c q) (l.getLast hne) := by
  have hlen : 0 < l.length := List.length_pos_iff.2 hne
  have hne' : l.isEmpty = false := by simpa using hne
  unfold Ops.polynomial
  have e1 : Pos.resolve (l.length : Int) (.fromLast 0) = .ok ((l.length : Int) - 1) := by
    show (do let m ← isub (l.length : Int) 0; isub m 1) = _
    rw [isub_ok (by unfold IsIndex; omega), Res.ok_bind, isub_ok (by unfold IsIndex; omega)]
    congr 1
  have ec : ((l.length : Int) - 1) = ((l.length - 1 : Nat) : Int) := by omega
  have e2 : a.sub b s ((l.length : Int) - 1) = .ok (l.getLast hne) := by
    unfold Acc.sub
    rw [Elems.rows h, validIndex_iff.2 ⟨by omega, by omega⟩, assertDebug_true, Res.ok_bind, ec,
      Elems.un h (by omega), List.getLast_eq_getElem]
  have e3 : isub (l.length : Int) 2 = .ok ((l.length : Int) - 2) := isub_ok (by unfold IsIndex; omega)
  rw [Elems.empty h, hne', Elems.rows h]
  simp only [Res.ok_bind, Bool.false_eq_true, if_false, e1, e2, e3]
  have en : ((l.length : Int) - 2 + 1).toNat = l.dropLast.reverse.length := by
    rw [List.length_reverse, List.length_dropLast]; omega
  rw [en]
  refine foldN_list (l := l.dropLast.reverse) (p := fun k => a.un s ((l.length : Int) - 2 - k))
    (fun k hk => ?_) (fun acc c => do let q ← ar.mul acc x; ar.add c q) _
  rw [List.length_reverse, List.length_dropLast] at hk
  have ek : ((l.length : Int) - 2 - k) = ((l.length - 2 - k : Nat) : Int) := by omega
  show a.un s ((l.length : Int) - 2 - k) = _
  rw [ek, Elems.un h (by omega), List.getElem_reverse, List.getElem_dropLast]
  congr 2
  rw [List.length_dropLast]; omega

theorem horner_foldl {R : Type} [CommRing R] (l : List R) (hne : l ≠ []) (x : R) :
    l.dropLast.reverse.foldl (fun acc c => c + acc * x) (l.getLast hne) =
      ∑ i ∈ Finset.range l.length, l.getD i 0 * x ^ i := by
  rw [← horner_sum, List.foldl_reverse]
  conv_rhs => rw [← List.dropLast_append_getLast hne, List.foldr_append]
  simp

section exact

variable {K : Type} [Field K] [LinearOrder K] {pow : K → K → K} {sqrt : K → K}

/-- C55: in exact arithmetic `polynomial(c, x)` is `c_0 + c_1 x + c_2 x^2 + ...`. -/
theorem C55_polynomial (b : Build) {a : Acc σ K} {l : List K} (h : Elems .one a s l)
    (hsmall : (l.length : Int) < 2 ^ 63 - 1) (hne : l ≠ []) (x dflt : K) :
    Ops.polynomial b (exactS K pow sqrt).toArith a x s dflt =
      .ok (∑ i ∈ Finset.range l.length, l.getD i 0 * x ^ i) := by
  rw [polynomial_eq b _ h hsmall hne, ← horner_foldl l hne]
  exact foldlM_pure _ _ fun _ _ _ => rfl

end exact

/-- C55: where an operation that overflows has no result (signed integers), `polynomial` never returns
a wrong value. -/
theorem C55_no_wrong_result {R : Type} [CommRing R] {ar : Arith R} (hf : Faithful ar) (b : Build)
    {a : Acc σ R} {l : List R} (h : Elems .one a s l) (hsmall : (l.length : Int) < 2 ^ 63 - 1)
    (hne : l ≠ []) (x dflt : R) {v : R} (hv : Ops.polynomial b ar a x s dflt = .ok v) :
    v = ∑ i ∈ Finset.range l.length, l.getD i 0 * x ^ i := by
  rw [polynomial_eq b _ h hsmall hne] at hv
  rw [← horner_foldl l hne]
  refine foldlM_faithful (g := fun acc c => c + acc * x) (fun acc c z hz => ?_) _ _ _ hv
  rw [Res.bind_eq_ok] at hz
  obtain ⟨q, h1, h2⟩ := hz
  rw [hf.add _ _ _ h2, hf.mul _ _ _ h1]

/-- C55: without coefficients all of them return the default. -/
theorem C55_empty {α : Type} (b : Build) (ar : Arith α) (pow : α → α → Res α) {a X : Acc σ α}
    {P : Acc σ Int} (h : Elems .one a s []) (hX : Elems .one X s []) (hP : Elems .one P s [])
    (x dflt : α) :
    Ops.polynomial b ar a x s dflt = .ok dflt ∧
    Ops.gpolynomial b ar pow a X P s dflt = .ok dflt ∧
    Ops.polynomialPowers b ar pow a x P s dflt = .ok dflt := by
  unfold Ops.polynomial Ops.gpolynomial Ops.polynomialPowers
  have h1 : Acc.sameSize .one a X s = true := by
    show (a.rows s == X.rows s) = true
    rw [Elems.rows h, Elems.rows hX]; rfl
  have h2 : Acc.sameSize .one X P s = true := by
    show (X.rows s == P.rows s) = true
    rw [Elems.rows hX, Elems.rows hP]; rfl
  have h3 : Acc.sameSize .one a P s = true := by
    show (a.rows s == P.rows s) = true
    rw [Elems.rows h, Elems.rows hP]; rfl
  rw [Elems.empty h, h1, h2, h3]
  simp only [Bool.and_self, assertDebug_true, Res.ok_bind, List.isEmpty_nil, if_true, and_self]

theorem nonNeg_eq {P : Acc σ Int} {ps : List Int} (h : Elems .one P s ps) (hne : ps ≠ []) :
    Ops.nonNegPowers P s = .ok (decide (∀ p ∈ ps, 0 ≤ p)) :=
  ((C54_quantifiers h (f := fun p => .ok (decide (p ≥ 0))) (p := fun p => 0 ≤ p)
    (fun _ _ => rfl) false).2 hne).2.1

theorem sameSize_one {α β : Type} {a : Acc σ α} {P : Acc σ β} {l : List α} {ps : List β}
    (h : Elems .one a s l) (hP : Elems .one P s ps) :
    Acc.sameSize .one a P s = decide (l.length = ps.length) := by
  show (a.rows s == P.rows s) = _
  rw [Elems.rows h, Elems.rows hP, Bool.eq_iff_iff, beq_iff_eq, decide_eq_true_iff]
  omega

/-- The loop of `gpolynomial`. -/
theorem gpoly_loop {α : Type} (b : Build) (ar : Arith α) (pow : α → α → Res α) {a X : Acc σ α}
    {P : Acc σ Int} {cs xs : List α} {ps : List Int} (h : Elems .one a s cs) (hX : Elems .one X s xs)
    (hP : Elems .one P s ps) (hcx : cs.length = xs.length) (hxp : xs.length = ps.length) (hne : cs ≠ [])
    (hnn : ∀ p ∈ ps, 0 ≤ p) (dflt : α) :
    Ops.gpolynomial b ar pow a X P s dflt =
      (List.zip cs (List.zip xs ps)).foldlM (fun z q => do
        let p ← ar.ofIndex q.2.2
        let y ← pow q.2.1 p
        let t ← ar.mul q.1 y
        ar.add z t) ar.zero := by
  have hne' : cs.isEmpty = false := by simpa using hne
  have hpne : ps ≠ [] := by
    intro e; rw [e] at hxp; simp at hxp; rw [hxp] at hcx; simp at hcx; exact hne hcx
  unfold Ops.gpolynomial
  rw [sameSize_one h hX, sameSize_one hX hP, decide_eq_true hcx, decide_eq_true hxp, Elems.empty h, hne',
    nonNeg_eq hP hpne, decide_eq_true hnn, Elems.size hX]
  simp only [Bool.and_self, assertDebug_true, Res.ok_bind, Bool.false_eq_true, if_false, assertDebugM_ok,
    Int.toNat_natCast]
  have el : xs.length = (List.zip cs (List.zip xs ps)).length := by
    simp only [List.length_zip]; omega
  rw [el]
  rw [← foldN_list (l := List.zip cs (List.zip xs ps)) (p := fun i => do
      let c ← a.un s i
      let x ← X.un s i
      let p ← P.un s i
      pure (c, x, p)) (fun i hi => ?_)]
  · refine foldN_congr _ fun i z hi => ?_
    rw [← el] at hi
    rw [Elems.un h (by omega), Elems.un hX (by omega), Elems.un hP (by omega)]
    rfl
  · rw [← el] at hi
    rw [Elems.un h (by omega), Elems.un hX (by omega), Elems.un hP (by omega), List.getElem_zip,
      List.getElem_zip]
    rfl

theorem foldl_sum {β R : Type} [CommRing R] (f : β → R) (qs : List β) (z : R) :
    qs.foldl (fun z q => z + f q) z = z + (qs.map f).sum := by
  induction qs generalizing z with
  | nil => simp
  | cons q qs ih => rw [List.foldl_cons, ih, List.map_cons, List.sum_cons, add_assoc]

section exact

variable {K : Type} [Field K] [LinearOrder K] {pow : K → K → K} {sqrt : K → K}

/-- C55: in exact arithmetic, given that the power function is right for exponents that are natural
numbers, `gpolynomial(c, X, p)` is the sum of `c_i * x_i ^ p_i`. -/
theorem C55_gpolynomial (b : Build) (hpow : ∀ (x : K) (n : Nat), pow x n = x ^ n) {a X : Acc σ K}
    {P : Acc σ Int} {cs xs : List K} {ps : List Nat} (h : Elems .one a s cs) (hX : Elems .one X s xs)
    (hP : Elems .one P s (ps.map (fun p : Nat => (p : Int)))) (hcx : cs.length = xs.length)
    (hxp : xs.length = ps.length) (hne : cs ≠ []) (dflt : K) :
    Ops.gpolynomial b (exactS K pow sqrt).toArith (exactS K pow sqrt).pow a X P s dflt =
      .ok ((List.zip cs (List.zip xs ps)).map (fun q => q.1 * q.2.1 ^ q.2.2)).sum := by
  rw [gpoly_loop b _ _ h hX hP hcx (by simpa using hxp) hne (by simp)]
  rw [foldlM_pure (f := fun (z : K) (q : K × K × Int) => do
        let p ← (exactS K pow sqrt).ofIndex q.2.2
        let y ← (exactS K pow sqrt).pow q.2.1 p
        let t ← (exactS K pow sqrt).mul q.1 y
        (exactS K pow sqrt).add z t)
      (g := fun (z : K) (q : K × K × Int) => z + q.1 * pow q.2.1 (q.2.2 : K)) _ _ (fun z q _ => rfl), foldl_sum]
  show Res.ok (0 + _) = _
  rw [zero_add]
  congr 2
  rw [List.zip_map_right, List.zip_map_right, List.map_map]
  refine List.map_congr_left fun q _ => ?_
  show q.1 * pow q.2.1 (((q.2.2 : Nat) : Int) : K) = _
  rw [Int.cast_natCast, hpow]

/-- C55: `polynomial(c, x, p)` is the sum of `c_i * x ^ p_i`. -/
theorem C55_polynomial_powers (b : Build) (hpow : ∀ (x : K) (n : Nat), pow x n = x ^ n) {a : Acc σ K}
    {P : Acc σ Int} {cs : List K} {ps : List Nat} (h : Elems .one a s cs)
    (hP : Elems .one P s (ps.map (fun p : Nat => (p : Int)))) (hcp : cs.length = ps.length)
    (hsmall : (cs.length : Int) < 2 ^ 63 - 1) (hne : cs ≠ []) (x dflt : K) :
    Ops.polynomialPowers b (exactS K pow sqrt).toArith (exactS K pow sqrt).pow a x P s dflt =
      .ok ((List.zip cs ps).map (fun q => q.1 * x ^ q.2)).sum := by
  have hne' : cs.isEmpty = false := by simpa using hne
  have hpne : ps.map (fun p : Nat => (p : Int)) ≠ [] := by
    intro e; rw [List.map_eq_nil_iff] at e; rw [e] at hcp; simp at hcp; exact hne hcp
  unfold Ops.polynomialPowers
  rw [sameSize_one h hP, decide_eq_true (by simpa using hcp), Elems.empty h, hne',
    nonNeg_eq hP hpne, decide_eq_true (by simp), Elems.rows h]
  simp only [assertDebug_true, Res.ok_bind, Bool.false_eq_true, if_false, assertDebugM_ok]
  obtain ⟨X, e1, e2⟩ : ∃ X, Tm.mkConst1D (σ := σ) b (cs.length : Int) x = .ok X ∧
      Elems .one X s (List.replicate cs.length x) := by
    unfold Tm.mkConst1D
    rw [decide_eq_true (show (cs.length : Int) > -1 by omega), assertDebug_true]
    refine ⟨_, rfl, List.replicate cs.length (Res.ok x), ?_, by
      show List.replicate cs.length (Res.ok x) = _
      rw [List.map_replicate]⟩
    refine ⟨by rw [List.length_replicate]; rfl, by rw [List.length_replicate]; rfl, fun i hi => ?_⟩
    rw [List.length_replicate] at hi
    show (do let p ← imul 1 (i : Int); let _ ← iadd 0 p; Res.ok x) = _
    rw [imul_ok (by unfold IsIndex; omega), Res.ok_bind, iadd_ok (by unfold IsIndex; omega), Res.ok_bind]
    simp [hi]
  rw [e1, Res.ok_bind, C55_gpolynomial b hpow h e2 hP (by simp) (by simpa using hcp) hne]
  congr 2
  rw [hcp]
  clear h hP hsmall hne hne' hpne e1 e2
  induction cs generalizing ps with
  | nil => simp
  | cons c cs ih => cases ps with
    | nil => simp
    | cons p ps =>
      simp only [List.length_cons, List.replicate_succ, List.zip_cons_cons, List.map_cons]
      rw [ih (by simpa using hcp)]

end exact

/-- C55: different sizes or a negative power are rejected by checked builds. -/
theorem C55_rejected {α : Type} {b : Build} (hb : b.Checked) (ar : Arith α) (pow : α → α → Res α)
    {a X : Acc σ α} {P : Acc σ Int} {cs xs : List α} {ps : List Int} (h : Elems .one a s cs)
    (hX : Elems .one X s xs) (hP : Elems .one P s ps) (x dflt : α) :
    (cs.length ≠ xs.length ∨ xs.length ≠ ps.length →
      Ops.gpolynomial b ar pow a X P s dflt = .trap b.kind) ∧
    (cs.length ≠ ps.length → Ops.polynomialPowers b ar pow a x P s dflt = .trap b.kind) ∧
    (cs ≠ [] → (∃ p ∈ ps, p < 0) →
      Ops.gpolynomial b ar pow a X P s dflt = .trap b.kind ∧
      Ops.polynomialPowers b ar pow a x P s dflt = .trap b.kind) := by
  have g1 : cs.length ≠ xs.length ∨ xs.length ≠ ps.length →
      Ops.gpolynomial b ar pow a X P s dflt = .trap b.kind := by
    intro hh
    unfold Ops.gpolynomial
    have : (Acc.sameSize .one a X s && Acc.sameSize .one X P s) = false := by
      rw [sameSize_one h hX, sameSize_one hX hP, Bool.and_eq_false_iff]
      rcases hh with hh | hh
      · exact Or.inl (decide_eq_false hh)
      · exact Or.inr (decide_eq_false hh)
    rw [this, assertDebug_false hb]; rfl
  have g2 : cs.length ≠ ps.length → Ops.polynomialPowers b ar pow a x P s dflt = .trap b.kind := by
    intro hh
    unfold Ops.polynomialPowers
    rw [sameSize_one h hP, decide_eq_false hh, assertDebug_false hb]; rfl
  refine ⟨g1, g2, fun hne hneg => ?_⟩
  have hne' : cs.isEmpty = false := by simpa using hne
  have hpne : ps ≠ [] := by
    obtain ⟨p, hp, _⟩ := hneg
    exact List.ne_nil_of_mem hp
  have hn : decide (∀ p ∈ ps, 0 ≤ p) = false := decide_eq_false fun hh => by
    obtain ⟨p, hp, hp'⟩ := hneg
    have := hh p hp
    omega
  constructor
  · by_cases hh : cs.length ≠ xs.length ∨ xs.length ≠ ps.length
    · exact g1 hh
    · unfold Ops.gpolynomial
      rw [not_or, not_not, not_not] at hh
      rw [sameSize_one h hX, sameSize_one hX hP, decide_eq_true hh.1, decide_eq_true hh.2, Elems.empty h,
        hne', nonNeg_eq hP hpne, hn]
      simp only [Bool.and_self, assertDebug_true, Res.ok_bind, Bool.false_eq_true, if_false,
        assertDebugM_ok, assertDebug_false hb]
      rfl
  · by_cases hh : cs.length ≠ ps.length
    · exact g2 hh
    · unfold Ops.polynomialPowers
      rw [not_not] at hh
      rw [sameSize_one h hP, decide_eq_true hh, Elems.empty h, hne', nonNeg_eq hP hpne, hn]
      simp only [assertDebug_true, Res.ok_bind, Bool.false_eq_true, if_false, assertDebugM_ok,
        assertDebug_false hb]
      rfl

/-! ### Norms -/

section norms

variable {K : Type} [Field K] [LinearOrder K] [IsStrictOrderedRing K] {pow : K → K → K} {sqrt : K → K}

theorem abss_exact (x : K) : (exactS K pow sqrt).abss x = .ok |x| := by
  unfold Scalar.abss
  show (if decide ((0 : K) < x) = true then Res.ok x else Res.ok (-x)) = _
  by_cases h : 0 < x
  · rw [if_pos (decide_eq_true h), abs_of_pos h]
  · rw [if_neg (by simpa using h), abs_of_nonpos (not_lt.1 h)]

theorem ordered_exact : Ordered (exactS K pow sqrt) where
  lt x y := decide_eq_true_iff
  le x y := decide_eq_true_iff
  eq x y := decide_eq_true_iff

/-- C56: `norm_inf` is the largest absolute value; it is zero exactly for the zero vector. -/
theorem C56_norm_inf {a : Acc σ K} {l : List K} (h : Elems d a s l) (hne : l ≠ []) (dflt : K) :
    ∃ v, Ops.normInf (exactS K pow sqrt) a s dflt = .ok v ∧ (∃ x ∈ l, v = |x|) ∧ (∀ x ∈ l, |x| ≤ v) ∧
      (v = 0 ↔ ∀ x ∈ l, x = 0) := by
  have hA := Elems.unary h (f := (exactS K pow sqrt).abss) (g := fun x => |x|) (fun x _ => abss_exact x)
  have hne' : l.isEmpty = false := by simpa using hne
  obtain ⟨v, h1, h2, h3⟩ := ((C53_extrema (ordered_exact (pow := pow) (sqrt := sqrt)) hA
    (exactS K pow sqrt).zero).2 (by simpa using hne)).2
  rw [List.mem_map] at h2
  obtain ⟨x, hx, rfl⟩ := h2
  have hbound : ∀ y ∈ l, |y| ≤ |x| := fun y hy => h3 _ (List.mem_map_of_mem hy)
  refine ⟨|x|, ?_, ⟨x, hx, rfl⟩, hbound, ⟨fun e y hy => ?_, fun e => by rw [e x hx, abs_zero]⟩⟩
  · unfold Ops.normInf
    rw [Elems.empty h, hne']
    exact h1
  · have := hbound y hy
    rw [e] at this
    exact abs_eq_zero.1 (le_antisymm this (abs_nonneg y))

/-- C56: `norm1` is the sum of the absolute values, `norm1_scaled` their mean; `norm1` is zero exactly
for the zero vector. -/
theorem C56_norm1 {a : Acc σ K} {l : List K} (h : Elems d a s l) (hne : l ≠ []) (dflt : K) :
    Ops.norm1 (exactS K pow sqrt) a s dflt = .ok (l.map (fun x => |x|)).sum ∧
    Ops.norm1Scaled (exactS K pow sqrt) a s dflt = .ok ((l.map (fun x => |x|)).sum / l.length) ∧
    ((l.map (fun x => |x|)).sum = 0 ↔ ∀ x ∈ l, x = 0) := by
  have hA := Elems.unary h (f := (exactS K pow sqrt).abss) (g := fun x => |x|) (fun x _ => abss_exact x)
  have hne' : l.isEmpty = false := by simpa using hne
  have hx := C52_exact (pow := pow) (sqrt := sqrt) hA (by simpa using hne) (exactS K pow sqrt).zero
  refine ⟨?_, ?_, ?_⟩
  · unfold Ops.norm1
    rw [Elems.empty h, hne']
    exact hx.1
  · unfold Ops.norm1Scaled
    rw [Elems.empty h, hne']
    rw [List.length_map] at hx
    exact hx.2.2
  · clear h hA hne hne' hx
    induction l with
    | nil => simp
    | cons x xs ih =>
      rw [List.map_cons, List.sum_cons]
      have hn : 0 ≤ (xs.map (fun x => |x|)).sum := List.sum_nonneg (by
        intro y hy
        rw [List.mem_map] at hy
        obtain ⟨z, _, rfl⟩ := hy
        exact abs_nonneg z)
      rw [add_eq_zero_iff_of_nonneg (abs_nonneg x) hn, ih, abs_eq_zero]
      simp

/-- C56: `norm2` is the square root of the sum of the squares, `norm2_scaled` that divided by the square
root of the number of elements. -/
theorem C56_norm2 (b : Build) {a : Acc σ K} {sh : Nat × Nat} {l : List K} (h : Shaped d a s sh l)
    (hne : l ≠ []) (dflt : K) :
    Ops.norm2 b d (exactS K pow sqrt) a s dflt = .ok (sqrt (l.map (fun x => x ^ 2)).sum) ∧
    Ops.norm2Scaled b d (exactS K pow sqrt) a s dflt =
      .ok (sqrt (l.map (fun x => x ^ 2)).sum / sqrt l.length) := by
  have hne' : l.isEmpty = false := by simpa using hne
  have esq : List.zipWith (· * ·) l l = l.map (fun x => x ^ 2) := by
    clear h hne hne'
    induction l with
    | nil => rfl
    | cons x xs ih => rw [List.zipWith_cons_cons, ih, List.map_cons, sq]
  have key : ∀ dflt, Ops.norm2 b d (exactS K pow sqrt) a s dflt =
      .ok (sqrt (l.map (fun x => x ^ 2)).sum) := by
    intro dflt
    unfold Ops.norm2
    rw [Elems.empty (Shaped.elems h), hne', C52_dot_exact b h h hne, esq]
    rfl
  refine ⟨key dflt, ?_⟩
  unfold Ops.norm2Scaled
  rw [Elems.empty (Shaped.elems h), hne', key, Elems.size (Shaped.elems h)]
  show Res.ok (_ / sqrt ((l.length : Int) : K)) = _
  rw [Int.cast_natCast]

/-- C56: given that the power function is right for exponents that are natural numbers,
`norm_lp(A, p)` is `(sum |x|^p)^(1/p)`, and `norm_lp_scaled` that divided by `n^(1/p)`. -/
theorem C56_norm_lp (b : Build) (hpow : ∀ (x : K) (n : Nat), pow x n = x ^ n) {a : Acc σ K} {l : List K}
    (h : Elems d a s l) (hne : l ≠ []) {p : Nat} (hp : 0 < p) (dflt : K) :
    Ops.normLp b (exactS K pow sqrt) a s p dflt =
      .ok (pow (l.map (fun x => |x| ^ p)).sum (1 / p)) ∧
    Ops.normLpScaled b (exactS K pow sqrt) a s p dflt =
      .ok (pow (l.map (fun x => |x| ^ p)).sum (1 / p) / pow l.length (1 / p)) := by
  have hne' : l.isEmpty = false := by simpa using hne
  have hA := Elems.unary (Elems.unary h (f := fun x => (exactS K pow sqrt).pow x (((p : Nat) : Int) : K))
    (g := fun x => x ^ p) (fun x _ => by
      show Res.ok (pow x (((p : Nat) : Int) : K)) = _
      rw [Int.cast_natCast, hpow]))
    (f := (exactS K pow sqrt).abss) (g := fun x => |x|) (fun x _ => abss_exact x)
  have hpd : decide ((p : Int) > 0) = true := decide_eq_true (by omega)
  have key : ∀ dflt, Ops.normLp b (exactS K pow sqrt) a s p dflt =
      .ok (pow (l.map (fun x => |x| ^ p)).sum (1 / p)) := by
    intro dflt
    unfold Ops.normLp
    rw [hpd, Elems.empty h, hne']
    have hsum := (C52_exact (pow := pow) (sqrt := sqrt) hA (by simpa using hne)
      (exactS K pow sqrt).zero).1
    simp only [assertDebug_true, Res.ok_bind, Bool.false_eq_true, if_false]
    show (do
      let t ← Ops.sum (exactS K pow sqrt).toArith
        ((a.unary fun x => (exactS K pow sqrt).pow x (((p : Nat) : Int) : K)).unary
          (exactS K pow sqrt).abss) s (exactS K pow sqrt).zero
      Res.ok (pow t (1 / (((p : Nat) : Int) : K)))) = _
    rw [hsum, Res.ok_bind, Int.cast_natCast, List.map_map]
    congr 4
    funext x
    exact abs_pow x p
  refine ⟨key dflt, ?_⟩
  unfold Ops.normLpScaled
  rw [hpd, Elems.empty h, hne', key, Elems.size h]
  simp only [assertDebug_true, Res.ok_bind, Bool.false_eq_true, if_false]
  show Res.ok (_ / pow ((l.length : Int) : K) (1 / (((p : Nat) : Int) : K))) = _
  rw [Int.cast_natCast, Int.cast_natCast]

/-- C56: an exponent that is not positive is rejected by checked builds. -/
theorem C56_exponent {b : Build} (hb : b.Checked) {α : Type} (sc : Scalar α) (a : Acc σ α) {p : Int}
    (hp : p ≤ 0) (dflt : α) :
    Ops.normLp b sc a s p dflt = .trap b.kind ∧ Ops.normLpScaled b sc a s p dflt = .trap b.kind := by
  unfold Ops.normLp Ops.normLpScaled
  rw [decide_eq_false (show ¬ p > 0 by omega), assertDebug_false hb]
  exact ⟨rfl, rfl⟩

/-- C56: without elements every norm is the default. -/
theorem C56_empty (b : Build) {α : Type} (sc : Scalar α) {a : Acc σ α} (h : Elems d a s []) (dflt : α)
    {p : Int} (hp : 0 < p) :
    Ops.normInf sc a s dflt = .ok dflt ∧ Ops.norm1 sc a s dflt = .ok dflt ∧
    Ops.norm1Scaled sc a s dflt = .ok dflt ∧ Ops.norm2 b d sc a s dflt = .ok dflt ∧
    Ops.norm2Scaled b d sc a s dflt = .ok dflt ∧ Ops.normLp b sc a s p dflt = .ok dflt ∧
    Ops.normLpScaled b sc a s p dflt = .ok dflt := by
  unfold Ops.normInf Ops.norm1 Ops.norm1Scaled Ops.norm2 Ops.norm2Scaled Ops.normLp Ops.normLpScaled
  rw [Elems.empty h, decide_eq_true (show p > 0 by omega)]
  simp only [assertDebug_true, Res.ok_bind, List.isEmpty_nil, if_true, and_self]

end norms

/-! ### Cases that meet the hypotheses -/

section
open Sample

/-- `1 + 2 x + 3 x^2` at `x = 1/2`. -/
example : Ops.polynomial ⟨false, true, false⟩ (exactS ℚ (fun x _ => x) id).toArith (lit [1, 2, 3]) (1 / 2) () 0 =
    .ok (11 / 4) := by
  rw [C55_polynomial _ (Shaped.elems (lit_shaped () [1, 2, 3])) (by decide) (by simp)]
  norm_num [Finset.sum_range_succ]

example : Faithful (signedInts ⟨false, true, false⟩ .int) := faithful_signed _ rfl

example : Ops.polynomial ⟨false, true, false⟩ (signedInts ⟨false, true, false⟩ .int) (lit [1, 2, 3]) 10 () 0 =
    .ok 321 := rfl

/-- A power function that is right for natural exponents. -/
def natPow (x y : ℚ) : ℚ := x ^ y.num

theorem natPow_nat (x : ℚ) (n : Nat) : natPow x n = x ^ n := by
  unfold natPow
  rw [Rat.num_natCast, zpow_natCast]

/-- `5 * 2^3 + 7 * 3^0 + 1 * 10^2`. -/
example : Ops.gpolynomial ⟨false, true, false⟩ (exactS ℚ natPow id).toArith (exactS ℚ natPow id).pow
    (lit [5, 7, 1]) (lit [2, 3, 10]) (lit [3, 0, 2]) () 0 = .ok 147 := by
  rw [C55_gpolynomial (ps := [3, 0, 2]) _ natPow_nat (Shaped.elems (lit_shaped () [5, 7, 1]))
    (Shaped.elems (lit_shaped () [2, 3, 10])) (Shaped.elems (lit_shaped () [3, 0, 2])) rfl rfl (by simp)]
  norm_num

/-- `5 x^3 + 7 x + 1` at `x = 2`. -/
example : Ops.polynomialPowers ⟨false, true, false⟩ (exactS ℚ natPow id).toArith (exactS ℚ natPow id).pow
    (lit [5, 7, 1]) 2 (lit [3, 1, 0]) () 0 = .ok 55 := by
  rw [C55_polynomial_powers (ps := [3, 1, 0]) _ natPow_nat (Shaped.elems (lit_shaped () [5, 7, 1]))
    (Shaped.elems (lit_shaped () [3, 1, 0])) rfl (by decide) (by simp)]
  norm_num

/-- A negative power. -/
example : Ops.polynomialPowers ⟨false, true, false⟩ (exactS ℚ natPow id).toArith (exactS ℚ natPow id).pow
    (lit [5, 7, 1]) 2 (lit [3, -1, 0]) () 0 = .trap (Build.kind ⟨false, true, false⟩) :=
  ((C55_rejected (by decide) _ _ (Shaped.elems (lit_shaped () [5, 7, 1]))
    (Shaped.elems (lit_shaped () [2, 3, 10])) (Shaped.elems (lit_shaped () [3, -1, 0])) 2 0).2.2
    (by simp) ⟨-1, by simp, by decide⟩).2

example : Ops.norm1 (exactS ℚ natPow id) (lit [1 / 2, -3 / 4, 2]) () 0 = .ok (13 / 4) ∧
    Ops.norm2 ⟨false, true, false⟩ .one (exactS ℚ natPow id) (lit [1 / 2, -3 / 4, 2]) () 0 =
      .ok (77 / 16) ∧
    Ops.normLp ⟨false, true, false⟩ (exactS ℚ natPow id) (lit [1 / 2, -3 / 4, 2]) () (3 : Nat) 0 =
      .ok (natPow (547 / 64) (1 / 3)) := by
  have h := lit_shaped () [(1 / 2 : ℚ), -3 / 4, 2]
  refine ⟨?_, ?_, ?_⟩
  · rw [(C56_norm1 (Shaped.elems h) (by simp) 0).1]; norm_num [abs_div]
  · rw [(C56_norm2 _ h (by simp) 0).1]; norm_num
  · rw [(C56_norm_lp (p := 3) _ natPow_nat (Shaped.elems h) (by simp) (by decide) 0).1]
    norm_num [abs_div]

example : ∃ v, Ops.normInf (exactS ℚ natPow id) (lit [1 / 2, -3 / 4]) () 0 = .ok v ∧ v ≠ 0 := by
  obtain ⟨v, h1, _, _, h2⟩ := C56_norm_inf (pow := natPow) (sqrt := id)
    (Shaped.elems (lit_shaped () [(1 / 2 : ℚ), -3 / 4])) (by simp) 0
  exact ⟨v, h1, fun e => by have := h2.1 e (1 / 2) (by simp); norm_num at this⟩

end

end Spp.Props
