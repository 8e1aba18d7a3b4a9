import Verif.Model.ErrorTools
import Verif.Props.Poly
import Verif.Lemmas.Float

/-
C70: comparisons with a tolerance, absolute and relative errors.
-/

set_option linter.unusedSectionVars false

namespace Spp.Props

open Spec ErrorTools

variable {σ : Type} {d : Dim} {s : σ}

section exact

variable {K : Type} [Field K] [LinearOrder K] [IsStrictOrderedRing K] {pow : K → K → K} {sqrt : K → K}

theorem maxs_exact (x y : K) : (exactS K pow sqrt).maxs x y = Max.max x y := by
  unfold Scalar.maxs
  show (if decide (y < x) = true then x else y) = _
  by_cases h : y < x
  · rw [if_pos (decide_eq_true h), max_eq_left h.le]
  · rw [if_neg (by simpa using h), max_eq_right (not_lt.1 h)]

/-- C70: `within_tol_abs(x, y, tol)` decides whether `|x - y| <= tol`. -/
theorem C70_abs (b : Build) (x y : K) {tol : K} (ht : 0 ≤ tol) :
    withinTolAbs b (exactS K pow sqrt) x y tol = .ok (decide (|x - y| ≤ tol)) := by
  unfold withinTolAbs
  have e1 : (exactS K pow sqrt).le (exactS K pow sqrt).zero tol = true := decide_eq_true ht
  have e2 : (exactS K pow sqrt).sub x y = .ok (x - y) := rfl
  rw [e1, assertDebug_true, Res.ok_bind, e2, Res.ok_bind, abss_exact]
  rfl

/-- C70: `within_tol_rel(x, y, tol, near_zero)` decides whether `x` and `y` are both at most `near_zero` in
absolute value, or differ by at most `tol` times the larger absolute value. -/
theorem C70_rel (b : Build) (x y : K) {tol nz : K} (ht : 0 ≤ tol) (hz : 0 ≤ nz) :
    withinTolRel b (exactS K pow sqrt) x y tol nz =
      .ok (decide ((|x| ≤ nz ∧ |y| ≤ nz) ∨ |x - y| ≤ tol * Max.max |x| |y|)) := by
  unfold withinTolRel
  have e1 : (exactS K pow sqrt).le (exactS K pow sqrt).zero tol = true := decide_eq_true ht
  have e2 : (exactS K pow sqrt).le (exactS K pow sqrt).zero nz = true := decide_eq_true hz
  have e3 : (exactS K pow sqrt).sub x y = .ok (x - y) := rfl
  rw [e1, e2, assertDebug_true, Res.ok_bind, Res.ok_bind, abss_exact, Res.ok_bind, abss_exact, Res.ok_bind, e3,
    Res.ok_bind, abss_exact, Res.ok_bind, maxs_exact]
  have e4 : (exactS K pow sqrt).div |x - y| (Max.max |x| |y|) = .ok (|x - y| / Max.max |x| |y|) := rfl
  rw [e4, Res.ok_bind]
  show (if decide (Max.max |x| |y| ≤ nz) = true then Res.ok true
    else Res.ok (decide (|x - y| / Max.max |x| |y| ≤ tol))) = _
  by_cases h : Max.max |x| |y| ≤ nz
  · rw [if_pos (decide_eq_true h), decide_eq_true (Or.inl (max_le_iff.1 h))]
  · rw [if_neg (by simpa using h)]
    have hpos : 0 < Max.max |x| |y| := lt_of_le_of_lt hz (not_le.1 h)
    congr 1
    rw [decide_eq_decide, div_le_iff₀ hpos]
    constructor
    · exact fun hh => Or.inr hh
    · rintro (hh | hh)
      · exact absurd (max_le_iff.2 hh) h
      · exact hh

/-- C70: both comparisons are reflexive (for tolerances that are not negative), symmetric, and hold for all
larger tolerances when they hold for one. -/
theorem C70_laws (b : Build) (x y : K) {tol tol' nz nz' : K} (ht : 0 ≤ tol) (hz : 0 ≤ nz) (htt : tol ≤ tol')
    (hzz : nz ≤ nz') :
    withinTolAbs b (exactS K pow sqrt) x x tol = .ok true ∧
    withinTolRel b (exactS K pow sqrt) x x tol nz = .ok true ∧
    withinTolAbs b (exactS K pow sqrt) x y tol = withinTolAbs b (exactS K pow sqrt) y x tol ∧
    withinTolRel b (exactS K pow sqrt) x y tol nz = withinTolRel b (exactS K pow sqrt) y x tol nz ∧
    (withinTolAbs b (exactS K pow sqrt) x y tol = .ok true →
      withinTolAbs b (exactS K pow sqrt) x y tol' = .ok true) ∧
    (withinTolRel b (exactS K pow sqrt) x y tol nz = .ok true →
      withinTolRel b (exactS K pow sqrt) x y tol' nz' = .ok true) := by
  have hm : 0 ≤ Max.max |x| |y| := le_max_of_le_left (abs_nonneg x)
  rw [C70_abs b x x ht, C70_abs b x y ht, C70_abs b y x ht, C70_abs b x y (ht.trans htt), C70_rel b x x ht hz,
    C70_rel b x y ht hz, C70_rel b y x ht hz, C70_rel b x y (ht.trans htt) (hz.trans hzz)]
  simp only [Res.ok.injEq, decide_eq_true_iff, sub_self, abs_zero]
  refine ⟨ht, Or.inr (mul_nonneg ht (le_max_of_le_left (abs_nonneg x))), ?_, ?_, fun h => h.trans htt, ?_⟩
  · rw [abs_sub_comm]
  · congr 1; rw [abs_sub_comm, max_comm, and_comm]
  · rintro (⟨h1, h2⟩ | h)
    · exact Or.inl ⟨h1.trans hzz, h2.trans hzz⟩
    · exact Or.inr (h.trans (mul_le_mul_of_nonneg_right htt hm))

/-- C70: with zero tolerances they are equality. -/
theorem C70_zero (b : Build) (x y : K) :
    withinTolAbs b (exactS K pow sqrt) x y 0 = .ok (decide (x = y)) ∧
    withinTolRel b (exactS K pow sqrt) x y 0 0 = .ok (decide (x = y)) := by
  rw [C70_abs b x y le_rfl, C70_rel b x y le_rfl le_rfl]
  refine ⟨?_, ?_⟩
  · congr 1
    rw [decide_eq_decide, abs_nonpos_iff, sub_eq_zero]
  · congr 1
    rw [decide_eq_decide, zero_mul, abs_nonpos_iff, abs_nonpos_iff, abs_nonpos_iff, sub_eq_zero]
    constructor
    · rintro (⟨rfl, rfl⟩ | h)
      · rfl
      · exact h
    · exact Or.inr

/-- C70: the versions for arrays, slices and expressions hold exactly when all pairs of corresponding
elements satisfy them; without elements they return the default. -/
theorem C70_arrays (b : Build) {a1 a2 : Acc σ K} {sh : Nat × Nat} {l1 l2 : List K} (h1 : Shaped d a1 s sh l1)
    (h2 : Shaped d a2 s sh l2) {tol nz : K} (ht : 0 ≤ tol) (hz : 0 ≤ nz) (dflt : Bool) :
    (l1 = [] → withinTolAbsArray b d (exactS K pow sqrt) a1 a2 tol s dflt = .ok dflt ∧
      withinTolRelArray b d (exactS K pow sqrt) a1 a2 tol nz s dflt = .ok dflt) ∧
    (l1 ≠ [] →
      withinTolAbsArray b d (exactS K pow sqrt) a1 a2 tol s dflt =
        .ok (decide (∀ q ∈ List.zip l1 l2, |q.1 - q.2| ≤ tol)) ∧
      withinTolRelArray b d (exactS K pow sqrt) a1 a2 tol nz s dflt =
        .ok (decide (∀ q ∈ List.zip l1 l2, (|q.1| ≤ nz ∧ |q.2| ≤ nz) ∨
          |q.1 - q.2| ≤ tol * Max.max |q.1| |q.2|))) := by
  have hsame := Shaped.same h1 h2
  rw [decide_eq_true rfl] at hsame
  have e1 := Elems.empty (Shaped.elems h1)
  unfold withinTolAbsArray withinTolRelArray
  rw [hsame, assertDebug_true, Res.ok_bind, Res.ok_bind, e1, Res.ok_bind, Res.ok_bind]
  refine ⟨fun e => ?_, fun hne => ?_⟩
  · subst e; exact ⟨rfl, rfl⟩
  · have hne' : l1.isEmpty = false := by simpa using hne
    rw [hne', if_neg (by decide), if_neg (by decide)]
    exact ⟨((C54_pairwise b h1 h2 (p := fun x y => |x - y| ≤ tol) (fun q _ => C70_abs b q.1 q.2 ht) false).2 hne).2.1,
      ((C54_pairwise b h1 h2 (p := fun x y => (|x| ≤ nz ∧ |y| ≤ nz) ∨ |x - y| ≤ tol * Max.max |x| |y|)
        (fun q _ => C70_rel b q.1 q.2 ht hz) false).2 hne).2.1⟩

/-- C70: `abs_error` is the absolute difference; `rel_error` is the absolute difference relative to the exact
value, and none exactly when one of the two is zero. -/
theorem C70_errors (x y : K) :
    absError (exactS K pow sqrt) x y = .ok |x - y| ∧
    relError (exactS K pow sqrt) x y = .ok (if x = 0 ∨ y = 0 then none else some (|x - y| / |y|)) := by
  constructor
  · exact abss_exact (x - y)
  · unfold relError
    show (if (decide (x = 0) || decide (y = 0)) = true then Res.ok none
      else (do let a ← (exactS K pow sqrt).abss ((x - y) / y); Res.ok (some a))) = _
    by_cases h : x = 0 ∨ y = 0
    · rw [if_pos (by simpa using h), if_pos h]
    · rw [if_neg (by simpa using h), if_neg h, abss_exact, abs_div]
      rfl

theorem Shaped.binary {α : Type} {a1 a2 : Acc σ α} {sh : Nat × Nat} {l1 l2 : List α}
    (h1 : Shaped d a1 s sh l1) (h2 : Shaped d a2 s sh l2) {f : α → α → Res α} {g : α → α → α}
    (hf : ∀ p ∈ List.zip l1 l2, f p.1 p.2 = .ok (g p.1 p.2)) (b : Build) :
    Tm.mkBinary b d f a1 a2 s = .ok (Acc.binary f a1 a2) ∧
    Shaped d (Acc.binary f a1 a2) s sh (List.zipWith g l1 l2) := by
  refine ⟨?_, ?_⟩
  · unfold Tm.mkBinary
    rw [Shaped.same h1 h2, decide_eq_true rfl, assertDebug_true, Res.ok_bind]
    rfl
  · obtain ⟨X, x1, x2, x3⟩ := h1
    obtain ⟨Y, y1, y2, y3⟩ := h2
    refine ⟨Sem.zip f X Y, den_binary f x1 y1 (x2.trans y2.symm), ?_, ?_⟩
    · rw [← x2]; exact zip_dims_left f (x2.trans y2.symm)
    rw [flat_zip f (x2.trans y2.symm), x3, y3]
    clear x1 y1 x2 y2 x3 y3
    induction l1 generalizing l2 with
    | nil => rfl
    | cons x xs ih => cases l2 with
      | nil => rfl
      | cons y ys =>
        simp only [List.map_cons, List.zipWith_cons_cons, Res.ok_bind]
        rw [hf (x, y) (by simp), ih (fun p hp => hf p (by simp [hp]))]

theorem zipWith_map {α β γ : Type} (g : α → β → γ) (l1 : List α) (l2 : List β) :
    List.zipWith g l1 l2 = (l1.zip l2).map (fun q => g q.1 q.2) := by
  induction l1 generalizing l2 with
  | nil => rfl
  | cons x xs ih => cases l2 with
    | nil => rfl
    | cons y ys => simp [ih]

/-- C70: `max_abs_error` is the largest `|x - y|` over all pairs of corresponding elements. -/
theorem C70_max_abs (b : Build) {a1 a2 : Acc σ K} {sh : Nat × Nat} {l1 l2 : List K} (h1 : Shaped d a1 s sh l1)
    (h2 : Shaped d a2 s sh l2) (dflt : K) :
    (l1 = [] → maxAbsError b d (exactS K pow sqrt) a1 a2 s dflt = .ok dflt) ∧
    (l1 ≠ [] → ∃ v, maxAbsError b d (exactS K pow sqrt) a1 a2 s dflt = .ok v ∧
      (∃ q ∈ List.zip l1 l2, v = |q.1 - q.2|) ∧ ∀ q ∈ List.zip l1 l2, |q.1 - q.2| ≤ v) := by
  have hsame := Shaped.same h1 h2
  rw [decide_eq_true rfl] at hsame
  have e1 := Elems.empty (Shaped.elems h1)
  have hl : l1.length = l2.length := by rw [Shaped.len h1, Shaped.len h2]
  unfold maxAbsError
  rw [hsame, assertDebug_true, Res.ok_bind, e1, Res.ok_bind]
  refine ⟨fun e => by subst e; rfl, fun hne => ?_⟩
  have hne' : l1.isEmpty = false := by simpa using hne
  obtain ⟨g1, g2⟩ := Shaped.binary h1 h2 (f := (exactS K pow sqrt).sub) (g := fun x y => x - y) (fun _ _ => rfl) b
  rw [hne', if_neg (by decide), g1, Res.ok_bind]
  obtain ⟨v, k1, ⟨x, k2, k3⟩, k4, -⟩ := C56_norm_inf (pow := pow) (sqrt := sqrt) (Shaped.elems g2) (by
    intro hc
    have := congrArg List.length hc
    rw [List.length_zipWith, List.length_nil] at this
    have : 0 < l1.length := List.length_pos_iff.2 hne
    omega) (exactS K pow sqrt).zero
  rw [zipWith_map] at k2 k4
  refine ⟨v, k1, ?_, fun q hq => k4 _ (List.mem_map_of_mem hq)⟩
  obtain ⟨q, hq, rfl⟩ := List.mem_map.1 k2
  exact ⟨q, hq, k3⟩

/-- C70: `max_rel_error` is none exactly when an element is zero, and otherwise the largest `|x - y| / |y|`
over all pairs of corresponding elements. -/
theorem C70_max_rel (b : Build) {a1 a2 : Acc σ K} {sh : Nat × Nat} {l1 l2 : List K} (h1 : Shaped d a1 s sh l1)
    (h2 : Shaped d a2 s sh l2) (dflt : K) :
    (l1 = [] → maxRelError b d (exactS K pow sqrt) a1 a2 s dflt = .ok (some dflt)) ∧
    (l1 ≠ [] → (0 ∈ l1 ∨ 0 ∈ l2) → maxRelError b d (exactS K pow sqrt) a1 a2 s dflt = .ok none) ∧
    (l1 ≠ [] → ¬ (0 ∈ l1 ∨ 0 ∈ l2) → ∃ v, maxRelError b d (exactS K pow sqrt) a1 a2 s dflt = .ok (some v) ∧
      (∃ q ∈ List.zip l1 l2, v = |q.1 - q.2| / |q.2|) ∧ ∀ q ∈ List.zip l1 l2, |q.1 - q.2| / |q.2| ≤ v) := by
  have hsame := Shaped.same h1 h2
  rw [decide_eq_true rfl] at hsame
  have e1 := Elems.empty (Shaped.elems h1)
  have hl : l1.length = l2.length := by rw [Shaped.len h1, Shaped.len h2]
  have z : l1 ≠ [] →
      (do let z1 ← Ops.hasZero (exactS K pow sqrt) a1 s false
          let z2 ← Ops.hasZero (exactS K pow sqrt) a2 s false
          pure (z1 || z2)) =
        (.ok (decide (0 ∈ l1 ∨ 0 ∈ l2)) : Res Bool) := by
    intro hne
    have hne2 : l2 ≠ [] := by
      intro hc; subst hc
      exact hne (List.length_eq_zero_iff.1 hl)
    have t1 := (C54_tests (ordered_exact (pow := pow) (sqrt := sqrt)) (Shaped.elems h1) hne false 0).2.2.2.1
    have t2 := (C54_tests (ordered_exact (pow := pow) (sqrt := sqrt)) (Shaped.elems h2) hne2 false 0).2.2.2.1
    rw [t1, t2, Res.ok_bind, Res.ok_bind]
    show Res.ok (decide ((0 : K) ∈ l1) || decide ((0 : K) ∈ l2)) = _
    rw [Bool.decide_or]
  have unf : l1 ≠ [] → maxRelError b d (exactS K pow sqrt) a1 a2 s dflt = (do
      let z ← (.ok (decide (0 ∈ l1 ∨ 0 ∈ l2)) : Res Bool)
      if z then pure none
      else do
        let t ← Tm.mkBinary b d (exactS K pow sqrt).sub a1 a2 s
        let q ← Tm.mkBinary b d (exactS K pow sqrt).div t a2 s
        let v ← Ops.normInf (exactS K pow sqrt) q s (exactS K pow sqrt).zero
        pure (some v)) := by
    intro hne
    have hne' : l1.isEmpty = false := by simpa using hne
    unfold maxRelError
    rw [hsame, assertDebug_true, Res.ok_bind, e1, Res.ok_bind, hne', if_neg (by decide), ← z hne]
    cases Ops.hasZero (exactS K pow sqrt) a1 s false with
    | ok z1 => cases Ops.hasZero (exactS K pow sqrt) a2 s false <;> rfl
    | trap k => rfl
    | ub => rfl
  refine ⟨fun e => ?_, fun hne h0 => ?_, fun hne h0 => ?_⟩
  · subst e
    unfold maxRelError
    rw [hsame, assertDebug_true, Res.ok_bind, e1, Res.ok_bind]
    rfl
  · rw [unf hne, decide_eq_true h0]; rfl
  · rw [unf hne, decide_eq_false h0, Res.ok_bind, if_neg (by decide)]
    obtain ⟨g1, g2⟩ := Shaped.binary h1 h2 (f := (exactS K pow sqrt).sub) (g := fun x y => x - y) (fun _ _ => rfl) b
    obtain ⟨g3, g4⟩ := Shaped.binary g2 h2 (f := (exactS K pow sqrt).div) (g := fun x y => x / y) (fun _ _ => rfl) b
    rw [g1, Res.ok_bind, g3, Res.ok_bind]
    have e : List.zipWith (fun x y => x / y) (List.zipWith (fun x y => x - y) l1 l2) l2 =
        (l1.zip l2).map (fun q => (q.1 - q.2) / q.2) := by
      clear h1 h2 hsame e1 z unf hne h0 g1 g2 g3 g4
      induction l1 generalizing l2 with
      | nil => rfl
      | cons x xs ih => cases l2 with
        | nil => rfl
        | cons y ys =>
          simp only [List.zipWith_cons_cons, List.zip_cons_cons, List.map_cons]
          rw [ih (by simpa using hl)]
    rw [e] at g4
    obtain ⟨v, k1, ⟨x, k2, k3⟩, k4, -⟩ := C56_norm_inf (pow := pow) (sqrt := sqrt) (Shaped.elems g4) (by
      intro hc
      have := congrArg List.length hc
      rw [List.length_map, List.length_zip, List.length_nil] at this
      have : 0 < l1.length := List.length_pos_iff.2 hne
      omega) (exactS K pow sqrt).zero
    rw [k1, Res.ok_bind]
    refine ⟨v, rfl, ?_, fun q hq => ?_⟩
    · obtain ⟨q, hq, rfl⟩ := List.mem_map.1 k2
      exact ⟨q, hq, by rw [k3, abs_div]⟩
    · rw [← abs_div]; exact k4 _ (List.mem_map_of_mem hq)

end exact

/-- C70: a negative tolerance traps in checked builds, and so do arrays of different shapes. -/
theorem C70_rejected {α : Type} {b : Build} (hb : b.Checked) (sc : Scalar α) (x y tol nz : α)
    {a1 a2 : Acc σ α} {sh1 sh2 : Nat × Nat} {l1 l2 : List α} (h1 : Shaped d a1 s sh1 l1)
    (h2 : Shaped d a2 s sh2 l2) (dflt : Bool) (dv : α) :
    (sc.le sc.zero tol = false → withinTolAbs b sc x y tol = .trap b.kind ∧
      withinTolRel b sc x y tol nz = .trap b.kind) ∧
    (sc.le sc.zero nz = false → withinTolRel b sc x y tol nz = .trap b.kind) ∧
    (sh1 ≠ sh2 → withinTolAbsArray b d sc a1 a2 tol s dflt = .trap b.kind ∧
      withinTolRelArray b d sc a1 a2 tol nz s dflt = .trap b.kind ∧
      maxAbsError b d sc a1 a2 s dv = .trap b.kind ∧
      maxRelError b d sc a1 a2 s dv = .trap b.kind) := by
  refine ⟨fun h => ?_, fun h => ?_, fun h => ?_⟩
  · unfold withinTolAbs withinTolRel
    rw [h, assertDebug_false hb]
    exact ⟨rfl, rfl⟩
  · unfold withinTolRel
    rw [h, assertDebug_false hb]
    cases hc : sc.le sc.zero tol with
    | true => rw [assertDebug_true]; rfl
    | false => rw [assertDebug_false hb]; rfl
  · unfold withinTolAbsArray withinTolRelArray maxAbsError maxRelError
    rw [Shaped.same h1 h2, decide_eq_false h, assertDebug_false hb]
    exact ⟨rfl, rfl, rfl, rfl⟩

/-- C70, with rounding to nearest: `within_tol_abs` accepts all `x`, `y` with `|x - y| <= tol`, and accepts
only `x`, `y` with `(1 - u) |x - y| <= tol`. -/
theorem C70_rounded (b : Build) {p : Nat} {emin : Int} {rn : ℚ → ℚ} (hp : 1 ≤ p) (hn : Nearest p emin rn)
    (pow : ℚ → ℚ → ℚ) (sqrt : ℚ → ℚ) {x y tol : ℚ} (hx : Rep p emin x) (hy : Rep p emin y)
    (ht : Rep p emin tol) (h0 : 0 ≤ tol) :
    ∃ r, withinTolAbs b (rounded rn pow sqrt).toScalar x y tol = .ok r ∧
      (|x - y| ≤ tol → r = true) ∧ (r = true → (1 - unit p) * |x - y| ≤ tol) := by
  refine ⟨decide (|rn (x - y)| ≤ tol), ?_, fun h => ?_, fun h => ?_⟩
  · unfold withinTolAbs
    have e1 : (rounded rn pow sqrt).le (rounded rn pow sqrt).zero tol = true := decide_eq_true h0
    have e2 : (rounded rn pow sqrt).sub x y = .ok (rn (x - y)) := rfl
    rw [e1, assertDebug_true, Res.ok_bind, e2, Res.ok_bind]
    have e3 : (rounded rn pow sqrt).abss (rn (x - y)) = .ok |rn (x - y)| := by
      unfold Scalar.abss
      show (if decide ((0 : ℚ) < rn (x - y)) = true then Res.ok (rn (x - y)) else Res.ok (-rn (x - y))) = _
      by_cases h : 0 < rn (x - y)
      · rw [if_pos (decide_eq_true h), abs_of_pos h]
      · rw [if_neg (by simpa using h), abs_of_nonpos (not_lt.1 h)]
    rw [e3]
    rfl
  · exact decide_eq_true (Lemmas.abs_rn_le hn ht h)
  · have h := of_decide_eq_true h
    have := Lemmas.rel_err hp hn ((Lemmas.rep_mult hx).sub (Lemmas.rep_mult hy))
    have t := abs_sub_abs_le_abs_sub (x - y) (rn (x - y))
    linarith

/-! ### Examples -/

section
open Spp.Sample

abbrev ratS : Scalar ℚ := exactS ℚ (fun x _ => x) id

example : withinTolAbs ⟨false, true, false⟩ ratS 1 (3 / 2) (1 / 2) = .ok true := by
  rw [C70_abs _ _ _ (by norm_num)]; norm_num

example : withinTolRel ⟨false, true, false⟩ ratS 1 2 (1 / 4) (1 / 100) = .ok false := by
  rw [C70_rel _ _ _ (by norm_num) (by norm_num)]; norm_num

example : withinTolAbs ⟨false, true, false⟩ ratS 1 2 (-1) = .trap .exception :=
  ((C70_rejected (d := .one) (sh1 := (0, 1)) (sh2 := (0, 1)) (by decide) ratS 1 2 (-1) 0 (lit_shaped () [])
    (lit_shaped () []) false 0).1 (by decide)).1

example : withinTolAbsArray ⟨false, true, false⟩ .one ratS (lit [1, 2, 3]) (lit [1, 2, 4]) (1 / 2) () false =
    .ok false := by
  rw [((C70_arrays _ (lit_shaped () [1, 2, 3]) (lit_shaped () [1, 2, 4]) (by norm_num) (nz := 0) le_rfl false).2
    (by simp)).1]
  norm_num

example : maxRelError ⟨false, true, false⟩ .one ratS (lit [1, 2, 3]) (lit [1, 0, 4]) () 1 = .ok none :=
  (C70_max_rel _ (lit_shaped () [1, 2, 3]) (lit_shaped () [1, 0, 4]) 1).2.1 (by simp) (by simp)

example : ∃ v, maxAbsError ⟨false, true, false⟩ .one ratS (lit [1, 2, 3]) (lit [1, 0, 4]) () 1 = .ok v ∧ 2 ≤ v := by
  obtain ⟨v, h1, -, h2⟩ := (C70_max_abs (pow := fun x _ => x) (sqrt := id) ⟨false, true, false⟩ (lit_shaped () [(1 : ℚ), 2, 3])
    (lit_shaped () [1, 0, 4]) 1).2 (by simp)
  exact ⟨v, h1, by simpa using h2 (2, 0) (by simp)⟩

example : relError ratS (1 / 2) (1 / 4) = .ok (some 1) := by
  rw [(C70_errors _ _).2]; norm_num

end

end Spp.Props
