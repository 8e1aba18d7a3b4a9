import Verif.Props.IeeeFinite
import Verif.Props.Rounding

/-
C93, continued: means, norms and polynomials.  The count of the elements is converted to the element type and a mean is
divided by it, so for these the count must not be beyond the largest number: a finite sum divided by an infinite count
is zero.
-/

set_option linter.unusedSectionVars false

namespace Spp.Props

open Spp.Spec Spp.Lemmas FVal

variable {σ τ : Type} {s : σ} {t : τ} {d d' : Dim} {F : Fmt} {p : Nat} {emin : Int} {pow : ℚ → ℚ → ℚ} {sqrt : ℚ → ℚ}

theorem div_fin_finite {x y : FVal} (h : (div F x y).isFinite = true) (hy : y.isFinite = true) : x.isFinite = true := by
  rcases y with _ | u | ⟨u, n⟩
  · simp [isFinite] at hy
  · simp [isFinite] at hy
  rcases x with _ | v | ⟨v, m⟩
  · simp [isFinite] at h
  · simp [div, isFinite] at h
  · rfl

theorem val_div (hF : IsFmt p emin F) {x y : FVal} (h : (div F x y).isFinite = true) (hy : y.isFinite = true) :
    (div F x y).val = F.rn (x.val / y.val) := by
  have hx := div_fin_finite h hy
  rcases y with _ | u | ⟨u, n⟩
  · simp [isFinite] at hy
  · simp [isFinite] at hy
  rcases x with _ | v | ⟨v, m⟩
  · simp [isFinite] at hx
  · simp [isFinite] at hx
  simp only [div] at h ⊢
  split at h
  · split at h <;> simp [isFinite] at h
  · rename_i hn
    rw [if_neg hn, val_round hF h]
    congr 1
    cases u <;> cases v <;> simp [val, neg_div, div_neg]

theorem sqrt_finite {x : FVal} (h : (FVal.sqrt F x).isFinite = true) : x.isFinite = true := by
  rcases x with _ | u | ⟨u, n⟩
  · simp [FVal.sqrt, isFinite] at h
  · cases u <;> simp [FVal.sqrt, isFinite] at h
  · rfl

/-- The square root without a largest number. -/
def sqrtX (F : Fmt) (x : ℚ) : ℚ := if x = 0 then 0 else F.rn (F.sqrt x)

theorem val_sqrt (hF : IsFmt p emin F) {x : FVal} (h : (FVal.sqrt F x).isFinite = true) :
    (FVal.sqrt F x).val = sqrtX F x.val := by
  have hx := sqrt_finite h
  rcases x with _ | u | ⟨u, n⟩
  · simp [isFinite] at hx
  · simp [isFinite] at hx
  simp only [FVal.sqrt] at h ⊢
  by_cases hn : n = 0
  · subst hn
    rw [if_pos rfl]
    cases u <;> simp [val, sqrtX]
  · rw [if_neg hn] at h ⊢
    cases u
    · simp only [Bool.false_eq_true, if_false] at h ⊢
      rw [val_round hF h]
      simp [sqrtX, val, hn]
    · simp [isFinite] at h

theorem count_finite {n : Nat} (hn : F.rn n ≤ F.top) :
    F.scalar.ofIndex (n : Int) = .ok (fin false (F.rn n)) := by
  show Res.ok (FVal.round F (decide ((n : Int) < 0)) |((n : Int) : ℚ)|) = _
  have e1 : decide ((n : Int) < 0) = false := by simp
  have e2 : |((n : Int) : ℚ)| = (n : ℚ) := by
    rw [Int.cast_natCast]; exact abs_of_nonneg (Nat.cast_nonneg n)
  rw [e1, e2, FVal.round, if_neg (not_lt.2 hn)]

theorem abs_ieee {a : Acc σ FVal} {l : List FVal} (h : Elems d a s l) :
    Elems d (a.unary F.scalar.abss) s (l.map absV) :=
  Elems.unary h fun x _ => abss_ieee x

theorem val_abs_map (l : List FVal) : (l.map absV).map val = (l.map val).map abs := by
  rw [List.map_map, List.map_map]
  exact List.map_congr_left fun x _ => val_absV

theorem ifFinite_mean (hF : IsFmt p emin F) (b : Build) {a : Acc σ FVal} {a' : Acc τ ℚ} {l : List FVal}
    (h : Elems d a s l) (h' : Elems d' a' t (l.map val)) (hne : l ≠ []) (hn : F.rn l.length ≤ F.top) (dflt : FVal)
    (dflt' : ℚ) :
    IfFinite (Ops.mean F.scalar.toArith a s dflt) l (Ops.mean (rounded F.rn pow sqrt).toArith a' t dflt') := by
  have hne1 : l.isEmpty = false := by simpa using hne
  have hne2 : (l.map val).isEmpty = false := by simpa using hne
  obtain ⟨⟨v, e1, k1⟩, -⟩ := C93_if_finite (pow := pow) (sqrt := sqrt) hF b h h' hne (fin false 0) 0
  refine ⟨div F v (fin false (F.rn l.length)), ?_, fun hf => ?_⟩
  · unfold Ops.mean
    rw [Elems.empty h, hne1, Elems.size h]
    show ((Ops.sum F.scalar.toArith a s (fin false 0)) >>= _) = _
    rw [e1]
    show (F.scalar.ofIndex (l.length : Int) >>= fun c => F.scalar.div v c) = _
    rw [count_finite hn]
    rfl
  · obtain ⟨m1, m2⟩ := k1 (div_fin_finite hf rfl)
    refine ⟨m1, ?_⟩
    unfold Ops.mean
    rw [Elems.empty h', hne2, Elems.size h', List.length_map]
    show ((Ops.sum (rounded F.rn pow sqrt).toArith a' t 0) >>= _) = _
    rw [m2]
    show Res.ok (F.rn (v.val / F.rn ((l.length : Int) : ℚ))) = _
    rw [val_div hF hf rfl, Int.cast_natCast]
    rfl

/-- C93: `mean`, `norm1` and `norm1_scaled`. -/
theorem C93_if_finite_more (hF : IsFmt p emin F) (b : Build) {a : Acc σ FVal} {a' : Acc τ ℚ} {l : List FVal}
    (h : Elems d a s l) (h' : Elems d' a' t (l.map val)) (hne : l ≠ []) (dflt : FVal) (dflt' : ℚ) :
    (F.rn l.length ≤ F.top →
      IfFinite (Ops.mean F.scalar.toArith a s dflt) l (Ops.mean (rounded F.rn pow sqrt).toArith a' t dflt') ∧
      IfFinite (Ops.norm1Scaled F.scalar.toScalar a s dflt) l
        (Ops.norm1Scaled (rounded F.rn pow sqrt).toScalar a' t dflt')) ∧
    IfFinite (Ops.norm1 F.scalar.toScalar a s dflt) l (Ops.norm1 (rounded F.rn pow sqrt).toScalar a' t dflt') := by
  have hne1 : l.isEmpty = false := by simpa using hne
  have hne2 : (l.map val).isEmpty = false := by simpa using hne
  have ha := abs_ieee (F := F) h
  have ha' : Elems d' (a'.unary (rounded F.rn pow sqrt).abss) t ((l.map absV).map val) := by
    rw [val_abs_map]
    exact abs_values h'
  have hneA : l.map absV ≠ [] := by simpa using hne
  have back : (∀ x ∈ l.map absV, x.isFinite = true) → ∀ x ∈ l, x.isFinite = true := fun k x hx => by
    rw [← absV_finite]; exact k _ (List.mem_map.2 ⟨x, hx, rfl⟩)
  refine ⟨fun hn => ⟨ifFinite_mean hF b h h' hne hn dflt dflt', ?_⟩, ?_⟩
  · obtain ⟨v, e1, k1⟩ := ifFinite_mean (pow := pow) (sqrt := sqrt) hF b ha ha' hneA (by simpa using hn) (fin false 0) 0
    refine ⟨v, ?_, fun hf => ⟨back (k1 hf).1, ?_⟩⟩
    · unfold Ops.norm1Scaled
      rw [Elems.empty h, hne1]
      exact e1
    · unfold Ops.norm1Scaled
      rw [Elems.empty h', hne2]
      exact (k1 hf).2
  · obtain ⟨⟨v, e1, k1⟩, -⟩ := C93_if_finite (pow := pow) (sqrt := sqrt) hF b ha ha' hneA (fin false 0) 0
    refine ⟨v, ?_, fun hf => ⟨back (k1 hf).1, ?_⟩⟩
    · unfold Ops.norm1
      rw [Elems.empty h, hne1]
      exact e1
    · unfold Ops.norm1
      rw [Elems.empty h', hne2]
      exact (k1 hf).2

theorem horner_finite (hF : IsFmt p emin F) {cs : List FVal} {acc x : FVal}
    (h : (cs.foldl (fun acc c => add F c (mul F acc x)) acc).isFinite = true) :
    acc.isFinite = true ∧ (∀ c ∈ cs, c.isFinite = true) ∧ (cs ≠ [] → x.isFinite = true) ∧
    (cs.foldl (fun acc c => add F c (mul F acc x)) acc).val =
      (cs.map val).foldl (fun acc c => F.rn (c + F.rn (acc * x.val))) acc.val := by
  induction cs generalizing acc with
  | nil => exact ⟨h, fun _ hc => absurd hc (by simp), fun hc => absurd rfl hc, rfl⟩
  | cons c cs ih =>
    obtain ⟨i1, i2, -, i4⟩ := ih h
    obtain ⟨j1, j2⟩ := add_finite i1
    obtain ⟨q1, q2⟩ := mul_finite j2
    refine ⟨q1, fun y hy => ?_, fun _ => q2, ?_⟩
    · rcases List.mem_cons.1 hy with rfl | hy
      · exact j1
      · exact i2 y hy
    · rw [List.foldl_cons, i4, List.map_cons, List.foldl_cons, val_add hF i1, val_mul hF j2]

/-- C93: `polynomial`; the point `x` is not used when there is one coefficient. -/
theorem C93_if_finite_polynomial (hF : IsFmt p emin F) (b b' : Build) {a : Acc σ FVal} {a' : Acc τ ℚ} {l : List FVal}
    (h : Elems .one a s l) (h' : Elems .one a' t (l.map val)) (hsmall : (l.length : Int) < 2 ^ 63 - 1) (hne : l ≠ [])
    (x dflt : FVal) (dflt' : ℚ) :
    IfFinite (Ops.polynomial b F.scalar.toArith a x s dflt) (l ++ (if l.length = 1 then [] else [x]))
      (Ops.polynomial b' (rounded F.rn pow sqrt).toArith a' x.val t dflt') := by
  have hne' : l.map val ≠ [] := by simpa using hne
  refine ⟨_, (polynomial_eq b _ h hsmall hne x dflt).trans (foldlM_pure (g := fun acc c => add F c (mul F acc x)) _ _
    fun _ _ _ => rfl), fun hf => ?_⟩
  obtain ⟨k1, k2, k3, k4⟩ := horner_finite hF hf
  refine ⟨fun y hy => ?_, ?_⟩
  · rcases List.mem_append.1 hy with hy | hy
    · rw [← List.dropLast_append_getLast hne, List.mem_append, List.mem_singleton] at hy
      rcases hy with hy | rfl
      · exact k2 y (by simpa using hy)
      · exact k1
    · by_cases h1 : l.length = 1
      · rw [if_pos h1] at hy; simp at hy
      · rw [if_neg h1, List.mem_singleton] at hy
        subst hy
        refine k3 fun e => h1 ?_
        have := congrArg List.length e
        have hpos := List.length_pos_iff.2 hne
        simp at this
        omega
  · refine (polynomial_eq b' _ h' (by simpa using hsmall) hne' x.val dflt').trans
      ((foldlM_pure (g := fun acc c => F.rn (c + F.rn (acc * x.val))) _ _ fun _ _ _ => rfl).trans ?_)
    rw [k4, List.getLast_map, ← List.map_dropLast, List.map_reverse]

/-- C93: `norm2` and `norm2_scaled`, with the square root of a number rounded as for other operations. -/
theorem C93_if_finite_norm2 (hF : IsFmt p emin F) (b : Build) {a : Acc σ FVal} {a' : Acc τ ℚ} {sh sh' : Nat × Nat}
    {l : List FVal} (h : Shaped d a s sh l) (h' : Shaped d' a' t sh' (l.map val)) (hne : l ≠ []) (dflt : FVal)
    (dflt' : ℚ) :
    IfFinite (Ops.norm2 b d F.scalar.toScalar a s dflt) l
      (Ops.norm2 b d' (rounded F.rn pow (sqrtX F)).toScalar a' t dflt') ∧
    (F.rn l.length ≤ F.top → F.rn (F.sqrt (F.rn l.length)) ≤ F.top →
      IfFinite (Ops.norm2Scaled b d F.scalar.toScalar a s dflt) l
        (Ops.norm2Scaled b d' (rounded F.rn pow (sqrtX F)).toScalar a' t dflt')) := by
  have hne1 : l.isEmpty = false := by simpa using hne
  have hne2 : (l.map val).isEmpty = false := by simpa using hne
  have key : ∀ (dflt : FVal) (dflt' : ℚ), IfFinite (Ops.norm2 b d F.scalar.toScalar a s dflt) l
      (Ops.norm2 b d' (rounded F.rn pow (sqrtX F)).toScalar a' t dflt') := by
    intro dflt dflt'
    obtain ⟨⟨v, e1, k1⟩, -⟩ := C93_if_finite_dot (pow := pow) (sqrt := sqrtX F) hF b h h h' h' hne (fin false 0) 0
    refine ⟨FVal.sqrt F v, ?_, fun hf => ?_⟩
    · unfold Ops.norm2
      rw [Elems.empty (Shaped.elems h), hne1]
      show ((Ops.dotProd b d F.scalar.toArith a a s (fin false 0)) >>= _) = _
      rw [e1]
      rfl
    · obtain ⟨m1, m2⟩ := k1 (sqrt_finite hf)
      refine ⟨fun x hx => m1 x (List.mem_append_left _ hx), ?_⟩
      unfold Ops.norm2
      rw [Elems.empty (Shaped.elems h'), hne2]
      show ((Ops.dotProd b d' (rounded F.rn pow (sqrtX F)).toArith a' a' t 0) >>= _) = _
      rw [m2, val_sqrt hF hf]
      rfl
  refine ⟨key dflt dflt', fun hn hq => ?_⟩
  obtain ⟨v, e1, k1⟩ := key (fin false 0) 0
  have hfin : (FVal.sqrt F (fin false (F.rn l.length))).isFinite = true := by
    simp only [FVal.sqrt]
    split
    · rfl
    · rw [if_neg (by simp), FVal.round, if_neg (not_lt.2 hq)]
      rfl
  refine ⟨div F v (FVal.sqrt F (fin false (F.rn l.length))), ?_, fun hf => ?_⟩
  · unfold Ops.norm2Scaled
    rw [Elems.empty (Shaped.elems h), hne1, Elems.size (Shaped.elems h)]
    show ((Ops.norm2 b d F.scalar.toScalar a s (fin false 0)) >>= _) = _
    rw [e1]
    show (F.scalar.ofIndex (l.length : Int) >>= fun c => F.scalar.sqrt c >>= fun q => F.scalar.div v q) = _
    rw [count_finite hn]
    rfl
  · obtain ⟨m1, m2⟩ := k1 (div_fin_finite hf hfin)
    refine ⟨m1, ?_⟩
    unfold Ops.norm2Scaled
    rw [Elems.empty (Shaped.elems h'), hne2, Elems.size (Shaped.elems h'), List.length_map]
    show ((Ops.norm2 b d' (rounded F.rn pow (sqrtX F)).toScalar a' t 0) >>= _) = _
    rw [m2]
    show Res.ok (F.rn (v.val / sqrtX F (F.rn ((l.length : Int) : ℚ)))) = _
    rw [val_div hF hf hfin, val_sqrt hF hfin, Int.cast_natCast]
    rfl

/-- C93: the bound on rounding errors of C102 holds for `norm1` whenever its result is finite. -/
theorem C93_norm1_bound (hp : 2 ≤ p) (hF : IsFmt p emin F) (b : Build) {a : Acc σ FVal} {l : List FVal}
    (h : Elems d a s l) (hh : ∀ x ∈ l, Held p emin F x) (hne : l ≠ []) (dflt : FVal) :
    ∃ v, Ops.norm1 F.scalar.toScalar a s dflt = .ok v ∧ (v.isFinite = true →
      |v.val - ((l.map val).map abs).sum| ≤ ((1 + unit p) ^ (l.length - 1) - 1) * ((l.map val).map abs).sum) := by
  have hs := Shaped.elems (Sample.lit_shaped () (l.map val))
  have hne' : l.map val ≠ [] := by simpa using hne
  obtain ⟨-, v, e, k⟩ := C93_if_finite_more (pow := fun x _ => x) (sqrt := id) hF b h hs hne dflt 0
  refine ⟨v, e, fun hf => ?_⟩
  obtain ⟨w, g1, g2⟩ := C102_norm1 (pow := fun x _ => x) (sqrt := id) hp hF.near hs (held_rep hh) hne' 0
  rw [(k hf).2] at g1
  cases g1
  rwa [List.length_map] at g2

/-! ### Concrete cases -/

open Sample

-- the largest number is 2: the mean and the norms of 1, -1 and the value of 1 - x at 1
example : ∃ F, IsFmt 24 (-149) F ∧
    IfFinite (Ops.mean F.scalar.toArith (lit [fin false 1, fin true 1]) () (fin false 0)) [fin false 1, fin true 1]
      (Ops.mean (rounded F.rn (fun x _ => x) id).toArith (lit [1, -1]) () 0) ∧
    IfFinite (Ops.norm2 ⟨false, true, false⟩ .one F.scalar.toScalar (lit [fin false 1, fin true 1]) () (fin false 0))
      [fin false 1, fin true 1]
      (Ops.norm2 ⟨false, true, false⟩ .one (rounded F.rn (fun x _ => x) (sqrtX F)).toScalar (lit [1, -1]) () 0) ∧
    IfFinite (Ops.polynomial ⟨false, true, false⟩ F.scalar.toArith (lit [fin false 1, fin true 1]) (fin false 1) ()
      (fin false 0)) [fin false 1, fin true 1, fin false 1]
      (Ops.polynomial ⟨false, true, false⟩ (rounded F.rn (fun x _ => x) id).toArith (lit [1, -1]) 1 () 0) ∧
    ∃ v, Ops.norm1 F.scalar.toScalar (lit [fin false 1, fin true 1]) () (fin false 0) = .ok v ∧ (v.isFinite = true →
      |v.val - 2| ≤ unit 24 * 2) := by
  obtain ⟨F, hF, ht⟩ := exists_fmt (p := 24) (emin := -149) (by norm_num) (by norm_num)
  have r2 : F.rn 2 = 2 := rn_rep hF.near ⟨2, 0, by norm_num, by norm_num, by norm_num⟩
  have hs := lit_shaped () [fin false 1, fin true 1]
  have hs' : Shaped .one (lit [(1 : ℚ), -1]) () _ ([fin false 1, fin true 1].map val) := lit_shaped () [(1 : ℚ), -1]
  refine ⟨F, hF, ?_, ?_, ?_, ?_⟩
  · exact ((C93_if_finite_more hF ⟨false, true, false⟩ (Shaped.elems hs) (Shaped.elems hs') (by simp) _ _).1
      (by norm_num [r2, ht])).1
  · exact (C93_if_finite_norm2 hF ⟨false, true, false⟩ hs hs' (by simp) _ _).1
  · exact C93_if_finite_polynomial hF _ _ (Shaped.elems hs) (Shaped.elems hs') (by norm_num) (by simp) (fin false 1) _ _
  · obtain ⟨v, h1, h2⟩ := C93_norm1_bound (by norm_num) hF ⟨false, true, false⟩ (Shaped.elems hs)
      (by simp [one_held hF]) (by simp) (fin false 0)
    refine ⟨v, h1, fun hf => ?_⟩
    have := h2 hf
    norm_num [val] at this ⊢
    exact this

-- the count of the elements matters: with the largest number 2, the sum of 1, -1, 1 is 1 and their mean is 0
example : ∃ F, IsFmt 24 (-149) F ∧
    Ops.sum F.scalar.toArith (lit [fin false 1, fin true 1, fin false 1]) () (fin false 0) = .ok (fin false 1) ∧
    Ops.mean F.scalar.toArith (lit [fin false 1, fin true 1, fin false 1]) () (fin false 0) = .ok (fin false 0) := by
  obtain ⟨F, hF, ht⟩ := exists_fmt (p := 24) (emin := -149) (by norm_num) (by norm_num)
  have r1 : F.rn 1 = 1 := rn_rep hF.near ⟨1, 0, by norm_num, by norm_num, by norm_num⟩
  have r3 : F.rn 3 = 3 := rn_rep hF.near ⟨3, 0, by norm_num, by norm_num, by norm_num⟩
  have hs := Shaped.elems (lit_shaped () [fin false 1, fin true 1, fin false 1])
  have hv : ∀ z, Ops.sum F.scalar.toArith (lit [fin false 1, fin true 1, fin false 1]) () z = .ok (fin false 1) := by
    intro z
    rw [sum_ieee hs]
    norm_num [total, FVal.add, FVal.round, val, r1, ht]
  refine ⟨F, hF, hv _, ?_⟩
  unfold Ops.mean
  rw [Elems.empty hs, Elems.size hs]
  show ((Ops.sum F.scalar.toArith (lit [fin false 1, fin true 1, fin false 1]) () (fin false 0)) >>= fun t =>
    F.scalar.ofIndex 3 >>= fun c => F.scalar.div t c) = _
  rw [hv]
  show (F.scalar.ofIndex 3 >>= fun c => F.scalar.div (fin false 1) c) = _
  have e : F.scalar.ofIndex 3 = .ok (inf false) := by
    show Res.ok (FVal.round F (decide ((3 : Int) < 0)) |((3 : Int) : ℚ)|) = _
    norm_num [FVal.round, r3, ht]
  rw [e]
  rfl


end Spp.Props
