import Verif.Props.Ieee
import Verif.Props.Stable
import Verif.Props.Select
import Verif.Props.ErrorTools

/-
C92: NaN and infinities in operations on arrays.  C93: finite results are not affected by overflow.
-/

set_option linter.unusedSectionVars false

namespace Spp.Props

open Spp.Spec Spp.Lemmas Spp.ErrorTools FVal

variable {σ : Type} {s : σ} {d : Dim} {F : Fmt} {p : Nat} {emin : Int}

/-! ### What the operations compute -/

theorem sum_ieee {a : Acc σ FVal} {x : FVal} {xs : List FVal} (h : Elems d a s (x :: xs)) (dflt : FVal) :
    Ops.sum F.scalar.toArith a s dflt = .ok (total F x xs) := by
  rw [((C52_left_to_right h F.scalar.toArith dflt).2 x xs rfl).1, ← total_foldl]
  exact foldlM_pure xs x fun _ _ _ => rfl

theorem prod_ieee {a : Acc σ FVal} {x : FVal} {xs : List FVal} (h : Elems d a s (x :: xs)) (dflt : FVal) :
    Ops.prod F.scalar.toArith a s dflt = .ok (xs.foldl (mul F) x) := by
  rw [((C52_left_to_right h F.scalar.toArith dflt).2 x xs rfl).2]
  exact foldlM_pure xs x fun _ _ _ => rfl

theorem mean_ieee {a : Acc σ FVal} {x : FVal} {xs : List FVal} (h : Elems d a s (x :: xs)) (dflt : FVal) :
    Ops.mean F.scalar.toArith a s dflt =
      .ok (FVal.div F (total F x xs) (FVal.round F false ((xs.length + 1 : Nat) : ℚ))) := by
  unfold Ops.mean
  rw [Elems.empty h, Elems.size h]
  simp only [Res.ok_bind, List.isEmpty_cons, Bool.false_eq_true, if_false]
  rw [sum_ieee h, Res.ok_bind]
  show Res.ok (FVal.div F _ (FVal.round F (decide (((List.length (x :: xs) : Nat) : Int) < 0))
    |((((List.length (x :: xs) : Nat) : Int)) : ℚ)|)) = _
  rw [decide_eq_false (by omega), List.length_cons, Int.cast_natCast, abs_of_nonneg (by positivity)]

theorem stableSum_ieee {a : Acc σ FVal} {l : List FVal} (h : Elems d a s l) (hne : l ≠ []) (dflt : FVal) :
    Stable.sum F.scalar a s dflt =
      .ok (add F (l.foldl (fun sc x => stepV F x sc) (fin false 0, fin false 0)).1
        (l.foldl (fun sc x => stepV F x sc) (fin false 0, fin false 0)).2) := by
  rw [stableSum_eq _ h hne]
  show (l.foldlM (fun sc x => Stable.sumStep F.scalar x sc) (fin false 0, fin false 0) >>= _) = _
  rw [sumFold_ieee, Res.ok_bind]
  rfl

theorem abs_elems {a : Acc σ FVal} {l : List FVal} (h : Elems d a s l) :
    Elems d (a.unary F.scalar.abss) s (l.map absV) :=
  Elems.unary h (fun x _ => abss_ieee x)

theorem nan_map_abs {l : List FVal} (h : nan ∈ l) : nan ∈ l.map absV := by
  rw [List.mem_map]; exact ⟨nan, h, rfl⟩

theorem stableSum_spoilt {a : Acc σ FVal} {l : List FVal} (h : Elems d a s l)
    (hn : (total F (fin false 0) l).isFinite = false) (dflt : FVal) :
    Stable.sum F.scalar a s dflt = .ok nan := by
  have hne : l ≠ [] := by rintro rfl; exact absurd hn (by simp [total, isFinite])
  rw [stableSum_ieee h hne]
  rcases fold_spoilt (F := F) l (sc := (fin false 0, fin false 0)) (Or.inl rfl) with hs | hs
  · rw [fold_first, hn] at hs; exact absurd hs (by decide)
  · rw [hs]

theorem total_not_finite {l : List FVal} (h : ∃ x ∈ l, x.isFinite = false) (acc : FVal) :
    (total F acc l).isFinite = false := by
  by_contra hc
  obtain ⟨x, hx, hn⟩ := h
  rw [(total_finite (by simpa using hc)).2 x hx] at hn
  exact absurd hn (by decide)

/-! ### NaN -/

/-- C92: NaN among the elements makes every sum, product, mean and 1-norm NaN, plain or compensated. -/
theorem C92_nan {a : Acc σ FVal} {l : List FVal} (h : Elems d a s l) (hn : nan ∈ l) (dflt : FVal) :
    Ops.sum F.scalar.toArith a s dflt = .ok nan ∧ Ops.prod F.scalar.toArith a s dflt = .ok nan ∧
    Ops.mean F.scalar.toArith a s dflt = .ok nan ∧ Ops.norm1 F.scalar.toScalar a s dflt = .ok nan ∧
    Ops.norm1Scaled F.scalar.toScalar a s dflt = .ok nan ∧
    Stable.sum F.scalar a s dflt = .ok nan ∧ Stable.mean F.scalar a s dflt = .ok nan ∧
    Stable.norm1 F.scalar a s dflt = .ok nan ∧ Stable.norm1Scaled F.scalar a s dflt = .ok nan := by
  have hne' : l.isEmpty = false := by
    cases l with
    | nil => simp at hn
    | cons => rfl
  have key : ∀ {a : Acc σ FVal} {l : List FVal}, Elems d a s l → nan ∈ l → ∀ dflt,
      Ops.sum F.scalar.toArith a s dflt = .ok nan ∧ Ops.prod F.scalar.toArith a s dflt = .ok nan ∧
      Ops.mean F.scalar.toArith a s dflt = .ok nan ∧ Stable.sum F.scalar a s dflt = .ok nan := by
    intro a l h hn dflt
    cases l with
    | nil => simp at hn
    | cons x xs =>
      have ht : total F x xs = nan := by
        rcases List.mem_cons.1 hn with rfl | hn
        · exact total_nan_acc xs
        · exact total_nan hn x
      refine ⟨by rw [sum_ieee h, ht], ?_, by rw [mean_ieee h, ht, div_nan_left], ?_⟩
      · rw [prod_ieee h, foldl_mul_nan]
        rcases List.mem_cons.1 hn with hn | hn
        · exact Or.inl hn.symm
        · exact Or.inr hn
      · exact stableSum_spoilt h (total_not_finite ⟨nan, hn, rfl⟩ _) dflt
  obtain ⟨k1, k2, k3, k4⟩ := key h hn dflt
  obtain ⟨m1, m2, m3, m4⟩ := key (abs_elems (F := F) h) (nan_map_abs hn) (fin false 0)
  have n1 : ∀ dflt, Stable.norm1 F.scalar a s dflt = .ok nan := by
    intro dflt
    unfold Stable.norm1
    rw [Elems.empty h, hne']
    exact m4
  refine ⟨k1, k2, k3, ?_, ?_, k4, ?_, n1 dflt, ?_⟩
  · unfold Ops.norm1
    rw [Elems.empty h, hne']
    exact m1
  · unfold Ops.norm1Scaled
    rw [Elems.empty h, hne']
    exact m3
  · unfold Stable.mean
    rw [Elems.empty h, hne', (key h hn _).2.2.2, Elems.size h]
    show Res.ok (FVal.div F nan _) = _
    rw [div_nan_left]
  · unfold Stable.norm1Scaled
    rw [Elems.empty h, hne', n1, Elems.size h]
    show Res.ok (FVal.div F nan _) = _
    rw [div_nan_left]

theorem dot_ieee (b : Build) {a1 a2 : Acc σ FVal} {sh : Nat × Nat} {x y : FVal} {xs ys : List FVal}
    (h1 : Shaped d a1 s sh (x :: xs)) (h2 : Shaped d a2 s sh (y :: ys)) (dflt : FVal) :
    Ops.dotProd b d F.scalar.toArith a1 a2 s dflt =
      .ok (total F (mul F x y) ((List.zip xs ys).map fun q => mul F q.1 q.2)) := by
  rw [(C52_dot b h1 h2 F.scalar.toArith (mul := mul F) (fun _ _ => rfl) dflt).2 _ _ List.zipWith_cons_cons,
    ← total_foldl, zipWith_map]
  exact foldlM_pure _ _ fun _ _ _ => rfl

theorem stableDot_ieee (b : Build) {a1 a2 : Acc σ FVal} {sh : Nat × Nat} {x y : FVal} {xs ys : List FVal}
    (h1 : Shaped d a1 s sh (x :: xs)) (h2 : Shaped d a2 s sh (y :: ys)) (dflt : FVal) :
    Stable.dotProd b d F.scalar a1 a2 s dflt =
      .ok (add F ((List.zip xs ys).foldl (dotStepV F) (twoProdsV F (x, y))).1
        ((List.zip xs ys).foldl (dotStepV F) (twoProdsV F (x, y))).2) := by
  rw [stableDot_eq b _ h1 h2, twoProds_ieee, Res.ok_bind, dotFold_ieee, Res.ok_bind]
  rfl

/-- C92: when the inner product is not finite, the compensated inner product is NaN. -/
theorem stableDot_spoilt (b : Build) {a1 a2 : Acc σ FVal} {sh : Nat × Nat} {l1 l2 : List FVal}
    (h1 : Shaped d a1 s sh l1) (h2 : Shaped d a2 s sh l2) {v dflt dflt' : FVal} (hne : l1 ≠ [])
    (hv : Ops.dotProd b d F.scalar.toArith a1 a2 s dflt = .ok v) (hn : v.isFinite = false) :
    Stable.dotProd b d F.scalar a1 a2 s dflt' = .ok nan := by
  have hl : l1.length = l2.length := (Shaped.len h1).trans (Shaped.len h2).symm
  cases l1 with
  | nil => exact absurd rfl hne
  | cons x xs => cases l2 with
    | nil => simp at hl
    | cons y ys =>
      rw [dot_ieee b h1 h2] at hv
      cases hv
      rw [stableDot_ieee b h1 h2]
      rcases dotFold_spoilt (F := F) (List.zip xs ys) (twoProds_spoilt (x, y)) with hs | hs
      · rw [dotFold_first] at hs
        rw [show total F (twoProdsV F (x, y)).1 _ = _ from rfl] at hs
        unfold twoProdsV at hs
        simp only at hs
        rw [hn] at hs
        exact absurd hs (by decide)
      · rw [hs]

theorem zip_member {l1 l2 : List FVal} (hl : l1.length = l2.length) {P : FVal → Prop}
    (h : (∃ x ∈ l1, P x) ∨ ∃ x ∈ l2, P x) : ∃ q ∈ List.zip l1 l2, P q.1 ∨ P q.2 := by
  rcases h with ⟨x, hx, h⟩ | ⟨x, hx, h⟩
  · obtain ⟨i, hi, rfl⟩ := List.mem_iff_getElem.1 hx
    have h' : i < (List.zip l1 l2).length := by rw [List.length_zip]; omega
    exact ⟨(List.zip l1 l2)[i], List.getElem_mem h', Or.inl (by rw [List.getElem_zip]; exact h)⟩
  · obtain ⟨i, hi, rfl⟩ := List.mem_iff_getElem.1 hx
    have h' : i < (List.zip l1 l2).length := by rw [List.length_zip]; omega
    exact ⟨(List.zip l1 l2)[i], List.getElem_mem h', Or.inr (by rw [List.getElem_zip]; exact h)⟩

/-- C92: NaN in one of two arrays makes the inner product NaN, plain or compensated; NaN in an array makes its
2-norm NaN. -/
theorem C92_nan_dot (b : Build) {a1 a2 : Acc σ FVal} {sh : Nat × Nat} {l1 l2 : List FVal}
    (h1 : Shaped d a1 s sh l1) (h2 : Shaped d a2 s sh l2) (dflt : FVal) :
    ((nan ∈ l1 ∨ nan ∈ l2) → Ops.dotProd b d F.scalar.toArith a1 a2 s dflt = .ok nan ∧
      Stable.dotProd b d F.scalar a1 a2 s dflt = .ok nan) ∧
    (nan ∈ l1 → Ops.norm2 b d F.scalar.toScalar a1 s dflt = .ok nan ∧
      Ops.norm2Scaled b d F.scalar.toScalar a1 s dflt = .ok nan ∧
      Stable.norm2 b d F.scalar a1 s dflt = .ok nan ∧ Stable.norm2Scaled b d F.scalar a1 s dflt = .ok nan) := by
  have key : ∀ {a1 a2 : Acc σ FVal} {l1 l2 : List FVal}, Shaped d a1 s sh l1 → Shaped d a2 s sh l2 →
      (nan ∈ l1 ∨ nan ∈ l2) → ∀ dflt, Ops.dotProd b d F.scalar.toArith a1 a2 s dflt = .ok nan ∧
      Stable.dotProd b d F.scalar a1 a2 s dflt = .ok nan := by
    intro a1 a2 l1 l2 h1 h2 hn dflt
    have hl : l1.length = l2.length := (Shaped.len h1).trans (Shaped.len h2).symm
    have hd : Ops.dotProd b d F.scalar.toArith a1 a2 s dflt = .ok nan := by
      cases l1 with
      | nil => cases l2 with
        | nil => simp at hn
        | cons => simp at hl
      | cons x xs => cases l2 with
        | nil => simp at hl
        | cons y ys =>
          rw [dot_ieee b h1 h2]
          have hl' : xs.length = ys.length := by simpa using hl
          have hz : (x = nan ∨ y = nan) ∨ (nan ∈ xs ∨ nan ∈ ys) := by
            rcases hn with hn | hn
            · rcases List.mem_cons.1 hn with hn | hn
              · exact Or.inl (Or.inl hn.symm)
              · exact Or.inr (Or.inl hn)
            · rcases List.mem_cons.1 hn with hn | hn
              · exact Or.inl (Or.inr hn.symm)
              · exact Or.inr (Or.inr hn)
          rcases hz with hz | hz
          · have : mul F x y = nan := by rcases hz with rfl | rfl <;> simp
            rw [this, total_nan_acc]
          · obtain ⟨q, hq, hp⟩ := zip_member hl' (P := fun x => x = nan) (by
              rcases hz with hz | hz
              · exact Or.inl ⟨nan, hz, rfl⟩
              · exact Or.inr ⟨nan, hz, rfl⟩)
            rw [total_nan]
            rw [List.mem_map]
            refine ⟨q, hq, ?_⟩
            rcases hp with hp | hp <;> rw [hp] <;> simp
    refine ⟨hd, stableDot_spoilt b h1 h2 ?_ hd rfl⟩
    rintro rfl
    rcases hn with hn | hn
    · simp at hn
    · rw [List.length_nil] at hl
      rw [List.length_eq_zero_iff.1 hl.symm] at hn
      simp at hn
  refine ⟨fun hn => key h1 h2 hn dflt, fun hn => ?_⟩
  have hne' : l1.isEmpty = false := by
    cases l1 with
    | nil => simp at hn
    | cons => rfl
  have e := Shaped.elems h1
  obtain ⟨k1, k2⟩ := key h1 h1 (Or.inl hn) (fin false 0)
  have n1 : ∀ dflt, Ops.norm2 b d F.scalar.toScalar a1 s dflt = .ok nan := by
    intro dflt
    unfold Ops.norm2
    rw [Elems.empty e, hne']
    show (Ops.dotProd b d F.scalar.toArith a1 a1 s (fin false 0) >>= fun t => Res.ok (FVal.sqrt F t)) = _
    rw [k1]; rfl
  have n2 : ∀ dflt, Stable.norm2 b d F.scalar a1 s dflt = .ok nan := by
    intro dflt
    unfold Stable.norm2
    rw [Elems.empty e, hne']
    show (Stable.dotProd b d F.scalar a1 a1 s (fin false 0) >>= fun t => Res.ok (FVal.sqrt F t)) = _
    rw [k2]; rfl
  refine ⟨n1 dflt, ?_, n2 dflt, ?_⟩
  · unfold Ops.norm2Scaled
    rw [Elems.empty e, hne', n1, Elems.size e]
    show Res.ok (FVal.div F nan _) = _
    rw [div_nan_left]
  · unfold Stable.norm2Scaled
    rw [Elems.empty e, hne', n2, Elems.size e]
    show Res.ok (FVal.div F nan _) = _
    rw [div_nan_left]

/-! ### Extrema pass over NaN -/

theorem foldl_extreme {better : FVal → FVal → Bool} (hn : ∀ x, better nan x = false ∧ better x nan = false)
    (ht : ∀ x y z, better x y = true → better z y = false → y ≠ nan → z ≠ nan → better x z = true)
    (hi : ∀ x, better x x = false) (htr : ∀ x y z, better x y = true → better y z = true → better x z = true)
    (xs : List FVal) (x : FVal) :
    (x = nan → xs.foldl (fun acc y => if better y acc then y else acc) x = nan) ∧
    (x ≠ nan →
      xs.foldl (fun acc y => if better y acc then y else acc) x ∈ x :: xs ∧
      xs.foldl (fun acc y => if better y acc then y else acc) x ≠ nan ∧
      ∀ y ∈ x :: xs, better y (xs.foldl (fun acc y => if better y acc then y else acc) x) = false) := by
  induction xs generalizing x with
  | nil =>
    refine ⟨fun h => h, fun h => ⟨List.mem_cons_self .., h, ?_⟩⟩
    intro y hy
    rw [List.mem_singleton.1 hy]
    exact hi x
  | cons z zs ih =>
    constructor
    · rintro rfl
      rw [List.foldl_cons, (hn z).2]
      exact (ih nan).1 rfl
    · intro hx
      rw [List.foldl_cons]
      by_cases hb : better z x = true
      · rw [if_pos hb]
        have hz : z ≠ nan := by
          rintro rfl
          rw [(hn x).1] at hb; exact absurd hb (by decide)
        obtain ⟨i1, i2, i3⟩ := (ih z).2 hz
        refine ⟨List.mem_cons_of_mem _ i1, i2, fun y hy => ?_⟩
        rcases List.mem_cons.1 hy with rfl | hy
        · by_contra hc
          have hc' := Bool.not_eq_false _ |>.mp hc
          have h3 := htr _ _ _ hb hc'
          rw [i3 z (List.mem_cons_self ..)] at h3
          exact absurd h3 (by decide)
        · exact i3 y hy
      · rw [if_neg hb]
        obtain ⟨i1, i2, i3⟩ := (ih x).2 hx
        refine ⟨?_, i2, fun y hy => ?_⟩
        · rcases List.mem_cons.1 i1 with h | h
          · rw [h]; exact List.mem_cons_self ..
          · exact List.mem_cons_of_mem _ (List.mem_cons_of_mem _ h)
        · rcases List.mem_cons.1 hy with rfl | hy
          · exact i3 y (List.mem_cons_self ..)
          · rcases List.mem_cons.1 hy with rfl | hy
            · by_contra hc
              have hc' := Bool.not_eq_false _ |>.mp hc
              exact hb (ht _ _ _ hc' (i3 x (List.mem_cons_self ..)) i2 hx)
            · exact i3 y (List.mem_cons_of_mem _ hy)

/-- C92: `min` and `max` are NaN exactly if the first element is NaN; otherwise they are elements that are not NaN
and that no element beats: NaN elsewhere is passed over. -/
theorem C92_extrema {a : Acc σ FVal} {x : FVal} {xs : List FVal} (h : Elems d a s (x :: xs)) (dflt : FVal) :
    (x = nan → Ops.min F.scalar.toScalar a s dflt = .ok nan ∧ Ops.max F.scalar.toScalar a s dflt = .ok nan) ∧
    (x ≠ nan →
      (∃ v, Ops.min F.scalar.toScalar a s dflt = .ok v ∧ v ∈ x :: xs ∧ v ≠ nan ∧ ∀ y ∈ x :: xs, lt y v = false) ∧
      (∃ v, Ops.max F.scalar.toScalar a s dflt = .ok v ∧ v ∈ x :: xs ∧ v ≠ nan ∧ ∀ y ∈ x :: xs, lt v y = false)) := by
  have hi : ∀ x, lt x x = false := by
    intro x
    rcases x with _ | s | ⟨s, m⟩ <;> simp [lt]
  have ht : ∀ x y z, lt x y = true → lt z y = false → y ≠ nan → z ≠ nan → lt x z = true := by
    intro x y z h1 h2 h3 h4
    rcases x with _ | s | ⟨s, m⟩ <;> rcases y with _ | t | ⟨t, n⟩ <;> rcases z with _ | u | ⟨u, k⟩ <;>
      simp_all [lt]
    linarith
  have ht' : ∀ x y z, lt y x = true → lt y z = false → y ≠ nan → z ≠ nan → lt z x = true := by
    intro x y z h1 h2 h3 h4
    rcases x with _ | s | ⟨s, m⟩ <;> rcases y with _ | t | ⟨t, n⟩ <;> rcases z with _ | u | ⟨u, k⟩ <;>
      simp_all [lt]
    linarith
  have k1 := foldl_extreme (better := lt) (fun x => ⟨lt_nan_left x, lt_nan_right x⟩) ht hi
    (fun _ _ _ => lt_trans_ieee) xs x
  have k2 := foldl_extreme (better := fun y x => lt x y) (fun x => ⟨lt_nan_right x, lt_nan_left x⟩) ht' hi
    (fun _ _ _ h1 h2 => lt_trans_ieee h2 h1) xs x
  have e1 : Ops.min F.scalar.toScalar a s dflt = .ok (xs.foldl (fun acc y => if lt y acc then y else acc) x) := by
    unfold Ops.min
    rw [foldElems_eq h]
    exact foldlM_pure xs x fun _ _ _ => rfl
  have e2 : Ops.max F.scalar.toScalar a s dflt = .ok (xs.foldl (fun acc y => if lt acc y then y else acc) x) := by
    unfold Ops.max
    rw [foldElems_eq h]
    exact foldlM_pure xs x fun _ _ _ => rfl
  rw [e1, e2]
  refine ⟨fun hx => ⟨by rw [k1.1 hx], by rw [k2.1 hx]⟩, fun hx => ⟨⟨_, rfl, k1.2 hx⟩, ⟨_, rfl, k2.2 hx⟩⟩⟩

theorem absV_nan {x : FVal} : absV x = nan ↔ x = nan := by
  rcases x with _ | s | ⟨s, m⟩
  · simp [absV]
  · simp [absV]
  · simp only [absV]; split <;> simp

/-- C92: `norm_inf` is NaN exactly if the first element is NaN; otherwise it is the largest absolute value of the
elements that are not NaN. -/
theorem C92_norm_inf {a : Acc σ FVal} {x : FVal} {xs : List FVal} (h : Elems d a s (x :: xs)) (dflt : FVal) :
    (x = nan → Ops.normInf F.scalar.toScalar a s dflt = .ok nan) ∧
    (x ≠ nan → ∃ v, Ops.normInf F.scalar.toScalar a s dflt = .ok v ∧ v ≠ nan ∧
      (∃ y ∈ x :: xs, F.scalar.abss y = .ok v) ∧
      ∀ y ∈ x :: xs, ∀ w, F.scalar.abss y = .ok w → lt v w = false) := by
  have e : Ops.normInf F.scalar.toScalar a s dflt =
      Ops.max F.scalar.toScalar (a.unary F.scalar.abss) s (fin false 0) := by
    unfold Ops.normInf
    rw [Elems.empty h]
    rfl
  rw [e]
  have hm := abs_elems (F := F) h
  rw [List.map_cons] at hm
  obtain ⟨k1, k2⟩ := C92_extrema hm (F := F) (fin false 0)
  refine ⟨fun hx => (k1 (absV_nan.2 hx)).2, fun hx => ?_⟩
  obtain ⟨-, v, h1, h2, h3, h4⟩ := k2 (fun hc => hx (absV_nan.1 hc))
  rw [← List.map_cons, List.mem_map] at h2
  obtain ⟨y, hy, rfl⟩ := h2
  refine ⟨_, h1, h3, ⟨y, hy, abss_ieee y⟩, fun z hz w hw => ?_⟩
  rw [abss_ieee] at hw
  cases hw
  exact h4 _ (by rw [← List.map_cons, List.mem_map]; exact ⟨z, hz, rfl⟩)

/-- C92: `max_abs_error` is NaN exactly if the first difference is NaN: NaN elsewhere does not show. -/
theorem C92_max_abs_error (b : Build) {a1 a2 : Acc σ FVal} {sh : Nat × Nat} {x y : FVal} {xs ys : List FVal}
    (h1 : Shaped d a1 s sh (x :: xs)) (h2 : Shaped d a2 s sh (y :: ys)) (dflt : FVal) :
    ∃ v, maxAbsError b d F.scalar.toScalar a1 a2 s dflt = .ok v ∧ (v = nan ↔ sub F x y = nan) := by
  obtain ⟨g1, g2⟩ := Shaped.binary h1 h2 (f := F.scalar.sub) (g := sub F) (fun _ _ => rfl) b
  have e : maxAbsError b d F.scalar.toScalar a1 a2 s dflt =
      Ops.normInf F.scalar.toScalar (Acc.binary F.scalar.sub a1 a2) s (fin false 0) := by
    have hsame := Shaped.same h1 h2
    rw [decide_eq_true rfl] at hsame
    unfold maxAbsError
    rw [hsame, assertDebug_true, Res.ok_bind, Elems.empty (Shaped.elems h1), Res.ok_bind, if_neg (by simp), g1]
    rfl
  rw [e]
  obtain ⟨k1, k2⟩ := C92_norm_inf (Shaped.elems g2) (F := F) (fin false 0)
  by_cases hc : sub F x y = nan
  · exact ⟨nan, k1 hc, fun _ => hc, fun _ => rfl⟩
  · obtain ⟨v, h1, h2, _⟩ := k2 hc
    exact ⟨v, h1, fun h => absurd h h2, fun h => absurd h hc⟩

/-! ### Infinities -/

theorem absV_not_finite {x : FVal} (h : x.isFinite = false) : (absV x).isFinite = false := by
  rcases x with _ | s | ⟨s, m⟩ <;> simp_all [absV, isFinite]

/-- C92: an infinity among the elements makes the compensated sum, mean, 1-norm, inner product and 2-norm NaN. -/
theorem C92_infinite (b : Build) {a : Acc σ FVal} {sh : Nat × Nat} {l : List FVal} (hs : Shaped d a s sh l)
    (hi : ∃ x ∈ l, x.isFinite = false) (dflt : FVal) :
    Stable.sum F.scalar a s dflt = .ok nan ∧ Stable.mean F.scalar a s dflt = .ok nan ∧
    Stable.norm1 F.scalar a s dflt = .ok nan ∧ Stable.norm1Scaled F.scalar a s dflt = .ok nan ∧
    (∀ {a2 : Acc σ FVal} {l2 : List FVal}, Shaped d a2 s sh l2 →
      Stable.dotProd b d F.scalar a a2 s dflt = .ok nan ∧ Stable.dotProd b d F.scalar a2 a s dflt = .ok nan) ∧
    Stable.norm2 b d F.scalar a s dflt = .ok nan ∧ Stable.norm2Scaled b d F.scalar a s dflt = .ok nan := by
  have h := Shaped.elems hs
  have hne' : l.isEmpty = false := by
    cases l with
    | nil => obtain ⟨x, hx, _⟩ := hi; simp at hx
    | cons => rfl
  have k : ∀ dflt, Stable.sum F.scalar a s dflt = .ok nan := stableSum_spoilt h (total_not_finite hi _)
  have m1 : ∀ dflt, Stable.norm1 F.scalar a s dflt = .ok nan := by
    intro dflt
    unfold Stable.norm1
    rw [Elems.empty h, hne']
    refine stableSum_spoilt (abs_elems h) (total_not_finite ?_ _) _
    obtain ⟨x, hx, hn⟩ := hi
    exact ⟨absV x, List.mem_map_of_mem hx, absV_not_finite hn⟩
  have key : ∀ {a1 a2 : Acc σ FVal} {l1 l2 : List FVal}, Shaped d a1 s sh l1 → Shaped d a2 s sh l2 →
      ((∃ x ∈ l1, x.isFinite = false) ∨ ∃ x ∈ l2, x.isFinite = false) → ∀ dflt,
      Stable.dotProd b d F.scalar a1 a2 s dflt = .ok nan := by
    intro a1 a2 l1 l2 h1 h2 hi dflt
    have hl : l1.length = l2.length := (Shaped.len h1).trans (Shaped.len h2).symm
    obtain ⟨q, hq, hp⟩ := zip_member hl hi
    cases l1 with
    | nil => simp at hq
    | cons x xs => cases l2 with
      | nil => simp at hq
      | cons y ys =>
        rw [stableDot_ieee b h1 h2]
        rw [List.zip_cons_cons] at hq
        rcases List.mem_cons.1 hq with rfl | hq
        · rw [dotFold_nan (qs := List.zip xs ys) (ps := twoProdsV F (x, y)) (twoProdsV_nan hp), add_nan_right]
        · rw [dotFold_element ⟨q, hq, hp⟩, add_nan_right]
  have n2 : ∀ dflt, Stable.norm2 b d F.scalar a s dflt = .ok nan := by
    intro dflt
    unfold Stable.norm2
    rw [Elems.empty h, hne']
    show (Stable.dotProd b d F.scalar a a s (fin false 0) >>= fun t => Res.ok (FVal.sqrt F t)) = _
    rw [key hs hs (Or.inl hi)]; rfl
  refine ⟨k dflt, ?_, m1 dflt, ?_, fun h2 => ⟨key hs h2 (Or.inl hi) dflt, key h2 hs (Or.inr hi) dflt⟩, n2 dflt, ?_⟩
  · unfold Stable.mean
    rw [Elems.empty h, hne', k, Elems.size h]
    show Res.ok (FVal.div F nan _) = _
    rw [div_nan_left]
  · unfold Stable.norm1Scaled
    rw [Elems.empty h, hne', m1, Elems.size h]
    show Res.ok (FVal.div F nan _) = _
    rw [div_nan_left]
  · unfold Stable.norm2Scaled
    rw [Elems.empty h, hne', n2, Elems.size h]
    show Res.ok (FVal.div F nan _) = _
    rw [div_nan_left]

/-- Equal, or zeros of different signs. -/
def SameVal (x y : FVal) : Prop := x = y ∨ x.isFinite = true ∧ y.isFinite = true ∧ x.val = y.val

theorem SameVal.add {x y : FVal} (h : SameVal x y) (z : FVal) : SameVal (add F x z) (add F y z) := by
  rcases h with rfl | ⟨h1, h2, h3⟩
  · exact Or.inl rfl
  · rcases x with _ | s | ⟨s, m⟩ <;> simp [isFinite] at h1
    rcases y with _ | t | ⟨t, n⟩ <;> simp [isFinite] at h2
    rcases z with _ | u | ⟨u, k⟩
    · exact Or.inl rfl
    · exact Or.inl rfl
    · simp only [FVal.add]
      rw [h3]
      split
      · exact Or.inr ⟨rfl, rfl, by cases s <;> cases t <;> cases u <;> simp [val]⟩
      · exact Or.inl rfl

theorem SameVal.total {x y : FVal} (h : SameVal x y) (l : List FVal) : SameVal (total F x l) (total F y l) := by
  induction l generalizing x y with
  | nil => exact h
  | cons z l ih => exact ih (h.add z)

theorem add_zero_held (hF : IsFmt p emin F) {x : FVal} (hx : Held p emin F x) : SameVal (add F (fin false 0) x) x := by
  rcases x with _ | s | ⟨s, m⟩
  · exact Or.inl rfl
  · exact Or.inl rfl
  · obtain ⟨h0, h1, h2⟩ := hx
    simp only [FVal.add]
    have hv : val (fin false 0) + val (fin s m) = val (fin s m) := by rw [show val (fin false 0) = 0 from rfl, zero_add]
    rw [hv]
    split
    · rename_i h
      exact Or.inr ⟨rfl, rfl, by rw [h]; cases s <;> rfl⟩
    · rename_i h
      left
      have hm : m ≠ 0 := by rintro rfl; cases s <;> simp [val] at h
      have hpos : 0 < m := lt_of_le_of_ne h0 (Ne.symm hm)
      have e1 : |val (fin s m)| = m := by cases s <;> simp [val, abs_of_nonneg h0]
      have e2 : decide (val (fin s m) < 0) = s := by
        cases s
        · exact decide_eq_false (not_lt.2 h0)
        · exact decide_eq_true (by simpa [val] using hpos)
      have e3 : F.rn m = m := rn_rep hF.near h2
      rw [e1, e2]
      unfold FVal.round
      rw [e3, if_neg (by linarith)]

/-- C92: when the plain sum (inner product) of the elements is not finite, because of an infinity, NaN or overflow, then
the compensated one is NaN. -/
theorem C92_overflow (hF : IsFmt p emin F) (b : Build) {a : Acc σ FVal} {sh : Nat × Nat} {l : List FVal}
    (hs : Shaped d a s sh l) (hne : l ≠ []) (hh : ∀ x ∈ l, Held p emin F x) (dflt : FVal) :
    (∀ v, Ops.sum F.scalar.toArith a s dflt = .ok v → v.isFinite = false →
      Stable.sum F.scalar a s dflt = .ok nan) ∧
    (∀ {a2 : Acc σ FVal} {l2 : List FVal}, Shaped d a2 s sh l2 → ∀ v,
      Ops.dotProd b d F.scalar.toArith a a2 s dflt = .ok v → v.isFinite = false →
      Stable.dotProd b d F.scalar a a2 s dflt = .ok nan) := by
  refine ⟨fun v hv hn => ?_, fun h2 v hv hn => stableDot_spoilt b hs h2 hne hv hn⟩
  cases l with
  | nil => exact absurd rfl hne
  | cons x xs =>
    rw [sum_ieee (Shaped.elems hs)] at hv
    cases hv
    refine stableSum_spoilt (Shaped.elems hs) ?_ dflt
    show (total F (add F (fin false 0) x) xs).isFinite = false
    rcases (add_zero_held hF (hh x (List.mem_cons_self ..))).total (F := F) xs with e | ⟨_, e, _⟩
    · rw [e]; exact hn
    · rw [hn] at e; exact absurd e (by decide)

theorem rn_nonneg (hF : IsFmt p emin F) {x : ℚ} (h : 0 ≤ x) : 0 ≤ F.rn x := by
  exact le_rn hF.near ⟨0, emin, by simp, le_rfl, by simp⟩ h

/-- Neither NaN nor negative. -/
def Up (x : FVal) : Prop := x ≠ nan ∧ lt x (fin false 0) = false

theorem Up.add (hF : IsFmt p emin F) {x y : FVal} (hx : Up x) (hy : Up y) :
    Up (add F x y) ∧ ((x = inf false ∨ y = inf false) → FVal.add F x y = inf false) := by
  obtain ⟨x1, x2⟩ := hx
  obtain ⟨y1, y2⟩ := hy
  rcases x with _ | s | ⟨s, m⟩
  · exact absurd rfl x1
  · cases s
    · rcases y with _ | t | ⟨t, n⟩
      · exact absurd rfl y1
      · cases t
        · exact ⟨⟨by simp [FVal.add], rfl⟩, fun _ => rfl⟩
        · simp [lt] at y2
      · exact ⟨⟨by simp [FVal.add], rfl⟩, fun _ => rfl⟩
    · simp [lt] at x2
  · rcases y with _ | t | ⟨t, n⟩
    · exact absurd rfl y1
    · cases t
      · exact ⟨⟨by simp [FVal.add], rfl⟩, fun _ => rfl⟩
      · simp [lt] at y2
    · simp only [lt, decide_eq_false_iff_not, not_lt] at x2 y2
      rw [show val (fin false 0) = 0 from rfl] at x2 y2
      refine ⟨?_, fun h => by rcases h with h | h <;> cases h⟩
      simp only [FVal.add]
      split
      · refine ⟨by simp, ?_⟩
        cases s <;> cases t <;> simp [lt, val]
      · have hv : ¬ val (fin s m) + val (fin t n) < 0 := by linarith
        rw [decide_eq_false hv]
        unfold FVal.round
        split
        · exact ⟨by simp, rfl⟩
        · refine ⟨by simp, ?_⟩
          exact decide_eq_false (not_lt.2 (rn_nonneg hF (abs_nonneg _)))

theorem total_up (hF : IsFmt p emin F) {l : List FVal} {acc : FVal} (ha : Up acc) (hl : ∀ x ∈ l, Up x)
    (hi : acc = inf false ∨ inf false ∈ l) : total F acc l = inf false := by
  induction l generalizing acc with
  | nil => exact hi.resolve_right (by simp)
  | cons x l ih =>
    obtain ⟨k1, k2⟩ := ha.add hF (hl x (List.mem_cons_self ..))
    refine ih k1 (fun y hy => hl y (List.mem_cons_of_mem _ hy)) ?_
    rcases hi with hi | hi
    · exact Or.inl (k2 (Or.inl hi))
    · rcases List.mem_cons.1 hi with hi | hi
      · exact Or.inl (k2 (Or.inr hi.symm))
      · exact Or.inr hi

/-- C92: for elements that are neither NaN nor negative, one of them infinite, `sum` is infinite but `stable_sum` is
NaN. -/
theorem C92_sums_differ (hF : IsFmt p emin F) {a : Acc σ FVal} {l : List FVal} (h : Elems d a s l)
    (hl : ∀ x ∈ l, x ≠ nan ∧ lt x (fin false 0) = false) (hi : inf false ∈ l) (dflt : FVal) :
    Ops.sum F.scalar.toArith a s dflt = .ok (inf false) ∧ Stable.sum F.scalar a s dflt = .ok nan := by
  refine ⟨?_, stableSum_spoilt h (total_not_finite ⟨_, hi, rfl⟩ _) dflt⟩
  cases l with
  | nil => simp at hi
  | cons x xs =>
    rw [sum_ieee h, total_up hF (hl x (List.mem_cons_self ..)) (fun y hy => hl y (List.mem_cons_of_mem _ hy))]
    rcases List.mem_cons.1 hi with hi | hi
    · exact Or.inl hi.symm
    · exact Or.inr hi

/-! ### Tests, comparison, sorting -/

/-- C92: `has_nan`, `has_inf` and `all_finite` are exact; NaN fails every `all_*` test; an array equals itself exactly
if it contains no NaN. -/
theorem C92_tests {a : Acc σ FVal} {sh : Nat × Nat} {l : List FVal} (hs : Shaped d a s sh l) (hne : l ≠ [])
    (dflt : Bool) :
    Ops.hasSuch isNan a s dflt = .ok (decide (nan ∈ l)) ∧
    Ops.hasSuch isInf a s dflt = .ok (decide (inf true ∈ l ∨ inf false ∈ l)) ∧
    Ops.allFinite isFinite a s dflt = .ok (decide (nan ∉ l ∧ inf true ∉ l ∧ inf false ∉ l)) ∧
    (nan ∈ l →
      Ops.allZeros F.scalar.toScalar a s dflt = .ok false ∧ Ops.allPos F.scalar.toScalar a s dflt = .ok false ∧
      Ops.allNeg F.scalar.toScalar a s dflt = .ok false ∧ Ops.allNonPos F.scalar.toScalar a s dflt = .ok false ∧
      Ops.allNonNeg F.scalar.toScalar a s dflt = .ok false) ∧
    Ops.equal d (fun x y => !FVal.eq x y) a a s = .ok (decide (nan ∉ l)) ∧
    Ops.notEqual d (fun x y => !FVal.eq x y) a a s = .ok (decide (nan ∈ l)) := by
  have h := Shaped.elems hs
  have q1 := ((C54_finite h isNan dflt).2 hne).2
  have q2 := ((C54_finite h isInf dflt).2 hne).2
  have q3 := ((C54_finite h isFinite dflt).2 hne).1
  have all : ∀ t : FVal → Bool, t nan = false → nan ∈ l → Ops.allOf (fun x => .ok (t x)) a s dflt = .ok false := by
    intro t ht hn
    rw [((C54_quantifiers h (f := fun y => .ok (t y)) (p := fun y => t y = true)
      (fun y _ => by rw [Bool.decide_eq_true]) dflt).2 hne).2.1, decide_eq_false]
    intro hc
    have := hc nan hn
    rw [ht] at this
    exact absurd this (by decide)
  have eq : Ops.equal d (fun x y => !FVal.eq x y) a a s = .ok (decide (nan ∉ l)) := by
    rw [C51_equal hs hs, decide_eq_true rfl, Bool.true_and]
    congr 1
    rw [Bool.eq_iff_iff, List.all_eq_true, decide_eq_true_iff]
    have self : ∀ x, FVal.eq x x = true ↔ x ≠ nan := by
      intro x
      rcases x with _ | s | ⟨s, m⟩ <;> simp [FVal.eq]
    constructor
    · intro hc hn
      obtain ⟨i, hi, e⟩ := List.mem_iff_getElem.1 hn
      have := hc (nan, nan) (by
        rw [List.mem_iff_getElem]
        exact ⟨i, by rw [List.length_zip]; omega, by rw [List.getElem_zip, e]⟩)
      simp at this
    · intro hn q hq
      obtain ⟨i, hi, rfl⟩ := List.mem_iff_getElem.1 hq
      rw [List.getElem_zip]
      rw [List.length_zip] at hi
      simp only [Bool.not_not]
      rw [self]
      intro hc
      exact hn (hc ▸ List.getElem_mem (by omega))
  refine ⟨?_, ?_, ?_, fun hn => ?_, eq, ?_⟩
  · rw [q1]
    congr 1
    refine decide_eq_decide.2 ⟨?_, fun h => ⟨nan, h, rfl⟩⟩
    rintro ⟨x, hx, e⟩
    rcases x with _ | s | ⟨s, m⟩ <;> simp_all [isNan]
  · rw [q2]
    congr 1
    refine decide_eq_decide.2 ⟨?_, ?_⟩
    · rintro ⟨x, hx, e⟩
      rcases x with _ | s | ⟨s, m⟩
      · simp [isInf] at e
      · cases s
        · exact Or.inr hx
        · exact Or.inl hx
      · simp [isInf] at e
    · rintro (h | h) <;> exact ⟨_, h, rfl⟩
  · rw [q3]
    congr 1
    refine decide_eq_decide.2 ⟨fun hc => ⟨fun h => ?_, fun h => ?_, fun h => ?_⟩, ?_⟩
    · exact absurd (hc _ h) (by decide)
    · exact absurd (hc _ h) (by decide)
    · exact absurd (hc _ h) (by decide)
    · rintro ⟨h1, h2, h3⟩ x hx
      rcases x with _ | s | ⟨s, m⟩
      · exact absurd hx h1
      · cases s
        · exact absurd hx h3
        · exact absurd hx h2
      · rfl
  · exact ⟨all (fun x => FVal.eq x (fin false 0)) rfl hn, all (fun x => lt (fin false 0) x) rfl hn,
      all (fun x => lt x (fin false 0)) rfl hn, all (fun x => le x (fin false 0)) rfl hn,
      all (fun x => le (fin false 0) x) rfl hn⟩
  · unfold Ops.notEqual
    rw [eq]
    show Res.ok (!decide (nan ∉ l)) = _
    rw [← decide_not, decide_eq_decide.2 not_not]

theorem lt_incomp {x y z : FVal} (hx : x ≠ nan) (hy : y ≠ nan) (hz : z ≠ nan) (h1 : lt x y = false)
    (h2 : lt y z = false) : lt x z = false := by
  rcases x with _ | s | ⟨s, m⟩ <;> rcases y with _ | t | ⟨t, n⟩ <;> rcases z with _ | u | ⟨u, k⟩ <;>
    simp_all [lt]
  linarith

/-- C92: `<` is what `std::sort` demands of a comparison exactly if no element is NaN or no two elements differ: with
NaN and two different numbers nothing is promised about sorting. -/
theorem C92_sort_order (l : List FVal) :
    (StrictWeak lt l ↔ nan ∉ l ∨ ∀ x ∈ l, ∀ y ∈ l, lt x y = false) ∧
    (StrictWeak (fun x y => lt y x) l ↔ nan ∉ l ∨ ∀ x ∈ l, ∀ y ∈ l, lt x y = false) := by
  have hi : ∀ x, lt x x = false := by
    intro x
    rcases x with _ | s | ⟨s, m⟩ <;> simp [lt]
  constructor
  · constructor
    · intro h
      by_cases hn : nan ∈ l
      · right
        intro x hx y hy
        exact h.incomp x hx nan hn y hy (lt_nan_right x) (lt_nan_left x) (lt_nan_left y) (lt_nan_right y)
      · exact Or.inl hn
    · rintro (hn | ha)
      · have nn : ∀ x ∈ l, x ≠ nan := fun x hx hc => hn (hc ▸ hx)
        exact ⟨fun x _ => hi x, fun x _ y _ z _ => lt_trans_ieee,
          fun x hx y hy z hz h1 _ h3 _ => lt_incomp (nn x hx) (nn y hy) (nn z hz) h1 h3⟩
      · exact ⟨fun x _ => hi x, fun x _ y _ z _ => lt_trans_ieee, fun x hx y _ z hz _ _ _ _ => ha x hx z hz⟩
  · constructor
    · intro h
      by_cases hn : nan ∈ l
      · right
        intro x hx y hy
        exact h.incomp y hy nan hn x hx (lt_nan_left y) (lt_nan_right y) (lt_nan_right x) (lt_nan_left x)
      · exact Or.inl hn
    · rintro (hn | ha)
      · have nn : ∀ x ∈ l, x ≠ nan := fun x hx hc => hn (hc ▸ hx)
        exact ⟨fun x _ => hi x, fun x _ y _ z _ h1 h2 => lt_trans_ieee h2 h1,
          fun x hx y hy z hz h1 _ h3 _ => lt_incomp (nn z hz) (nn y hy) (nn x hx) h3 h1⟩
      · exact ⟨fun x _ => hi x, fun x _ y _ z _ h1 h2 => lt_trans_ieee h2 h1,
          fun x hx y _ z hz _ _ _ _ => ha z hz x hx⟩

/-- C92: without NaN, `sort_increasing` and `sort_decreasing` rearrange the elements so that none is followed by a
smaller (larger) one. -/
theorem C92_sort (b : Build) {srt : (FVal → FVal → Bool) → List FVal → List FVal} (hs : StdSort srt)
    {t : Store FVal} (ht : Store.Ok t) {l : Lv d} (hS : l.Sound t) (hV : l.Valid t) {cs : List Loc}
    (hp : Places l t cs) (hn : cs.Nodup) {xs : List FVal} (hx : cs.map t.read = xs.map Res.ok) (hnan : nan ∉ xs) :
    (∃ (a : Acc (Store FVal) Loc) (ys : List FVal) (t' : Store FVal), l.build b t = .ok a ∧
      Ops.sortIncreasing srt F.scalar.toScalar a t = (.ok (), t') ∧ cs.map t'.read = ys.map Res.ok ∧
      ys.Perm xs ∧ ys.Pairwise (fun x y => lt y x = false)) ∧
    (∃ (a : Acc (Store FVal) Loc) (ys : List FVal) (t' : Store FVal), l.build b t = .ok a ∧
      Ops.sortDecreasing srt F.scalar.toScalar a t = (.ok (), t') ∧ cs.map t'.read = ys.map Res.ok ∧
      ys.Perm xs ∧ ys.Pairwise (fun x y => lt x y = false)) := by
  obtain ⟨s1, s2⟩ := C92_sort_order xs
  constructor
  · obtain ⟨a, ys, t', h1, h2, -, h4, h5, h6, -⟩ := C57_sort b hs ht hS hV hp hn hx (s1.2 (Or.inl hnan))
    exact ⟨a, ys, t', h1, h2, h4, h5, h6⟩
  · obtain ⟨a, ys, t', h1, h2, -, h4, h5, h6, -⟩ := C57_sort b hs ht hS hV hp hn hx (s2.2 (Or.inl hnan))
    exact ⟨a, ys, t', h1, h2, h4, h5, h6⟩

end Spp.Props
