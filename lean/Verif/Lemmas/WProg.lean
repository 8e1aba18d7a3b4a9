import Verif.Model.WProg
import Verif.Props.EProg
import Verif.Props.Ops
import Verif.Props.Poly

set_option linter.unusedSectionVars false

namespace Spp
open Spec Props

variable {α : Type} [Inhabited α]

/-! ### Numbers and conditions -/

/-- A valid expression as the operand of a function. -/
theorem built (b : Build) {s : Store α} {d : Dim} {t : Tm α d} (hF : FitsTm s t) (hV : t.Valid s) :
    ∃ a, t.build b s = .ok a ∧ Den d a s (t.meaning s) ∧ Roomy (t.meaning s) := by
  obtain ⟨hS, hR⟩ := t.modest_sound hF.1.roomy hF.2.1 hV
  obtain ⟨_, a, e, hd⟩ := t.main b hF.1.roomy.ok hS hV
  exact ⟨a, e, hd s (SameSizes.refl s), hR⟩

theorem readElem1_ok (b : Build) {s : Store α} {t : Tm α .one} {p : Pos} (hF : FitsTm s t) (hV : t.Valid s)
    (hi : InRange (t.meaning s).dims.1 (target (t.meaning s).dims.1 p)) :
    readElem1 b t p s = List.getD (t.meaning s) (target (t.meaning s).dims.1 p).toNat .ub := by
  obtain ⟨a, e, ⟨d1, d2, d3⟩, hR⟩ := built b hF hV
  have hR : (List.length (t.meaning s) : Int) < 2 ^ 62 := hR
  have d1 : a.rows s = ((t.meaning s).dims.1 : Int) := d1
  have hr := resolve_inRange (n := (t.meaning s).dims.1) (by show (List.length (t.meaning s) : Int) < _; omega) hi
  have hu : a.un s (target (t.meaning s).dims.1 p) =
      List.getD (t.meaning s) (target (t.meaning s).dims.1 p).toNat .ub := by
    have := d3 (target (t.meaning s).dims.1 p).toNat (by
      have := hi.1; have := hi.2
      show _ < (t.meaning s).dims.1
      omega)
    rwa [Int.toNat_of_nonneg hi.1] at this
  have hv : validIndex (t.meaning s).dims.1 (target (t.meaning s).dims.1 p) = true := validIndex_iff.2 hi
  unfold readElem1
  simp only [e, Res.ok_bind, d1, hr, Res.pure_eq, assertDebugM_ok, hv, assertDebug_true, hu]

theorem readElem1_rejected {b : Build} (hb : b.Checked) {s : Store α} {t : Tm α .one} {p : Pos} (hF : FitsTm s t)
    (hp : p.Modest) (hV : t.Valid s) (hi : ¬ InRange (t.meaning s).dims.1 (target (t.meaning s).dims.1 p)) :
    readElem1 b t p s = .trap b.kind := by
  obtain ⟨a, e, ⟨d1, d2, d3⟩, hR⟩ := built b hF hV
  have d1 : a.rows s = ((t.meaning s).dims.1 : Int) := d1
  have hr := resolve_ok (hp.noOverflow (n := (t.meaning s).dims.1) hR)
  have hv : validIndex (t.meaning s).dims.1 (target (t.meaning s).dims.1 p) = false := validIndex_false.2 hi
  unfold readElem1
  simp only [e, Res.ok_bind, d1, hr, Res.pure_eq, assertDebugM_ok, hv, assertDebug_false hb, Res.trap_bind]

theorem roomy_dims' {X : Sem α .two} (h : Roomy X) : (X.dims.1 : Int) < 2 ^ 62 ∧ (X.dims.2 : Int) < 2 ^ 62 := by
  obtain ⟨h1, h2⟩ : ((Mat.m X * Mat.n X : Nat) : Int) < 2 ^ 62 ∧ (Mat.m X = 0 ↔ Mat.n X = 0) := h
  show (Mat.m X : Int) < 2 ^ 62 ∧ (Mat.n X : Int) < 2 ^ 62
  by_cases h0 : Mat.m X = 0
  · rw [h0, h2.1 h0]; decide
  · have hn : Mat.n X ≠ 0 := fun h => h0 (h2.2 h)
    have k1 : Mat.m X * 1 ≤ Mat.m X * Mat.n X := Nat.mul_le_mul_left _ (by omega)
    have k2 : 1 * Mat.n X ≤ Mat.m X * Mat.n X := Nat.mul_le_mul_right _ (by omega)
    omega

theorem readElem2_ok (b : Build) {s : Store α} {t : Tm α .two} {p q : Pos} (hF : FitsTm s t) (hp : p.Modest)
    (hq : q.Modest) (hV : t.Valid s) (hi : InRange (t.meaning s).dims.1 (target (t.meaning s).dims.1 p))
    (hj : InRange (t.meaning s).dims.2 (target (t.meaning s).dims.2 q)) :
    readElem2 b t p q s = Mat.el (t.meaning s) (target (t.meaning s).dims.1 p).toNat
      (target (t.meaning s).dims.2 q).toNat := by
  obtain ⟨a, e, ⟨d1, d2, d3, d4⟩, hR⟩ := built b hF hV
  have d1 : a.rows s = ((t.meaning s).dims.1 : Int) := d1
  have d2 : a.cols s = ((t.meaning s).dims.2 : Int) := d2
  obtain ⟨r1, r2⟩ := roomy_dims' hR
  have hr := resolve_ok (hp.noOverflow r1)
  have hc := resolve_ok (hq.noOverflow r2)
  have hu := (d4 (target (t.meaning s).dims.1 p).toNat (target (t.meaning s).dims.2 q).toNat (by
      have := hi.1; have := hi.2
      show _ < (t.meaning s).dims.1
      omega) (by
      have := hj.1; have := hj.2
      show _ < (t.meaning s).dims.2
      omega)).1
  rw [Int.toNat_of_nonneg hi.1, Int.toNat_of_nonneg hj.1] at hu
  have hv : validIndex (t.meaning s).dims.1 (target (t.meaning s).dims.1 p) = true := validIndex_iff.2 hi
  have hw : validIndex (t.meaning s).dims.2 (target (t.meaning s).dims.2 q) = true := validIndex_iff.2 hj
  unfold readElem2
  simp only [e, Res.ok_bind, d1, d2, hr, hc, hv, hw, Bool.and_self, assertDebug_true, hu]

theorem readElem2_rejected {b : Build} (hb : b.Checked) {s : Store α} {t : Tm α .two} {p q : Pos} (hF : FitsTm s t)
    (hp : p.Modest) (hq : q.Modest) (hV : t.Valid s)
    (h : ¬ (InRange (t.meaning s).dims.1 (target (t.meaning s).dims.1 p) ∧
      InRange (t.meaning s).dims.2 (target (t.meaning s).dims.2 q))) : readElem2 b t p q s = .trap b.kind := by
  obtain ⟨a, e, ⟨d1, d2, d3, d4⟩, hR⟩ := built b hF hV
  have d1 : a.rows s = ((t.meaning s).dims.1 : Int) := d1
  have d2 : a.cols s = ((t.meaning s).dims.2 : Int) := d2
  obtain ⟨r1, r2⟩ := roomy_dims' hR
  have hr := resolve_ok (hp.noOverflow r1)
  have hc := resolve_ok (hq.noOverflow r2)
  have hv : (validIndex (t.meaning s).dims.1 (target (t.meaning s).dims.1 p) &&
      validIndex (t.meaning s).dims.2 (target (t.meaning s).dims.2 q)) = false := by
    rw [Bool.and_eq_false_iff, validIndex_false, validIndex_false]
    by_cases hi : InRange (t.meaning s).dims.1 (target (t.meaning s).dims.1 p)
    · exact .inr fun hj => h ⟨hi, hj⟩
    · exact .inl hi
  unfold readElem2
  simp only [e, Res.ok_bind, d1, d2, hr, hc, hv, assertDebug_false hb, Res.trap_bind]

theorem leftFold_eq {d : Dim} {a : Acc (Store α) α} {s : Store α} {xs : List α} (h : Elems d a s xs)
    (f : α → α → Res α) (dflt : α) : Ops.foldElems f a s dflt = leftFold f dflt xs := by
  rw [foldElems_eq h]
  cases xs <;> rfl

/-- A fold over elements that may be missing. -/
theorem foldElems_res {d : Dim} {a : Acc (Store α) α} {s : Store α} {X : Sem α d} (h : Den d a s X) (f : α → α → Res α)
    (dflt : α) : Ops.foldElems f a s dflt = match X.flat with
      | [] => .ok dflt
      | r :: rs => r >>= fun x => rs.foldlM (fun m r => r >>= f m) x := by
  obtain ⟨h1, h2⟩ := den_flat h
  generalize X.flat = l at h1 h2
  unfold Ops.foldElems Acc.empty
  rw [h1]
  cases l with
  | nil => rfl
  | cons r rs =>
    have e : (((r :: rs).length : Int) == 0) = false := by
      rw [beq_eq_false_iff_ne, List.length_cons]; omega
    simp only [Res.ok_bind, Res.pure_eq, e, Bool.false_eq_true, if_false]
    have e0 : a.un s 0 = r := h2 0 (by simp)
    rw [e0]
    congr 1
    funext x
    have el : ((((r :: rs).length : Nat) : Int)).toNat - 1 = rs.length := by simp
    rw [el]
    exact foldN_list (l := rs) (p := fun k => .ok (a.un s ((k + 1 : Nat) : Int))) (fun i hi => by
      congr 1
      rw [h2 (i + 1) (by simpa using hi)]
      simp [hi]) (fun m r => r >>= f m) x

theorem norm_fold {d : Dim} {a : Acc (Store α) α} {s : Store α} {xs : List α} (h : Elems d a s xs) (g : α → Res α)
    (f : α → α → Res α) (dflt x : α) :
    (a.empty s >>= fun e => if e then .ok dflt else Ops.foldElems f (a.unary g) s x) = leftFoldOf g f dflt xs := by
  rw [Elems.empty h]
  obtain ⟨X, hd, hx⟩ := h
  have := foldElems_res (den_unary g hd) f x
  rw [flat_map, hx, List.map_map] at this
  cases xs with
  | nil => rfl
  | cons y ys =>
    show Ops.foldElems f (a.unary g) s x = _
    rw [this]
    show (g y >>= fun v => (ys.map _).foldlM _ v) = _
    simp only [List.foldlM_map]
    rfl

theorem dot_fold (b : Build) {d : Dim} {a1 a2 : Acc (Store α) α} {s : Store α} {sh : Nat × Nat} {xs ys : List α}
    (h1 : Shaped d a1 s sh xs) (h2 : Shaped d a2 s sh ys) (ar : Arith α) (dflt : α) :
    Ops.dotProd b d ar a1 a2 s dflt = leftFoldOf (fun p => ar.mul p.1 p.2) ar.add dflt (List.zip xs ys) := by
  have hsame := Shaped.same h1 h2
  rw [decide_eq_true rfl] at hsame
  have hl : xs.length = ys.length := by rw [Shaped.len h1, Shaped.len h2]
  unfold Ops.dotProd
  rw [hsame, assertDebug_true, Res.ok_bind, Elems.empty (Shaped.elems h1), Res.ok_bind]
  unfold Tm.mkBinary
  rw [hsame, assertDebug_true]
  obtain ⟨X, x1, x2, x3⟩ := h1
  obtain ⟨Y, y1, y2, y3⟩ := h2
  have hd := x2.trans y2.symm
  have := foldElems_res (den_binary ar.mul x1 y1 hd) ar.add ar.zero
  rw [flat_zip ar.mul hd, x3, y3, List.zipWith_map] at this
  cases xs with
  | nil => rfl
  | cons x xs => cases ys with
    | nil => simp at hl
    | cons y ys =>
      show Ops.foldElems ar.add (Acc.binary ar.mul a1 a2) s ar.zero = _
      rw [this, List.zipWith_cons_cons, List.zip_cons_cons]
      show (ar.mul x y >>= fun v => (List.zipWith _ xs ys).foldlM _ v) =
        (ar.mul x y >>= fun v => (List.zip xs ys).foldlM _ v)
      congr 1
      funext v
      clear * -
      induction xs generalizing ys v with
      | nil => rfl
      | cons x xs ih => cases ys with
        | nil => rfl
        | cons y ys =>
          rw [List.zipWith_cons_cons, List.zip_cons_cons, List.foldlM_cons, List.foldlM_cons]
          congr 1
          funext w
          exact ih ys w

theorem leftFoldOf_map {β γ : Type} (h : γ → β) (g : β → Res α) (f : α → α → Res α) (dflt : α) (xs : List γ) :
    leftFoldOf g f dflt (xs.map h) = leftFoldOf (fun x => g (h x)) f dflt xs := by
  cases xs with
  | nil => rfl
  | cons x xs =>
    show ((g (h x)).bind fun v => (xs.map h).foldlM _ v) = _
    simp only [List.foldlM_map]
    rfl

theorem zip_same {β : Type} (xs : List β) : List.zip xs xs = xs.map fun x => (x, x) := by
  induction xs with
  | nil => rfl
  | cons x xs ih => rw [List.zip_cons_cons, ih, List.map_cons]

theorem reduction_eq (b : Build) {d : Dim} {a : Acc (Store α) α} {s : Store α} {sh : Nat × Nat} {xs : List α}
    (hs : Shaped d a s sh xs) (sc : Scalar α) (dflt : α) (f : Reduction) :
    execReduction b d sc dflt a s f = f.meaning sc dflt xs := by
  have h := Shaped.elems hs
  cases f with
  | sum => exact leftFold_eq h _ _
  | prod => exact leftFold_eq h _ _
  | min => exact leftFold_eq h _ _
  | max => exact leftFold_eq h _ _
  | norm1 => exact norm_fold h _ _ _ _
  | normInf => exact norm_fold h _ _ _ _
  | norm2 =>
    simp only [execReduction, Ops.norm2, Reduction.meaning]
    rw [Elems.empty h, dot_fold b hs hs, zip_same, leftFoldOf_map]
    cases xs with
    | nil => rfl
    | cons x xs => rfl
  | norm1Scaled =>
    simp only [execReduction, Ops.norm1Scaled, Ops.mean, Reduction.meaning]
    have he : (a.unary sc.abss).empty s = a.empty s := rfl
    have hz : (a.unary sc.abss).size s = a.size s := rfl
    rw [he, hz, Elems.empty h, Elems.size h]
    cases xs with
    | nil => rfl
    | cons x xs =>
      have k : Ops.norm1 sc a s dflt = leftFoldOf (magnitude sc) sc.add dflt (x :: xs) := norm_fold h _ _ _ _
      rw [Ops.norm1, Elems.empty h] at k
      have k : Ops.sum sc.toArith (a.unary sc.abss) s sc.zero = leftFoldOf (magnitude sc) sc.add dflt (x :: xs) := k
      simp only [k]
      rfl
  | norm2Scaled =>
    simp only [execReduction, Ops.norm2Scaled, Ops.norm2, Reduction.meaning]
    rw [Elems.empty h, Elems.size h, dot_fold b hs hs, zip_same, leftFoldOf_map]
    cases xs with
    | nil => rfl
    | cons x xs => rfl
  | mean =>
    simp only [execReduction, Ops.mean, Reduction.meaning]
    rw [Elems.empty h, Elems.size h]
    cases xs with
    | nil => rfl
    | cons x xs =>
      have : Ops.sum sc.toArith a s sc.zero = leftFold sc.add dflt (x :: xs) := leftFold_eq h _ _
      simp only [this]
      rfl

theorem nested_eq (ar : Arith α) (x dflt : α) : ∀ (l : List α) (hne : l ≠ []), nested ar x dflt l =
    l.dropLast.reverse.foldlM (fun acc c => do let q ← ar.mul acc x; ar.add c q) (l.getLast hne)
  | [], h => absurd rfl h
  | [c], _ => rfl
  | c :: c' :: cs, _ => by
    rw [nested, nested_eq ar x dflt (c' :: cs) (by simp), List.dropLast_cons_cons, List.reverse_cons, List.foldlM_append,
      List.getLast_cons (List.cons_ne_nil c' cs)]
    simp only [List.foldlM_cons, List.foldlM_nil, bind_pure]
    rfl

theorem poly_eq (b : Build) (ar : Arith α) {a : Acc (Store α) α} {s : Store α} {l : List α} (h : Elems .one a s l)
    (hl : (l.length : Int) < 2 ^ 63 - 1) (x dflt : α) : Ops.polynomial b ar a x s dflt = nested ar x dflt l := by
  by_cases hne : l = []
  · subst hne
    unfold Ops.polynomial
    rw [Elems.empty h]
    rfl
  · rw [polynomial_eq b ar h hl hne, nested_eq _ _ _ _ hne]

/-- The coefficients are not too many. -/
theorem few {s : Store α} {t : Tm α .one} {xs : List α} (hR : Roomy (t.meaning s))
    (hx : (t.meaning s).flat = xs.map Res.ok) : (xs.length : Int) < 2 ^ 63 - 1 := by
  have hR : (List.length (t.meaning s) : Int) < 2 ^ 62 := hR
  have hx : t.meaning s = xs.map Res.ok := hx
  rw [hx, List.length_map] at hR
  omega

theorem anyM_pure (f : α → Bool) (xs : List α) : xs.anyM (m := Res) (fun x => .ok (f x)) = .ok (xs.any f) := by
  induction xs with
  | nil => rfl
  | cons x xs ih =>
    simp only [List.anyM, Res.ok_bind, ih, List.any_cons]
    cases f x <;> rfl

theorem allM_pure (f : α → Bool) (xs : List α) : xs.allM (m := Res) (fun x => .ok (f x)) = .ok (xs.all f) := by
  induction xs with
  | nil => rfl
  | cons x xs ih =>
    simp only [List.allM, Res.ok_bind, ih, List.all_cons]
    cases f x <;> rfl

/-- Without rejections a number is computed in every build as the rules say. -/
theorem query_run (b : Build) {q : Query α} {s : Store α} {r : Res α} (hF : q.Fits s) (h : Tells none q s r) :
    queryRun b s q = r := by
  cases h with
  | lit => rfl
  | elem1 hV hi => exact readElem1_ok b hF.1 hV hi
  | elem2 hV hi hj => exact readElem2_ok b hF.1 hF.2.1 hF.2.2 hV hi hj
  | reduce hx =>
    obtain ⟨a, e, hd, _⟩ := built b hF.1 hx.1
    simp only [queryRun, e, Res.ok_bind]
    exact reduction_eq b ⟨_, hd, rfl, hx.2⟩ _ _ _
  | dot hx hy hd =>
    obtain ⟨a1, e1, d1, _⟩ := built b hF.1.1 hx.1
    obtain ⟨a2, e2, d2, _⟩ := built b hF.2.1 hy.1
    simp only [queryRun, e1, e2, Res.ok_bind]
    exact dot_fold b ⟨_, d1, hd, hx.2⟩ ⟨_, d2, rfl, hy.2⟩ _ _
  | poly hx =>
    obtain ⟨a, e, hd, hR⟩ := built b hF.1 hx.1
    simp only [queryRun, e, Res.ok_bind]
    exact poly_eq b _ (Shaped.elems ⟨_, hd, rfl, hx.2⟩) (few hR hx.2) _ _
  | polyInvalid _ h => cases h
  | dotRejected _ _ _ h => cases h
  | dotInvalid _ h => cases h
  | elem1Rejected _ _ h => cases h
  | elem1Invalid _ h => cases h
  | elem2Rejected _ _ h => cases h
  | elem2Invalid _ h => cases h
  | reduceInvalid _ h => cases h

/-- In a checked build a number is computed or rejected as the rules say. -/
theorem query_tells {b : Build} (hb : b.Checked) {q : Query α} {s : Store α} (hF : q.Fits s) :
    Tells (some b.kind) q s (queryRun b s q) := by
  cases q with
  | lit x => exact .lit
  | elem1 t p =>
    by_cases hV : t.Valid s
    · by_cases hi : InRange (t.meaning s).dims.1 (target (t.meaning s).dims.1 p)
      · simp only [queryRun, readElem1_ok b hF.1 hV hi]
        exact .elem1 hV hi
      · simp only [queryRun, readElem1_rejected hb hF.1 hF.2 hV hi]
        exact .elem1Rejected hV hi rfl
    · obtain ⟨k, e⟩ := t.traps hb hF.1.1.roomy hF.1.2.1 hF.1.2.2 hV
      simp only [queryRun, readElem1, e, Res.trap_bind]
      exact .elem1Invalid hV rfl
  | elem2 t p q =>
    by_cases hV : t.Valid s
    · by_cases hi : InRange (t.meaning s).dims.1 (target (t.meaning s).dims.1 p) ∧
          InRange (t.meaning s).dims.2 (target (t.meaning s).dims.2 q)
      · simp only [queryRun, readElem2_ok b hF.1 hF.2.1 hF.2.2 hV hi.1 hi.2]
        exact .elem2 hV hi.1 hi.2
      · simp only [queryRun, readElem2_rejected hb hF.1 hF.2.1 hF.2.2 hV hi]
        exact .elem2Rejected hV hi rfl
    · obtain ⟨k, e⟩ := t.traps hb hF.1.1.roomy hF.1.2.1 hF.1.2.2 hV
      simp only [queryRun, readElem2, e, Res.trap_bind]
      exact .elem2Invalid hV rfl
  | reduce sc f dflt t =>
    by_cases hV : t.Valid s
    · obtain ⟨xs, hx⟩ := all_ok (hF.2 hV)
      obtain ⟨a, e, hd, _⟩ := built b hF.1 hV
      simp only [queryRun, e, Res.ok_bind]
      rw [reduction_eq b ⟨_, hd, rfl, hx⟩]
      exact .reduce ⟨hV, hx⟩
    · obtain ⟨k, e⟩ := t.traps hb hF.1.1.roomy hF.1.2.1 hF.1.2.2 hV
      simp only [queryRun, e, Res.trap_bind]
      exact .reduceInvalid hV rfl
  | poly ar x dflt t =>
    by_cases hV : t.Valid s
    · obtain ⟨xs, hx⟩ := all_ok (hF.2 hV)
      obtain ⟨a, e, hd, hR⟩ := built b hF.1 hV
      simp only [queryRun, e, Res.ok_bind]
      rw [poly_eq b _ (Shaped.elems ⟨_, hd, rfl, hx⟩) (few hR hx)]
      exact .poly ⟨hV, hx⟩
    · obtain ⟨k, e⟩ := t.traps hb hF.1.1.roomy hF.1.2.1 hF.1.2.2 hV
      simp only [queryRun, e, Res.trap_bind]
      exact .polyInvalid hV rfl
  | dot ar dflt t1 t2 =>
    obtain ⟨⟨hF1, hC1⟩, hF2, hC2⟩ := hF
    by_cases hV1 : t1.Valid s
    · obtain ⟨xs, hx⟩ := all_ok (hC1 hV1)
      obtain ⟨a1, e1, d1, _⟩ := built b hF1 hV1
      by_cases hV2 : t2.Valid s
      · obtain ⟨ys, hy⟩ := all_ok (hC2 hV2)
        obtain ⟨a2, e2, d2, _⟩ := built b hF2 hV2
        simp only [queryRun, e1, e2, Res.ok_bind]
        by_cases hd : (t1.meaning s).dims = (t2.meaning s).dims
        · rw [dot_fold b ⟨_, d1, hd, hx⟩ ⟨_, d2, rfl, hy⟩]
          exact .dot ⟨hV1, hx⟩ ⟨hV2, hy⟩ hd
        · rw [C52_dot_mismatch hb ⟨_, d1, rfl, hx⟩ ⟨_, d2, rfl, hy⟩ hd]
          exact .dotRejected hV1 hV2 hd rfl
      · obtain ⟨k, e2⟩ := t2.traps hb hF2.1.roomy hF2.2.1 hF2.2.2 hV2
        simp only [queryRun, e1, e2, Res.ok_bind, Res.trap_bind]
        exact .dotInvalid (fun h => hV2 h.2) rfl
    · obtain ⟨k, e1⟩ := t1.traps hb hF1.1.roomy hF1.2.1 hF1.2.2 hV1
      simp only [queryRun, e1, Res.trap_bind]
      exact .dotInvalid (fun h => hV1 h.1) rfl

theorem equal_eq (b : Build) {d : Dim} {t1 t2 : Tm α d} {s : Store α} {xs ys : List α} (h1 : FitsTm s t1)
    (h2 : FitsTm s t2) (hx : Has t1 s xs) (hy : Has t2 s ys) (ne : α → α → Bool) :
    testRun b s (.equal ne t1 t2) =
      .ok (decide ((t1.meaning s).dims = (t2.meaning s).dims) && (List.zip xs ys).all fun p => !ne p.1 p.2) := by
  obtain ⟨a1, e1, d1, _⟩ := built b h1 hx.1
  obtain ⟨a2, e2, d2, _⟩ := built b h2 hy.1
  simp only [testRun, e1, e2, Res.ok_bind]
  exact C51_equal ⟨_, d1, rfl, hx.2⟩ ⟨_, d2, rfl, hy.2⟩ ne

theorem any_eq (b : Build) {d : Dim} {t : Tm α d} {s : Store α} {xs : List α} (h1 : FitsTm s t) (hx : Has t s xs)
    (f : α → Bool) (dflt : Bool) :
    testRun b s (.any f dflt t) = .ok (if xs = [] then dflt else xs.any f) := by
  obtain ⟨a, e, hd, _⟩ := built b h1 hx.1
  simp only [testRun, e, Res.ok_bind]
  rw [anyOf_eq ⟨_, hd, hx.2⟩, anyM_pure]
  split <;> rfl

theorem all_eq (b : Build) {d : Dim} {t : Tm α d} {s : Store α} {xs : List α} (h1 : FitsTm s t) (hx : Has t s xs)
    (f : α → Bool) (dflt : Bool) :
    testRun b s (.all f dflt t) = .ok (if xs = [] then dflt else xs.all f) := by
  obtain ⟨a, e, hd, _⟩ := built b h1 hx.1
  simp only [testRun, e, Res.ok_bind]
  rw [allOf_eq ⟨_, hd, hx.2⟩, allM_pure]
  split <;> rfl

theorem bind_same {β γ : Type} {r : Res β} {f g : β → Res γ} (h : ∀ x, r = .ok x → f x = g x) :
    (r >>= f) = r.bind g := by
  cases r with
  | ok x => exact h x rfl
  | trap k => rfl
  | ub => rfl

/-- Without rejections a condition is computed in every build as the rules say. -/
theorem test_run (b : Build) {c : Test α} {s : Store α} {r : Res Bool} (hF : c.Fits s) (h : Decides none c s r) :
    testRun b s c = r := by
  induction h with
  | cmp h1 h2 =>
    simp only [testRun, query_run b hF.1 h1]
    exact bind_same fun x hx => by rw [query_run b hF.2 (h2 x hx)]; exact bind_same fun _ _ => rfl
  | equal hx hy => exact equal_eq b hF.1.1 hF.2.1 hx hy _
  | any hx => exact any_eq b hF.1 hx _ _
  | all hx => exact all_eq b hF.1 hx _ _
  | not h ih =>
    simp only [testRun, ih hF]
    exact bind_same fun _ _ => rfl
  | and h1 h2 ih1 ih2 =>
    simp only [testRun, ih1 hF.1]
    exact bind_same fun x hx => by rw [ih2 x hx hF.2]; exact bind_same fun _ _ => rfl
  | or h1 h2 ih1 ih2 =>
    simp only [testRun, ih1 hF.1]
    exact bind_same fun x hx => by rw [ih2 x hx hF.2]; exact bind_same fun _ _ => rfl
  | equalInvalid _ h => cases h
  | anyInvalid _ h => cases h
  | allInvalid _ h => cases h

/-- In a checked build a condition is computed or rejected as the rules say. -/
theorem test_decides {b : Build} (hb : b.Checked) {c : Test α} {s : Store α} (hF : c.Fits s) :
    Decides (some b.kind) c s (testRun b s c) := by
  induction c with
  | cmp f x y =>
    have e : testRun b s (.cmp f x y) =
        (queryRun b s x).bind fun a => (queryRun b s y).bind fun c => .ok (f a c) := rfl
    rw [e]
    exact .cmp (query_tells hb hF.1) fun _ _ => query_tells hb hF.2
  | @equal ne d t1 t2 =>
    by_cases h1 : t1.Valid s
    · by_cases h2 : t2.Valid s
      · obtain ⟨xs, hx⟩ := all_ok (hF.1.2 h1)
        obtain ⟨ys, hy⟩ := all_ok (hF.2.2 h2)
        rw [equal_eq b hF.1.1 hF.2.1 ⟨h1, hx⟩ ⟨h2, hy⟩]
        exact .equal ⟨h1, hx⟩ ⟨h2, hy⟩
      · obtain ⟨a, e, _⟩ := built b hF.1.1 h1
        obtain ⟨k, e2⟩ := t2.traps hb hF.2.1.1.roomy hF.2.1.2.1 hF.2.1.2.2 h2
        simp only [testRun, e, e2, Res.ok_bind, Res.trap_bind]
        exact .equalInvalid (fun h => h2 h.2) rfl
    · obtain ⟨k, e⟩ := t1.traps hb hF.1.1.1.roomy hF.1.1.2.1 hF.1.1.2.2 h1
      simp only [testRun, e, Res.trap_bind]
      exact .equalInvalid (fun h => h1 h.1) rfl
  | any f dflt t =>
    by_cases hV : t.Valid s
    · obtain ⟨xs, hx⟩ := all_ok (hF.2 hV)
      rw [any_eq b hF.1 ⟨hV, hx⟩]
      exact .any ⟨hV, hx⟩
    · obtain ⟨k, e⟩ := t.traps hb hF.1.1.roomy hF.1.2.1 hF.1.2.2 hV
      simp only [testRun, e, Res.trap_bind]
      exact .anyInvalid hV rfl
  | all f dflt t =>
    by_cases hV : t.Valid s
    · obtain ⟨xs, hx⟩ := all_ok (hF.2 hV)
      rw [all_eq b hF.1 ⟨hV, hx⟩]
      exact .all ⟨hV, hx⟩
    · obtain ⟨k, e⟩ := t.traps hb hF.1.1.roomy hF.1.2.1 hF.1.2.2 hV
      simp only [testRun, e, Res.trap_bind]
      exact .allInvalid hV rfl
  | not c ih => exact .not (ih hF)
  | and c1 c2 ih1 ih2 => exact .and (ih1 hF.1) fun _ _ => ih2 hF.2
  | or c1 c2 ih1 ih2 => exact .or (ih1 hF.1) fun _ _ => ih2 hF.2

/-! ### Programs -/

/-- More steps do not change the outcome. -/
theorem wprogRun_mono (b : Build) {n m : Nat} (hnm : n ≤ m) {w : WProg α} {s : Store α} {x : Res Unit × Store α}
    (h : wprogRun b n w s = some x) : wprogRun b m w s = some x := by
  induction n generalizing m w s x with
  | zero => cases h
  | succ n ih =>
    obtain ⟨m, rfl⟩ : ∃ k, m = k + 1 := ⟨m - 1, by omega⟩
    have hnm : n ≤ m := by omega
    cases w with
    | prog p => exact h
    | ask q k =>
      simp only [wprogRun] at h ⊢
      cases hq : queryRun b s q with
      | ok v => simp only [hq] at h ⊢; exact ih hnm h
      | trap e => simp only [hq] at h ⊢; exact h
      | ub => simp only [hq] at h ⊢; exact h
    | cond c p q =>
      simp only [wprogRun] at h ⊢
      rcases hc : testRun b s c with (_ | _) | _ | _
      · simp only [hc] at h ⊢; exact ih hnm h
      · simp only [hc] at h ⊢; exact ih hnm h
      · simp only [hc] at h ⊢; exact h
      · simp only [hc] at h ⊢; exact h
    | whileDo c p =>
      simp only [wprogRun] at h ⊢
      rcases hc : testRun b s c with (_ | _) | _ | _
      · simp only [hc] at h ⊢; exact h
      · simp only [hc] at h ⊢
        rcases hp : wprogRun b n p s with _ | ⟨_ | _ | _, s1⟩
        · simp only [hp] at h; cases h
        · simp only [hp, ih hnm hp] at h ⊢; exact ih hnm h
        · simp only [hp, ih hnm hp] at h ⊢; exact h
        · simp only [hp, ih hnm hp] at h ⊢; exact h
      · simp only [hc] at h ⊢; exact h
      · simp only [hc] at h ⊢; exact h
    | seq p q =>
      simp only [wprogRun] at h ⊢
      rcases hp : wprogRun b n p s with _ | ⟨_ | _ | _, s1⟩
      · simp only [hp] at h; cases h
      · simp only [hp, ih hnm hp] at h ⊢; exact ih hnm h
      · simp only [hp, ih hnm hp] at h ⊢; exact h
      · simp only [hp, ih hnm hp] at h ⊢; exact h
    | tryCatch p q =>
      simp only [wprogRun] at h ⊢
      rcases hp : wprogRun b n p s with _ | ⟨_ | (_ | _) | _, s1⟩
      · simp only [hp] at h; cases h
      · simp only [hp, ih hnm hp] at h ⊢; exact h
      · simp only [hp, ih hnm hp] at h ⊢; exact ih hnm h
      · simp only [hp, ih hnm hp] at h ⊢; exact h
      · simp only [hp, ih hnm hp] at h ⊢; exact h

end Spp
