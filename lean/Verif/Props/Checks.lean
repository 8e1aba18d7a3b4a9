import Verif.Lemmas.Checks4
import Verif.Lemmas.Transparent
import Verif.Lemmas.Sample
import Verif.Spec.Ops
import Verif.Spec.Float

/-
C04: switching the debug checks off does not change programs that run to completion with them.  More on scalars and
element access is in Props/StrictInt.lean, Props/StrictMath.lean and Props/Index.lean.
-/

set_option linter.unusedSectionVars false

namespace Spp.Props
open Spec Sample

variable {α : Type}

/-! ### Scalars -/

theorem transparent_of_tr {A : Type} {f : Build → Res A} (h : ∀ b, Tr true Eq (f b) (f (off b))) : Transparent f := by
  intro b
  have h := h b
  generalize f b = x at h
  generalize f (off b) = y at h
  cases h with
  | trap k y => exact .inl ⟨k, rfl⟩
  | ub0 h y => exact nomatch h
  | ub => exact .inr rfl
  | ok h => exact .inr (by rw [h])

theorem transparentOp_of_tr {σ A : Type} {f : Build → Op σ A} (h : ∀ b, OpTr true Eq (f b) (f (off b))) :
    TransparentOp f := by
  intro b s
  have h := h b s
  generalize f b s = x at h
  generalize f (off b) s = y at h
  cases h with
  | trap k s y => exact .inl ⟨k, rfl⟩
  | ub0 h y => exact nomatch h
  | ub s => exact .inr rfl
  | ok h s => exact .inr (by rw [h])

theorem shiftChecks_tr (b : Build) (t : IntTy) (x y : Int) :
    Tr true Eq (SInt.shiftChecks b t x y) (SInt.shiftChecks (off b) t x y) := by
  unfold SInt.shiftChecks
  checks
macro_rules | `(tactic| checks_lemma) => `(tactic| with_reducible exact shiftChecks_tr _ _ _ _)

/-- C04 (compound assignment of scalars): either a check stops the call, or value, undefined behaviour and the
variable afterwards are the same without checks. -/
theorem C04_scalar_compound (t : IntTy) (y : Int) :
    TransparentOp (fun b => SInt.divAssign b t y) ∧ TransparentOp (fun b => SInt.remAssign b t y) ∧
    TransparentOp (fun b => SInt.shlAssign b t y) ∧ TransparentOp (fun b => SInt.shrAssign b t y) := by
  refine ⟨transparentOp_of_tr fun b => ?_, transparentOp_of_tr fun b => ?_, transparentOp_of_tr fun b => ?_,
    transparentOp_of_tr fun b => ?_⟩
  · unfold SInt.divAssign; checks
  · unfold SInt.remAssign; checks
  · unfold SInt.shlAssign; checks
  · unfold SInt.shrAssign; checks

example : SInt.divAssign ⟨false, true, false⟩ .int 3 14 = (.ok (), 4) ∧
    SInt.divAssign ⟨true, true, false⟩ .int 3 14 = (.ok (), 4) ∧
    SInt.divAssign ⟨false, true, false⟩ .int 0 14 = (.trap .exception, 14) ∧
    SInt.divAssign ⟨true, true, false⟩ .int 0 14 = (.ub, 14) := by decide

theorem sdiv_tr {u : Bool} (b : Build) (t : IntTy) (x y : Int) : Tr u Eq (SInt.div b t x y) (SInt.div (off b) t x y) := by
  unfold SInt.div; checks

theorem binomLoop_tr (b : Build) (m : Int) : ∀ (n : Nat) (f1 f2 p : Int), (m + 1 - f1).toNat = n →
    Tr true Eq (binomLoop b m f1 f2 p) (binomLoop (off b) m f1 f2 p) := by
  intro n
  induction n with
  | zero =>
    intro f1 f2 p h
    rw [binomLoop, binomLoop, if_neg (by omega), if_neg (by omega)]
    exact Tr.refl _
  | succ n ih =>
    intro f1 f2 p h
    rw [binomLoop, binomLoop, if_pos (by omega), if_pos (by omega)]
    exact Tr.bindEq (Tr.refl _) fun p => Tr.bindEq (sdiv_tr b _ _ _) fun q => Tr.bindEq (Tr.refl _) fun _ =>
      Tr.bindEq (Tr.refl _) fun _ => ih _ _ _ (by omega)

/-- C04 (scalar functions with bounds, and binomial coefficients). -/
theorem C04_bounds (x lo hi n k : Int) :
    Transparent (fun b => clamps b x lo hi) ∧ Transparent (fun b => inOpen b x lo hi) ∧
    Transparent (fun b => inClosed b x lo hi) ∧ Transparent (fun b => binomCoeff b n k) := by
  refine ⟨transparent_of_tr fun b => ?_, transparent_of_tr fun b => ?_, transparent_of_tr fun b => ?_,
    transparent_of_tr fun b => ?_⟩
  · unfold clamps; checks
  · unfold inOpen; checks
  · unfold inClosed; checks
  · unfold binomCoeff
    exact Tr.bindEq (Tr.assertDebug _ _) fun _ => Tr.bindEq (Tr.assertDebug _ _) fun _ => Tr.bindEq (Tr.refl _) fun _ =>
      Tr.bindEq (Tr.refl _) fun _ => Tr.bindEq (Tr.refl _) fun _ => binomLoop_tr b _ _ _ _ _ rfl

example : clamps ⟨false, true, false⟩ (7 : Int) 1 5 = .ok 5 ∧ clamps ⟨true, true, false⟩ (7 : Int) 1 5 = .ok 5 ∧
    clamps ⟨false, true, false⟩ (7 : Int) 5 1 = .trap .exception := by decide

/-! ### Programs -/

/-- C04 (member functions of one-dimensional arrays): a program of any length that runs to completion with checks
ends without them too, with the same contents in all arrays. -/
theorem C04_arrays [Inhabited α] (p : List (Stmt α)) : KeepsOp (fun b => inOrder (p.map (exec b))) :=
  keepsOp_of_tr fun b => inOrder_tr (exec_tr b) p

/-- C04 (member functions of two-dimensional arrays). -/
theorem C04_arrays2 [Inhabited α] (p : List (Stmt2 α)) : KeepsOp (fun b => inOrder (p.map (exec2 b))) :=
  keepsOp_of_tr fun b => inOrder_tr (exec2_tr b) p

/-- C04 (construction and destruction, buffers included). -/
theorem C04_heap [Inhabited α] (p : List (HCmd α)) : KeepsOp (fun b => inOrder (p.map (HCmd.exec b))) :=
  keepsOp_of_tr fun b => inOrder_tr (hcmd_tr b) p

example : (inOrder ([Stmt.insertBack 0 (7 : Int), .remove 0 0 2, .copyAssign 1 0].map (exec ⟨false, true, false⟩))
    (fun i => if i = 0 then [1, 2, 3] else [5, 6])).1 = .ok () ∧
    (inOrder ([Stmt.insertBack 0 (7 : Int), .remove 0 0 2, .copyAssign 1 0].map (exec ⟨false, true, false⟩))
      (fun i => if i = 0 then [1, 2, 3] else [5, 6])).2 1 = [3, 7] := by decide

example : ∃ a, (inOrder ([Stmt2.call 0 (.fill (7 : Int)), .call 0 (.removeRow 1)].map (exec2 ⟨false, true, false⟩))
    (fun _ => ⟨2, 2, [1, 2, 3, 4]⟩)) = (.ok (), a) ∧ a 0 = ⟨1, 2, [7, 7]⟩ := ⟨_, rfl, by decide⟩

example : (inOrder ([HCmd.construct 0 .aligned 3 (fun l => .ok l), .copyConstruct 1 .aligned 0, .destroy 0].map
    (HCmd.exec (α := Int) ⟨false, true, false⟩)) (Heap.init ⟨fun _ => false, fun _ a => a⟩)).1 = .ok () := by decide +kernel

/-- C04 (assignments of expressions to arrays, slices and views): programs of assignments whose expressions and
element operations are the same text run to the same end. -/
theorem C04_assignments {p p' : List (AStmt α)} (h : List.Forall₂ SameStmt p p') (b : Build) :
    SurvivesOp (AStmt.runAll b p) (AStmt.runAll (off b) p') := (runAll_tr b h).survives

/-- C04 (expressions): an expression that can be built and evaluated with checks has the same elements without. -/
theorem C04_expressions [Inhabited α] {d : Dim} {t t' : Tm α d} (h : SameText t t') (b : Build) (s : Store α) :
    SurvivesOn b s t t' (fun a => a.eval1 b s) (fun a => a.eval1 (off b) s) ∧
    SurvivesOn b s t t' (fun a => a.eval2 b s) (fun a => a.eval2 (off b) s) ∧
    (∀ a, t.build b s = .ok a → ∃ a', t'.build (off b) s = .ok a' ∧ SameAcc a a') :=
  ⟨(Tr.bind (build_tr b s h) fun a a' ha => eval1_tr b ha s).survives,
   (Tr.bind (build_tr b s h) fun a a' ha => eval2_tr b ha s).survives,
   fun a ha => let ⟨a', h1, h2⟩ := (build_tr b s h).value ha; ⟨a', h1, h2.same⟩⟩

/-- Division of integers, which contains a check of its own, is an element operation of the same text. -/
theorem sameText_div (b : Build) : SameText (.binary (SInt.div b .int) x y) (.binary (SInt.div (off b) .int) x y) :=
  .binary (fun u v => (sdiv_tr (u := false) b .int u v).survives) (.lv _) (.lv _)

example : SurvivesOp (AStmt.runAll ⟨false, true, false⟩
      [.assign (.view (.slice .reverse) (.arr1 0)) (.binary (SInt.div ⟨false, true, false⟩ .int) y x)])
    (AStmt.runAll ⟨true, true, false⟩
      [.assign (.view (.slice .reverse) (.arr1 0)) (.binary (SInt.div ⟨true, true, false⟩ .int) y x)]) :=
  C04_assignments (.cons (.assign _ (.binary (fun u v => (sdiv_tr (u := false) _ .int u v).survives) (.lv _) (.lv _))) .nil)
    ⟨false, true, false⟩

example : ∃ s', AStmt.runAll ⟨false, true, false⟩
      [.assign (.view (.slice .reverse) (.arr1 2)) (.binary (SInt.div ⟨false, true, false⟩ .int) y x)]
      { store with a1 := fun i => if i = 2 then [0, 0, 0] else store.a1 i } = (.ok (), s') ∧ s'.a1 2 = [2, 2, 4] :=
  ⟨_, rfl, by decide⟩

example : (do let a ← (Tm.binary (SInt.div ⟨false, true, false⟩ .int) y x).build ⟨false, true, false⟩ store
              a.eval1 ⟨false, true, false⟩ store) = .ok [4, 2, 2] := by decide +kernel

/-! ### Operations on whole arrays -/

section

variable {d : Dim} {t t' u u' : Tm α d} (h : SameText t t') (hu : SameText u u') (b : Build) (s : Store α)
include h

theorem on_of_tr {A : Type} {f f' : Acc (Store α) α → Res A} (H : ∀ a a', AccTr a a' → Tr false Eq (f a) (f' a')) :
    SurvivesOn b s t t' f f' := (Tr.bind (build_tr b s h) H).survives

include hu in
theorem on2_of_tr {A : Type} {f f' : Acc (Store α) α → Acc (Store α) α → Res A}
    (H : ∀ a a' c c', AccTr a a' → AccTr c c' → Tr false Eq (f a c) (f' a' c')) : SurvivesOn2 b s t t' u u' f f' :=
  (Tr.bind (build_tr b s h) fun a a' ha => Tr.bind (build_tr b s hu) fun c c' hc => H a a' c c' ha hc).survives

/-- C04 (reductions of one operand). -/
theorem C04_reductions {sc sc' : Scalar α} (hs : SameScalar sc sc') (df : α) (lp : Int) :
    SurvivesOn b s t t' (fun a => Ops.sum sc.toArith a s df) (fun a => Ops.sum sc'.toArith a s df) ∧
    SurvivesOn b s t t' (fun a => Ops.prod sc.toArith a s df) (fun a => Ops.prod sc'.toArith a s df) ∧
    SurvivesOn b s t t' (fun a => Ops.mean sc.toArith a s df) (fun a => Ops.mean sc'.toArith a s df) ∧
    SurvivesOn b s t t' (fun a => Ops.min sc a s df) (fun a => Ops.min sc' a s df) ∧
    SurvivesOn b s t t' (fun a => Ops.max sc a s df) (fun a => Ops.max sc' a s df) ∧
    SurvivesOn b s t t' (fun a => Ops.normInf sc a s df) (fun a => Ops.normInf sc' a s df) ∧
    SurvivesOn b s t t' (fun a => Ops.norm1 sc a s df) (fun a => Ops.norm1 sc' a s df) ∧
    SurvivesOn b s t t' (fun a => Ops.norm1Scaled sc a s df) (fun a => Ops.norm1Scaled sc' a s df) ∧
    SurvivesOn b s t t' (fun a => Ops.norm2 b d sc a s df) (fun a => Ops.norm2 (off b) d sc' a s df) ∧
    SurvivesOn b s t t' (fun a => Ops.norm2Scaled b d sc a s df) (fun a => Ops.norm2Scaled (off b) d sc' a s df) ∧
    SurvivesOn b s t t' (fun a => Ops.normLp b sc a s lp df) (fun a => Ops.normLp (off b) sc' a s lp df) ∧
    SurvivesOn b s t t' (fun a => Ops.normLpScaled b sc a s lp df) (fun a => Ops.normLpScaled (off b) sc' a s lp df) ∧
    SurvivesOn b s t t' (fun a => Ops.blasArray a s) (fun a => Ops.blasArray a s) :=
  ⟨on_of_tr h b s fun _ _ ha => sum_tr hs.toSameArith ha s df, on_of_tr h b s fun _ _ ha => prod_tr hs.toSameArith ha s df,
   on_of_tr h b s fun _ _ ha => mean_tr hs.toSameArith ha s df, on_of_tr h b s fun _ _ ha => min_tr hs ha s df,
   on_of_tr h b s fun _ _ ha => max_tr hs ha s df, on_of_tr h b s fun _ _ ha => normInf_tr hs ha s df,
   on_of_tr h b s fun _ _ ha => norm1_tr hs ha s df, on_of_tr h b s fun _ _ ha => norm1Scaled_tr hs ha s df,
   on_of_tr h b s fun _ _ ha => norm2_tr b d hs ha s df, on_of_tr h b s fun _ _ ha => norm2Scaled_tr b d hs ha s df,
   on_of_tr h b s fun _ _ ha => normLp_tr b hs ha s lp df, on_of_tr h b s fun _ _ ha => normLpScaled_tr b hs ha s lp df,
   on_of_tr h b s fun _ _ ha => blasArray_tr ha s⟩

/-- C04 (extrema with places, and quantifiers). -/
theorem C04_searches {sc sc' : Scalar α} (hs : SameScalar sc sc') (better : α → α → Bool) (fin : α → Bool)
    {f f' : α → Res Bool} (hf : ∀ x, Survives (f x) (f' x)) (d1 : Int × α) (d2 : Int × Int × α) (df : Bool) :
    SurvivesOn b s t t' (fun a => Ops.extIndex1 better a s d1) (fun a => Ops.extIndex1 better a s d1) ∧
    SurvivesOn b s t t' (fun a => Ops.extIndex2 better a s d2) (fun a => Ops.extIndex2 better a s d2) ∧
    SurvivesOn b s t t' (fun a => Ops.anyOf f a s df) (fun a => Ops.anyOf f' a s df) ∧
    SurvivesOn b s t t' (fun a => Ops.allOf f a s df) (fun a => Ops.allOf f' a s df) ∧
    SurvivesOn b s t t' (fun a => Ops.noneOf f a s df) (fun a => Ops.noneOf f' a s df) ∧
    SurvivesOn b s t t' (fun a => Ops.hasZero sc a s df) (fun a => Ops.hasZero sc' a s df) ∧
    SurvivesOn b s t t' (fun a => Ops.allZeros sc a s df) (fun a => Ops.allZeros sc' a s df) ∧
    SurvivesOn b s t t' (fun a => Ops.allPos sc a s df) (fun a => Ops.allPos sc' a s df) ∧
    SurvivesOn b s t t' (fun a => Ops.allNeg sc a s df) (fun a => Ops.allNeg sc' a s df) ∧
    SurvivesOn b s t t' (fun a => Ops.allNonPos sc a s df) (fun a => Ops.allNonPos sc' a s df) ∧
    SurvivesOn b s t t' (fun a => Ops.allNonNeg sc a s df) (fun a => Ops.allNonNeg sc' a s df) ∧
    SurvivesOn b s t t' (fun a => Ops.allFinite fin a s df) (fun a => Ops.allFinite fin a s df) ∧
    SurvivesOn b s t t' (fun a => Ops.hasSuch fin a s df) (fun a => Ops.hasSuch fin a s df) :=
  ⟨on_of_tr h b s fun _ _ ha => extIndex1_tr _ ha s _, on_of_tr h b s fun _ _ ha => extIndex2_tr _ ha s _,
   on_of_tr h b s fun _ _ ha => anyOf_tr (fun x => .of_survives (hf x)) ha s _,
   on_of_tr h b s fun _ _ ha => allOf_tr (fun x => .of_survives (hf x)) ha s _,
   on_of_tr h b s fun _ _ ha => noneOf_tr (fun x => .of_survives (hf x)) ha s _,
   on_of_tr h b s fun _ _ ha => hasZero_tr hs ha s _, on_of_tr h b s fun _ _ ha => allZeros_tr hs ha s _,
   on_of_tr h b s fun _ _ ha => allPos_tr hs ha s _, on_of_tr h b s fun _ _ ha => allNeg_tr hs ha s _,
   on_of_tr h b s fun _ _ ha => allNonPos_tr hs ha s _, on_of_tr h b s fun _ _ ha => allNonNeg_tr hs ha s _,
   on_of_tr h b s fun _ _ ha => allFinite_tr _ ha s _, on_of_tr h b s fun _ _ ha => hasSuch_tr _ ha s _⟩

include hu

/-- C04 (operations on two operands). -/
theorem C04_pairs {sc sc' : Scalar α} (hs : SameScalar sc sc') (ne : α → α → Bool)
    {f f' : α → α → Res Bool} (hf : ∀ x y, Survives (f x y) (f' x y)) (df tol z : α) (dB : Bool) :
    SurvivesOn2 b s t t' u u' (fun a c => Ops.equal d ne a c s) (fun a c => Ops.equal d ne a c s) ∧
    SurvivesOn2 b s t t' u u' (fun a c => Ops.notEqual d ne a c s) (fun a c => Ops.notEqual d ne a c s) ∧
    SurvivesOn2 b s t t' u u' (fun a c => Ops.anyOf2 b d f a c s dB) (fun a c => Ops.anyOf2 (off b) d f' a c s dB) ∧
    SurvivesOn2 b s t t' u u' (fun a c => Ops.allOf2 b d f a c s dB) (fun a c => Ops.allOf2 (off b) d f' a c s dB) ∧
    SurvivesOn2 b s t t' u u' (fun a c => Ops.noneOf2 b d f a c s dB) (fun a c => Ops.noneOf2 (off b) d f' a c s dB) ∧
    SurvivesOn2 b s t t' u u' (fun a c => Ops.dotProd b d sc.toArith a c s df)
      (fun a c => Ops.dotProd (off b) d sc'.toArith a c s df) ∧
    SurvivesOn2 b s t t' u u' (fun a c => ErrorTools.withinTolAbsArray b d sc a c tol s dB)
      (fun a c => ErrorTools.withinTolAbsArray (off b) d sc' a c tol s dB) ∧
    SurvivesOn2 b s t t' u u' (fun a c => ErrorTools.withinTolRelArray b d sc a c tol z s dB)
      (fun a c => ErrorTools.withinTolRelArray (off b) d sc' a c tol z s dB) ∧
    SurvivesOn2 b s t t' u u' (fun a c => ErrorTools.maxAbsError b d sc a c s df)
      (fun a c => ErrorTools.maxAbsError (off b) d sc' a c s df) ∧
    SurvivesOn2 b s t t' u u' (fun a c => ErrorTools.maxRelError b d sc a c s df)
      (fun a c => ErrorTools.maxRelError (off b) d sc' a c s df) :=
  ⟨on2_of_tr h hu b s fun _ _ _ _ h1 h2 => equal_tr d ne h1 h2 s,
   on2_of_tr h hu b s fun _ _ _ _ h1 h2 => notEqual_tr d ne h1 h2 s,
   on2_of_tr h hu b s fun _ _ _ _ h1 h2 => anyOf2_tr b d (fun x y => .of_survives (hf x y)) h1 h2 s dB,
   on2_of_tr h hu b s fun _ _ _ _ h1 h2 => allOf2_tr b d (fun x y => .of_survives (hf x y)) h1 h2 s dB,
   on2_of_tr h hu b s fun _ _ _ _ h1 h2 => noneOf2_tr b d (fun x y => .of_survives (hf x y)) h1 h2 s dB,
   on2_of_tr h hu b s fun _ _ _ _ h1 h2 => dotProd_tr b d hs.toSameArith h1 h2 s df,
   on2_of_tr h hu b s fun _ _ _ _ h1 h2 => withinTolAbsArray_tr b d hs h1 h2 tol s dB,
   on2_of_tr h hu b s fun _ _ _ _ h1 h2 => withinTolRelArray_tr b d hs h1 h2 tol z s dB,
   on2_of_tr h hu b s fun _ _ _ _ h1 h2 => maxAbsError_tr b d hs h1 h2 s df,
   on2_of_tr h hu b s fun _ _ _ _ h1 h2 => maxRelError_tr b d hs h1 h2 s df⟩

/-- C04 (compensated operations). -/
theorem C04_compensated {sc sc' : FScalar α} (hs : SameFScalar sc sc') (df : α) (lp : Int) :
    SurvivesOn b s t t' (fun a => Stable.sum sc a s df) (fun a => Stable.sum sc' a s df) ∧
    SurvivesOn b s t t' (fun a => Stable.semiSum b sc a s df) (fun a => Stable.semiSum (off b) sc' a s df) ∧
    SurvivesOn b s t t' (fun a => Stable.prod sc a s df) (fun a => Stable.prod sc' a s df) ∧
    SurvivesOn b s t t' (fun a => Stable.mean sc a s df) (fun a => Stable.mean sc' a s df) ∧
    SurvivesOn2 b s t t' u u' (fun a c => Stable.dotProd b d sc a c s df)
      (fun a c => Stable.dotProd (off b) d sc' a c s df) ∧
    SurvivesOn2 b s t t' u u' (fun a c => Stable.semiDotProd b d sc a c s df)
      (fun a c => Stable.semiDotProd (off b) d sc' a c s df) ∧
    SurvivesOn b s t t' (fun a => Stable.norm1 sc a s df) (fun a => Stable.norm1 sc' a s df) ∧
    SurvivesOn b s t t' (fun a => Stable.norm1Scaled sc a s df) (fun a => Stable.norm1Scaled sc' a s df) ∧
    SurvivesOn b s t t' (fun a => Stable.norm2 b d sc a s df) (fun a => Stable.norm2 (off b) d sc' a s df) ∧
    SurvivesOn b s t t' (fun a => Stable.norm2Scaled b d sc a s df)
      (fun a => Stable.norm2Scaled (off b) d sc' a s df) ∧
    SurvivesOn b s t t' (fun a => Stable.normLp b d sc a s lp df) (fun a => Stable.normLp (off b) d sc' a s lp df) ∧
    SurvivesOn b s t t' (fun a => Stable.normLpScaled b d sc a s lp df)
      (fun a => Stable.normLpScaled (off b) d sc' a s lp df) :=
  ⟨on_of_tr h b s fun _ _ ha => stableSum_tr hs ha s df, on_of_tr h b s fun _ _ ha => semiSum_tr b hs ha s df,
   on_of_tr h b s fun _ _ ha => stableProd_tr hs ha s df, on_of_tr h b s fun _ _ ha => stableMean_tr hs ha s df,
   on2_of_tr h hu b s fun _ _ _ _ h1 h2 => stableDot_tr b d hs h1 h2 s df,
   on2_of_tr h hu b s fun _ _ _ _ h1 h2 => semiDot_tr b d hs h1 h2 s df,
   on_of_tr h b s fun _ _ ha => stableNorm1_tr hs ha s df, on_of_tr h b s fun _ _ ha => stableNorm1Scaled_tr hs ha s df,
   on_of_tr h b s fun _ _ ha => stableNorm2_tr b d hs ha s df,
   on_of_tr h b s fun _ _ ha => stableNorm2Scaled_tr b d hs ha s df,
   on_of_tr h b s fun _ _ ha => stableNormLp_tr b d hs ha s lp df,
   on_of_tr h b s fun _ _ ha => stableNormLpScaled_tr b d hs ha s lp df⟩

end

/-- C04 (polynomials): `coeffs`, `xs` have floating-point elements, `powers` integers; the operands are any objects
built with and without checks. -/
theorem C04_polynomials {σ : Type} {sc sc' : FScalar α} (hs : SameFScalar sc sc') {c c' xs xs' : Acc σ α}
    {p p' : Acc σ Int} (hc : SameAcc c c') (hx : SameAcc xs xs') (hp : SameAcc p p') {pw pw' : α → α → Res α}
    (hpw : ∀ x y, Survives (pw x y) (pw' x y)) (b : Build) (x : α) (s : σ) (df : α) :
    Survives (Ops.polynomial b sc.toArith c x s df) (Ops.polynomial (off b) sc'.toArith c' x s df) ∧
    Survives (Ops.gpolynomial b sc.toArith pw c xs p s df) (Ops.gpolynomial (off b) sc'.toArith pw' c' xs' p' s df) ∧
    Survives (Ops.polynomialPowers b sc.toArith pw c x p s df)
      (Ops.polynomialPowers (off b) sc'.toArith pw' c' x p' s df) ∧
    Survives (Stable.polynomial b sc c x s df) (Stable.polynomial (off b) sc' c' x s df) ∧
    Survives (Stable.gpolynomial b sc c xs p s df) (Stable.gpolynomial (off b) sc' c' xs' p' s df) ∧
    Survives (Stable.polynomialPowers b sc c x p s df) (Stable.polynomialPowers (off b) sc' c' x p' s df) :=
  have h' := hs.toSameScalar.toSameArith
  ⟨(polynomial_tr b h' hc.tr x s df).survives,
   (gpolynomial_tr b h' (fun x y => .of_survives (hpw x y)) hc.tr hx.tr hp.tr s df).survives,
   (polynomialPowers_tr b h' (fun x y => .of_survives (hpw x y)) hc.tr x hp.tr s df).survives,
   (stablePolynomial_tr b hs hc.tr x s df).survives, (stableGpolynomial_tr b hs hc.tr hx.tr hp.tr s df).survives,
   (stablePolynomialPowers_tr b hs hc.tr x hp.tr s df).survives⟩

/-- C04 (scalar error measures and the compensated scalar operations). -/
theorem C04_error_free {sc sc' : FScalar α} (hs : SameFScalar sc sc') (b : Build) (x y z w : α) (n : Int) :
    Survives (ErrorTools.withinTolAbs b sc.toScalar x y z) (ErrorTools.withinTolAbs (off b) sc'.toScalar x y z) ∧
    Survives (ErrorTools.withinTolRel b sc.toScalar x y z w) (ErrorTools.withinTolRel (off b) sc'.toScalar x y z w) ∧
    Survives (ErrorTools.absError sc.toScalar x y) (ErrorTools.absError sc'.toScalar x y) ∧
    Survives (ErrorTools.relError sc.toScalar x y) (ErrorTools.relError sc'.toScalar x y) ∧
    Survives (sc.twoSums x y) (sc'.twoSums x y) ∧ Survives (sc.twoProds x y) (sc'.twoProds x y) ∧
    Survives (sc.powProds b x n) (sc'.powProds (off b) x n) :=
  have h := hs.toSameScalar
  ⟨(withinTolAbs_tr b h x y z).survives, (withinTolRel_tr b h x y z w).survives, (absError_tr h x y).survives,
   (relError_tr h x y).survives, (twoSums_tr hs x y).survives, (twoProds_tr hs x y).survives,
   (powProds_tr b hs x n).survives⟩

/-- C04 (selections by value): the object `A(in_range...)` refers to the same elements. -/
theorem C04_selections {σ β : Type} {sc sc' : Scalar α} (hs : SameScalar sc sc') {p p' : Acc σ β} {a a' : Acc σ α}
    (hp : SameAcc p p') (ha : SameAcc a a') (f : α → Bool) (lo hi : α) (b : Build) (s : σ) :
    (∀ v, Ops.inCondRange b f p a s = .ok v → ∃ v', Ops.inCondRange (off b) f p' a' s = .ok v' ∧ SameAcc v v') ∧
    (∀ v, Ops.inOpenRange b sc lo hi p a s = .ok v →
      ∃ v', Ops.inOpenRange (off b) sc' lo hi p' a' s = .ok v' ∧ SameAcc v v') ∧
    (∀ v, Ops.inClosedRange b sc lo hi p a s = .ok v →
      ∃ v', Ops.inClosedRange (off b) sc' lo hi p' a' s = .ok v' ∧ SameAcc v v') :=
  ⟨fun _ h => let ⟨v', h1, h2⟩ := (inCondRange_tr b f hp.tr ha.tr s).value h; ⟨v', h1, h2.same⟩,
   fun _ h => let ⟨v', h1, h2⟩ := (inOpenRange_tr b hs lo hi hp.tr ha.tr s).value h; ⟨v', h1, h2.same⟩,
   fun _ h => let ⟨v', h1, h2⟩ := (inClosedRange_tr b hs lo hi hp.tr ha.tr s).value h; ⟨v', h1, h2.same⟩⟩

/-- C04 (`for_each` and `sort` on arrays, slices and views). -/
theorem C04_updates {f f' : α → Res α} (hf : ∀ x, Survives (f x) (f' x)) (srt : (α → α → Bool) → List α → List α)
    (cmp : α → α → Bool) {d : Dim} (l : Lv d) (b : Build) :
    SurvivesOp (do let s ← Op.get; let p ← Op.lift (l.build b s); Ops.forEach f p : Op (Store α) Unit)
      (do let s ← Op.get; let p ← Op.lift (l.build (off b) s); Ops.forEach f' p) ∧
    SurvivesOp (do let s ← Op.get; let p ← Op.lift (l.build b s); Ops.sort srt cmp p : Op (Store α) Unit)
      (do let s ← Op.get; let p ← Op.lift (l.build (off b) s); Ops.sort srt cmp p) :=
  ⟨(OpTr.bindEq (OpTr.refl _) fun s => OpTr.bind (OpTr.lift (lv_tr b s l)) fun _ _ h =>
      forEach_tr (fun x => .of_survives (hf x)) h).survives,
   (OpTr.bindEq (OpTr.refl _) fun s => OpTr.bind (OpTr.lift (lv_tr b s l)) fun _ _ h => sort_tr srt cmp h).survives⟩

/-! ### Iterators -/

/-- C04 (iterator arithmetic and comparison). -/
theorem C04_iterators (x y : It) (n : Int) (r : Int → Int → Bool) :
    Keeps (fun b => x.inc b) ∧ Keeps (fun b => x.dec b) ∧ Keeps (fun b => x.postInc b) ∧ Keeps (fun b => x.postDec b) ∧
    Keeps (fun b => x.addAssign b n) ∧ Keeps (fun b => x.subAssign b n) ∧ Keeps (fun b => x.plus b n) ∧
    Keeps (fun b => It.plusLeft b n x) ∧ Keeps (fun b => x.minus b n) ∧ Keeps (fun b => It.diff b x y) ∧
    Keeps (fun b => It.compare b r x y) :=
  ⟨keeps_of_tr fun b => itInc_tr b x, keeps_of_tr fun b => itDec_tr b x, keeps_of_tr fun b => itPostInc_tr b x,
   keeps_of_tr fun b => itPostDec_tr b x, keeps_of_tr fun b => itAdd_tr b x n, keeps_of_tr fun b => itSub_tr b x n,
   keeps_of_tr fun b => itPlus_tr b x n, keeps_of_tr fun b => itPlusLeft_tr b x n, keeps_of_tr fun b => itMinus_tr b x n,
   keeps_of_tr fun b => itDiff_tr b x y, keeps_of_tr fun b => itCompare_tr b r x y⟩

/-- C04 (elements behind iterators), where `mem k` is the object iterators with address `k` belong to. -/
theorem C04_dereference {σ β : Type} {mem mem' : Nat → Acc σ β} (h : ∀ k, SameAcc (mem k) (mem' k)) (b : Build) (x : It)
    (r : RIt) (n : Int) (s : σ) :
    Survives (x.deref b (fun k => .index (mem k)) s) (x.deref (off b) (fun k => .index (mem' k)) s) ∧
    Survives (x.at' b (fun k => .index (mem k)) n s) (x.at' (off b) (fun k => .index (mem' k)) n s) ∧
    Survives (r.deref b (fun k => .index (mem k)) s) (r.deref (off b) (fun k => .index (mem' k)) s) ∧
    Survives (r.at' b (fun k => .index (mem k)) n s) (r.at' (off b) (fun k => .index (mem' k)) n s) :=
  have H := fun k => indexFlag_tr (h k).tr
  ⟨(itDeref_tr b H x s).survives, (itAt_tr b H x n s).survives, (ritDeref_tr b H r s).survives,
   (ritAt_tr b H r n s).survives⟩

/-- C04 (range-based loops over elements, forwards and backwards). -/
theorem C04_loops {σ β : Type} {mem mem' : Nat → Acc σ β} (h : ∀ k, SameAcc (mem k) (mem' k)) (b : Build)
    {body body' : β → Op σ Unit} (hb : ∀ x, SurvivesOp (body x) (body' x)) (a fuel : Nat) :
    SurvivesOp (It.each b (fun k => .index (mem k)) a body fuel) (It.each (off b) (fun k => .index (mem' k)) a body' fuel) ∧
    SurvivesOp (RIt.each b (fun k => .index (mem k)) a body fuel)
      (RIt.each (off b) (fun k => .index (mem' k)) a body' fuel) :=
  ⟨(itEach_tr b (fun k => indexFlag_tr (h k).tr) (fun x x' e => e ▸ OpTr.of_survives (hb x)) a fuel).survives,
   (ritEach_tr b (fun k => indexFlag_tr (h k).tr) (fun x x' e => e ▸ OpTr.of_survives (hb x)) a fuel).survives⟩

/-- C04 (range-based loops over rows and columns). -/
theorem C04_row_loops {σ β : Type} {mem mem' : Nat → Acc σ β} (h : ∀ k, SameAcc (mem k) (mem' k)) (b : Build)
    {body body' : Acc σ β → Op σ Unit} (hb : ∀ x x', SameAcc x x' → SurvivesOp (body x) (body' x')) (a fuel : Nat) :
    SurvivesOp (It.each b (fun k => .row b (mem k)) a body fuel)
      (It.each (off b) (fun k => .row (off b) (mem' k)) a body' fuel) ∧
    SurvivesOp (It.each b (fun k => .col b (mem k)) a body fuel)
      (It.each (off b) (fun k => .col (off b) (mem' k)) a body' fuel) :=
  ⟨(itEach_tr b (fun k => rowFlag_tr b (h k).tr) (fun x x' e => OpTr.of_survives (hb x x' e.same)) a fuel).survives,
   (itEach_tr b (fun k => colFlag_tr b (h k).tr) (fun x x' e => OpTr.of_survives (hb x x' e.same)) a fuel).survives⟩

/-- C04 (loops over index pairs). -/
theorem C04_index_loops {σ : Type} (b : Build) (m n : Int) {body body' : Int × Int → Op σ Unit}
    (hb : ∀ x, SurvivesOp (body x) (body' x)) (fuel : Nat) :
    SurvivesOp (IndexRange2D.each b m n body fuel) (IndexRange2D.each (off b) m n body' fuel) :=
  (range2Each_tr b m n (fun x => OpTr.of_survives (hb x)) fuel).survives

/-! ### Streams and random numbers -/

/-- C04 (reading). -/
theorem C04_reading [Inhabited α] (num : IO.Scanner α) (file : Option (List Char)) :
    KeepsOp (fun b => IO.readScalar b num) ∧ KeepsOp (fun b => IO.read1 b num) ∧ KeepsOp (fun b => IO.read2 b num) ∧
    KeepsOp (fun b => IO.readFile1 b num file) ∧ KeepsOp (fun b => IO.readFile2 b num file) :=
  ⟨keepsOp_of_tr fun b => OpTr.refl _, keepsOp_of_tr fun b => read1_tr b num, keepsOp_of_tr fun b => read2_tr b num,
   keepsOp_of_tr fun b => readFile1_tr b num file, keepsOp_of_tr fun b => readFile2_tr b num file⟩

/-- C04 (the pseudo-random generator). -/
theorem C04_random (t : IntTy) (clock lo hi n seed p : Int) (k : Nat) :
    Transparent (fun b => Semi.generate b p) ∧ Transparent (fun b => Semi.draws (Semi.randomInt b t lo hi) k p) ∧
    Transparent (fun b => Semi.draws (Semi.randomBool b) k p) ∧
    Transparent (fun b => Semi.semiRands b t clock lo hi seed) ∧ Transparent (fun b => Semi.semiRandsBool b clock seed) ∧
    Transparent (fun b => Semi.semiRandsNot0 b t clock lo hi seed k) ∧
    Transparent (fun b => Semi.exprState b clock lo hi n seed) :=
  ⟨transparent_of_tr fun b => generate_tr b p, transparent_of_tr fun b => draws_tr (randomInt_tr b t lo hi) k p,
   transparent_of_tr fun b => draws_tr (randomBool_tr b) k p, transparent_of_tr fun b => semiRands_tr b t clock lo hi seed,
   transparent_of_tr fun b => semiRandsBool_tr b clock seed,
   transparent_of_tr fun b => semiRandsNot0_tr b t clock lo hi seed k,
   transparent_of_tr fun b => exprState_tr b clock lo hi n seed⟩

/-- C04 (filling arrays with pseudo-random numbers). -/
theorem C04_random_fill {p p' : Acc (Store Int) Loc} (h : SameAcc p p') (b : Build) (t : IntTy) (clock lo hi seed : Int)
    (fuel : Nat) :
    SurvivesOp (Semi.semiRandom b t clock p lo hi seed) (Semi.semiRandom (off b) t clock p' lo hi seed) ∧
    SurvivesOp (Semi.semiRandomNot0 b t clock p lo hi seed fuel) (Semi.semiRandomNot0 (off b) t clock p' lo hi seed fuel) :=
  ⟨(semiRandom_tr b t clock h.tr lo hi seed).survives, (semiRandomNot0_tr b t clock h.tr lo hi seed fuel).survives⟩

/-! ### Examples -/

/-- `int` elements, whose division contains a check. -/
def checkedInts (b : Build) : Scalar Int where
  toArith := signedInts b .int
  neg := SInt.neg .int
  lt x y := decide (x < y)
  le x y := decide (x ≤ y)
  eq x y := decide (x = y)
  pow x _ := .ok x
  sqrt x := .ok x

theorem checkedInts_same (b : Build) : SameScalar (checkedInts b) (checkedInts (off b)) :=
  { zero := rfl, one := rfl, add := fun _ _ _ h => h, sub := fun _ _ _ h => h, mul := fun _ _ _ h => h,
    div := fun x y => (sdiv_tr (u := false) b .int x y).survives, ofIndex := fun _ _ h => h, neg := fun _ _ h => h,
    lt := rfl, le := rfl, eq := rfl, pow := fun _ _ _ h => h, sqrt := fun _ _ h => h }

theorem sameF_refl (f : FScalar α) : SameFScalar f f :=
  { zero := rfl, one := rfl, add := fun _ _ _ h => h, sub := fun _ _ _ h => h, mul := fun _ _ _ h => h,
    div := fun _ _ _ h => h, ofIndex := fun _ _ h => h, neg := fun _ _ h => h, lt := rfl, le := rfl, eq := rfl,
    pow := fun _ _ _ h => h, sqrt := fun _ _ h => h, fma := fun _ _ _ _ h => h }

/-- `mean(y / x)` of integers in the debug build, hence in the release build. -/
example : (do let a ← (Tm.binary (SInt.div ⟨true, true, false⟩ .int) y x).build ⟨true, true, false⟩ store
              Ops.mean (checkedInts ⟨true, true, false⟩).toArith a store 0) = .ok 2 :=
  (C04_reductions (t := .binary (SInt.div ⟨false, true, false⟩ .int) y x)
    (.binary (fun u v => (sdiv_tr (u := false) ⟨false, true, false⟩ .int u v).survives) (.lv _) (.lv _))
    ⟨false, true, false⟩ store (checkedInts_same ⟨false, true, false⟩) 0 1).2.2.1 2 (by decide +kernel)

example : (do let a ← A.build ⟨true, true, false⟩ store
              Ops.extIndex2 (fun u v => decide (v < u)) a store (0, 0, 0)) = .ok (1, 2, 6) :=
  (C04_searches (t := A) (.lv _) ⟨false, true, false⟩ store (checkedInts_same ⟨false, true, false⟩)
    (fun u v => decide (v < u)) (fun _ => true) (f := fun _ => .ok true) (f' := fun _ => .ok true) (fun _ _ h => h)
    (0, 0) (0, 0, 0) true).2.1 _ (by decide +kernel)

example : (do let a ← x.build ⟨true, true, false⟩ store
              let c ← y.build ⟨true, true, false⟩ store
              Ops.dotProd ⟨true, true, false⟩ .one (checkedInts ⟨true, true, false⟩).toArith a c store 0) = .ok 32 :=
  (C04_pairs (t := x) (u := y) (.lv _) (.lv _) ⟨false, true, false⟩ store (checkedInts_same ⟨false, true, false⟩)
    (fun u v => decide (u ≠ v)) (f := fun _ _ => .ok true) (f' := fun _ _ => .ok true) (fun _ _ _ h => h)
    0 0 0 true).2.2.2.2.2.1 _ (by decide +kernel)

/-- Integers used as a "floating-point" type without rounding. -/
def wide : FScalar Int where
  toArith := ints
  neg x := .ok (-x)
  lt x y := decide (x < y)
  le x y := decide (x ≤ y)
  eq x y := decide (x = y)
  pow x _ := .ok x
  sqrt x := .ok x
  fma x y z := .ok (x * y + z)

example : (do let a ← x.build ⟨true, true, false⟩ store
              let c ← y.build ⟨true, true, false⟩ store
              Stable.dotProd ⟨true, true, false⟩ .one wide a c store 0) = .ok 32 :=
  (C04_compensated (t := x) (u := y) (.lv _) (.lv _) ⟨false, true, false⟩ store (sameF_refl wide) 0 2).2.2.2.2.1 _
    (by decide +kernel)

example : Ops.polynomial ⟨false, true, false⟩ ints (Acc.oneD (fun _ => 3) (fun _ i => .ok (i + 1))) 2 store 0 = .ok 17 := by
  decide +kernel

example : ErrorTools.withinTolAbs ⟨false, true, false⟩ wide.toScalar 5 7 2 = .ok true := by decide

example : ((do
              let s ← Op.get
              let p ← Op.lift ((Lv.view (.slice .reverse) (.arr1 0)).build ⟨false, true, false⟩ s)
              Ops.forEach (fun v => SInt.div ⟨false, true, false⟩ .int 12 v) p : Op (Store Int) Unit) store).1 = .ok () := by
  decide +kernel

example : It.deref ⟨false, true, false⟩ (fun _ => .index (Lv.acc1 Int 0)) ⟨some 0, 1⟩ store = .ok (.one 0 1) ∧
    It.diff ⟨false, true, false⟩ ⟨some 0, 3⟩ ⟨some 0, 1⟩ = .ok 2 := by decide

example : (It.each ⟨false, true, false⟩ (fun _ => .index (Lv.acc1 Int 0)) 0 (fun l => put l 9) 10 store).1 =
    .ok (some ()) := by decide

example : (It.each ⟨false, true, false⟩ (fun _ => .row ⟨false, true, false⟩ (Lv.acc2 Int 0)) 0
    (fun r => Ops.forEach (fun v => .ok (v + 1)) r) 10 store).1 = .ok (some ()) := by decide +kernel

example : IndexRange2D.each ⟨false, true, false⟩ 2 2 (fun p l => (.ok (), l ++ [p])) 10 [] =
    (.ok (some ()), [(0, 0), (0, 1), (1, 0), (1, 1)]) := by decide

example : (IO.read1 ⟨false, true, false⟩ (IO.scanInt .int) (.ofText "7 -12 3".toList, [])).1 = .ok () := by
  decide +kernel

example : Semi.semiRands ⟨false, true, false⟩ .int 48 1 6 42 = .ok 4 ∧
    Semi.semiRands ⟨true, true, false⟩ .int 48 1 6 42 = .ok 4 := by decide +kernel

example : (Semi.semiRandom ⟨false, true, false⟩ .int 48 (Lv.acc1 Int 0) 1 6 42 store).1 = .ok () := by decide +kernel

/-! ### The converse direction -/

/-- C04 (the checks can themselves be undefined): `A(seqN{2, 2, LONG_MAX})` of three elements overflows inside the check
in every checked build; compiled without checks it is a slice whose first element can be read. -/
theorem C04_check_overflows (b : Build) (hb : b.Checked) :
    mkSlice b 3 false (.seqN 2 2 9223372036854775807) = .ub ∧
    mkSlice (off b) 3 false (.seqN 2 2 9223372036854775807) = .ok (.seqN 2 2 9223372036854775807) := by
  rcases b with ⟨_ | _, _ | _, _ | _⟩ <;> revert hb <;> decide

/-- C04 (likewise): `A.remove(1, LONG_MAX)` is undefined in every checked build; without the check the buffer of negative
size is refused by the allocation and `A` is unchanged. -/
theorem C04_remove_overflows (b : Build) (hb : b.Checked) :
    (Arr1.remove b 1 9223372036854775807 [(1 : Int), 2, 3]).1 = .ub ∧
    (Arr1.remove (off b) 1 9223372036854775807 [(1 : Int), 2, 3]) = (.trap .exception, [1, 2, 3]) := by
  rcases b with ⟨_ | _, _ | _, _ | _⟩ <;> revert hb <;> decide

end Spp.Props
