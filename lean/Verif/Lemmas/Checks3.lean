import Verif.Lemmas.Checks2
import Verif.Spec.ChecksOps
import Verif.Model.ErrorTools

/- Operations on whole arrays with and without debug checks (see Lemmas/Checks.lean). -/

set_option linter.unusedSectionVars false
set_option linter.unusedVariables false

namespace Spp

open Spec

section

variable {α : Type}

theorem Spec.SameArith.tadd {x y : Arith α} (h : SameArith x y) (u v) : Tr false Eq (x.add u v) (y.add u v) :=
  .of_survives (h.add u v)
theorem Spec.SameArith.tsub {x y : Arith α} (h : SameArith x y) (u v) : Tr false Eq (x.sub u v) (y.sub u v) :=
  .of_survives (h.sub u v)
theorem Spec.SameArith.tmul {x y : Arith α} (h : SameArith x y) (u v) : Tr false Eq (x.mul u v) (y.mul u v) :=
  .of_survives (h.mul u v)
theorem Spec.SameArith.tdiv {x y : Arith α} (h : SameArith x y) (u v) : Tr false Eq (x.div u v) (y.div u v) :=
  .of_survives (h.div u v)
theorem Spec.SameArith.tofIndex {x y : Arith α} (h : SameArith x y) (i) : Tr false Eq (x.ofIndex i) (y.ofIndex i) :=
  .of_survives (h.ofIndex i)
theorem Spec.SameScalar.tneg {x y : Scalar α} (h : SameScalar x y) (u) : Tr false Eq (x.neg u) (y.neg u) :=
  .of_survives (h.neg u)
theorem Spec.SameScalar.tpow {x y : Scalar α} (h : SameScalar x y) (u v) : Tr false Eq (x.pow u v) (y.pow u v) :=
  .of_survives (h.pow u v)
theorem Spec.SameScalar.tsqrt {x y : Scalar α} (h : SameScalar x y) (u) : Tr false Eq (x.sqrt u) (y.sqrt u) :=
  .of_survives (h.sqrt u)
theorem Spec.SameFScalar.tfma {x y : FScalar α} (h : SameFScalar x y) (u v w) : Tr false Eq (x.fma u v w) (y.fma u v w) :=
  .of_survives (h.fma u v w)

end

macro_rules | `(tactic| checks_lemma) => `(tactic| with_reducible apply Spec.SameArith.tadd; assumption)
macro_rules | `(tactic| checks_lemma) => `(tactic| with_reducible apply Spec.SameArith.tsub; assumption)
macro_rules | `(tactic| checks_lemma) => `(tactic| with_reducible apply Spec.SameArith.tmul; assumption)
macro_rules | `(tactic| checks_lemma) => `(tactic| with_reducible apply Spec.SameArith.tdiv; assumption)
macro_rules | `(tactic| checks_lemma) => `(tactic| with_reducible apply Spec.SameArith.tofIndex; assumption)
macro_rules | `(tactic| checks_lemma) => `(tactic| with_reducible apply Spec.SameScalar.tneg; assumption)
macro_rules | `(tactic| checks_lemma) => `(tactic| with_reducible apply Spec.SameScalar.tpow; assumption)
macro_rules | `(tactic| checks_lemma) => `(tactic| with_reducible apply Spec.SameScalar.tsqrt; assumption)
macro_rules | `(tactic| checks_lemma) => `(tactic| with_reducible apply Spec.SameFScalar.tfma; assumption)

section

variable {σ α : Type} (b : Build) {a a' a1 a1' a2 a2' : Acc σ α} {ar ar' : Arith α} {sc sc' : Scalar α}

theorem mins_eq (h : SameScalar sc sc') : sc.mins = sc'.mins := by
  unfold Scalar.mins
  rw [h.lt]
theorem maxs_eq (h : SameScalar sc sc') : sc.maxs = sc'.maxs := by
  unfold Scalar.maxs
  rw [h.lt]

theorem sabss_tr (h : SameScalar sc sc') (x : α) : Tr false Eq (sc.abss x) (sc'.abss x) := by
  unfold Scalar.abss
  rw [h.lt, h.zero]
  checks
macro_rules | `(tactic| checks_lemma) => `(tactic| with_reducible apply sabss_tr; assumption)

theorem sinvs_tr (h : SameScalar sc sc') (x : α) : Tr false Eq (sc.invs x) (sc'.invs x) := by
  have h' := h.toSameArith
  unfold Scalar.invs
  rw [h.one]
  checks
macro_rules | `(tactic| checks_lemma) => `(tactic| with_reducible apply sinvs_tr; assumption)

theorem anyLoop_tr {p p' : Nat → Res Bool} (h : ∀ i, Tr false Eq (p i) (p' i)) (n i : Nat) :
    Tr false Eq (Ops.anyLoop p n i) (Ops.anyLoop p' n i) := by
  induction n generalizing i with
  | zero => exact Tr.refl _
  | succ n ih => exact Tr.bindEq (h i) fun c => Tr.ite (Tr.refl _) (ih _)

theorem allLoop_tr {p p' : Nat → Res Bool} (h : ∀ i, Tr false Eq (p i) (p' i)) (n i : Nat) :
    Tr false Eq (Ops.allLoop p n i) (Ops.allLoop p' n i) := by
  induction n generalizing i with
  | zero => exact Tr.refl _
  | succ n ih => exact Tr.bindEq (h i) fun c => Tr.ite (Tr.refl _) (ih _)

theorem equal_tr (d : Dim) (ne : α → α → Bool) (h1 : AccTr a1 a1') (h2 : AccTr a2 a2') (s : σ) :
    Tr false Eq (Ops.equal d ne a1 a2 s) (Ops.equal d ne a1' a2' s) := by
  unfold Ops.equal
  rw [AccTr.sameSize d h1 h2]
  refine Tr.ite (Tr.refl _) (Tr.bindEq (h1.size s) fun n => allLoop_tr (fun i => ?_) _ _)
  checks
macro_rules | `(tactic| checks_lemma) => `(tactic| with_reducible apply equal_tr <;> assumption)

theorem notEqual_tr (d : Dim) (ne : α → α → Bool) (h1 : AccTr a1 a1') (h2 : AccTr a2 a2') (s : σ) :
    Tr false Eq (Ops.notEqual d ne a1 a2 s) (Ops.notEqual d ne a1' a2' s) := by
  unfold Ops.notEqual
  checks

theorem foldElems_tr {f f' : α → α → Res α} (hf : ∀ x y, Tr false Eq (f x y) (f' x y)) (h : AccTr a a') (s : σ)
    (d : α) : Tr false Eq (Ops.foldElems f a s d) (Ops.foldElems f' a' s d) := by
  unfold Ops.foldElems
  refine Tr.bindEq (h.empty s) fun e => Tr.ite (Tr.refl _) ?_
  exact Tr.bindEq (h.un s _) fun x => Tr.bindEq (h.size s) fun n => Tr.foldN _ _ fun k acc =>
    Tr.bindEq (h.un s _) fun y => hf _ _

theorem sum_tr (hr : SameArith ar ar') (h : AccTr a a') (s : σ) (d : α) :
    Tr false Eq (Ops.sum ar a s d) (Ops.sum ar' a' s d) := foldElems_tr (fun x y => hr.tadd x y) h s d
macro_rules | `(tactic| checks_lemma) => `(tactic| with_reducible apply sum_tr <;> assumption)
theorem prod_tr (hr : SameArith ar ar') (h : AccTr a a') (s : σ) (d : α) :
    Tr false Eq (Ops.prod ar a s d) (Ops.prod ar' a' s d) := foldElems_tr (fun x y => hr.tmul x y) h s d
theorem mean_tr (hr : SameArith ar ar') (h : AccTr a a') (s : σ) (d : α) :
    Tr false Eq (Ops.mean ar a s d) (Ops.mean ar' a' s d) := by
  unfold Ops.mean
  rw [hr.zero]
  checks
macro_rules | `(tactic| checks_lemma) => `(tactic| with_reducible apply mean_tr <;> assumption)
theorem min_tr (hr : SameScalar sc sc') (h : AccTr a a') (s : σ) (d : α) :
    Tr false Eq (Ops.min sc a s d) (Ops.min sc' a' s d) := by
  unfold Ops.min
  rw [mins_eq hr]
  exact foldElems_tr (fun x y => Tr.refl _) h s d
theorem max_tr (hr : SameScalar sc sc') (h : AccTr a a') (s : σ) (d : α) :
    Tr false Eq (Ops.max sc a s d) (Ops.max sc' a' s d) := by
  unfold Ops.max
  rw [maxs_eq hr]
  exact foldElems_tr (fun x y => Tr.refl _) h s d

theorem extIndex1_tr (better : α → α → Bool) (h : AccTr a a') (s : σ) (d : Int × α) :
    Tr false Eq (Ops.extIndex1 better a s d) (Ops.extIndex1 better a' s d) := by
  unfold Ops.extIndex1
  checks
theorem extIndex2_tr (better : α → α → Bool) (h : AccTr a a') (s : σ) (d : Int × Int × α) :
    Tr false Eq (Ops.extIndex2 better a s d) (Ops.extIndex2 better a' s d) := by
  unfold Ops.extIndex2
  rw [h.rows, h.cols]
  checks

theorem anyOf_tr {f f' : α → Res Bool} (hf : ∀ x, Tr false Eq (f x) (f' x)) (h : AccTr a a') (s : σ) (d : Bool) :
    Tr false Eq (Ops.anyOf f a s d) (Ops.anyOf f' a' s d) := by
  unfold Ops.anyOf
  exact Tr.bindEq (h.empty s) fun e => Tr.ite (Tr.refl _) (Tr.bindEq (h.size s) fun n =>
    anyLoop_tr (fun i => Tr.bindEq (h.un s i) fun x => hf x) _ _)
theorem allOf_tr {f f' : α → Res Bool} (hf : ∀ x, Tr false Eq (f x) (f' x)) (h : AccTr a a') (s : σ) (d : Bool) :
    Tr false Eq (Ops.allOf f a s d) (Ops.allOf f' a' s d) := by
  unfold Ops.allOf
  exact Tr.bindEq (h.empty s) fun e => Tr.ite (Tr.refl _) (Tr.bindEq (h.size s) fun n =>
    allLoop_tr (fun i => Tr.bindEq (h.un s i) fun x => hf x) _ _)
theorem noneOf_tr {f f' : α → Res Bool} (hf : ∀ x, Tr false Eq (f x) (f' x)) (h : AccTr a a') (s : σ) (d : Bool) :
    Tr false Eq (Ops.noneOf f a s d) (Ops.noneOf f' a' s d) := by
  unfold Ops.noneOf
  exact Tr.bindEq (h.empty s) fun e => Tr.ite (Tr.refl _) (Tr.bindEq (anyOf_tr hf h s _) fun n => Tr.refl _)
theorem anyOf2_tr (d : Dim) {f f' : α → α → Res Bool} (hf : ∀ x y, Tr false Eq (f x y) (f' x y)) (h1 : AccTr a1 a1')
    (h2 : AccTr a2 a2') (s : σ) (df : Bool) :
    Tr false Eq (Ops.anyOf2 b d f a1 a2 s df) (Ops.anyOf2 (off b) d f' a1' a2' s df) := by
  unfold Ops.anyOf2
  rw [AccTr.sameSize d h1 h2]
  exact Tr.bindEq (Tr.assertDebug _ _) fun _ => Tr.bindEq (h1.empty s) fun e => Tr.ite (Tr.refl _)
    (Tr.bindEq (h1.size s) fun n => anyLoop_tr (fun i => Tr.bindEq (h1.un s i) fun x =>
      Tr.bindEq (h2.un s i) fun y => hf x y) _ _)
theorem allOf2_tr (d : Dim) {f f' : α → α → Res Bool} (hf : ∀ x y, Tr false Eq (f x y) (f' x y)) (h1 : AccTr a1 a1')
    (h2 : AccTr a2 a2') (s : σ) (df : Bool) :
    Tr false Eq (Ops.allOf2 b d f a1 a2 s df) (Ops.allOf2 (off b) d f' a1' a2' s df) := by
  unfold Ops.allOf2
  rw [AccTr.sameSize d h1 h2]
  exact Tr.bindEq (Tr.assertDebug _ _) fun _ => Tr.bindEq (h1.empty s) fun e => Tr.ite (Tr.refl _)
    (Tr.bindEq (h1.size s) fun n => allLoop_tr (fun i => Tr.bindEq (h1.un s i) fun x =>
      Tr.bindEq (h2.un s i) fun y => hf x y) _ _)
theorem noneOf2_tr (d : Dim) {f f' : α → α → Res Bool} (hf : ∀ x y, Tr false Eq (f x y) (f' x y)) (h1 : AccTr a1 a1')
    (h2 : AccTr a2 a2') (s : σ) (df : Bool) :
    Tr false Eq (Ops.noneOf2 b d f a1 a2 s df) (Ops.noneOf2 (off b) d f' a1' a2' s df) := by
  unfold Ops.noneOf2
  rw [AccTr.sameSize d h1 h2]
  exact Tr.bindEq (Tr.assertDebug _ _) fun _ => Tr.bindEq (h1.empty s) fun e => Tr.ite (Tr.refl _)
    (Tr.bindEq (anyOf2_tr b d hf h1 h2 s _) fun n => Tr.refl _)

theorem hasZero_tr (hr : SameScalar sc sc') (h : AccTr a a') (s : σ) (d : Bool) :
    Tr false Eq (Ops.hasZero sc a s d) (Ops.hasZero sc' a' s d) := by
  unfold Ops.hasZero
  rw [hr.zero, hr.eq]
  exact anyOf_tr (fun x => Tr.refl _) h s d
macro_rules | `(tactic| checks_lemma) => `(tactic| with_reducible apply hasZero_tr <;> assumption)
theorem allZeros_tr (hr : SameScalar sc sc') (h : AccTr a a') (s : σ) (d : Bool) :
    Tr false Eq (Ops.allZeros sc a s d) (Ops.allZeros sc' a' s d) := by
  unfold Ops.allZeros
  rw [hr.zero, hr.eq]
  exact allOf_tr (fun x => Tr.refl _) h s d
theorem allPos_tr (hr : SameScalar sc sc') (h : AccTr a a') (s : σ) (d : Bool) :
    Tr false Eq (Ops.allPos sc a s d) (Ops.allPos sc' a' s d) := by
  unfold Ops.allPos
  rw [hr.zero, hr.lt]
  exact allOf_tr (fun x => Tr.refl _) h s d
theorem allNeg_tr (hr : SameScalar sc sc') (h : AccTr a a') (s : σ) (d : Bool) :
    Tr false Eq (Ops.allNeg sc a s d) (Ops.allNeg sc' a' s d) := by
  unfold Ops.allNeg
  rw [hr.zero, hr.lt]
  exact allOf_tr (fun x => Tr.refl _) h s d
theorem allNonPos_tr (hr : SameScalar sc sc') (h : AccTr a a') (s : σ) (d : Bool) :
    Tr false Eq (Ops.allNonPos sc a s d) (Ops.allNonPos sc' a' s d) := by
  unfold Ops.allNonPos
  rw [hr.zero, hr.le]
  exact allOf_tr (fun x => Tr.refl _) h s d
theorem allNonNeg_tr (hr : SameScalar sc sc') (h : AccTr a a') (s : σ) (d : Bool) :
    Tr false Eq (Ops.allNonNeg sc a s d) (Ops.allNonNeg sc' a' s d) := by
  unfold Ops.allNonNeg
  rw [hr.zero, hr.le]
  exact allOf_tr (fun x => Tr.refl _) h s d
theorem allFinite_tr (f : α → Bool) (h : AccTr a a') (s : σ) (d : Bool) :
    Tr false Eq (Ops.allFinite f a s d) (Ops.allFinite f a' s d) := by
  unfold Ops.allFinite
  exact Tr.bindEq (h.empty s) fun e => Tr.ite (Tr.refl _) (allOf_tr (fun x => Tr.refl _) h s _)
theorem hasSuch_tr (f : α → Bool) (h : AccTr a a') (s : σ) (d : Bool) :
    Tr false Eq (Ops.hasSuch f a s d) (Ops.hasSuch f a' s d) := by
  unfold Ops.hasSuch
  exact Tr.bindEq (h.empty s) fun e => Tr.ite (Tr.refl _) (anyOf_tr (fun x => Tr.refl _) h s _)

theorem dotProd_tr (d : Dim) (hr : SameArith ar ar') (h1 : AccTr a1 a1') (h2 : AccTr a2 a2') (s : σ) (df : α) :
    Tr false Eq (Ops.dotProd b d ar a1 a2 s df) (Ops.dotProd (off b) d ar' a1' a2' s df) := by
  unfold Ops.dotProd
  rw [AccTr.sameSize d h1 h2, hr.zero]
  exact Tr.bindEq (Tr.assertDebug _ _) fun _ => Tr.bindEq (h1.empty s) fun e => Tr.ite (Tr.refl _)
    (Tr.bind (mkBinary_tr b d (fun x y => hr.tmul x y) h1 h2 s) fun p p' hp => sum_tr hr hp s _)

theorem normInf_tr (hr : SameScalar sc sc') (h : AccTr a a') (s : σ) (d : α) :
    Tr false Eq (Ops.normInf sc a s d) (Ops.normInf sc' a' s d) := by
  unfold Ops.normInf
  rw [hr.zero]
  exact Tr.bindEq (h.empty s) fun e => Tr.ite (Tr.refl _) (max_tr hr (h.unary (sabss_tr hr)) s _)
theorem norm1_tr (hr : SameScalar sc sc') (h : AccTr a a') (s : σ) (d : α) :
    Tr false Eq (Ops.norm1 sc a s d) (Ops.norm1 sc' a' s d) := by
  unfold Ops.norm1
  rw [hr.zero]
  exact Tr.bindEq (h.empty s) fun e => Tr.ite (Tr.refl _) (sum_tr hr.toSameArith (h.unary (sabss_tr hr)) s _)
theorem norm1Scaled_tr (hr : SameScalar sc sc') (h : AccTr a a') (s : σ) (d : α) :
    Tr false Eq (Ops.norm1Scaled sc a s d) (Ops.norm1Scaled sc' a' s d) := by
  unfold Ops.norm1Scaled
  rw [hr.zero]
  exact Tr.bindEq (h.empty s) fun e => Tr.ite (Tr.refl _) (mean_tr hr.toSameArith (h.unary (sabss_tr hr)) s _)
theorem norm2_tr (dm : Dim) (hr : SameScalar sc sc') (h : AccTr a a') (s : σ) (d : α) :
    Tr false Eq (Ops.norm2 b dm sc a s d) (Ops.norm2 (off b) dm sc' a' s d) := by
  unfold Ops.norm2
  rw [hr.zero]
  exact Tr.bindEq (h.empty s) fun e => Tr.ite (Tr.refl _)
    (Tr.bindEq (dotProd_tr b dm hr.toSameArith h h s _) fun t => hr.tsqrt t)
macro_rules | `(tactic| checks_lemma) => `(tactic| with_reducible apply norm2_tr <;> assumption)
theorem norm2Scaled_tr (dm : Dim) (hr : SameScalar sc sc') (h : AccTr a a') (s : σ) (d : α) :
    Tr false Eq (Ops.norm2Scaled b dm sc a s d) (Ops.norm2Scaled (off b) dm sc' a' s d) := by
  have hr' := hr.toSameArith
  unfold Ops.norm2Scaled
  rw [hr.zero]
  checks
theorem normLp_tr (hr : SameScalar sc sc') (h : AccTr a a') (s : σ) (lp : Int) (d : α) :
    Tr false Eq (Ops.normLp b sc a s lp d) (Ops.normLp (off b) sc' a' s lp d) := by
  have hr' := hr.toSameArith
  unfold Ops.normLp
  rw [hr.zero]
  exact Tr.bindEq (Tr.assertDebug _ _) fun _ => Tr.bindEq (h.empty s) fun e => Tr.ite (Tr.refl _)
    (Tr.bindEq (hr'.tofIndex lp) fun c => Tr.bindEq (sum_tr hr' ((h.unary (fun x => hr.tpow x c)).unary
      (sabss_tr hr)) s _) fun t => by checks)
macro_rules | `(tactic| checks_lemma) => `(tactic| with_reducible apply normLp_tr <;> assumption)
theorem normLpScaled_tr (hr : SameScalar sc sc') (h : AccTr a a') (s : σ) (lp : Int) (d : α) :
    Tr false Eq (Ops.normLpScaled b sc a s lp d) (Ops.normLpScaled (off b) sc' a' s lp d) := by
  have hr' := hr.toSameArith
  unfold Ops.normLpScaled
  rw [hr.zero]
  checks

theorem polynomial_tr (hr : SameArith ar ar') (h : AccTr a a') (x : α) (s : σ) (d : α) :
    Tr false Eq (Ops.polynomial b ar a x s d) (Ops.polynomial (off b) ar' a' x s d) := by
  unfold Ops.polynomial
  rw [h.rows]
  checks

variable {P P' : Acc σ Int}

theorem gpolynomial_tr (hr : SameArith ar ar') {pw pw' : α → α → Res α} (hp : ∀ x y, Tr false Eq (pw x y) (pw' x y))
    (h1 : AccTr a1 a1') (h2 : AccTr a2 a2') (h : AccTr P P') (s : σ) (d : α) :
    Tr false Eq (Ops.gpolynomial b ar pw a1 a2 P s d) (Ops.gpolynomial (off b) ar' pw' a1' a2' P' s d) := by
  unfold Ops.gpolynomial
  rw [AccTr.sameSize .one h1 h2, AccTr.sameSize .one h2 h, hr.zero]
  refine Tr.bindEq (Tr.assertDebug _ _) fun _ => Tr.bindEq (h1.empty s) fun e => Tr.ite (Tr.refl _) ?_
  refine Tr.bindEq (Tr.assertDebugM _ _ _) fun _ => Tr.bindEq (h2.size s) fun n => Tr.foldN _ _ fun k z => ?_
  exact Tr.bindEq (h1.un s _) fun c => Tr.bindEq (h2.un s _) fun x => Tr.bindEq (h.un s _) fun p =>
    Tr.bindEq (hr.tofIndex _) fun p => Tr.bindEq (hp _ _) fun y => Tr.bindEq (hr.tmul _ _) fun t => hr.tadd _ _

theorem polynomialPowers_tr (hr : SameArith ar ar') {pw pw' : α → α → Res α}
    (hp : ∀ x y, Tr false Eq (pw x y) (pw' x y))
    (h1 : AccTr a1 a1') (x : α) (h : AccTr P P') (s : σ) (d : α) :
    Tr false Eq (Ops.polynomialPowers b ar pw a1 x P s d) (Ops.polynomialPowers (off b) ar' pw' a1' x P' s d) := by
  unfold Ops.polynomialPowers
  rw [AccTr.sameSize .one h1 h, hr.zero, h1.rows]
  exact Tr.bindEq (Tr.assertDebug _ _) fun _ => Tr.bindEq (h1.empty s) fun e => Tr.ite (Tr.refl _)
    (Tr.bindEq (Tr.assertDebugM _ _ _) fun _ => Tr.bind (mkConst1D_tr b _ _) fun X X' hX =>
      gpolynomial_tr b hr hp h1 hX h s _)

theorem blasArray_tr (h : AccTr a a') (s : σ) : Tr false Eq (Ops.blasArray a s) (Ops.blasArray a' s) := by
  unfold Ops.blasArray
  checks

theorem inCondRange_tr {β : Type} {p p' : Acc σ β} (f : α → Bool) (hp : AccTr p p') (h : AccTr a a') (s : σ) :
    Tr false AccTr (Ops.inCondRange b f p a s) (Ops.inCondRange (off b) f p' a' s) := by
  unfold Ops.inCondRange
  rw [hp.rows]
  exact Tr.bindEq (Tr.foldN _ _ fun i idx => Tr.bindEq (h.un s _) fun x => Tr.refl _) fun idx =>
    mkSlice1_tr b hp s _
theorem inOpenRange_tr {β : Type} {p p' : Acc σ β} (hr : SameScalar sc sc') (lo hi : α) (hp : AccTr p p')
    (h : AccTr a a') (s : σ) :
    Tr false AccTr (Ops.inOpenRange b sc lo hi p a s) (Ops.inOpenRange (off b) sc' lo hi p' a' s) := by
  unfold Ops.inOpenRange
  rw [hr.lt, hr.le]
  exact Tr.bindEq (Tr.assertDebug _ _) fun _ => inCondRange_tr b _ hp h s
theorem inClosedRange_tr {β : Type} {p p' : Acc σ β} (hr : SameScalar sc sc') (lo hi : α) (hp : AccTr p p')
    (h : AccTr a a') (s : σ) :
    Tr false AccTr (Ops.inClosedRange b sc lo hi p a s) (Ops.inClosedRange (off b) sc' lo hi p' a' s) := by
  unfold Ops.inClosedRange
  rw [hr.le]
  exact Tr.bindEq (Tr.assertDebug _ _) fun _ => inCondRange_tr b _ hp h s

theorem forEach_tr {f f' : α → Res α} (hf : ∀ x, Tr false Eq (f x) (f' x)) {p p' : Acc (Store α) Loc}
    (h : AccTr p p') : OpTr false Eq (Ops.forEach f p) (Ops.forEach f' p') :=
  updateAll_tr h fun _ _ x => hf x

theorem forEachIn_tr {τ : Type} {f f' : α → τ → Res τ} (hf : ∀ x t, Tr false Eq (f x t) (f' x t))
    (h : AccTr a a') (s : σ) (t : τ) : Tr false Eq (Ops.forEachIn f a s t) (Ops.forEachIn f' a' s t) := by
  unfold Ops.forEachIn
  exact Tr.bindEq (h.size s) fun n => Tr.foldN _ _ fun i t => Tr.bindEq (h.un s _) fun x => hf _ _

theorem sort_tr (srt : (α → α → Bool) → List α → List α) (f : α → α → Bool) {p p' : Acc (Store α) Loc}
    (h : AccTr p p') : OpTr false Eq (Ops.sort srt f p) (Ops.sort srt f p') := by
  unfold Ops.sort
  refine OpTr.bindEq (OpTr.refl _) fun s => OpTr.bindEq (OpTr.lift (h.size s)) fun n => ?_
  refine OpTr.bindEq (OpTr.lift (Tr.foldN _ _ fun i l => ?_)) fun l => copyList_tr h _
  exact Tr.bindEq (h.un s _) fun q => Tr.refl _

/-! ### Comparisons with a tolerance -/

open ErrorTools in
theorem withinTolAbs_tr (hr : SameScalar sc sc') (x y t : α) :
    Tr false Eq (withinTolAbs b sc x y t) (withinTolAbs (off b) sc' x y t) := by
  have hr' := hr.toSameArith
  unfold withinTolAbs
  rw [hr.zero, hr.le]
  checks
open ErrorTools in
theorem withinTolRel_tr (hr : SameScalar sc sc') (x y t z : α) :
    Tr false Eq (withinTolRel b sc x y t z) (withinTolRel (off b) sc' x y t z) := by
  have hr' := hr.toSameArith
  unfold withinTolRel
  rw [hr.zero, hr.le, maxs_eq hr]
  checks
open ErrorTools in
theorem withinTolAbsArray_tr (d : Dim) (hr : SameScalar sc sc') (h1 : AccTr a1 a1') (h2 : AccTr a2 a2') (t : α)
    (s : σ) (df : Bool) :
    Tr false Eq (withinTolAbsArray b d sc a1 a2 t s df) (withinTolAbsArray (off b) d sc' a1' a2' t s df) := by
  unfold withinTolAbsArray
  rw [AccTr.sameSize d h1 h2]
  exact Tr.bindEq (Tr.assertDebug _ _) fun _ => Tr.bindEq (h1.empty s) fun e => Tr.ite (Tr.refl _)
    (allOf2_tr b d (fun x y => withinTolAbs_tr b hr x y t) h1 h2 s _)
open ErrorTools in
theorem withinTolRelArray_tr (d : Dim) (hr : SameScalar sc sc') (h1 : AccTr a1 a1') (h2 : AccTr a2 a2') (t z : α)
    (s : σ) (df : Bool) :
    Tr false Eq (withinTolRelArray b d sc a1 a2 t z s df) (withinTolRelArray (off b) d sc' a1' a2' t z s df) := by
  unfold withinTolRelArray
  rw [AccTr.sameSize d h1 h2]
  exact Tr.bindEq (Tr.assertDebug _ _) fun _ => Tr.bindEq (h1.empty s) fun e => Tr.ite (Tr.refl _)
    (allOf2_tr b d (fun x y => withinTolRel_tr b hr x y t z) h1 h2 s _)
open ErrorTools in
theorem absError_tr (hr : SameScalar sc sc') (x y : α) : Tr false Eq (absError sc x y) (absError sc' x y) := by
  have hr' := hr.toSameArith
  unfold absError
  checks
open ErrorTools in
theorem relError_tr (hr : SameScalar sc sc') (x y : α) : Tr false Eq (relError sc x y) (relError sc' x y) := by
  have hr' := hr.toSameArith
  unfold relError
  rw [hr.zero, hr.eq]
  checks
open ErrorTools in
theorem maxAbsError_tr (d : Dim) (hr : SameScalar sc sc') (h1 : AccTr a1 a1') (h2 : AccTr a2 a2') (s : σ) (df : α) :
    Tr false Eq (maxAbsError b d sc a1 a2 s df) (maxAbsError (off b) d sc' a1' a2' s df) := by
  unfold maxAbsError
  rw [AccTr.sameSize d h1 h2, hr.zero]
  exact Tr.bindEq (Tr.assertDebug _ _) fun _ => Tr.bindEq (h1.empty s) fun e => Tr.ite (Tr.refl _)
    (Tr.bind (mkBinary_tr b d (fun x y => hr.toSameArith.tsub x y) h1 h2 s) fun t t' ht => normInf_tr hr ht s _)
open ErrorTools in
theorem maxRelError_tr (d : Dim) (hr : SameScalar sc sc') (h1 : AccTr a1 a1') (h2 : AccTr a2 a2') (s : σ) (df : α) :
    Tr false Eq (maxRelError b d sc a1 a2 s df) (maxRelError (off b) d sc' a1' a2' s df) := by
  unfold maxRelError
  rw [AccTr.sameSize d h1 h2, hr.zero]
  refine Tr.bindEq (Tr.assertDebug _ _) fun _ => Tr.bindEq (h1.empty s) fun e => Tr.ite (Tr.refl _) ?_
  refine Tr.bindEq (hasZero_tr hr h1 s _) fun z1 => ?_
  have hj : ∀ z : Bool, Tr false Eq (if z = true then pure none else do
        let t ← Tm.mkBinary b d sc.sub a1 a2 s
        let q ← Tm.mkBinary b d sc.div t a2 s
        let v ← Ops.normInf sc q s sc'.zero
        pure (some v) : Res (Option α)) (if z = true then pure none else do
        let t ← Tm.mkBinary (off b) d sc'.sub a1' a2' s
        let q ← Tm.mkBinary (off b) d sc'.div t a2' s
        let v ← Ops.normInf sc' q s sc'.zero
        pure (some v)) := fun z => by
    refine Tr.ite (Tr.refl _) (Tr.bind (mkBinary_tr b d (fun x y => hr.toSameArith.tsub x y) h1 h2 s) fun t t' ht => ?_)
    refine Tr.bind (mkBinary_tr b d (fun x y => hr.toSameArith.tdiv x y) ht h2 s) fun q q' hq => ?_
    exact Tr.bindEq (normInf_tr hr hq s _) fun v => Tr.refl _
  exact Tr.bindEq (hasZero_tr hr h2 s _) fun z2 => hj (z1 || z2)

/-! ### Compensated operations -/

variable {fs fs' : FScalar α}

theorem twoSums_tr (hr : SameFScalar fs fs') (x y : α) : Tr false Eq (fs.twoSums x y) (fs'.twoSums x y) := by
  have h' := hr.toSameScalar.toSameArith
  unfold FScalar.twoSums
  checks
macro_rules | `(tactic| checks_lemma) => `(tactic| with_reducible apply twoSums_tr <;> assumption)
theorem twoProds_tr (hr : SameFScalar fs fs') (x y : α) : Tr false Eq (fs.twoProds x y) (fs'.twoProds x y) := by
  have h'' := hr.toSameScalar
  have h' := hr.toSameScalar.toSameArith
  unfold FScalar.twoProds
  checks
macro_rules | `(tactic| checks_lemma) => `(tactic| with_reducible apply twoProds_tr <;> assumption)
theorem powProdsGeneral_tr (hr : SameFScalar fs fs') (x : α) (p : Int) :
    Tr false Eq (fs.powProdsGeneral x p) (fs'.powProdsGeneral x p) := by
  have h'' := hr.toSameScalar
  have h' := hr.toSameScalar.toSameArith
  unfold FScalar.powProdsGeneral
  rw [h'.zero, h'.one]
  checks
macro_rules | `(tactic| checks_lemma) => `(tactic| with_reducible apply powProdsGeneral_tr <;> assumption)
theorem powProds_tr (hr : SameFScalar fs fs') (x : α) (p : Int) :
    Tr false Eq (fs.powProds b x p) (fs'.powProds (off b) x p) := by
  have h'' := hr.toSameScalar
  have h' := hr.toSameScalar.toSameArith
  unfold FScalar.powProds
  checks
macro_rules | `(tactic| checks_lemma) => `(tactic| with_reducible apply powProds_tr <;> assumption)

theorem sumStep_tr (hr : SameFScalar fs fs') (x : α) (q : α × α) :
    Tr false Eq (Stable.sumStep fs x q) (Stable.sumStep fs' x q) := by
  have h'' := hr.toSameScalar
  have h' := hr.toSameScalar.toSameArith
  unfold Stable.sumStep
  rw [h''.le]
  checks
theorem sumLoop_tr {τ : Type} (hr : SameFScalar fs fs') (n : Nat) {f f' : Nat → τ → Res (α × τ)}
    (hf : ∀ i t, Tr false Eq (f i t) (f' i t)) (st : τ) :
    Tr false Eq (Stable.sumLoop fs n f st) (Stable.sumLoop fs' n f' st) := by
  have h' := hr.toSameScalar.toSameArith
  unfold Stable.sumLoop
  rw [h'.zero]
  exact Tr.bindEq (Tr.foldN _ _ fun i q => Tr.bindEq (hf _ _) fun x => Tr.bindEq (sumStep_tr hr _ _) fun sc =>
    Tr.refl _) fun r => h'.tadd _ _
theorem stableSum_tr (hr : SameFScalar fs fs') (h : AccTr a a') (s : σ) (d : α) :
    Tr false Eq (Stable.sum fs a s d) (Stable.sum fs' a' s d) := by
  unfold Stable.sum
  exact Tr.bindEq (h.empty s) fun e => Tr.ite (Tr.refl _) (Tr.bindEq (h.size s) fun n =>
    sumLoop_tr hr _ (fun i u => Tr.bindEq (h.un s _) fun x => Tr.refl _) _)
theorem semiSum_tr (hr : SameFScalar fs fs') (h : AccTr a a') (s : σ) (d : α) :
    Tr false Eq (Stable.semiSum b fs a s d) (Stable.semiSum (off b) fs' a' s d) := by
  have h' := hr.toSameScalar.toSameArith
  unfold Stable.semiSum
  rw [h'.zero]
  refine Tr.bindEq (h.empty s) fun e => Tr.ite (Tr.refl _) (Tr.bindEq (h.size s) fun n => ?_)
  refine Tr.bindEq (idiv_tr b _ _) fun nb => Tr.bindEq (irem_tr b _ _) fun rem => ?_
  refine Tr.bindEq (by checks) fun sb => Tr.bindEq (by checks) fun r => Tr.ite (Tr.refl _) ?_
  exact Tr.bindEq (sumLoop_tr hr _ (fun i u => Tr.refl _) _) fun t => h'.tadd _ _
theorem stableProd_tr (hr : SameFScalar fs fs') (h : AccTr a a') (s : σ) (d : α) :
    Tr false Eq (Stable.prod fs a s d) (Stable.prod fs' a' s d) := by
  have h' := hr.toSameScalar.toSameArith
  unfold Stable.prod
  rw [h'.zero, h'.one]
  refine Tr.bindEq (h.empty s) fun e => Tr.ite (Tr.refl _) (Tr.bindEq (h.size s) fun n => ?_)
  refine Tr.bindEq (Tr.refl _) fun m => Tr.bindEq (h.un s _) fun p0 => Tr.bindEq (by checks) fun pr => ?_
  refine Tr.bindEq (Tr.ite (Tr.refl _) (sumLoop_tr hr _ (fun i t => ?_) _)) fun t => h'.tadd _ _
  checks
theorem stableMean_tr (hr : SameFScalar fs fs') (h : AccTr a a') (s : σ) (d : α) :
    Tr false Eq (Stable.mean fs a s d) (Stable.mean fs' a' s d) := by
  have h' := hr.toSameScalar.toSameArith
  unfold Stable.mean
  rw [h'.zero]
  exact Tr.bindEq (h.empty s) fun e => Tr.ite (Tr.refl _) (Tr.bindEq (stableSum_tr hr h s _) fun t => by checks)
theorem stableDot_tr (dm : Dim) (hr : SameFScalar fs fs') (h1 : AccTr a1 a1') (h2 : AccTr a2 a2') (s : σ) (d : α) :
    Tr false Eq (Stable.dotProd b dm fs a1 a2 s d) (Stable.dotProd (off b) dm fs' a1' a2' s d) := by
  have h' := hr.toSameScalar.toSameArith
  unfold Stable.dotProd
  rw [AccTr.sameSize dm h1 h2]
  checks
theorem semiDot_tr (dm : Dim) (hr : SameFScalar fs fs') (h1 : AccTr a1 a1') (h2 : AccTr a2 a2') (s : σ) (d : α) :
    Tr false Eq (Stable.semiDotProd b dm fs a1 a2 s d) (Stable.semiDotProd (off b) dm fs' a1' a2' s d) := by
  have h' := hr.toSameScalar.toSameArith
  unfold Stable.semiDotProd
  rw [AccTr.sameSize dm h1 h2, h'.zero]
  exact Tr.bindEq (Tr.assertDebug _ _) fun _ => Tr.bindEq (h1.empty s) fun e => Tr.ite (Tr.refl _)
    (Tr.bind (mkBinary_tr b dm (fun x y => h'.tmul x y) h1 h2 s) fun p p' hp => semiSum_tr b hr hp s _)
theorem stableNorm1_tr (hr : SameFScalar fs fs') (h : AccTr a a') (s : σ) (d : α) :
    Tr false Eq (Stable.norm1 fs a s d) (Stable.norm1 fs' a' s d) := by
  have h' := hr.toSameScalar.toSameArith
  unfold Stable.norm1
  rw [h'.zero]
  exact Tr.bindEq (h.empty s) fun e => Tr.ite (Tr.refl _)
    (stableSum_tr hr (h.unary (sabss_tr hr.toSameScalar)) s _)
theorem stableNorm1Scaled_tr (hr : SameFScalar fs fs') (h : AccTr a a') (s : σ) (d : α) :
    Tr false Eq (Stable.norm1Scaled fs a s d) (Stable.norm1Scaled fs' a' s d) := by
  have h' := hr.toSameScalar.toSameArith
  unfold Stable.norm1Scaled
  rw [h'.zero]
  exact Tr.bindEq (h.empty s) fun e => Tr.ite (Tr.refl _) (Tr.bindEq (stableNorm1_tr hr h s _) fun t => by checks)
theorem stableNorm2_tr (dm : Dim) (hr : SameFScalar fs fs') (h : AccTr a a') (s : σ) (d : α) :
    Tr false Eq (Stable.norm2 b dm fs a s d) (Stable.norm2 (off b) dm fs' a' s d) := by
  have h' := hr.toSameScalar.toSameArith
  unfold Stable.norm2
  rw [h'.zero]
  exact Tr.bindEq (h.empty s) fun e => Tr.ite (Tr.refl _) (Tr.bindEq (stableDot_tr b dm hr h h s _) fun t =>
    hr.toSameScalar.tsqrt t)
theorem stableNorm2Scaled_tr (dm : Dim) (hr : SameFScalar fs fs') (h : AccTr a a') (s : σ) (d : α) :
    Tr false Eq (Stable.norm2Scaled b dm fs a s d) (Stable.norm2Scaled (off b) dm fs' a' s d) := by
  have h'' := hr.toSameScalar
  have h' := hr.toSameScalar.toSameArith
  unfold Stable.norm2Scaled
  rw [h'.zero]
  exact Tr.bindEq (h.empty s) fun e => Tr.ite (Tr.refl _) (Tr.bindEq (stableNorm2_tr b dm hr h s _) fun t => by
    checks)

theorem powProd_tr (hr : SameFScalar fs fs') (pick : α × α → α) (h : AccTr a a') (hP : AccTr P P') (s : σ) :
    Tr false AccTr (Stable.powProd b fs pick a P s) (Stable.powProd (off b) fs' pick a' P' s) := by
  unfold Stable.powProd
  rw [AccTr.sameSize .one h hP, h.rows]
  exact Tr.bindEq (Tr.assertDebug _ _) fun _ => .ok (AccTr.oneD _ fun s i => by checks)
theorem merge_tr (h1 : AccTr a1 a1') (h2 : AccTr a2 a2') (s : σ) :
    Tr false AccTr (Stable.merge b a1 a2 s) (Stable.merge (off b) a1' a2' s) := by
  unfold Stable.merge
  rw [h1.rows, h2.rows]
  exact Tr.bindEq (Tr.refl _) fun n => mkGen1_tr b _ (AccTr.mergeOp h1 h2)
theorem stableGpolynomial_tr (hr : SameFScalar fs fs') (h1 : AccTr a1 a1') (h2 : AccTr a2 a2') (h : AccTr P P')
    (s : σ) (d : α) :
    Tr false Eq (Stable.gpolynomial b fs a1 a2 P s d) (Stable.gpolynomial (off b) fs' a1' a2' P' s d) := by
  have h' := hr.toSameScalar.toSameArith
  unfold Stable.gpolynomial
  rw [AccTr.sameSize .one h1 h2, AccTr.sameSize .one h2 h, h'.zero]
  refine Tr.bindEq (Tr.assertDebug _ _) fun _ => Tr.bindEq (h1.empty s) fun e => Tr.ite (Tr.refl _) ?_
  refine Tr.bindEq (Tr.assertDebugM _ _ _) fun _ => Tr.bind (powProd_tr b hr _ h2 h s) fun R R' hR => ?_
  refine Tr.bind (powProd_tr b hr _ h2 h s) fun S S' hS => Tr.bind (merge_tr b h1 h1 s) fun c c' hc => ?_
  exact Tr.bind (merge_tr b hR hS s) fun q q' hq => stableDot_tr b .one hr hc hq s _

theorem intSeq_same : SameArith (Stable.intSeq b) (Stable.intSeq (off b)) :=
  ⟨rfl, rfl, fun _ _ => (Tr.refl (u := false) _).survives, fun _ _ => (Tr.refl (u := false) _).survives,
   fun _ _ => (Tr.refl (u := false) _).survives,
   fun x y => by
     have : Tr false Eq ((Stable.intSeq b).div x y) ((Stable.intSeq (off b)).div x y) := by
       simp only [Stable.intSeq, SInt.div]
       checks
     exact this.survives,
   fun _ => (Tr.refl (u := false) _).survives⟩

theorem stablePolynomial_tr (hr : SameFScalar fs fs') (h : AccTr a a') (x : α) (s : σ) (d : α) :
    Tr false Eq (Stable.polynomial b fs a x s d) (Stable.polynomial (off b) fs' a' x s d) := by
  have h' := hr.toSameScalar.toSameArith
  unfold Stable.polynomial
  rw [h.rows, h'.zero]
  exact Tr.bindEq (h.empty s) fun e => Tr.ite (Tr.refl _) (Tr.bind (mkConst1D_tr b _ _) fun X X' hX =>
    Tr.bind (mkSequence_tr b (intSeq_same b) _ _ _) fun Q Q' hQ => stableGpolynomial_tr b hr h hX hQ s _)
theorem stablePolynomialPowers_tr (hr : SameFScalar fs fs') (h1 : AccTr a1 a1') (x : α) (h : AccTr P P') (s : σ)
    (d : α) :
    Tr false Eq (Stable.polynomialPowers b fs a1 x P s d) (Stable.polynomialPowers (off b) fs' a1' x P' s d) := by
  have h' := hr.toSameScalar.toSameArith
  unfold Stable.polynomialPowers
  rw [AccTr.sameSize .one h1 h, h'.zero, h1.rows]
  exact Tr.bindEq (Tr.assertDebug _ _) fun _ => Tr.bindEq (h1.empty s) fun e => Tr.ite (Tr.refl _)
    (Tr.bindEq (Tr.assertDebugM _ _ _) fun _ => Tr.bind (mkConst1D_tr b _ _) fun X X' hX =>
      stableGpolynomial_tr b hr h1 hX h s _)
theorem view1D_tr (d : Dim) (h : AccTr a a') (s : σ) :
    Tr false AccTr (Stable.view1D b d a s) (Stable.view1D (off b) d a' s) := by
  cases d
  · exact mkSlice1_tr b h s _
  · exact mkView1D_tr b h s
theorem stableNormLp_tr (dm : Dim) (hr : SameFScalar fs fs') (h : AccTr a a') (s : σ) (lp : Int) (d : α) :
    Tr false Eq (Stable.normLp b dm fs a s lp d) (Stable.normLp (off b) dm fs' a' s lp d) := by
  have h'' := hr.toSameScalar
  have h' := hr.toSameScalar.toSameArith
  unfold Stable.normLp
  rw [h'.zero]
  refine Tr.bindEq (Tr.assertDebug _ _) fun _ => Tr.bindEq (h.empty s) fun e => Tr.ite (Tr.refl _) ?_
  refine Tr.bindEq (h.size s) fun sz => Tr.bindEq (h'.tofIndex _) fun o => ?_
  refine Tr.bind (mkConst1D_tr b _ _) fun c c' hc => Tr.bind (mkConst1D_tr b _ _) fun Q Q' hQ => ?_
  refine Tr.bind (view1D_tr b dm h s) fun v v' hv => ?_
  exact Tr.bindEq (stableGpolynomial_tr b hr hc (hv.unary (sabss_tr h'')) hQ s _) fun t => by checks
theorem stableNormLpScaled_tr (dm : Dim) (hr : SameFScalar fs fs') (h : AccTr a a') (s : σ) (lp : Int) (d : α) :
    Tr false Eq (Stable.normLpScaled b dm fs a s lp d) (Stable.normLpScaled (off b) dm fs' a' s lp d) := by
  have h'' := hr.toSameScalar
  have h' := hr.toSameScalar.toSameArith
  unfold Stable.normLpScaled
  rw [h'.zero]
  refine Tr.bindEq (Tr.assertDebug _ _) fun _ => Tr.bindEq (h.empty s) fun e => Tr.ite (Tr.refl _) ?_
  exact Tr.bindEq (stableNormLp_tr b dm hr h s lp _) fun t => by checks

end

end Spp
