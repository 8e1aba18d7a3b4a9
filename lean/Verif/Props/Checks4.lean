import Verif.Spec.Unguarded
import Verif.Props.Checks3

/-
C04: programs with handlers that have nothing to handle.
-/

namespace Spp.Props

open Spec Lemmas

variable {α : Type}

theorem hrun_unguarded [Inhabited α] (b : Build) (p : Prog α) : OpTr false Eq (hrun b p.unguarded) (hrun b p) := by
  induction p with
  | skip => exact OpTr.refl _
  | stmt c => exact OpTr.refl _
  | throw => exact OpTr.refl _
  | seq p q ihp ihq => exact OpTr.bindEq ihp fun _ => ihq
  | block i af init body ih => exact OpTr.bindEq (OpTr.refl _) fun _ => withLocal_tr i ih
  | tryCatch p q ihp _ =>
    intro s
    have h := ihp s
    show OTr false Eq (hrun b p.unguarded s) (tryCatch (hrun b p) (hrun b q) s)
    unfold tryCatch
    generalize hrun b p.unguarded s = x at h
    generalize hrun b p s = y at h
    cases h with
    | trap k t y => exact .trap _ _ _
    | ub0 h t y => exact .ub0 rfl _ _
    | ub t => exact .ub _
    | ok h t => exact .ok h _
  | ite i c p q ihp ihq =>
    exact OpTr.bindEq (OpTr.refl _) fun o => OpTr.bindEq (OpTr.refl _) fun l => OpTr.ite ihp ihq
  | loop i c p ih =>
    exact OpTr.bindEq (OpTr.refl _) fun o => OpTr.bindEq (OpTr.refl _) fun l => OpTr.forN _ fun _ => ih

theorem mrun_unguarded [Inhabited α] (b : Build) (p : MProg α) : OpTr false Eq (mrun b p.unguarded) (mrun b p) := by
  induction p with
  | skip => exact OpTr.refl _
  | throw => exact OpTr.refl _
  | stmt c => exact OpTr.refl _
  | stmt2 c => exact OpTr.refl _
  | seq p q ihp ihq => exact OpTr.bindEq ihp fun _ => ihq
  | block i af init body ih => exact OpTr.bindEq (OpTr.refl _) fun _ => mwithLocal_tr i ih
  | block2 i af init body ih => exact OpTr.bindEq (OpTr.refl _) fun _ => mwithLocal_tr i ih
  | tryCatch p q ihp _ =>
    intro s
    have h := ihp s
    show OTr false Eq (mrun b p.unguarded s) (mtryCatch (mrun b p) (mrun b q) s)
    unfold mtryCatch
    generalize mrun b p.unguarded s = x at h
    generalize mrun b p s = y at h
    cases h with
    | trap k t y => exact .trap _ _ _
    | ub0 h t y => exact .ub0 rfl _ _
    | ub t => exact .ub _
    | ok h t => exact .ok h _
  | read i f ih =>
    exact OpTr.bindEq (OpTr.refl _) fun o => OpTr.bindEq (OpTr.refl _) fun l => OpTr.bindEq (OpTr.refl _) fun s => ih _ _
  | loop n p ih => exact OpTr.forN _ fun _ => ih

theorem eprogRun_unguarded [Inhabited α] (b : Build) (p : EProg α) :
    OpTr false Eq (eprogRun b p.unguarded) (eprogRun b p) := by
  induction p with
  | skip => exact OpTr.refl _
  | throw => exact OpTr.refl _
  | stmt c => exact OpTr.refl _
  | seq p q ihp ihq => exact OpTr.bindEq ihp fun _ => ihq
  | tryCatch p q ihp _ =>
    intro s
    have h := ihp s
    show OTr false Eq (eprogRun b p.unguarded s) (match eprogRun b p s with
      | (.trap .exception, s') => eprogRun b q s'
      | r => r)
    generalize eprogRun b p.unguarded s = x at h
    generalize eprogRun b p s = y at h
    cases h with
    | trap k t y => exact .trap _ _ _
    | ub0 h t y => exact .ub0 rfl _ _
    | ub t => exact .ub _
    | ok h t => exact .ok h _
  | read f ih => exact fun s => ih s s
  | loop count p ih => exact OpTr.bindEq (OpTr.refl _) fun s => OpTr.forN _ fun _ => ih

theorem prog_noHandler (p : Prog α) : p.unguarded.NoHandler := by
  induction p with
  | skip | stmt | throw => trivial
  | seq _ _ h1 h2 | ite _ _ _ _ h1 h2 => exact ⟨h1, h2⟩
  | block _ _ _ _ h | loop _ _ _ h => exact h
  | tryCatch _ _ h _ => exact h

theorem mprog_noHandler (p : MProg α) : p.unguarded.NoHandler := by
  induction p with
  | skip | stmt | stmt2 | throw => trivial
  | seq _ _ h1 h2 => exact ⟨h1, h2⟩
  | block _ _ _ _ h | block2 _ _ _ _ h | loop _ _ h => exact h
  | tryCatch _ _ h _ => exact h
  | read _ _ h => exact h

/-- C04 (handlers that have nothing to handle): if a block-structured program ends normally with checks even when its
handlers are taken away, then with its handlers it ends in the same state with checks and without. -/
theorem C04_unused_handlers [Inhabited α] (p : Prog α) (b : Build) :
    SurvivesOp (hrun b p.unguarded) (hrun b p) ∧ SurvivesOp (hrun b p.unguarded) (hrun (off b) p) :=
  ⟨(hrun_unguarded b p).survives, fun s v s' h =>
    (hrun_unguarded (off b) p).survives s v s' (C04_programs p.unguarded (prog_noHandler p) b s v s' h)⟩

/-- C04: the same for programs with arrays of one and two dimensions in memory. -/
theorem C04_unused_handlers2 [Inhabited α] (p : MProg α) (b : Build) :
    SurvivesOp (mrun b p.unguarded) (mrun b p) ∧ SurvivesOp (mrun b p.unguarded) (mrun (off b) p) :=
  ⟨(mrun_unguarded b p).survives, fun s v s' h =>
    (mrun_unguarded (off b) p).survives s v s' (C04_mixed_programs p.unguarded (mprog_noHandler p) b s v s' h)⟩

/-- C04: the same for programs of expressions, whose element operations may contain checks. -/
theorem C04_unused_handlers_expr [Inhabited α] (b : Build) {p p' : EProg α} (h : SameEProg p.unguarded p'.unguarded) :
    SurvivesOp (eprogRun b p.unguarded) (eprogRun b p) ∧ SurvivesOp (eprogRun b p.unguarded) (eprogRun (off b) p') :=
  ⟨(eprogRun_unguarded b p).survives, fun s v s' hr =>
    (eprogRun_unguarded (off b) p').survives s v s' (C04_expression_programs b h s v s' hr)⟩

open Sample

/-- `try { A0 = A0[reverse]; } catch(...) { A0 = A1; }` has nothing to handle. -/
def guardedReverse : EProg Int :=
  .tryCatch (.stmt (.eval (.assign (d := .one) (.arr1 0) (.view (.slice .reverse) (.lv (.arr1 0))))))
    (.stmt (.eval (.assign (d := .one) (.arr1 0) (.lv (.arr1 1)))))

example : (eprogRun ⟨false, true, false⟩ guardedReverse.unguarded store).1 = .ok () ∧
    (eprogRun ⟨true, true, false⟩ guardedReverse store).2.a1 0 =
      (eprogRun ⟨false, true, false⟩ guardedReverse.unguarded store).2.a1 0 := by
  decide +kernel

end Spp.Props
