import Verif.Lemmas.Checks5
import Verif.Spec.ChecksProg
import Verif.Model.WProg
import Verif.Model.Mixed
import Verif.Model.SortStmt
import Verif.Model.Example4
import Verif.Model.Examples
import Verif.Model.Idioms
import Verif.Model.RandomAll
import Verif.Model.RangeCtor

/- Programs, statements and examples with and without debug checks (see Lemmas/Checks.lean). -/

set_option linter.unusedSectionVars false
set_option linter.unusedVariables false

namespace Spp

open Spec

variable {α : Type}

/-! ### Programs with expressions, views and changes of size -/

section

variable [Inhabited α] (b : Build)

theorem onLists_tr {x y : Op (Vars α) Unit} (h : OpTr false Eq x y) : OpTr false Eq (onLists x) (onLists y) := fun s => by
  have h := h s.a1
  unfold onLists
  generalize x s.a1 = p at h
  generalize y s.a1 = q at h
  cases h with
  | trap k t y => exact .trap _ _ _
  | ub0 h t y => exact .ub0 rfl _ _
  | ub t => exact .ub _
  | ok h t => exact .ok h _

theorem onMats_tr {x y : Op (Vars2 α) Unit} (h : OpTr false Eq x y) : OpTr false Eq (onMats x) (onMats y) := fun s => by
  have h := h s.a2
  unfold onMats
  generalize x s.a2 = p at h
  generalize y s.a2 = q at h
  cases h with
  | trap k t y => exact .trap _ _ _
  | ub0 h t y => exact .ub0 rfl _ _
  | ub t => exact .ub _
  | ok h t => exact .ok h _

theorem execUse1_tr {x y : Src (List α) α} (h : SrcTr x y) (u : Use1) :
    OpTr false Eq (execUse1 b x u) (execUse1 (off b) y u) := by
  cases u <;> simp only [execUse1]
  case resizeAndAssign => exact resizeAndAssign1_tr b h
  case insert p => exact insertArr_tr b p h
  case insertFront => exact insertArr_tr b _ h
  case insertBack => exact OpTr.bindEq (OpTr.refl _) fun _ => insertArr_tr b _ h

theorem execUse2_tr {x y : Src2 (Arr2 α) α} (h : Src2Tr x y) (u : Use2) :
    OpTr false Eq (execUse2 b x u) (execUse2 (off b) y u) := by
  cases u <;> simp only [execUse2]
  case resizeAndAssign => exact resizeAndAssign2_tr b h
  case insertRows => exact insertRows_tr b _ h
  case insertRowsFront => exact insertRows_tr b _ h
  case insertRowsBack => exact OpTr.bindEq (OpTr.refl _) fun _ => insertRows_tr b _ h
  case insertCols => exact insertCols_tr b _ h
  case insertColsFront => exact insertCols_tr b _ h
  case insertColsBack => exact OpTr.bindEq (OpTr.refl _) fun _ => insertCols_tr b _ h

theorem execUseRow_tr {x y : Src (Arr2 α) α} (h : SrcTr x y) (u : UseRow) :
    OpTr false Eq (execUseRow b x u) (execUseRow (off b) y u) := by
  cases u <;> simp only [execUseRow]
  case insertRow => exact insertRow_tr b _ h
  case insertRowFront => exact insertRow_tr b _ h
  case insertRowBack => exact OpTr.bindEq (OpTr.refl _) fun _ => insertRow_tr b _ h
  case insertCol => exact insertCol_tr b _ h
  case insertColFront => exact insertCol_tr b _ h
  case insertColBack => exact OpTr.bindEq (OpTr.refl _) fun _ => insertCol_tr b _ h

theorem assignElem1_tr (l : Lv .one) (p : Pos) {f f' : α → Res α} (h : ∀ x, Tr false Eq (f x) (f' x)) :
    OpTr false Eq (assignElem1 b l p f) (assignElem1 (off b) l p f') := by
  unfold assignElem1
  refine OpTr.bindEq (OpTr.refl _) fun s => OpTr.bind (OpTr.lift (lv_tr b s l)) fun a a' ha => ?_
  rw [ha.rows]
  refine OpTr.bindEq (OpTr.lift (Tr.assertDebugM _ _ _)) fun _ => OpTr.bindEq (OpTr.refl _) fun i => ?_
  refine OpTr.bindEq (OpTr.lift (ha.un s i)) fun c => OpTr.bindEq (OpTr.refl _) fun x => ?_
  exact OpTr.bindEq (OpTr.lift (h x)) fun _ => OpTr.refl _

theorem assignElem2_tr (l : Lv .two) (p q : Pos) {f f' : α → Res α} (h : ∀ x, Tr false Eq (f x) (f' x)) :
    OpTr false Eq (assignElem2 b l p q f) (assignElem2 (off b) l p q f') := by
  unfold assignElem2
  refine OpTr.bindEq (OpTr.refl _) fun s => OpTr.bind (OpTr.lift (lv_tr b s l)) fun a a' ha => ?_
  rw [ha.rows, ha.cols]
  refine OpTr.bindEq (OpTr.refl _) fun i => OpTr.bindEq (OpTr.refl _) fun j => ?_
  refine OpTr.bindEq (OpTr.lift (Tr.assertDebug _ _)) fun _ => ?_
  refine OpTr.bindEq (OpTr.lift (ha.un2 s i j)) fun c => OpTr.bindEq (OpTr.refl _) fun x => ?_
  exact OpTr.bindEq (OpTr.lift (h x)) fun _ => OpTr.refl _

theorem estmtRun_tr {c c' : EStmt α} (h : SameEStmt c c') : OpTr false Eq (estmtRun b c) (estmtRun (off b) c') := by
  cases h with
  | eval h => exact run_tr b h
  | elem1 l p h => exact assignElem1_tr b l p fun x => .of_survives (h x)
  | elem2 l p q h => exact assignElem2_tr b l p q fun x => .of_survives (h x)
  | list c => exact onLists_tr (exec_tr b c)
  | mat c => exact onMats_tr (exec2_tr b c)
  | use1 i u h =>
    refine OpTr.bindEq (OpTr.refl _) fun s => OpTr.bind (OpTr.lift (build_tr b s h)) fun a a' ha => ?_
    exact onLists_tr (on_tr i (execUse1_tr b ⟨by simp only [ha.rows], fun _ _ => ha.un _ _⟩ u))
  | use2 i u h =>
    refine OpTr.bindEq (OpTr.refl _) fun s => OpTr.bind (OpTr.lift (build_tr b s h)) fun a a' ha => ?_
    exact onMats_tr (on2_tr i (execUse2_tr b ⟨by simp only [ha.rows], by simp only [ha.cols], isArray2_eq h,
      fun _ _ => ha.un _ _, fun _ _ _ => ha.un2 _ _ _⟩ u))
  | useRow i u h =>
    refine OpTr.bindEq (OpTr.refl _) fun s => OpTr.bind (OpTr.lift (build_tr b s h)) fun a a' ha => ?_
    exact onMats_tr (on2_tr i (execUseRow_tr b ⟨by simp only [ha.rows], fun _ _ => ha.un _ _⟩ u))

theorem eprogRun_tr {p p' : EProg α} (h : SameEProg p p') : OpTr false Eq (eprogRun b p) (eprogRun (off b) p') := by
  induction h with
  | skip => exact OpTr.refl _
  | throw => exact OpTr.refl _
  | stmt h => exact estmtRun_tr b h
  | seq _ _ ih1 ih2 => exact OpTr.bindEq ih1 fun _ => ih2
  | read _ ih => exact fun s => ih s s
  | loop count _ ih => exact OpTr.bindEq (OpTr.refl _) fun s => OpTr.forN _ fun _ => ih

/-! ### Numbers and conditions -/

theorem readElem1_tr {t t' : Tm α .one} (h : SameText t t') (p : Pos) (s : Store α) :
    Tr false Eq (readElem1 b t p s) (readElem1 (off b) t' p s) := by
  refine Tr.bind (build_tr b s h) fun a a' ha => ?_
  rw [ha.rows]
  exact Tr.bindEq (Tr.assertDebugM _ _ _) fun _ => Tr.bindEq (Tr.refl _) fun i => ha.un s i

theorem readElem2_tr {t t' : Tm α .two} (h : SameText t t') (p q : Pos) (s : Store α) :
    Tr false Eq (readElem2 b t p q s) (readElem2 (off b) t' p q s) := by
  refine Tr.bind (build_tr b s h) fun a a' ha => ?_
  rw [ha.rows, ha.cols]
  exact Tr.bindEq (Tr.refl _) fun i => Tr.bindEq (Tr.refl _) fun j => Tr.bindEq (Tr.assertDebug _ _) fun _ => ha.un2 s i j

theorem execReduction_tr (d : Dim) {sc sc' : Scalar α} (hs : SameScalar sc sc') (df : α) {a a' : Acc (Store α) α}
    (ha : AccTr a a') (s : Store α) (f : Reduction) :
    Tr false Eq (execReduction b d sc df a s f) (execReduction (off b) d sc' df a' s f) := by
  cases f with
  | sum => exact sum_tr hs.toSameArith ha s df
  | prod => exact prod_tr hs.toSameArith ha s df
  | mean => exact mean_tr hs.toSameArith ha s df
  | min => exact min_tr hs ha s df
  | max => exact max_tr hs ha s df
  | norm1 => exact norm1_tr hs ha s df
  | normInf => exact normInf_tr hs ha s df
  | norm2 => exact norm2_tr b d hs ha s df
  | norm1Scaled => exact norm1Scaled_tr hs ha s df
  | norm2Scaled => exact norm2Scaled_tr b d hs ha s df

theorem queryRun_tr {q q' : Query α} (h : SameQuery q q') (s : Store α) :
    Tr false Eq (queryRun b s q) (queryRun (off b) s q') := by
  cases h with
  | lit x => exact Tr.refl _
  | elem1 p h => exact readElem1_tr b h p s
  | elem2 p q h => exact readElem2_tr b h p q s
  | reduce f df hs h => exact Tr.bind (build_tr b s h) fun a a' ha => execReduction_tr b _ hs df ha s f
  | poly x df hs h => exact Tr.bind (build_tr b s h) fun _ _ ha => polynomial_tr b hs ha x s df
  | dot df hs h1 h2 =>
    exact Tr.bind (build_tr b s h1) fun _ _ k1 => Tr.bind (build_tr b s h2) fun _ _ k2 => dotProd_tr b _ hs k1 k2 s df

theorem testRun_tr {c c' : Test α} (h : SameTest c c') (s : Store α) :
    Tr false Eq (testRun b s c) (testRun (off b) s c') := by
  induction h with
  | cmp f h1 h2 =>
    exact Tr.bindEq (queryRun_tr b h1 s) fun _ => Tr.bindEq (queryRun_tr b h2 s) fun _ => Tr.refl _
  | equal ne h1 h2 =>
    exact Tr.bind (build_tr b s h1) fun a a' ha => Tr.bind (build_tr b s h2) fun c c' hc => equal_tr _ ne ha hc s
  | any f df h => exact Tr.bind (build_tr b s h) fun a a' ha => anyOf_tr (fun _ => Tr.refl _) ha s df
  | all f df h => exact Tr.bind (build_tr b s h) fun a a' ha => allOf_tr (fun _ => Tr.refl _) ha s df
  | not _ ih => exact Tr.bindEq ih fun _ => Tr.refl _
  | and _ _ ih1 ih2 => exact Tr.bindEq ih1 fun _ => Tr.bindEq ih2 fun _ => Tr.refl _
  | or _ _ ih1 ih2 => exact Tr.bindEq ih1 fun _ => Tr.bindEq ih2 fun _ => Tr.refl _

theorem wprogRun_tr {n : Nat} {p p' : WProg α} (h : SameWProg p p') {s s' : Store α}
    (hr : wprogRun b n p s = some (.ok (), s')) : wprogRun (off b) n p' s = some (.ok (), s') := by
  induction n generalizing p p' s s' with
  | zero => cases hr
  | succ n ih =>
    cases h with
    | prog h =>
      have h := eprogRun_tr b h s
      rw [wprogRun] at hr ⊢
      rw [Option.some.inj hr] at h
      generalize eprogRun (off b) _ s = q at h ⊢
      cases h
      rfl
    | ask hq hk =>
      rw [wprogRun] at hr ⊢
      have h := queryRun_tr b hq s
      generalize queryRun b s _ = x at h hr
      generalize queryRun (off b) s _ = y at h ⊢
      cases h with
      | ok h => subst h; exact ih (hk _) hr
      | _ => cases hr
    | cond hc hp hq =>
      rw [wprogRun] at hr ⊢
      have h := testRun_tr b hc s
      generalize testRun b s _ = x at h hr
      generalize testRun (off b) s _ = y at h ⊢
      cases h with
      | @ok v w h =>
        subst h
        cases v
        · exact ih hq hr
        · exact ih hp hr
      | _ => cases hr
    | whileDo hc hp =>
      rw [wprogRun] at hr ⊢
      have h := testRun_tr b hc s
      generalize testRun b s _ = x at h hr
      generalize testRun (off b) s _ = y at h ⊢
      cases h with
      | @ok v w h =>
        subst h
        cases v
        · exact hr
        · dsimp only at hr ⊢
          split at hr
          · next he => rw [ih hp he]; exact ih (.whileDo hc hp) hr
          · next hne => exact absurd hr (hne () s')
      | _ => cases hr
    | seq hp hq =>
      rw [wprogRun] at hr ⊢
      split at hr
      · next he => rw [ih hp he]; exact ih hq hr
      · next hne => exact absurd hr (hne () s')

end

/-! ### Programs in memory -/

section

variable [Inhabited α] (b : Build)

theorem onHeap_tr {β : Type} {x y : Op (Heap α) β} (h : OpTr false Eq x y) :
    OpTr false Eq (MHeap.onHeap x) (MHeap.onHeap y) := fun s => by
  have h := h s.heap
  unfold MHeap.onHeap
  generalize x s.heap = p at h
  generalize y s.heap = q at h
  cases h with
  | trap k t y => exact .trap _ _ _
  | ub0 h t y => exact .ub0 rfl _ _
  | ub t => exact .ub _
  | ok h t => exact .ok h _

theorem mon2_tr {x y : Op (Heap2 α) Unit} (h : OpTr false Eq x y) : OpTr false Eq (MHeap.on2 x) (MHeap.on2 y) := fun s => by
  have h := h ⟨s.heap, s.dims2⟩
  unfold MHeap.on2
  generalize x ⟨s.heap, s.dims2⟩ = p at h
  generalize y ⟨s.heap, s.dims2⟩ = q at h
  cases h with
  | trap k t y => exact .trap _ _ _
  | ub0 h t y => exact .ub0 rfl _ _
  | ub t => exact .ub _
  | ok h t => exact .ok h _

theorem constructG_tr (i : Nat) (af : AlignmentFlag) (n : Int) {g g' : List α → Res (List α)}
    (h : ∀ l, Tr false Eq (g l) (g' l)) :
    OpTr false Eq (Heap.construct b i af n g) (Heap.construct (off b) i af n g') := by
  unfold Heap.construct
  exact OpTr.bindEq (ctorFillG_tr b af n h) fun o => OpTr.refl _

theorem mbuild_tr (i : Nat) (af : AlignmentFlag) (m n : Int) {g g' : Arr2 α → Res (Arr2 α)}
    (h : ∀ t, Tr false Eq (g t) (g' t)) :
    OpTr false Eq (MHeap.build b i af m n g) (MHeap.build (off b) i af m n g') := by
  unfold MHeap.build
  refine OpTr.bindEq (OpTr.refl _) fun p => OpTr.bindEq (onHeap_tr (constructG_tr b i af p fun l => ?_)) fun _ => OpTr.refl _
  exact Tr.bindEq (Tr.assertDebug _ _) fun _ => Tr.bindEq (Tr.assertDebug _ _) fun _ =>
    Tr.bindEq (Tr.assertDebug _ _) fun _ => Tr.bindEq (h _) fun _ => Tr.refl _

theorem hinit2_tr (i : Nat) (af : AlignmentFlag) (c : Init2 α) :
    OpTr false Eq (hinit2 b i af c) (hinit2 (off b) i af c) := by
  cases c with
  | empty => exact OpTr.refl _
  | size m n => exact mbuild_tr b i af m n fun _ => Tr.refl _
  | fill m n x => simp only [hinit2]; exact mbuild_tr b i af m n fun _ => Tr.refl _
  | list L => simp only [hinit2]; exact mbuild_tr b i af _ _ fun _ => Tr.bindEq (Tr.assertDebug _ _) fun _ => Tr.refl _
  | copy j =>
    refine OpTr.bindEq (OpTr.refl _) fun h => OpTr.bindEq (OpTr.refl _) fun o => OpTr.ite ?_ ?_
    · refine OpTr.bindEq (onHeap_tr ?_) fun _ => OpTr.refl _
      exact OpTr.bindEq (OpTr.refl _) fun o => OpTr.bindEq (OpTr.refl _) fun l => construct1_tr b _ _ _ _
    · exact OpTr.bindEq (OpTr.refl _) fun l => OpTr.bindEq (OpTr.refl _) fun d => mbuild_tr b i af _ _ fun _ => Tr.refl _
  | move j => exact OpTr.refl _

theorem mwithLocal_tr (i : Nat) {x y : Op (MHeap α) Unit} (h : OpTr false Eq x y) :
    OpTr false Eq (mwithLocal i x) (mwithLocal i y) := fun s => by
  have h := h s
  unfold mwithLocal
  generalize x s = p at h
  generalize y s = q at h
  cases h with
  | trap k t y =>
    cases k with
    | exception =>
      dsimp only
      rcases mdestroy i t with ⟨_ | _ | _, t⟩
      · exact .trap _ _ _
      · exact .trap _ _ _
      · exact .ub0 rfl _ _
    | abort => exact .trap _ _ _
  | ub0 h t y => exact .ub0 rfl _ _
  | ub t => exact .ub _
  | ok h t => exact OpTr.refl (mdestroy i) t

theorem mrun_tr (p : MProg α) (h : p.NoHandler) : OpTr false Eq (mrun b p) (mrun (off b) p) := by
  induction p with
  | skip => exact OpTr.refl _
  | throw => exact OpTr.refl _
  | stmt c => exact onHeap_tr (hexec_tr b c)
  | stmt2 c => exact mon2_tr (hexec2_tr b c)
  | seq p q ihp ihq => exact OpTr.bindEq (ihp h.1) fun _ => ihq h.2
  | block i af init body ih => exact OpTr.bindEq (onHeap_tr (hinit_tr b i af init)) fun _ => mwithLocal_tr i (ih h)
  | block2 i af init body ih => exact OpTr.bindEq (hinit2_tr b i af init) fun _ => mwithLocal_tr i (ih h)
  | tryCatch p q => exact h.elim
  | read i f ih =>
    exact OpTr.bindEq (OpTr.refl _) fun o => OpTr.bindEq (OpTr.refl _) fun l => OpTr.bindEq (OpTr.refl _) fun s =>
      ih _ _ (h _ _)
  | loop n p ih => exact OpTr.forN _ fun _ => ih h

end

/-! ### Algorithms on iterators -/

section

variable {β : Type} (b : Build)

/-- Iterators with and without checks. -/
structure WalkTr {σ ρ : Type} (w w' : Walk σ ρ) : Prop where
  inc : ∀ p, Tr false Eq (w.inc p) (w'.inc p)
  dec : ∀ p, Tr false Eq (w.dec p) (w'.dec p)
  plus : ∀ p n, Tr false Eq (w.plus p n) (w'.plus p n)
  minus : ∀ p n, Tr false Eq (w.minus p n) (w'.minus p n)
  diff : ∀ p q, Tr false Eq (w.diff p q) (w'.diff p q)
  cmp : ∀ c p q, Tr false Eq (w.cmp c p q) (w'.cmp c p q)
  deref : ∀ p s, Tr false Eq (w.deref p s) (w'.deref p s)
  get : ∀ p n s, Tr false Eq (w.get p n s) (w'.get p n s)

theorem forwardCmp_tr (c : ItCmp) (x y : It) : Tr false Eq (c.forward b x y) (c.forward (off b) x y) := by
  cases c <;> simp only [ItCmp.forward, It.eq, It.ne, It.lt, It.le, It.gt, It.ge] <;> exact itCompare_tr b _ _ _

theorem backwardCmp_tr (c : ItCmp) (x y : RIt) : Tr false Eq (c.backward b x y) (c.backward (off b) x y) := by
  cases c <;> simp only [ItCmp.backward, It.eq, It.ne, It.lt, It.le, It.gt, It.ge] <;> exact itCompare_tr b _ _ _

theorem forward_tr {σ ρ : Type} {mem mem' : Nat → Flag σ ρ} (h : ∀ a, FlagTr Eq (mem a) (mem' a)) (a : Nat) :
    WalkTr (Walk.forward b mem a) (Walk.forward (off b) mem' a) where
  inc _ := Tr.bindEq (itInc_tr b _) fun _ => Tr.refl _
  dec _ := Tr.bindEq (itDec_tr b _) fun _ => Tr.refl _
  plus _ _ := Tr.bindEq (itPlus_tr b _ _) fun _ => Tr.refl _
  minus _ _ := Tr.bindEq (itMinus_tr b _ _) fun _ => Tr.refl _
  diff _ _ := itDiff_tr b _ _
  cmp c p q := forwardCmp_tr b c _ _
  deref _ s := itDeref_tr b h _ s
  get _ n s := itAt_tr b h _ n s

theorem backward_tr {σ ρ : Type} {mem mem' : Nat → Flag σ ρ} (h : ∀ a, FlagTr Eq (mem a) (mem' a)) (a : Nat) (n : Int) :
    WalkTr (Walk.backward b mem a n) (Walk.backward (off b) mem' a n) where
  inc _ := Tr.bindEq (ritInc_tr b _) fun _ => Tr.refl _
  dec _ := Tr.bindEq (ritDec_tr b _) fun _ => Tr.refl _
  plus _ _ := Tr.bindEq (ritPlus_tr b _ _) fun _ => Tr.refl _
  minus _ _ := Tr.bindEq (ritMinus_tr b _ _) fun _ => Tr.refl _
  diff _ _ := itDiff_tr b _ _
  cmp c p q := backwardCmp_tr b c _ _
  deref _ s := ritDeref_tr b h _ s
  get _ n s := ritAt_tr b h _ n s

theorem alg_tr {w w' : Walk (Store α) Loc} (h : WalkTr w w') (x : Alg α β) : OpTr false Eq (x.run w) (x.run w') := by
  induction x with
  | ret x => exact OpTr.refl _
  | inc p k ih => exact OpTr.bindEq (OpTr.lift (h.inc p)) fun q => ih q
  | dec p k ih => exact OpTr.bindEq (OpTr.lift (h.dec p)) fun q => ih q
  | plus p n k ih => exact OpTr.bindEq (OpTr.lift (h.plus p n)) fun q => ih q
  | minus p n k ih => exact OpTr.bindEq (OpTr.lift (h.minus p n)) fun q => ih q
  | diff p q k ih => exact OpTr.bindEq (OpTr.lift (h.diff p q)) fun q => ih q
  | cmp c p q k ih => exact OpTr.bindEq (OpTr.lift (h.cmp c p q)) fun q => ih q
  | read p k ih =>
    exact OpTr.bindEq (OpTr.refl _) fun s => OpTr.bindEq (OpTr.lift (h.deref p s)) fun c =>
      OpTr.bindEq (OpTr.refl _) fun x => ih x
  | readAt p n k ih =>
    exact OpTr.bindEq (OpTr.refl _) fun s => OpTr.bindEq (OpTr.lift (h.get p n s)) fun c =>
      OpTr.bindEq (OpTr.refl _) fun x => ih x
  | write p x k ih =>
    exact OpTr.bindEq (OpTr.refl _) fun s => OpTr.bindEq (OpTr.lift (h.deref p s)) fun c =>
      OpTr.bindEq (OpTr.refl _) fun _ => ih
  | writeAt p n x k ih =>
    exact OpTr.bindEq (OpTr.refl _) fun s => OpTr.bindEq (OpTr.lift (h.get p n s)) fun c =>
      OpTr.bindEq (OpTr.refl _) fun _ => ih

variable {d : Dim}

theorem sortUp_tr (srt : (α → α → Bool) → List α → List α) {sc sc' : Scalar α} (hs : SameScalar sc sc') (l : Lv d) :
    OpTr false Eq (sortUp b srt sc l) (sortUp (off b) srt sc' l) := by
  refine OpTr.bindEq (OpTr.refl _) fun s => OpTr.bind (OpTr.lift (lv_tr b s l)) fun p p' h => ?_
  simp only [Ops.sortIncreasing, hs.lt]
  exact sort_tr srt _ h

theorem sortDown_tr (srt : (α → α → Bool) → List α → List α) {sc sc' : Scalar α} (hs : SameScalar sc sc') (l : Lv d) :
    OpTr false Eq (sortDown b srt sc l) (sortDown (off b) srt sc' l) := by
  refine OpTr.bindEq (OpTr.refl _) fun s => OpTr.bind (OpTr.lift (lv_tr b s l)) fun p p' h => ?_
  simp only [Ops.sortDecreasing, hs.lt]
  exact sort_tr srt _ h

theorem shuffleView_tr (draw : Nat → Nat) (l : Lv d) :
    OpTr false Eq (shuffleView (α := α) b draw l) (shuffleView (off b) draw l) := by
  refine OpTr.bindEq (OpTr.refl _) fun s => OpTr.bind (OpTr.lift (lv_tr b s l)) fun p p' h => ?_
  exact OpTr.bindEq (OpTr.refl _) fun s => OpTr.bindEq (OpTr.lift (h.size s)) fun n =>
    alg_tr (forward_tr b (fun _ => indexFlag_tr h) 0) _

/-! ### Arrays from two iterators -/

/-- The operators with and without checks. -/
structure RangeTr {ι : Type} (o o' : RangeCtor.Ops ι α) : Prop where
  diff : ∀ x y, Tr false Eq (o.diff x y) (o'.diff x y)
  ge : ∀ x y, Tr false Eq (o.ge x y) (o'.ge x y)
  ne : ∀ x y, Tr false Eq (o.ne x y) (o'.ne x y)
  inc : ∀ x, Tr false Eq (o.inc x) (o'.inc x)
  deref : ∀ x, Tr false Eq (o.deref x) (o'.deref x)

theorem fwd_tr {σ : Type} {mem mem' : Nat → Flag σ α} (h : ∀ a, FlagTr Eq (mem a) (mem' a)) (s : σ) :
    RangeTr (RangeCtor.fwd b mem s) (RangeCtor.fwd (off b) mem' s) :=
  ⟨itDiff_tr b, forwardCmp_tr b .ge, forwardCmp_tr b .ne, itInc_tr b, fun x => itDeref_tr b h x s⟩

theorem rev_tr {σ : Type} {mem mem' : Nat → Flag σ α} (h : ∀ a, FlagTr Eq (mem a) (mem' a)) (s : σ) :
    RangeTr (RangeCtor.rev b mem s) (RangeCtor.rev (off b) mem' s) :=
  ⟨fun _ _ => itDiff_tr b _ _, backwardCmp_tr b .ge, backwardCmp_tr b .ne, ritInc_tr b,
   fun x => ritDeref_tr b h x s⟩

theorem copyRange_tr {ι : Type} {o o' : RangeCtor.Ops ι α} (h : RangeTr o o') (e : ι) (fuel : Nat) (it : ι) (c : Int)
    (l : List α) : Tr false Eq (RangeCtor.copyRange o e fuel it c l) (RangeCtor.copyRange o' e fuel it c l) := by
  induction fuel generalizing it c l with
  | zero => exact Tr.refl _
  | succ n ih =>
    refine Tr.bindEq (h.ne it e) fun d => Tr.ite ?_ (Tr.refl _)
    exact Tr.bindEq (h.deref it) fun x => Tr.bindEq (Tr.refl _) fun c => Tr.bindEq (Tr.refl _) fun l =>
      Tr.bindEq (h.inc it) fun it => ih _ _ _

theorem rangeMake_tr [Inhabited α] {ι : Type} {o o' : RangeCtor.Ops ι α} (h : RangeTr o o') (x e : ι) (fuel : Nat) :
    Tr false Eq (RangeCtor.make b o x e fuel) (RangeCtor.make (off b) o' x e fuel) := by
  unfold RangeCtor.make
  exact Tr.bindEq (h.diff _ _) fun d => Tr.bindEq (Tr.refl _) fun n => Tr.bindEq (make_tr b _) fun l =>
    Tr.bindEq (Tr.assertDebugM _ _ _) fun _ => copyRange_tr h _ _ _ _ _

theorem rangeMakeFixed_tr [Inhabited α] {ι : Type} {o o' : RangeCtor.Ops ι α} (h : RangeTr o o') (N : Nat) (x e : ι)
    (fuel : Nat) : Tr false Eq (RangeCtor.makeFixed b N o x e fuel) (RangeCtor.makeFixed (off b) N o' x e fuel) := by
  unfold RangeCtor.makeFixed
  exact Tr.bindEq (Tr.assertDebugM _ _ _) fun d => Tr.bindEq (Tr.assertDebugM _ _ _) fun _ => copyRange_tr h _ _ _ _ _

/-! ### Several arrays filled with random numbers -/

theorem semiFill_tr (ordered : Bool) {draw draw' : Int → Res (α × Int)} (hd : ∀ p, Tr false Eq (draw p) (draw' p))
    (clock seed : Int) {p p' : Acc (Store α) Loc} (h : AccTr p p') :
    OpTr false Eq (Semi.semiFill b ordered draw clock seed p) (Semi.semiFill (off b) ordered draw' clock seed p') := by
  unfold Semi.semiFill
  exact OpTr.bindEq (OpTr.lift (Tr.assertDebug _ _)) fun _ => OpTr.bindEq (OpTr.refl _) fun s =>
    OpTr.bindEq (OpTr.lift (h.size s)) fun n => OpTr.bindEq (OpTr.refl _) fun sd => OpTr.bindEq (OpTr.refl _) fun q =>
    OpTr.bindEq (OpTr.lift (h.size s)) fun n => fillFrom_tr h hd _ _ _

theorem semiRandomAll_tr {draw draw' : Int → Res (α × Int)} (hd : ∀ p, Tr false Eq (draw p) (draw' p)) (clock : Int)
    {l l' : List (Acc (Store α) Loc)} (h : List.Forall₂ AccTr l l') :
    OpTr false Eq (Semi.semiRandomAll b draw clock l) (Semi.semiRandomAll (off b) draw' clock l') := by
  induction h with
  | nil => exact OpTr.refl _
  | cons h _ ih => exact OpTr.bindEq (semiFill_tr b true hd clock 1 h) fun _ => ih

theorem randomNot0All_tr {G : Type} [LinearOrder α] (z : α) (gen : StdRandom.Gen α G) (lo hi : StdRandom.Bound α)
    (fuel : Nat) {l l' : List (Acc (Store α) Loc × G)} (h : List.Forall₂ (fun x y => AccTr x.1 y.1 ∧ x.2 = y.2) l l') :
    OpTr false Eq (StdRandom.randomNot0All b z gen lo hi fuel l) (StdRandom.randomNot0All (off b) z gen lo hi fuel l') := by
  induction h with
  | nil => exact OpTr.refl _
  | @cons x y l l' h _ ih =>
    obtain ⟨x, g⟩ := x
    obtain ⟨y, g'⟩ := y
    obtain ⟨hx, hg⟩ := h
    dsimp only at hx hg
    subst hg
    refine OpTr.bindEq (OpTr.refl _) fun s => OpTr.bindEq (OpTr.refl _) fun _ => OpTr.bindEq (OpTr.refl _) fun _ =>
      OpTr.bindEq (randomNot0_tr b z gen hx _ _ _ _) fun r => ?_
    cases r with
    | none => exact OpTr.refl _
    | some _ => exact ih

end

/-! ### Examples -/

section

variable (b : Build)

theorem elem1Sub_tr (l : List α) (p : Pos) : Tr false Eq (Elem1.sub b l p) (Elem1.sub (off b) l p) :=
  Tr.bindEq (Tr.assertDebugM _ _ _) fun _ => Tr.refl _

theorem elem2Sub_tr (m n : Int) (l : List α) (p q : Pos) : Tr false Eq (Elem2.sub b m n l p q) (Elem2.sub (off b) m n l p q) :=
  Tr.bindEq (Tr.refl _) fun _ => Tr.bindEq (Tr.refl _) fun _ => Tr.bindEq (Tr.assertDebug _ _) fun _ => Tr.refl _

theorem elem1Set_tr (p : Pos) (x : α) : OpTr false Eq (Elem1.subSet b p x) (Elem1.subSet (off b) p x) :=
  OpTr.bindEq (OpTr.refl _) fun _ => OpTr.bindEq (OpTr.lift (Tr.assertDebugM _ _ _)) fun _ => OpTr.refl _

/-- A member function called in a function that returns a value. -/
theorem step_tr {σ A B : Type} {x y : Op σ Unit} (h : OpTr false Eq x y) (s : σ) {f g : σ → Res A}
    (hf : ∀ s, Tr false Eq (f s) (g s)) :
    Tr false Eq ((x s).1 >>= fun _ => f (x s).2) ((y s).1 >>= fun _ => g (y s).2) := by
  have h := h s
  generalize x s = p at h
  generalize y s = q at h
  cases h with
  | trap k t y => exact .trap _ _
  | ub0 h t y => exact .ub0 rfl _
  | ub t => exact .ub
  | ok h t => exact hf t

theorem onArr1_tr (i : Nat) {x y : Op (List α) Unit} (h : OpTr false Eq x y) :
    OpTr false Eq (Examples.onArr1 i x) (Examples.onArr1 i y) := fun s => by
  have h := h (s.a1 i)
  unfold Examples.onArr1
  generalize x (s.a1 i) = p at h
  generalize y (s.a1 i) = q at h
  cases h with
  | trap k t y => exact .trap _ _ _
  | ub0 h t y => exact .ub0 rfl _ _
  | ub t => exact .ub _
  | ok h t => exact .ok h _

variable {sc sc' : Scalar α} (hs : SameScalar sc sc')
include hs

theorem passes_tr (tol nz : α) (s : Store α) :
    Tr false Eq (Examples.passes b sc tol nz s) (Examples.passes (off b) sc' tol nz s) :=
  Tr.bind (build_tr b s (.matvec hs.toSameArith (.lv _) (.lv _))) fun _ _ h =>
    Tr.bind (build_tr b s (.lv _)) fun _ _ h' => withinTolRelArray_tr b .one hs h h' tol nz s false

theorem entry_tr (i : Nat) (s : Store α) : Tr false Eq (Examples.entry b sc i s) (Examples.entry (off b) sc' i s) := by
  unfold Examples.entry
  rw [hs.zero]
  exact Tr.bindEq (elem1Sub_tr b _ _) fun _ => Tr.bind (build_tr b s (.exclude _ _ (.view _ (.lv _)))) fun _ _ h =>
    Tr.bind (build_tr b s (.exclude _ _ (.lv _))) fun _ _ h' =>
    Tr.bindEq (dotProd_tr b .one hs.toSameArith h h' s _) fun _ => Tr.bindEq (.of_survives (hs.sub _ _)) fun _ =>
    Tr.bindEq (elem2Sub_tr b _ _ _ _ _) fun _ => .of_survives (hs.div _ _)

theorem sweep_tr (N : Nat) : OpTr false Eq (Examples.sweep b sc N) (Examples.sweep (off b) sc' N) :=
  OpTr.forN _ fun i => OpTr.bindEq (OpTr.refl _) fun s => OpTr.bindEq (OpTr.lift (entry_tr b hs i s)) fun v =>
    onArr1_tr 2 (elem1Set_tr b _ _)

theorem jacobiLoop_tr (tol nz : α) (N left iter : Nat) :
    OpTr false Eq (Examples.jacobiLoop b sc tol nz N left iter) (Examples.jacobiLoop (off b) sc' tol nz N left iter) := by
  induction left generalizing iter with
  | zero => exact OpTr.refl _
  | succ n ih =>
    exact OpTr.bindEq (OpTr.refl _) fun s => OpTr.bindEq (OpTr.lift (passes_tr b hs tol nz s)) fun c =>
      OpTr.ite (OpTr.refl _) (OpTr.bindEq (sweep_tr b hs N) fun _ =>
        OpTr.bindEq (run_tr b (.assign _ (.lv _))) fun _ => ih _)

theorem zeros_tr (dyn : Bool) (k : Nat) (N : Int) :
    Tr false Eq (Examples.zeros b sc dyn k N) (Examples.zeros (off b) sc' dyn k N) := by
  unfold Examples.zeros
  rw [hs.zero]
  exact Tr.ite (step_tr (B := Unit) (@resize1_tr α ⟨sc'.zero⟩ b N false) _ fun s => Tr.refl _) (Tr.refl _)

theorem jacobi_tr (dyn : Bool) (A : Arr2 α) (rhs : List α) (tol nz : α) :
    Tr false Eq (Examples.jacobi b sc dyn A rhs tol nz) (Examples.jacobi (off b) sc' dyn A rhs tol nz) := by
  unfold Examples.jacobi
  rw [show (off b).ndebug = b.ndebug from rfl]
  dsimp only
  refine Tr.ite ?_ (.trap _ _)
  refine Tr.bindEq (Tr.refl _) fun _ => Tr.bindEq (Tr.refl _) fun k => Tr.bindEq (zeros_tr b hs _ _ _) fun x =>
    Tr.bindEq (zeros_tr b hs _ _ _) fun y => Tr.bindEq (Tr.refl _) fun n => Tr.bindEq (Tr.assertDebug _ _) fun _ => ?_
  have h := jacobiLoop_tr b hs tol nz A.rows.toNat n.toNat 0 (Examples.vars A rhs x y)
  generalize Examples.jacobiLoop b sc tol nz A.rows.toNat n.toNat 0 (Examples.vars A rhs x y) = p at h
  generalize Examples.jacobiLoop (off b) sc' tol nz A.rows.toNat n.toNat 0 (Examples.vars A rhs x y) = q at h
  cases h with
  | trap k t y => exact .trap _ _
  | ub0 h t y => exact .ub0 rfl _
  | ub t => exact .ub
  | ok h t => exact .ok h

theorem trapezoid_tr (two h y : α) : Tr false Eq (Examples.trapezoid sc two h y) (Examples.trapezoid sc' two h y) := by
  unfold Examples.trapezoid
  rw [hs.one]
  exact Tr.bindEq (.of_survives (hs.mul _ _)) fun _ => Tr.bindEq (.of_survives (hs.div _ _)) fun _ =>
    Tr.bindEq (.of_survives (hs.add _ _)) fun _ => Tr.bindEq (.of_survives (hs.div _ _)) fun _ =>
    Tr.bindEq (.of_survives (hs.sub _ _)) fun _ => .of_survives (hs.div _ _)

theorem odeSolve_tr (two : α) (k : Int) (h y0 : α) :
    Tr false Eq (Examples.odeSolve b sc two k h y0) (Examples.odeSolve (off b) sc' two k h y0) := by
  unfold Examples.odeSolve
  rw [hs.zero, hs.lt]
  refine Tr.bindEq (Tr.assertDebug _ _) fun _ => Tr.bindEq (Tr.assertDebug _ _) fun _ => Tr.bindEq (Tr.refl _) fun n =>
    Tr.bindEq (@make_tr α ⟨sc'.zero⟩ b n) fun y => ?_
  refine step_tr (B := Unit) (elem1Set_tr b _ _) y (f := fun l => do
      let m ← isub (len l) 1
      assertDebug b (decide (m > -1))
      foldN m.toNat _ l) (g := fun l => do
      let m ← isub (len l) 1
      assertDebug (off b) (decide (m > -1))
      foldN m.toNat _ l) fun l => ?_
  refine Tr.bindEq (Tr.refl _) fun m => Tr.bindEq (Tr.assertDebug _ _) fun _ => Tr.foldN _ _ fun i l => ?_
  exact Tr.bindEq (elem1Sub_tr b _ _) fun u => Tr.bindEq (trapezoid_tr hs two h u) fun v => Tr.bindEq (Tr.refl _) fun k =>
    step_tr (B := Unit) (elem1Set_tr b _ _) l fun l => Tr.refl _

end

section

variable (b : Build) {ar ar' : Arith α} (hr : SameArith ar ar')
include hr

theorem sumOf_survives {l l' : List (Res α)} (h : List.Forall₂ Survives l l') :
    Survives (Examples.sumOf ar l) (Examples.sumOf ar' l') := by
  have hn : l'.length = l.length := h.length_eq.symm
  unfold Examples.sumOf
  simp only [len, hn, hr.zero]
  refine (sum_tr hr (AccTr.oneD _ fun _ i => Tr.ite ?_ .ub) () _).survives
  generalize i.toNat = k
  induction h generalizing k with
  | nil => exact .ub
  | cons h _ ih =>
    cases k with
    | zero => exact .of_survives h
    | succ k => exact ih (by simpa using hn) k

theorem makeDominant_tr (two : α) :
    OpTr false Eq (Examples.makeDominant b ar two) (Examples.makeDominant (off b) ar' two) :=
  run_tr b (.compound _ hr.add (.scalarL _ hr.mul (.reduce _ (fun _ _ h => sumOf_survives hr h) (.lv _))))

end

section

variable {β : Type} (b : Build) {fs fs' : FScalar α} (hf : SameFScalar fs fs') {sq sq' : Scalar β} (hq : SameScalar sq sq')
include hf hq

theorem polyErrors_tr (widen : α → β) (x : α) (C : List α) :
    Tr false Eq (Examples.polyErrors b fs sq widen x C) (Examples.polyErrors (off b) fs' sq' widen x C) := by
  unfold Examples.polyErrors
  rw [hf.zero, hq.zero]
  exact Tr.bindEq (polynomial_tr b hf.toSameArith (.refl _) x () _) fun p =>
    Tr.bindEq (stablePolynomial_tr b hf (.refl _) x () _) fun p' =>
    Tr.bindEq (polynomial_tr b hq.toSameArith (.refl _) _ () _) fun q => Tr.bindEq (relError_tr hq _ _) fun r =>
    Tr.bindEq (relError_tr hq _ _) fun r' => Tr.refl _

theorem polyStats_tr (widen : α → β) (l : List (α × List α)) :
    Tr false Eq (Examples.polyStats b fs sq widen l) (Examples.polyStats (off b) fs' sq' widen l) := by
  unfold Examples.polyStats
  rw [hq.zero]
  generalize Examples.Stats.mk sq'.zero sq'.zero sq'.zero sq'.zero = st
  induction l generalizing st with
  | nil => exact Tr.refl _
  | cons d l ih =>
    simp only [List.foldlM_cons]
    refine Tr.bindEq (Tr.bindEq (polyErrors_tr b hf hq widen d.1 d.2) fun e => ?_) fun st => ih st
    rcases e with ⟨_ | r, _ | t⟩
    · exact Tr.refl _
    · exact Tr.refl _
    · exact Tr.refl _
    · simp only [Examples.record, Scalar.maxs, hq.lt]
      exact Tr.bindEq (.of_survives (hq.add _ _)) fun _ => Tr.bindEq (.of_survives (hq.add _ _)) fun _ => Tr.refl _

theorem polyReport_tr (widen : α → β) (l : List (α × List α)) :
    Tr false Eq (Examples.polyReport b fs sq widen l) (Examples.polyReport (off b) fs' sq' widen l) :=
  Tr.bindEq (polyStats_tr b hf hq widen l) fun st => Tr.bindEq (.of_survives (hq.ofIndex _)) fun _ =>
    Tr.bindEq (.of_survives (hq.div _ _)) fun _ => Tr.bindEq (.of_survives (hq.ofIndex _)) fun _ =>
    Tr.bindEq (.of_survives (hq.div _ _)) fun _ => Tr.refl _

end

/-! ### Several operations together -/

section

variable [Inhabited α] (b : Build)

theorem removeWhere_tr (f : α → Bool) : OpTr false Eq (Idioms.removeWhere b f) (Idioms.removeWhere (off b) f) := by
  refine OpTr.bindEq (OpTr.refl _) fun l => OpTr.bindEq (OpTr.refl _) fun idx =>
    OpTr.bindEq (OpTr.lift (mkSlice_tr b _ _ _)) fun sl => ?_
  cases sl with
  | vec v => exact removeVec_tr b v
  | seqN _ _ _ => exact OpTr.refl _

theorem removeClosed_tr {sc sc' : Scalar α} (hs : SameScalar sc sc') (lo hi : α) :
    OpTr false Eq (Idioms.removeClosed b sc lo hi) (Idioms.removeClosed (off b) sc' lo hi) := by
  unfold Idioms.removeClosed
  rw [hs.le]
  exact OpTr.bindEq (OpTr.lift (Tr.assertDebug _ _)) fun _ => removeWhere_tr b _

theorem removeOpen_tr {sc sc' : Scalar α} (hs : SameScalar sc sc') (lo hi : α) :
    OpTr false Eq (Idioms.removeOpen b sc lo hi) (Idioms.removeOpen (off b) sc' lo hi) := by
  unfold Idioms.removeOpen
  rw [hs.le, hs.lt]
  exact OpTr.bindEq (OpTr.lift (Tr.assertDebug _ _)) fun _ => removeWhere_tr b _

theorem rotate_tr (dst src : Nat) :
    OpTr false Eq (Idioms.rotate (α := α) b dst src) (Idioms.rotate (off b) dst src) :=
  OpTr.bindEq (OpTr.refl _) fun s => OpTr.bindEq (OpTr.lift (elem1Sub_tr b _ _)) fun x =>
    run_tr b (.assign _ (.prepend _ (.excludeLast _ (.lv _))))

theorem oddFromEven_tr (neg : α → α) (add : α → α → α) (i : Nat) (c : α) :
    OpTr false Eq (Idioms.oddFromEven b neg add i c) (Idioms.oddFromEven (off b) neg add i c) :=
  run_tr b (.assign _ (.scalarR _ (fun _ _ _ h => h) (.unary (fun _ _ h => h) (.view _ (.lv _)))))

theorem eigenAssignProduct_tr (dot : List (α × α) → Option α) (A B C : Arr2 α) :
    Tr false Eq (eigenAssignProduct b dot A B C) (eigenAssignProduct (off b) dot A B C) := Tr.refl _

end

end Spp
