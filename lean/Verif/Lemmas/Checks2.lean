import Verif.Lemmas.Checks
import Verif.Model.StrictMath
import Verif.Model.History1D
import Verif.Model.History2D
import Verif.Model.Heap

/- Owning arrays with and without debug checks (see Lemmas/Checks.lean). -/

set_option linter.unusedSectionVars false
set_option linter.unusedVariables false

namespace Spp

open Spec

theorem OTr.run {u : Bool} {σ A : Type} {p q : Res A × σ} (h : OTr u Eq p q) :
    Tr u Eq (p.1 >>= fun _ => (pure p.2 : Res σ)) (q.1 >>= fun _ => pure q.2) := by
  cases h with
  | trap k s y => exact .trap k _
  | ub0 h s y => exact .ub0 h _
  | ub s => exact .ub
  | ok h s => exact .ok rfl

/-- Operands built with and without checks. -/
structure SrcTr {σ α : Type} (x y : Src σ α) : Prop where
  size : y.size = x.size
  un : ∀ s i, Tr false Eq (x.un s i) (y.un s i)

/-- Operands built with and without checks. -/
structure Src2Tr {σ α : Type} (x y : Src2 σ α) : Prop where
  rows : y.rows = x.rows
  cols : y.cols = x.cols
  array : y.array = x.array
  un : ∀ s i, Tr false Eq (x.un s i) (y.un s i)
  un2 : ∀ s i j, Tr false Eq (x.un2 s i j) (y.un2 s i j)

macro_rules | `(tactic| checks_lemma) => `(tactic| with_reducible apply SrcTr.un; assumption)
macro_rules | `(tactic| checks_lemma) => `(tactic| with_reducible apply Src2Tr.un; assumption)
macro_rules | `(tactic| checks_lemma) => `(tactic| with_reducible apply Src2Tr.un2; assumption)

theorem SrcTr.refl {σ α : Type} (x : Src σ α) : SrcTr x x := ⟨rfl, fun _ _ => Tr.refl _⟩
theorem Src2Tr.refl {σ α : Type} (x : Src2 σ α) : Src2Tr x x :=
  ⟨rfl, rfl, rfl, fun _ _ => Tr.refl _, fun _ _ _ => Tr.refl _⟩

section

variable {α : Type} [Inhabited α] (b : Build)

theorem make_tr (n : Int) : Tr false Eq (Arr1.make (α := α) b n) (Arr1.make (off b) n) := by
  unfold Arr1.make
  checks
macro_rules | `(tactic| checks_lemma) => `(tactic| with_reducible exact make_tr _ _)

theorem make2_tr (m n : Int) : Tr false Eq (Arr2.make (α := α) b m n) (Arr2.make (off b) m n) := by
  unfold Arr2.make
  checks
macro_rules | `(tactic| checks_lemma) => `(tactic| with_reducible exact make2_tr _ _ _)

theorem makeFill_tr (n : Int) (x : α) : Tr false Eq (Arr1.makeFill b n x) (Arr1.makeFill (off b) n x) := by
  unfold Arr1.makeFill
  checks

theorem makeFill2_tr (m n : Int) (x : α) : Tr false Eq (Arr2.makeFill b m n x) (Arr2.makeFill (off b) m n x) := by
  unfold Arr2.makeFill
  checks

theorem makeList2_tr (L : List (List α)) : Tr false Eq (Arr2.makeList b L) (Arr2.makeList (off b) L) := by
  unfold Arr2.makeList
  checks
macro_rules | `(tactic| checks_lemma) => `(tactic| with_reducible exact makeList2_tr _ _)

theorem copyn0_tr {f f' : Int → Res α} (h : ∀ i, Tr false Eq (f i) (f' i)) (l : List α) (n : Int) :
    Tr false Eq (copyn0 f l n) (copyn0 f' l n) := by
  unfold copyn0
  exact Tr.foldN _ _ fun k a => Tr.bindEq (h _) fun _ => Tr.refl _

theorem copyn_tr {f f' : Int → Res α} (h : ∀ i, Tr false Eq (f i) (f' i)) (l : List α) (p q n : Int) :
    Tr false Eq (copyn f l p q n) (copyn f' l p q n) := by
  unfold copyn
  exact Tr.foldN _ _ fun k a => Tr.bindEq (h _) fun _ => Tr.refl _

theorem copy1_tr {x y : Src (List α) α} (h : SrcTr x y) : OpTr false Eq (Arr1.copy x) (Arr1.copy y) := by
  unfold Arr1.copy
  rw [h.size]
  checks
macro_rules | `(tactic| checks_lemma) => `(tactic| with_reducible apply copy1_tr; assumption)

theorem makeFrom1_tr {x y : Src (List α) α} (h : SrcTr x y) :
    Tr false Eq (Arr1.makeFrom b x) (Arr1.makeFrom (off b) y) := by
  unfold Arr1.makeFrom
  rw [h.size]
  exact Tr.bindEq (make_tr b _) fun l => (copy1_tr h l).run
macro_rules | `(tactic| checks_lemma) => `(tactic| with_reducible apply makeFrom1_tr; assumption)

theorem assign1_tr {x y : Src (List α) α} (h : SrcTr x y) :
    OpTr false Eq (Arr1.assign b x) (Arr1.assign (off b) y) := by
  unfold Arr1.assign
  rw [h.size]
  checks

theorem resize1_tr (n : Int) (p : Bool) : OpTr false Eq (Arr1.resize (α := α) b n p) (Arr1.resize (off b) n p) := by
  unfold Arr1.resize
  checks

theorem resizeAndAssign1_tr {x y : Src (List α) α} (h : SrcTr x y) :
    OpTr false Eq (Arr1.resizeAndAssign b x) (Arr1.resizeAndAssign (off b) y) := by
  unfold Arr1.resizeAndAssign
  refine OpTr.bindEq (OpTr.refl _) fun l => OpTr.bindEq (OpTr.lift ?_) fun _ => OpTr.refl _
  rw [h.size]
  exact makeFrom1_tr b ⟨rfl, fun _ i => h.un l i⟩

theorem remove_tr (p c : Int) : OpTr false Eq (Arr1.remove (α := α) b p c) (Arr1.remove (off b) p c) := by
  unfold Arr1.remove
  checks
macro_rules | `(tactic| checks_lemma) => `(tactic| with_reducible exact remove_tr _ _ _)

theorem removeVec_tr (idx : List Int) : OpTr false Eq (Arr1.removeVec (α := α) b idx) (Arr1.removeVec (off b) idx) := by
  unfold Arr1.removeVec
  checks

theorem insert_tr (p : Int) (x : α) : OpTr false Eq (Arr1.insert b p x) (Arr1.insert (off b) p x) := by
  unfold Arr1.insert
  checks
macro_rules | `(tactic| checks_lemma) => `(tactic| with_reducible exact insert_tr _ _ _)

theorem insertArr_tr (p : Int) {x y : Src (List α) α} (h : SrcTr x y) :
    OpTr false Eq (Arr1.insertArr b p x) (Arr1.insertArr (off b) p y) := by
  unfold Arr1.insertArr
  rw [h.size]
  refine OpTr.bindEq (OpTr.refl _) fun l => OpTr.bindEq (OpTr.lift (Tr.assertDebug _ _)) fun _ => ?_
  refine OpTr.bindEq (OpTr.refl _) fun _ => OpTr.bindEq (OpTr.lift (make_tr b _)) fun _ => ?_
  refine OpTr.bindEq (OpTr.refl _) fun _ => OpTr.bindEq (OpTr.lift (copyn_tr (h.un l) _ _ _ _)) fun _ => ?_
  exact OpTr.refl _
macro_rules | `(tactic| checks_lemma) => `(tactic| with_reducible apply insertArr_tr; assumption)

theorem on_tr (i : Nat) {x y : Op (List α) Unit} (h : OpTr false Eq x y) :
    OpTr false Eq (Vars.on i x) (Vars.on i y) := fun s => by
  unfold Vars.on
  have h := h (s i)
  generalize x (s i) = p at h
  generalize y (s i) = q at h
  cases h with
  | trap k s y => exact .trap k _ _
  | ub0 h s y => exact .ub0 h _ _
  | ub s => exact .ub _
  | ok h s => exact .ok h _

theorem exec_tr (c : Stmt α) : OpTr false Eq (exec b c) (exec (off b) c) := by
  cases c with
  | fill i x => exact OpTr.refl _
  | assignList i xs => exact on_tr i (assign1_tr b (.refl _))
  | copyAssign i j =>
    simp only [exec, Vars.copyAssign]
    exact OpTr.ite (OpTr.bindEq (OpTr.refl _) fun s => on_tr i (assign1_tr b (.refl _))) (OpTr.refl _)
  | moveAssign i j =>
    simp only [exec, Vars.moveAssign]
    checks
  | swap i j => exact OpTr.refl _
  | resize i n p => exact on_tr i (resize1_tr b _ _)
  | resizeAndAssign i j => exact fun s => on_tr i (resizeAndAssign1_tr b (.refl _)) s
  | resizeAndAssignMove i j => exact OpTr.refl _
  | remove i p c => exact on_tr i (remove_tr b _ _)
  | removeFront i c => exact on_tr i (remove_tr b _ _)
  | removeBack i c => exact on_tr i (by unfold Arr1.removeBack; checks)
  | removeLast i k => exact on_tr i (by unfold Arr1.removeLast; checks)
  | removeVec i idx => exact on_tr i (removeVec_tr b _)
  | insert i p x => exact on_tr i (insert_tr b _ _)
  | insertFront i x => exact on_tr i (insert_tr b _ _)
  | insertBack i x => exact on_tr i (by unfold Arr1.insertBack; checks)
  | insertArr i p j => exact fun s => on_tr i (insertArr_tr b _ (.refl _)) s
  | insertFrontArr i j => exact fun s => on_tr i (insertArr_tr b _ (.refl _)) s
  | insertBackArr i j =>
    exact fun s => on_tr i (by
      unfold Arr1.insertBackArr
      exact OpTr.bindEq (OpTr.refl _) fun _ => insertArr_tr b _ (.refl _)) s

/-! ### Two dimensions -/

theorem copyLinear_tr (n : Int) {f f' : Arr2 α → Int → Res α} (h : ∀ s i, Tr false Eq (f s i) (f' s i)) :
    OpTr false Eq (Arr2.copyLinear n f) (Arr2.copyLinear n f') := by
  unfold Arr2.copyLinear
  exact OpTr.forN _ fun k => OpTr.bindEq (OpTr.refl _) fun a => OpTr.bindEq (OpTr.lift (h a k)) fun _ => OpTr.refl _

theorem copyTwoIndex_tr (m n : Int) {f f' : Arr2 α → Int → Int → Res α}
    (h : ∀ s i j, Tr false Eq (f s i j) (f' s i j)) :
    OpTr false Eq (Arr2.copyTwoIndex m n f) (Arr2.copyTwoIndex m n f') := by
  unfold Arr2.copyTwoIndex
  exact OpTr.forN _ fun k => OpTr.forN _ fun j => OpTr.bindEq (OpTr.refl _) fun a =>
    OpTr.bindEq (OpTr.lift (h a k j)) fun _ => OpTr.refl _

theorem copy2_tr {x y : Src2 (Arr2 α) α} (h : Src2Tr x y) : OpTr false Eq (Arr2.copy x) (Arr2.copy y) := by
  unfold Arr2.copy
  rw [h.rows, h.cols, h.array]
  exact OpTr.ite (copyLinear_tr _ h.un) (copyTwoIndex_tr _ _ h.un2)
macro_rules | `(tactic| checks_lemma) => `(tactic| with_reducible apply copy2_tr; assumption)

theorem makeFrom2_tr {x y : Src2 (Arr2 α) α} (h : Src2Tr x y) :
    Tr false Eq (Arr2.makeFrom b x) (Arr2.makeFrom (off b) y) := by
  unfold Arr2.makeFrom
  rw [h.rows, h.cols]
  exact Tr.bindEq (make2_tr b _ _) fun l => (copy2_tr h l).run

theorem assign2_tr {x y : Src2 (Arr2 α) α} (h : Src2Tr x y) :
    OpTr false Eq (Arr2.assign b x) (Arr2.assign (off b) y) := by
  unfold Arr2.assign
  rw [h.rows, h.cols]
  checks

theorem resize2_tr (m n : Int) (p : Bool) :
    OpTr false Eq (Arr2.resize (α := α) b m n p) (Arr2.resize (off b) m n p) := by
  unfold Arr2.resize
  checks
macro_rules | `(tactic| checks_lemma) => `(tactic| with_reducible exact resize2_tr _ _ _ _)

theorem resizeAndAssign2_tr {x y : Src2 (Arr2 α) α} (h : Src2Tr x y) :
    OpTr false Eq (Arr2.resizeAndAssign b x) (Arr2.resizeAndAssign (off b) y) := by
  unfold Arr2.resizeAndAssign
  refine OpTr.bindEq (OpTr.refl _) fun a => OpTr.bindEq (OpTr.lift ?_) fun _ => OpTr.refl _
  exact makeFrom2_tr b ⟨h.rows, h.cols, h.array, fun _ i => h.un a i, fun _ i j => h.un2 a i j⟩

theorem removeRows_tr (p c : Int) : OpTr false Eq (Arr2.removeRows (α := α) b p c) (Arr2.removeRows (off b) p c) := by
  unfold Arr2.removeRows
  checks
macro_rules | `(tactic| checks_lemma) => `(tactic| with_reducible exact removeRows_tr _ _ _)

theorem removeCols_tr (p c : Int) : OpTr false Eq (Arr2.removeCols (α := α) b p c) (Arr2.removeCols (off b) p c) := by
  unfold Arr2.removeCols
  checks
macro_rules | `(tactic| checks_lemma) => `(tactic| with_reducible exact removeCols_tr _ _ _)

theorem copyRows_tr (n : Int) {f f' : Int → Int → Res α} (h : ∀ i j, Tr false Eq (f i j) (f' i j)) (a : Arr2 α)
    (p q c : Int) : Tr false Eq (Arr2.copyRows n f a p q c) (Arr2.copyRows n f' a p q c) := by
  unfold Arr2.copyRows
  exact Tr.foldN _ _ fun i t => Tr.foldN _ _ fun j t => Tr.bindEq (h _ _) fun _ => Tr.refl _

theorem copyCols_tr (n : Int) {f f' : Int → Int → Res α} (h : ∀ i j, Tr false Eq (f i j) (f' i j)) (a : Arr2 α)
    (p q c : Int) : Tr false Eq (Arr2.copyCols n f a p q c) (Arr2.copyCols n f' a p q c) := by
  unfold Arr2.copyCols
  exact Tr.foldN _ _ fun i t => Tr.foldN _ _ fun j t => Tr.bindEq (h _ _) fun _ => Tr.refl _

theorem insertRows_tr (p : Int) {x y : Src2 (Arr2 α) α} (h : Src2Tr x y) :
    OpTr false Eq (Arr2.insertRows b p x) (Arr2.insertRows (off b) p y) := by
  unfold Arr2.insertRows
  rw [h.rows, h.cols]
  refine OpTr.bindEq (OpTr.refl _) fun a => OpTr.bindEq (OpTr.lift (Tr.assertDebug _ _)) fun _ => ?_
  refine OpTr.ite (resizeAndAssign2_tr b h) ?_
  refine OpTr.bindEq (OpTr.lift (Tr.assertDebug _ _)) fun _ => OpTr.bindEq (OpTr.refl _) fun _ => ?_
  refine OpTr.bindEq (OpTr.lift (make2_tr b _ _)) fun _ => OpTr.bindEq (OpTr.refl _) fun _ => ?_
  exact OpTr.bindEq (OpTr.lift (copyRows_tr _ (h.un2 a) _ _ _ _)) fun _ => OpTr.refl _

theorem insertCols_tr (p : Int) {x y : Src2 (Arr2 α) α} (h : Src2Tr x y) :
    OpTr false Eq (Arr2.insertCols b p x) (Arr2.insertCols (off b) p y) := by
  unfold Arr2.insertCols
  rw [h.rows, h.cols]
  refine OpTr.bindEq (OpTr.refl _) fun a => OpTr.bindEq (OpTr.lift (Tr.assertDebug _ _)) fun _ => ?_
  refine OpTr.ite (resizeAndAssign2_tr b h) ?_
  refine OpTr.bindEq (OpTr.lift (Tr.assertDebug _ _)) fun _ => OpTr.bindEq (OpTr.refl _) fun _ => ?_
  refine OpTr.bindEq (OpTr.lift (make2_tr b _ _)) fun _ => OpTr.bindEq (OpTr.refl _) fun _ => ?_
  exact OpTr.bindEq (OpTr.lift (copyCols_tr _ (h.un2 a) _ _ _ _)) fun _ => OpTr.refl _

theorem insertRowLoop_tr (a : Arr2 α) (p n : Int) {f f' : Int → Res α} (h : ∀ i, Tr false Eq (f i) (f' i))
    (t : Arr2 α) : Tr false Eq (Arr2.insertRowLoop a p n f t) (Arr2.insertRowLoop a p n f' t) := by
  unfold Arr2.insertRowLoop
  refine Tr.foldN _ _ fun i st => Tr.ite (Tr.refl _) ?_
  exact Tr.bindEq (Tr.foldN _ _ fun j t => Tr.bindEq (h _) fun _ => Tr.refl _) fun _ => Tr.refl _

theorem insertColLoop_tr (a : Arr2 α) (p n : Int) {f f' : Int → Res α} (h : ∀ i, Tr false Eq (f i) (f' i))
    (t : Arr2 α) : Tr false Eq (Arr2.insertColLoop a p n f t) (Arr2.insertColLoop a p n f' t) := by
  unfold Arr2.insertColLoop
  refine Tr.foldN _ _ fun i t => Tr.bindEq (Tr.foldN _ _ fun j st => Tr.ite (Tr.refl _) ?_) fun _ => Tr.refl _
  exact Tr.bindEq (h _) fun _ => Tr.refl _

theorem insertRow_tr (p : Int) {x y : Src (Arr2 α) α} (h : SrcTr x y) :
    OpTr false Eq (Arr2.insertRow b p x) (Arr2.insertRow (off b) p y) := by
  unfold Arr2.insertRow
  rw [h.size]
  refine OpTr.bindEq (OpTr.refl _) fun a => OpTr.bindEq (OpTr.lift (Tr.assertDebug _ _)) fun _ => ?_
  refine OpTr.ite (OpTr.bindEq (resize2_tr b _ _ _) fun _ => copyLinear_tr _ h.un) ?_
  refine OpTr.bindEq (OpTr.lift (Tr.assertDebug _ _)) fun _ => OpTr.bindEq (OpTr.refl _) fun _ => ?_
  refine OpTr.bindEq (OpTr.lift (make2_tr b _ _)) fun _ => ?_
  exact OpTr.bindEq (OpTr.lift (insertRowLoop_tr _ _ _ (h.un a) _)) fun _ => OpTr.refl _

theorem insertCol_tr (p : Int) {x y : Src (Arr2 α) α} (h : SrcTr x y) :
    OpTr false Eq (Arr2.insertCol b p x) (Arr2.insertCol (off b) p y) := by
  unfold Arr2.insertCol
  rw [h.size]
  refine OpTr.bindEq (OpTr.refl _) fun a => OpTr.bindEq (OpTr.lift (Tr.assertDebug _ _)) fun _ => ?_
  refine OpTr.ite (OpTr.bindEq (resize2_tr b _ _ _) fun _ => copyLinear_tr _ h.un) ?_
  refine OpTr.bindEq (OpTr.lift (Tr.assertDebug _ _)) fun _ => OpTr.bindEq (OpTr.refl _) fun _ => ?_
  refine OpTr.bindEq (OpTr.lift (make2_tr b _ _)) fun _ => ?_
  exact OpTr.bindEq (OpTr.lift (insertColLoop_tr _ _ _ (h.un a) _)) fun _ => OpTr.refl _

theorem execCall2_tr (c : Call2 α) : OpTr false Eq (execCall2 b c) (execCall2 (off b) c) := by
  cases c <;> simp only [execCall2]
  case fill => exact OpTr.refl _
  case assignList => unfold Arr2.assignList; checks
  case resize => checks
  case removeRows => checks
  case removeCols => checks
  case removeRow => unfold Arr2.removeRow; checks
  case removeCol => unfold Arr2.removeCol; checks
  case removeLastRow => unfold Arr2.removeRowLast Arr2.removeRow; checks
  case removeLastCol => unfold Arr2.removeColLast Arr2.removeCol; checks
  case removeRowsFront => unfold Arr2.removeRowsFront; checks
  case removeRowsBack => unfold Arr2.removeRowsBack; checks
  case removeColsFront => unfold Arr2.removeColsFront; checks
  case removeColsBack => unfold Arr2.removeColsBack; checks
  case removeRowsVec => unfold Arr2.removeRowsVec; checks
  case removeColsVec => unfold Arr2.removeColsVec; checks
  case insertRow => exact insertRow_tr b _ (.refl _)
  case insertRowFront => exact insertRow_tr b _ (.refl _)
  case insertRowBack => exact OpTr.bindEq (OpTr.refl _) fun _ => insertRow_tr b _ (.refl _)
  case insertCol => exact insertCol_tr b _ (.refl _)
  case insertColFront => exact insertCol_tr b _ (.refl _)
  case insertColBack => exact OpTr.bindEq (OpTr.refl _) fun _ => insertCol_tr b _ (.refl _)

theorem execCallArr2_tr {x y : Src2 (Arr2 α) α} (h : Src2Tr x y) (c : CallArr2) :
    OpTr false Eq (execCallArr2 b x c) (execCallArr2 (off b) y c) := by
  cases c <;> simp only [execCallArr2]
  case assign => exact assign2_tr b h
  case resizeAndAssign => exact resizeAndAssign2_tr b h
  case insertRows => exact insertRows_tr b _ h
  case insertRowsFront => exact insertRows_tr b _ h
  case insertRowsBack => exact OpTr.bindEq (OpTr.refl _) fun _ => insertRows_tr b _ h
  case insertCols => exact insertCols_tr b _ h
  case insertColsFront => exact insertCols_tr b _ h
  case insertColsBack => exact OpTr.bindEq (OpTr.refl _) fun _ => insertCols_tr b _ h

theorem on2_tr (i : Nat) {x y : Op (Arr2 α) Unit} (h : ∀ a, OTr false Eq (x a) (y a)) :
    OpTr false Eq (Vars2.on i x) (Vars2.on i y) := fun s => by
  unfold Vars2.on
  have h := h (s i)
  generalize x (s i) = p at h
  generalize y (s i) = q at h
  cases h with
  | trap k s y => exact .trap k _ _
  | ub0 h s y => exact .ub0 h _ _
  | ub s => exact .ub _
  | ok h s => exact .ok h _

theorem exec2_tr (c : Stmt2 α) : OpTr false Eq (exec2 b c) (exec2 (off b) c) := by
  cases c with
  | call i c => exact on2_tr i (execCall2_tr b c)
  | callArr i j c => exact fun s => on2_tr i (execCallArr2_tr b (.refl _) c) s
  | copyAssign i j =>
    simp only [exec2, Vars2.copyAssign]
    refine OpTr.bindEq (OpTr.refl _) fun s => OpTr.bindEq (OpTr.lift (Tr.assertDebug _ _)) fun _ => ?_
    refine OpTr.ite (on2_tr i fun a => ?_) (OpTr.refl _)
    have h := assign1_tr b (SrcTr.refl (Src.ofList (s j).data)) a.data
    generalize Arr1.assign b (Src.ofList (s j).data) a.data = p at h
    generalize Arr1.assign (off b) (Src.ofList (s j).data) a.data = q at h
    cases h with
    | trap k s y => exact .trap k _ _
    | ub0 h s y => exact .ub0 h _ _
    | ub s => exact .ub _
    | ok h s => exact .ok h _
  | moveAssign i j =>
    simp only [exec2, Vars2.moveAssign]
    checks
  | swap i j => exact OpTr.refl _
  | resizeAndAssignMove i j => exact OpTr.refl _

/-! ### Storage -/

theorem ctor_tr (af : AlignmentFlag) (n : Int) :
    OpTr false Eq (Heap.ctor (α := α) b af n) (Heap.ctor (off b) af n) := by
  unfold Heap.ctor
  checks

theorem ctorFill_tr (af : AlignmentFlag) (n : Int) (g : List α → Res (List α)) :
    OpTr false Eq (Heap.ctorFill b af n g) (Heap.ctorFill (off b) af n g) := by
  unfold Heap.ctorFill
  exact OpTr.bindEq (ctor_tr b af n) fun o => OpTr.refl _

theorem construct1_tr (i : Nat) (af : AlignmentFlag) (n : Int) (g : List α → Res (List α)) :
    OpTr false Eq (Heap.construct b i af n g) (Heap.construct (off b) i af n g) := by
  unfold Heap.construct
  exact OpTr.bindEq (ctorFill_tr b af n g) fun o => OpTr.refl _

theorem rebuild_tr (i : Nat) (n : Int) (g : List α → List α → Res (List α)) :
    OpTr false Eq (Heap.rebuild b i n g) (Heap.rebuild (off b) i n g) := by
  unfold Heap.rebuild
  exact OpTr.bindEq (OpTr.refl _) fun o => OpTr.bindEq (OpTr.refl _) fun old =>
    OpTr.bindEq (ctorFill_tr b _ n _) fun o => OpTr.refl _

theorem hcmd_tr (c : HCmd α) : OpTr false Eq (c.exec b) (c.exec (off b)) := by
  cases c with
  | construct i af n g => exact construct1_tr b i af n g
  | copyConstruct i af j =>
    exact OpTr.bindEq (OpTr.refl _) fun o => OpTr.bindEq (OpTr.refl _) fun l => construct1_tr b _ _ _ _
  | moveConstruct i j => exact OpTr.refl _
  | destroy i => exact OpTr.refl _
  | modify i g => exact OpTr.refl _
  | copyAssign i j => simp only [HCmd.exec, Heap.copyAssign]; checks
  | moveAssign i j => simp only [HCmd.exec, Heap.moveAssign]; checks
  | swap i j => exact OpTr.refl _
  | resize i n p =>
    simp only [HCmd.exec, Heap.resize]
    exact OpTr.bindEq (OpTr.lift (Tr.assertDebug _ _)) fun _ => OpTr.bindEq (OpTr.refl _) fun o =>
      OpTr.ite (rebuild_tr b _ _ _) (OpTr.refl _)
  | rebuild i n g => exact rebuild_tr b i n g
  | resizeAndAssignMove i j => exact OpTr.refl _

/-! ### Evaluation -/

theorem eval1_tr {σ : Type} {a a' : Acc σ α} (h : AccTr a a') (s : σ) :
    Tr false Eq (a.eval1 b s) (a'.eval1 (off b) s) := by
  unfold Acc.eval1
  rw [h.rows]
  exact Tr.bindEq (make_tr b _) fun l =>
    (assign1_tr b (x := ⟨a.rows s, fun _ i => a.un s i⟩) (y := ⟨a.rows s, fun _ i => a'.un s i⟩)
      ⟨rfl, fun _ i => h.un s i⟩ l).run

theorem eval2_tr {σ : Type} {a a' : Acc σ α} (h : AccTr a a') (s : σ) :
    Tr false Eq (a.eval2 b s) (a'.eval2 (off b) s) := by
  unfold Acc.eval2
  rw [h.rows, h.cols]
  exact Tr.bindEq (make2_tr b _ _) fun l =>
    (assign2_tr b (x := ⟨a.rows s, a.cols s, fun _ i => a.un s i, fun _ i j => a.un2 s i j, false⟩)
      (y := ⟨a.rows s, a.cols s, fun _ i => a'.un s i, fun _ i j => a'.un2 s i j, false⟩)
      ⟨rfl, rfl, rfl, fun _ i => h.un s i, fun _ i j => h.un2 s i j⟩ l).run

end

end Spp
