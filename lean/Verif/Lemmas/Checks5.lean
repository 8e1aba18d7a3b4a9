import Verif.Lemmas.Checks4
import Verif.Model.ArrayOps
import Verif.Model.FloatOps
import Verif.Model.Attach
import Verif.Model.Eigen
import Verif.Model.Fixed
import Verif.Model.Format
import Verif.Model.HeapOps2
import Verif.Model.Program
import Verif.Model.RandomExpr
import Verif.Model.Sizes

/- The rest of the model with and without debug checks (see Lemmas/Checks.lean). -/

set_option linter.unusedSectionVars false
set_option linter.unusedVariables false

namespace Spp

open Spec

/-! ### Operators of integer arrays -/

section

variable (b : Build)

theorem shl_tr {u : Bool} (t : IntTy) (x y : Int) : Tr u Eq (SInt.shl b t x y) (SInt.shl (off b) t x y) := by
  unfold SInt.shl SInt.shiftChecks; checks
theorem shr_tr {u : Bool} (t : IntTy) (x y : Int) : Tr u Eq (SInt.shr b t x y) (SInt.shr (off b) t x y) := by
  unfold SInt.shr SInt.shiftChecks; checks
theorem div_tr {u : Bool} (t : IntTy) (x y : Int) : Tr u Eq (SInt.div b t x y) (SInt.div (off b) t x y) := by
  unfold SInt.div; checks

theorem fn_tr (t : IntTy) (op : IntOp) (x y : Int) : Tr true Eq (ArrOp.fn b t op x y) (ArrOp.fn (off b) t op x y) := by
  cases op
  case div => exact div_tr b t x y
  case rem => exact srem_tr b t x y
  case shl => exact shl_tr b t x y
  case shr => exact shr_tr b t x y
  all_goals exact Tr.refl _

theorem stored_tr {f f' : Op Int Unit} (h : OpTr true Eq f f') (v : Int) :
    Tr true Eq (ArrOp.stored f v) (ArrOp.stored f' v) := (h v).run

theorem assignFn_tr (t : IntTy) (op : IntOp) (x y : Int) :
    Tr true Eq (ArrOp.assignFn b t op x y) (ArrOp.assignFn (off b) t op x y) := by
  cases op
  case div => exact stored_tr (by unfold SInt.divAssign; checks) _
  case rem => exact stored_tr (by unfold SInt.remAssign; checks) _
  case shl => exact stored_tr (by unfold SInt.shlAssign SInt.shiftChecks; checks) _
  case shr => exact stored_tr (by unfold SInt.shrAssign SInt.shiftChecks; checks) _
  all_goals exact Tr.refl _

end

/-! ### Fixed arrays -/

section

variable {α : Type} [Inhabited α] (b : Build)

theorem fixedMakeFrom_tr (N : Nat) {x y : Src (List α) α} (h : SrcTr x y) :
    Tr false Eq (Fixed.makeFrom b N x) (Fixed.makeFrom (off b) N y) := by
  unfold Fixed.makeFrom
  rw [h.size]
  exact Tr.bindEq (Tr.assertDebug _ _) fun _ => (copy1_tr h _).run
theorem fixedMakeList_tr (N : Nat) (xs : List α) :
    Tr false Eq (Fixed.makeList b N xs) (Fixed.makeList (off b) N xs) := by
  unfold Fixed.makeList; checks
theorem fixedMakeIter_tr (N : Nat) (l : List α) (p q : Int) :
    Tr false Eq (Fixed.makeIter b N l p q) (Fixed.makeIter (off b) N l p q) := by
  unfold Fixed.makeIter; checks
theorem fixedAssign_tr {x y : Src (List α) α} (h : SrcTr x y) :
    OpTr false Eq (Fixed.assign b x) (Fixed.assign (off b) y) := by
  unfold Fixed.assign
  rw [h.size]
  exact OpTr.bindEq (OpTr.refl _) fun _ => OpTr.bindEq (OpTr.lift (Tr.assertDebug _ _)) fun _ => copy1_tr h

theorem fixedExec_tr (c : FStmt α) : OpTr false Eq (Fixed.exec b c) (Fixed.exec (off b) c) := by
  cases c with
  | assignList i xs => exact on_tr i (by unfold Fixed.assignList; checks)
  | copyAssign i j => exact fun s => on_tr i (fixedAssign_tr b (.refl _)) s
  | fill | moveAssign | moveConstruct | swap => exact OpTr.refl _

theorem fixedMakeFrom2_tr (M N : Nat) {x y : Src2 (Arr2 α) α} (h : Src2Tr x y) :
    Tr false Eq (Fixed2.makeFrom b M N x) (Fixed2.makeFrom (off b) M N y) := by
  unfold Fixed2.makeFrom
  rw [h.rows, h.cols]
  exact Tr.bindEq (Tr.assertDebug _ _) fun _ => (copy2_tr h _).run
theorem fixedMakeList2_tr (M N : Nat) (L : List (List α)) :
    Tr false Eq (Fixed2.makeList b M N L) (Fixed2.makeList (off b) M N L) := by
  unfold Fixed2.makeList; checks
theorem fixedAssign2_tr {x y : Src2 (Arr2 α) α} (h : Src2Tr x y) :
    OpTr false Eq (Fixed2.assign b x) (Fixed2.assign (off b) y) := by
  unfold Fixed2.assign
  rw [h.rows, h.cols]
  exact OpTr.bindEq (OpTr.refl _) fun _ => OpTr.bindEq (OpTr.lift (Tr.assertDebug _ _)) fun _ => copy2_tr h

theorem fixedExec2_tr (c : FStmt2 α) : OpTr false Eq (Fixed2.exec b c) (Fixed2.exec (off b) c) := by
  cases c with
  | assignList i L =>
    refine on2_tr i fun a => ?_
    revert a
    unfold Fixed2.assignList
    exact OpTr.bindEq (OpTr.refl _) fun a => OpTr.bindEq (OpTr.lift (fixedMakeList2_tr b _ _ L)) fun t => OpTr.refl _
  | copyAssign i j => exact fun s => on2_tr i (fixedAssign2_tr b (.refl _)) s
  | fill | moveAssign | moveConstruct | swap => exact OpTr.refl _

end

/-! ### Foreign memory, matrix products, literals, named arguments, formats -/

section

variable {α : Type} (b : Build)

theorem attach1D_tr (id : Nat) (n : Int) : Tr false AccTr (attach1D α b id n) (attach1D α (off b) id n) := by
  unfold attach1D
  exact Tr.bindEq (mkSeqN_tr b _ _ _) fun sl => Tr.bindEq (Tr.assertDebugM _ _ _) fun _ => .ok (AccTr.refl _)

theorem attach2D_tr (id : Nat) (m n : Int) : Tr false AccTr (attach2D α b id m n) (attach2D α (off b) id m n) := by
  unfold attach2D
  exact Tr.bindEq (mkSeqN_tr b _ _ _) fun s1 => Tr.bindEq (mkSeqN_tr b _ _ _) fun s2 =>
    Tr.bindEq (Tr.assertDebugM _ _ _) fun _ => Tr.bindEq (Tr.assertDebugM _ _ _) fun _ =>
    .ok (AccTr.slice2 b (AccTr.refl _) _ _)

theorem eigenAssert_tr (c : Bool) : Tr false Eq (eigenAssert b c) (eigenAssert (off b) c) := Tr.refl _

variable [Inhabited α]

theorem matrixProdInto_tr (dot : List (α × α) → Option α) (A B C : Arr2 α) :
    Tr false Eq (matrixProdInto b dot A B C) (matrixProdInto (off b) dot A B C) :=
  Tr.bindEq (Tr.assertDebug _ _) fun _ => Tr.bindEq (Tr.assertDebug _ _) fun _ => Tr.bindEq (Tr.assertDebug _ _) fun _ =>
    Tr.refl _

theorem matrixProd_tr (dot : List (α × α) → Option α) (i j k : Nat) :
    OpTr false Eq (matrixProd b dot i j k) (matrixProd (off b) dot i j k) :=
  OpTr.bindEq (OpTr.refl _) fun s => OpTr.bindEq (OpTr.lift (matrixProdInto_tr b dot _ _ _)) fun _ => OpTr.refl _

theorem matrixProdNew_tr (dot : List (α × α) → Option α) (A B : Arr2 α) :
    Tr false Eq (matrixProdNew b dot A B) (matrixProdNew (off b) dot A B) :=
  Tr.bindEq (Tr.assertDebug _ _) fun _ => Tr.bindEq (make2_tr b _ _) fun _ => matrixProdInto_tr b dot _ _ _

theorem named_tr {u : Bool} (p : Bool) (x : Int) : Tr u Eq (named b p x) (named (off b) p x) := by
  unfold named
  cases p <;> simp only [Bool.false_eq_true, if_false, if_true] <;> checks

theorem apply_tr (s : IO.Setting) : OpTr true Eq (IO.NumFormat.apply b s) (IO.NumFormat.apply (off b) s) := by
  cases s with
  | reset => exact OpTr.refl _
  | scientific => exact OpTr.refl _
  | precision n => exact OpTr.bindEq (OpTr.lift (named_tr b _ _)) fun _ => OpTr.refl _
  | precisionOf t n => exact OpTr.bindEq (OpTr.lift (named_tr b _ _)) fun _ => OpTr.refl _

theorem formatRun_tr (l : List IO.Setting) : OpTr true Eq (IO.NumFormat.run b l) (IO.NumFormat.run (off b) l) := by
  induction l with
  | nil => exact OpTr.refl _
  | cons s l ih => exact OpTr.bindEq (apply_tr b s) fun _ => ih

theorem readLoopQuad_tr (q : IO.QuadReader) (fuel : Nat) :
    OpTr false Eq (IO.readLoopQuad b q fuel) (IO.readLoopQuad (off b) q fuel) := by
  induction fuel with
  | zero => exact OpTr.refl _
  | succ fuel ih =>
    unfold IO.readLoopQuad
    refine OpTr.bindEq (OpTr.refl _) fun s => ?_
    dsimp only
    refine OpTr.bindEq (OpTr.refl _) fun _ => OpTr.bindEq (OpTr.lift (Tr.assertAlways _ _)) fun _ =>
      OpTr.ite (OpTr.refl _) (OpTr.bindEq (OpTr.refl _) fun l => OpTr.bindEq (OpTr.refl _) fun c => ?_)
    refine OpTr.bindEq (OpTr.lift ?_) fun l => OpTr.bindEq (OpTr.refl _) fun _ => ih
    exact Tr.ite (Tr.bindEq (Tr.refl _) fun n => resizeRun_tr b n l) (Tr.refl _)

theorem read1Quad_tr (q : IO.QuadReader) : OpTr false Eq (IO.read1Quad b q) (IO.read1Quad (off b) q) := by
  unfold IO.read1Quad
  refine OpTr.bindEq (OpTr.refl _) fun st => OpTr.bindEq (OpTr.lift (make_tr b _)) fun tmp => ?_
  have h := readLoopQuad_tr b q (st.1.rest.length + 1) ⟨st.1, 0, tmp⟩
  generalize IO.readLoopQuad b q (st.1.rest.length + 1) ⟨st.1, 0, tmp⟩ = p at h
  generalize IO.readLoopQuad (off b) q (st.1.rest.length + 1) ⟨st.1, 0, tmp⟩ = r at h
  cases h with
  | trap k t y => exact fun s => .trap k _ _
  | ub0 h t y => exact fun s => .ub0 rfl _ _
  | ub t => exact fun s => .ub _
  | ok h t =>
    refine OpTr.bindEq (OpTr.refl _) fun _ => OpTr.bindEq (OpTr.refl _) fun _ => ?_
    refine OpTr.bindEq (OpTr.refl _) fun _ => OpTr.bindEq (OpTr.refl _) fun _ => ?_
    exact (resize1_tr b t.count true t.tmp).sub' (f := fun l => Op.set (t.is.cleared, l))
      (g := fun l => Op.set (t.is.cleared, l)) fun l => OpTr.refl _

end

/-! ### Programs on the heap -/

section

variable {α : Type} [Inhabited α] (b : Build)

theorem onTrap_tr {A : Type} {x y : Op (Heap α) A} (h : OpTr false Eq x y) (c : Op (Heap α) Unit) :
    OpTr false Eq (Heap.onTrap x c) (Heap.onTrap y c) := fun s => by
  have h := h s
  unfold Heap.onTrap
  generalize x s = p at h
  generalize y s = q at h
  cases h with
  | trap k t y =>
    dsimp only
    rcases c t with ⟨_ | _ | _, t⟩
    · exact .trap _ _ _
    · exact .trap _ _ _
    · exact .ub0 rfl _ _
  | ub0 h t y => exact .ub0 rfl _ _
  | ub t => exact .ub _
  | ok h t => exact .ok h _

theorem ctorFillG_tr (af : AlignmentFlag) (n : Int) {g g' : List α → Res (List α)} (h : ∀ l, Tr false Eq (g l) (g' l)) :
    OpTr false Eq (Heap.ctorFill b af n g) (Heap.ctorFill (off b) af n g') := by
  unfold Heap.ctorFill
  exact OpTr.bindEq (ctor_tr b af n) fun o => onTrap_tr (OpTr.bindEq (OpTr.refl _) fun l =>
    OpTr.bindEq (OpTr.lift (h l)) fun _ => OpTr.refl _) _

theorem rebuildG_tr (i : Nat) (n : Int) {g g' : List α → List α → Res (List α)} (h : ∀ l l', Tr false Eq (g l l') (g' l l')) :
    OpTr false Eq (Heap.rebuild b i n g) (Heap.rebuild (off b) i n g') := by
  unfold Heap.rebuild
  exact OpTr.bindEq (OpTr.refl _) fun o => OpTr.bindEq (OpTr.refl _) fun old =>
    OpTr.bindEq (ctorFillG_tr b _ n (h old)) fun o => OpTr.refl _

macro_rules | `(tactic| checks_lemma) => `(tactic| with_reducible exact rebuild_tr _ _ _ _)

theorem hremove_tr (i : Nat) (p c : Int) : OpTr false Eq (Heap.remove (α := α) b i p c) (Heap.remove (off b) i p c) := by
  unfold Heap.remove; checks
macro_rules | `(tactic| checks_lemma) => `(tactic| with_reducible exact hremove_tr _ _ _ _)
theorem hinsert_tr (i : Nat) (p : Int) (x : α) : OpTr false Eq (Heap.insert b i p x) (Heap.insert (off b) i p x) := by
  unfold Heap.insert; checks
macro_rules | `(tactic| checks_lemma) => `(tactic| with_reducible exact hinsert_tr _ _ _ _)
theorem hinsertArr_tr (i : Nat) (p : Int) (j : Nat) :
    OpTr false Eq (Heap.insertArr (α := α) b i p j) (Heap.insertArr (off b) i p j) := by
  unfold Heap.insertArr; checks
macro_rules | `(tactic| checks_lemma) => `(tactic| with_reducible exact hinsertArr_tr _ _ _ _)

theorem hexec_tr (c : Stmt α) : OpTr false Eq (hexec b c) (hexec (off b) c) := by
  cases c with
  | fill i x => exact OpTr.refl _
  | assignList i xs => simp only [hexec, Heap.assignList]; checks
  | copyAssign i j => simp only [hexec, Heap.copyAssign]; checks
  | moveAssign i j => simp only [hexec, Heap.moveAssign]; checks
  | swap i j => exact OpTr.refl _
  | resize i n p => simp only [hexec, Heap.resize]; checks
  | resizeAndAssign i j => simp only [hexec, Heap.resizeAndAssign]; checks
  | resizeAndAssignMove i j => exact OpTr.refl _
  | remove i p c => exact hremove_tr b i p c
  | removeFront i c => exact hremove_tr b i _ c
  | removeBack i c => simp only [hexec, Heap.removeBack]; checks
  | removeLast i k => simp only [hexec, Heap.removeLast]; checks
  | removeVec i idx => simp only [hexec, Heap.removeVec]; checks
  | insert i p x => exact hinsert_tr b i p x
  | insertFront i x => exact hinsert_tr b i _ x
  | insertBack i x => simp only [hexec, Heap.insertBack]; checks
  | insertArr i p j => exact hinsertArr_tr b i p j
  | insertFrontArr i j => exact hinsertArr_tr b i _ j
  | insertBackArr i j => simp only [hexec, Heap.insertBackArr]; checks

theorem hinit_tr (i : Nat) (af : AlignmentFlag) (c : Init α) : OpTr false Eq (hinit b i af c) (hinit (off b) i af c) := by
  cases c with
  | empty => exact OpTr.refl _
  | size n => exact construct1_tr b i af n _
  | fill n x => exact construct1_tr b i af n _
  | list xs => exact construct1_tr b i af _ _
  | copy j =>
    exact OpTr.bindEq (OpTr.refl _) fun o => OpTr.bindEq (OpTr.refl _) fun l => construct1_tr b _ _ _ _
  | move j => exact OpTr.refl _

theorem withLocal_tr (i : Nat) {x y : Op (Heap α) Unit} (h : OpTr false Eq x y) :
    OpTr false Eq (withLocal i x) (withLocal i y) := fun s => by
  have h := h s
  unfold withLocal
  generalize x s = p at h
  generalize y s = q at h
  cases h with
  | trap k t y =>
    cases k with
    | exception =>
      dsimp only
      rcases Heap.destroy i t with ⟨_ | _ | _, t⟩
      · exact .trap _ _ _
      · exact .trap _ _ _
      · exact .ub0 rfl _ _
    | abort => exact .trap _ _ _
  | ub0 h t y => exact .ub0 rfl _ _
  | ub t => exact .ub _
  | ok h t => exact OpTr.refl (Heap.destroy i) t

theorem hrun_tr (p : Prog α) (h : p.NoHandler) : OpTr false Eq (hrun b p) (hrun (off b) p) := by
  induction p with
  | skip => exact OpTr.refl _
  | stmt c => exact hexec_tr b c
  | throw => exact OpTr.refl _
  | seq p q ihp ihq => exact OpTr.bindEq (ihp h.1) fun _ => ihq h.2
  | block i af init body ih => exact OpTr.bindEq (hinit_tr b i af init) fun _ => withLocal_tr i (ih h)
  | tryCatch p q => exact h.elim
  | ite i c p q ihp ihq =>
    exact OpTr.bindEq (OpTr.refl _) fun o => OpTr.bindEq (OpTr.refl _) fun l => OpTr.ite (ihp h.1) (ihq h.2)
  | loop i c p ih =>
    exact OpTr.bindEq (OpTr.refl _) fun o => OpTr.bindEq (OpTr.refl _) fun l => OpTr.forN _ fun _ => ih h

/-! ### Two dimensions -/

theorem onData_tr {β : Type} {x y : Op (Heap α) β} (h : OpTr false Eq x y) :
    OpTr false Eq (Heap2.onData x) (Heap2.onData y) := fun s => by
  have h := h s.heap
  unfold Heap2.onData
  generalize x s.heap = p at h
  generalize y s.heap = q at h
  cases h with
  | trap k t y => exact .trap _ _ _
  | ub0 h t y => exact .ub0 rfl _ _
  | ub t => exact .ub _
  | ok h t => exact .ok h _

theorem hrebuild2_tr (i : Nat) (m n : Int) (g : Arr2 α → Res (Arr2 α)) :
    OpTr false Eq (Heap2.rebuild b i m n g) (Heap2.rebuild (off b) i m n g) := by
  unfold Heap2.rebuild
  exact OpTr.bindEq (OpTr.refl _) fun p => OpTr.bindEq (onData_tr (rebuildG_tr b i p fun _ tmp => by checks)) fun _ =>
    OpTr.refl _
macro_rules | `(tactic| checks_lemma) => `(tactic| with_reducible exact hrebuild2_tr _ _ _ _ _)

theorem hresizeAndAssignFrom_tr (i : Nat) (c : Arr2 α) :
    OpTr false Eq (Heap2.resizeAndAssignFrom b i c) (Heap2.resizeAndAssignFrom (off b) i c) := by
  unfold Heap2.resizeAndAssignFrom; checks
macro_rules | `(tactic| checks_lemma) => `(tactic| with_reducible exact hresizeAndAssignFrom_tr _ _ _)
theorem hresize2_tr (i : Nat) (m n : Int) (p : Bool) :
    OpTr false Eq (Heap2.resize (α := α) b i m n p) (Heap2.resize (off b) i m n p) := by
  unfold Heap2.resize; checks
macro_rules | `(tactic| checks_lemma) => `(tactic| with_reducible exact hresize2_tr _ _ _ _ _)
theorem hremoveRows_tr (i : Nat) (p c : Int) :
    OpTr false Eq (Heap2.removeRows (α := α) b i p c) (Heap2.removeRows (off b) i p c) := by
  unfold Heap2.removeRows; checks
macro_rules | `(tactic| checks_lemma) => `(tactic| with_reducible exact hremoveRows_tr _ _ _ _)
theorem hremoveCols_tr (i : Nat) (p c : Int) :
    OpTr false Eq (Heap2.removeCols (α := α) b i p c) (Heap2.removeCols (off b) i p c) := by
  unfold Heap2.removeCols; checks
macro_rules | `(tactic| checks_lemma) => `(tactic| with_reducible exact hremoveCols_tr _ _ _ _)
theorem hinsertRows_tr (i : Nat) (p : Int) (j : Nat) :
    OpTr false Eq (Heap2.insertRows (α := α) b i p j) (Heap2.insertRows (off b) i p j) := by
  unfold Heap2.insertRows; checks
macro_rules | `(tactic| checks_lemma) => `(tactic| with_reducible exact hinsertRows_tr _ _ _ _)
theorem hinsertCols_tr (i : Nat) (p : Int) (j : Nat) :
    OpTr false Eq (Heap2.insertCols (α := α) b i p j) (Heap2.insertCols (off b) i p j) := by
  unfold Heap2.insertCols; checks
macro_rules | `(tactic| checks_lemma) => `(tactic| with_reducible exact hinsertCols_tr _ _ _ _)
theorem hinsertRow_tr (i : Nat) (p : Int) (xs : List α) :
    OpTr false Eq (Heap2.insertRow b i p xs) (Heap2.insertRow (off b) i p xs) := by
  unfold Heap2.insertRow; checks
macro_rules | `(tactic| checks_lemma) => `(tactic| with_reducible exact hinsertRow_tr _ _ _ _)
theorem hinsertCol_tr (i : Nat) (p : Int) (xs : List α) :
    OpTr false Eq (Heap2.insertCol b i p xs) (Heap2.insertCol (off b) i p xs) := by
  unfold Heap2.insertCol; checks
macro_rules | `(tactic| checks_lemma) => `(tactic| with_reducible exact hinsertCol_tr _ _ _ _)

theorem hassignList2_tr (i : Nat) (L : List (List α)) :
    OpTr false Eq (Heap2.assignList b i L) (Heap2.assignList (off b) i L) := by
  unfold Heap2.assignList
  exact OpTr.bindEq (OpTr.refl _) fun a => OpTr.bindEq (OpTr.refl _) fun p => onData_tr (rebuildG_tr b i p fun _ tmp => by checks)

theorem hexecCall2_tr (i : Nat) (c : Call2 α) : OpTr false Eq (hexecCall2 b i c) (hexecCall2 (off b) i c) := by
  cases c with
  | fill x => exact OpTr.refl _
  | assignList L => exact hassignList2_tr b i L
  | resize m n p => exact hresize2_tr b i m n p
  | removeRows | removeRow | removeRowsFront => exact hremoveRows_tr b i _ _
  | removeCols | removeCol | removeColsFront => exact hremoveCols_tr b i _ _
  | removeLastRow => simp only [hexecCall2, Heap2.removeRowLast]; checks
  | removeLastCol => simp only [hexecCall2, Heap2.removeColLast]; checks
  | removeRowsBack c => simp only [hexecCall2, Heap2.removeRowsBack]; checks
  | removeColsBack c => simp only [hexecCall2, Heap2.removeColsBack]; checks
  | removeRowsVec idx => simp only [hexecCall2, Heap2.removeRowsVec]; checks
  | removeColsVec idx => simp only [hexecCall2, Heap2.removeColsVec]; checks
  | insertRow | insertRowFront => exact hinsertRow_tr b i _ _
  | insertCol | insertColFront => exact hinsertCol_tr b i _ _
  | insertRowBack xs => simp only [hexecCall2, Heap2.insertRowBack]; checks
  | insertColBack xs => simp only [hexecCall2, Heap2.insertColBack]; checks

theorem hexecCallArr2_tr (i j : Nat) (c : CallArr2) :
    OpTr false Eq (hexecCallArr2 (α := α) b i j c) (hexecCallArr2 (off b) i j c) := by
  cases c with
  | assign => simp only [hexecCallArr2, Heap2.assign]; checks
  | resizeAndAssign => simp only [hexecCallArr2, Heap2.resizeAndAssign]; checks
  | insertRows | insertRowsFront => exact hinsertRows_tr b i _ j
  | insertCols | insertColsFront => exact hinsertCols_tr b i _ j
  | insertRowsBack => simp only [hexecCallArr2, Heap2.insertRowsBack]; checks
  | insertColsBack => simp only [hexecCallArr2, Heap2.insertColsBack]; checks

theorem hcopyAssign_tr (i j : Nat) : OpTr false Eq (Heap.copyAssign (α := α) b i j) (Heap.copyAssign (off b) i j) := by
  unfold Heap.copyAssign; checks
theorem hmoveAssign_tr (i j : Nat) : OpTr false Eq (Heap.moveAssign (α := α) b i j) (Heap.moveAssign (off b) i j) := by
  unfold Heap.moveAssign; checks

theorem hexec2_tr (c : Stmt2 α) : OpTr false Eq (hexec2 b c) (hexec2 (off b) c) := by
  cases c with
  | call i c => exact hexecCall2_tr b i c
  | callArr i j c => exact hexecCallArr2_tr b i j c
  | copyAssign i j =>
    exact OpTr.bindEq (OpTr.refl _) fun h => OpTr.bindEq (OpTr.lift (Tr.assertDebug _ _)) fun _ =>
      onData_tr (hcopyAssign_tr b i j)
  | moveAssign i j =>
    exact OpTr.bindEq (OpTr.refl _) fun h => OpTr.bindEq (OpTr.lift (Tr.assertNormal _ _)) fun _ =>
      OpTr.bindEq (OpTr.refl _) fun _ => onData_tr (hmoveAssign_tr b i j)
  | swap i j => exact OpTr.refl _
  | resizeAndAssignMove i j => exact OpTr.refl _

end

/-! ### Random numbers -/

section

variable {α G : Type} (b : Build)

theorem fillFromG_tr {p p' : Acc (Store α) Loc} (h : AccTr p p') {f f' : G → Res (α × G)}
    (hf : ∀ p, Tr false Eq (f p) (f' p)) (i k : Nat) (q : G) :
    OpTr false Eq (Semi.fillFrom p f i k q) (Semi.fillFrom p' f' i k q) := by
  induction k generalizing i q with
  | zero => unfold Semi.fillFrom; exact OpTr.refl _
  | succ k ih =>
    unfold Semi.fillFrom
    exact OpTr.bindEq (OpTr.refl _) fun s => OpTr.bindEq (OpTr.lift (h.un s _)) fun l =>
      OpTr.bindEq (OpTr.lift (hf _)) fun x => OpTr.bindEq (OpTr.refl _) fun _ => ih _ _
theorem fillNot0FromG_tr {p p' : Acc (Store α) Loc} (h : AccTr p p') (f : G → Res (α × G)) (z : α → Bool)
    (fuel i k : Nat) (q : G) :
    OpTr false Eq (Semi.fillNot0From p f z fuel i k q) (Semi.fillNot0From p' f z fuel i k q) := by
  induction k generalizing i q with
  | zero => unfold Semi.fillNot0From; exact OpTr.refl _
  | succ k ih =>
    unfold Semi.fillNot0From
    refine OpTr.bindEq (OpTr.refl _) fun s => OpTr.bindEq (OpTr.lift (h.un s _)) fun l =>
      OpTr.bindEq (OpTr.refl _) fun r => ?_
    rcases r with _ | ⟨x, q⟩
    · exact OpTr.refl _
    · exact OpTr.bindEq (OpTr.refl _) fun _ => ih _ _

variable [LinearOrder α]

theorem random1_tr (gen : StdRandom.Gen α G) {p p' : Acc (Store α) Loc} (h : AccTr p p') (lo hi : α) (g : G) :
    OpTr false Eq (StdRandom.random1 b gen p lo hi g) (StdRandom.random1 (off b) gen p' lo hi g) :=
  OpTr.bindEq (OpTr.lift (Tr.assertDebug _ _)) fun _ => OpTr.bindEq (OpTr.refl _) fun _ => OpTr.bindEq (OpTr.refl _) fun s =>
    OpTr.bindEq (OpTr.lift (h.size s)) fun n => fillFromG_tr h (fun _ => Tr.refl _) _ _ _

theorem random_tr (gen : StdRandom.Gen α G) (lo hi : StdRandom.Bound α) {l l' : List (Acc (Store α) Loc × G)}
    (h : List.Forall₂ (fun x y => AccTr x.1 y.1 ∧ x.2 = y.2) l l') :
    OpTr false Eq (StdRandom.random b gen lo hi l) (StdRandom.random (off b) gen lo hi l') := by
  induction h with
  | nil => exact OpTr.refl _
  | @cons x y l l' h _ ih =>
    obtain ⟨x, g⟩ := x
    obtain ⟨y, g'⟩ := y
    obtain ⟨hx, hg⟩ := h
    dsimp only at hx hg
    subst hg
    exact OpTr.bindEq (OpTr.refl _) fun s => OpTr.bindEq (OpTr.refl _) fun _ => OpTr.bindEq (OpTr.refl _) fun _ =>
      OpTr.bindEq (random1_tr b gen hx _ _ _) fun _ => ih

theorem randomNot0_tr (z : α) (gen : StdRandom.Gen α G) {p p' : Acc (Store α) Loc} (h : AccTr p p') (lo hi : α) (g : G)
    (fuel : Nat) :
    OpTr false Eq (StdRandom.randomNot0 b z gen p lo hi g fuel) (StdRandom.randomNot0 (off b) z gen p' lo hi g fuel) :=
  OpTr.bindEq (OpTr.lift (Tr.assertDebug _ _)) fun _ => OpTr.bindEq (OpTr.lift (Tr.assertDebug _ _)) fun _ =>
    OpTr.bindEq (OpTr.refl _) fun _ => OpTr.bindEq (OpTr.refl _) fun s =>
    OpTr.bindEq (OpTr.lift (h.size s)) fun n => fillNot0FromG_tr h _ _ _ _ _ _

theorem randomExpr_tr {u : Bool} (gen : StdRandom.Gen α G) (lo hi : α) :
    Tr u Eq (StdRandom.randomExpr b gen lo hi) (StdRandom.randomExpr (off b) gen lo hi) := by
  unfold StdRandom.randomExpr; checks
theorem stdNot0_tr {u : Bool} (z : α) (gen : StdRandom.Gen α G) (lo hi : α) :
    Tr u Eq (RandExpr.stdNot0 b z gen lo hi) (RandExpr.stdNot0 (off b) z gen lo hi) := by
  unfold RandExpr.stdNot0; checks
omit [LinearOrder α] in
theorem not0State_tr {u : Bool} (c lo hi n sd : Int) :
    Tr u Eq (RandExpr.not0State b c lo hi n sd) (RandExpr.not0State (off b) c lo hi n sd) := by
  unfold RandExpr.not0State; checks

section

variable {β : Type} (acc : G → Res (Option (β × G)))

theorem construct1_rand_tr [Inhabited β] (n : Int) (g : G) :
    Tr false Eq (RandExpr.construct1 b acc n g) (RandExpr.construct1 (off b) acc n g) := by
  unfold RandExpr.construct1; checks
theorem construct2_rand_tr [Inhabited β] (m n : Int) (g : G) :
    Tr false Eq (RandExpr.construct2 b acc m n g) (RandExpr.construct2 (off b) acc m n g) := by
  unfold RandExpr.construct2; checks

end

theorem const1_tr {A : Type} {u : Bool} (n : Int) (x : Int) {r r' : Res A} (h : Tr u Eq r r') :
    Tr u Eq (Tm.mkConst1D (σ := Unit) b n x >>= fun _ => r) (Tm.mkConst1D (σ := Unit) (off b) n x >>= fun _ => r') := by
  unfold Tm.mkConst1D
  exact Tr.bind (R := fun _ _ => True)
    (Tr.bindEq (Tr.assertDebug _ _) fun _ => Tr.bindEq (Tr.assertDebug _ _) fun _ => .ok trivial) fun _ _ _ => h
theorem const2_tr {A : Type} {u : Bool} (m n : Int) (x : Int) {r r' : Res A} (h : Tr u Eq r r') :
    Tr u Eq (Tm.mkConst2D (σ := Unit) b m n x >>= fun _ => r) (Tm.mkConst2D (σ := Unit) (off b) m n x >>= fun _ => r') := by
  unfold Tm.mkConst2D
  exact Tr.bind (R := fun _ _ => True)
    (Tr.bindEq (Tr.assertDebug _ _) fun _ => Tr.bindEq (Tr.assertDebug _ _) fun _ => Tr.bindEq (Tr.assertDebug _ _) fun _ =>
      Tr.bindEq (Tr.assertDebug _ _) fun _ => Tr.bindEq (Tr.assertDebug _ _) fun _ => .ok trivial) fun _ _ _ => h

end

end Spp
