import Verif.Spec.EProg
import Verif.Model.History1D
import Verif.Model.History2D

/-
Executing the programs of Spec/EProg.lean with the modelled functions.  A statement with an expression builds the
expression object first (C++ evaluates the argument before the call), then calls the member function.
-/

namespace Spp
open Spec (Use1 Use2 UseRow EStmt EProg)

variable {α : Type} [Inhabited α]

/-- A statement on the one-dimensional arrays of a program; array_base1D.hpp:130-520. -/
def onLists (op : Op (Vars α) Unit) : Op (Store α) Unit := fun s => ((op s.a1).1, { s with a1 := (op s.a1).2 })

/-- A statement on the two-dimensional arrays of a program; array_base2D.hpp:153-732. -/
def onMats (op : Op (Vars2 α) Unit) : Op (Store α) Unit := fun s => ((op s.a2).1, { s with a2 := (op s.a2).2 })

/-- `resize_and_assign(A)` array_base1D.hpp:304-309, `insert(pos, A)` 432-442, `insert_front(A)` 451-454,
`insert_back(A)` 457-460. -/
def execUse1 (b : Build) (src : Src (List α) α) : Use1 → Op (List α) Unit
  | .resizeAndAssign => Arr1.resizeAndAssign b src
  | .insert p => Arr1.insertArr b p src
  | .insertFront => Arr1.insertFrontArr b src
  | .insertBack => Arr1.insertBackArr b src

/-- `resize_and_assign(A)`, `insert_rows(pos, A)`, `insert_cols(pos, A)` and their front and back variants:
array_base2D.hpp as cited in Model/Array2D.lean. -/
def execUse2 (b : Build) (src : Src2 (Arr2 α) α) : Use2 → Op (Arr2 α) Unit
  | .resizeAndAssign => Arr2.resizeAndAssign b src
  | .insertRows p => Arr2.insertRows b p src
  | .insertRowsFront => Arr2.insertRowsFront b src
  | .insertRowsBack => Arr2.insertRowsBack b src
  | .insertCols p => Arr2.insertCols b p src
  | .insertColsFront => Arr2.insertColsFront b src
  | .insertColsBack => Arr2.insertColsBack b src

/-- `insert_row(pos, A)`, `insert_col(pos, A)` and their front and back variants: array_base2D.hpp:552-646. -/
def execUseRow (b : Build) (src : Src (Arr2 α) α) : UseRow → Op (Arr2 α) Unit
  | .insertRow p => Arr2.insertRow b p src
  | .insertRowFront => Arr2.insertRowFront b src
  | .insertRowBack => Arr2.insertRowBack b src
  | .insertCol p => Arr2.insertCol b p src
  | .insertColFront => Arr2.insertColFront b src
  | .insertColBack => Arr2.insertColBack b src

/-- `A[p] = x`, `A[p] += x` and other assignments to an element of an array or view: derived1D.hpp:56-68, then
strict_val.hpp (assignment) or strict_val_ops.hpp (compound).  `f` gives the new element. -/
def assignElem1 (b : Build) (l : Lv .one) (p : Pos) (f : α → Res α) : Op (Store α) Unit := do
  let s : Store α ← Op.get
  let a ← Op.lift (l.build b s)
  Op.lift (assertDebugM b (do let i ← p.resolve (a.rows s); pure (validIndex (a.rows s) i)))
  let i ← Op.lift (p.resolve (a.rows s))
  let c ← Op.lift (a.un s i)
  let x ← Op.lift (s.read c)
  let y ← Op.lift (f x)
  put c y

/-- `A(p, q) = x`, `A(p, q) += x`, ...: derived2D.hpp:58-75. -/
def assignElem2 (b : Build) (l : Lv .two) (p q : Pos) (f : α → Res α) : Op (Store α) Unit := do
  let s : Store α ← Op.get
  let a ← Op.lift (l.build b s)
  let i ← Op.lift (p.resolve (a.rows s))
  let j ← Op.lift (q.resolve (a.cols s))
  Op.lift (assertDebug b (validIndex (a.rows s) i && validIndex (a.cols s) j))
  let c ← Op.lift (a.un2 s i j)
  let x ← Op.lift (s.read c)
  let y ← Op.lift (f x)
  put c y

/-- Execute a statement.  The operand reads all arrays, also the one that is modified, as they are when the element is
read: array_base1D.hpp:304-309, 432-460, array_base2D.hpp as cited in Model/Array2D.lean.  The size of the operand is
that before the call: after the `resize` in `insert_row` (array_base2D.hpp:558, 608) `A.size()` is evaluated again, but
there the modified array was empty and the operand was not, so its size does not come from this array. -/
def estmtRun (b : Build) : EStmt α → Op (Store α) Unit
  | .eval c => c.run b
  | .elem1 l p f => assignElem1 b l p f
  | .elem2 l p q f => assignElem2 b l p q f
  | .list c => onLists (exec b c)
  | .mat c => onMats (exec2 b c)
  | .use1 i u t => do
      let s : Store α ← Op.get
      let a ← Op.lift (t.build b s)
      onLists (Vars.on i (execUse1 b ⟨a.rows s, fun l k => a.un { s with a1 := Vars.put s.a1 i l } k⟩ u))
  | .use2 i u t => do
      let s : Store α ← Op.get
      let a ← Op.lift (t.build b s)
      onMats (Vars2.on i (execUse2 b ⟨a.rows s, a.cols s, fun m k => a.un { s with a2 := Vars2.put s.a2 i m } k,
        fun m p q => a.un2 { s with a2 := Vars2.put s.a2 i m } p q, t.isArray2⟩ u))
  | .useRow i u t => do
      let s : Store α ← Op.get
      let a ← Op.lift (t.build b s)
      onMats (Vars2.on i (execUseRow b ⟨a.rows s, fun m k => a.un { s with a2 := Vars2.put s.a2 i m } k⟩ u))

/-- Execute a program; sequencing, `try`/`catch`, conditions and loops are those of C++.  The statements are calls of
array_base1D.hpp:130-520 and array_base2D.hpp:153-732; rejections throw or abort as in error.hpp:19-36. -/
def eprogRun (b : Build) : EProg α → Op (Store α) Unit
  | .skip => pure ()
  | .throw => Op.lift (.trap .exception)
  | .stmt c => estmtRun b c
  | .seq p q => do
      eprogRun b p
      eprogRun b q
  | .tryCatch p q => fun s =>
      match eprogRun b p s with
      | (.trap .exception, s') => eprogRun b q s'
      | r => r
  | .read f => fun s => eprogRun b (f s) s
  | .loop count p => do
      let s : Store α ← Op.get
      Op.forN (count s) (fun _ => eprogRun b p)

end Spp
