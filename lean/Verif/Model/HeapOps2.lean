import Verif.Model.HeapOps
import Verif.Spec.History2D
import Verif.Model.Array2D

/-
The member functions of two-dimensional arrays on the heap: what Model/Array2D.lean says about the elements, together
with the temporaries, the allocations that may be refused and the pointers of Model/Heap.lean.

`ArrayBase2D` has two members, the dimensions `dims_` and the elements `data1D_`, an `ArrayBase1D`
(array_base2D.hpp:148-149).  The one-dimensional member of array number `i` is object number `i` of the heap.
-/

namespace Spp

/-- Memory, and the dimensions of the arrays, array_base2D.hpp:148-149. -/
structure Heap2 (α : Type) where
  heap : Heap α
  dims : Nat → Int × Int

namespace Heap2

variable {α : Type} [Inhabited α]

/-- An operation of the member `data1D_`.
Members of array_base2D.hpp:148-149 and statements that call its member functions, 153-732. -/
def onData (op : Op (Heap α) β) : Op (Heap2 α) β := fun h =>
  ((op h.heap).1, { h with heap := (op h.heap).2 })

/-- Assignment to the member `dims_`.
Members of array_base2D.hpp:148-149 and statements that call its member functions, 153-732. -/
def setDims (i : Nat) (d : Int × Int) : Op (Heap2 α) Unit := fun h =>
  (.ok (), { h with dims := fun k => if k = i then d else h.dims k })

/-- The array as it can be read through its members: `rows()`, `cols()` and the elements.
Members of array_base2D.hpp:148-149 and statements that call its member functions, 153-732. -/
def load (i : Nat) : Op (Heap2 α) (Arr2 α) := do
  let o ← onData (Heap.obj i)
  let l ← onData (Heap.contents o)
  let h ← Op.get
  pure ⟨(h.dims i).1, (h.dims i).2, l⟩

/-- The common body of `resize`, `resize_and_assign(const&)`, `remove_*` and `insert_*`: a temporary
`ArrayBase2D tmp(m, n)` (array_base2D.hpp:153-160: the member initialisers allocate, then the body checks; an exception
from the body destroys the members), filled by `g` and swapped in (237-241); the temporary, which
now holds the old elements, is destroyed. -/
def rebuild (b : Build) (i : Nat) (m n : Int) (g : Arr2 α → Res (Arr2 α)) : Op (Heap2 α) Unit := do
  let p ← Op.lift (imul m n)
  onData (Heap.rebuild b i p (fun _ tmp => do
    assertDebug b (decide (m ≥ 0))
    assertDebug b (decide (n ≥ 0))
    assertDebug b (semiValid m n)
    let t ← g ⟨m, n, tmp⟩
    pure t.data))
  setDims i (m, n)

/-- In-place modification of the elements, array_base2D.hpp:199-202, 230-234, 557-558, 607-608. -/
def modify (i : Nat) (g : Op (Arr2 α) Unit) : Op (Heap2 α) Unit := fun h =>
  onData (Heap.modify i (fun l =>
    ((g ⟨(h.dims i).1, (h.dims i).2, l⟩).1, (g ⟨(h.dims i).1, (h.dims i).2, l⟩).2.data))) h

/-- `operator=(x)`, array_base2D.hpp:199-202. -/
def assignValue (i : Nat) (x : α) : Op (Heap2 α) Unit := modify i (Arr2.assignValue x)

/-- `operator=(list)`, array_base2D.hpp:205-209: the temporary (153-160, 183-188) is checked and its elements are moved
in (221-226, array_base1D.hpp:241-249), which releases the old ones.  The dimensions are not assigned. -/
def assignList (b : Build) (i : Nat) (L : List (List α)) : Op (Heap2 α) Unit := do
  let a ← load i
  let m := (Arr2.listSizes L).1
  let n := (Arr2.listSizes L).2
  let p ← Op.lift (imul m n)
  onData (Heap.rebuild b i p (fun old tmp => do
    assertDebug b (decide (m ≥ 0))
    assertDebug b (decide (n ≥ 0))
    assertDebug b (semiValid m n)
    assertDebug b (Arr2.validList L)
    let t ← Arr2.copyList L ⟨m, n, tmp⟩
    assertDebug b (a.rows == t.rows && a.cols == t.cols)
    assertNormal b (a.rows == t.rows && a.cols == t.cols)
    assertNormal b (len old == len t.data)
    pure t.data))

/-- `operator=(A)`, array_base2D.hpp:230-234; `Aj` may be the array itself. -/
def assign (b : Build) (i j : Nat) : Op (Heap2 α) Unit := do
  let a ← load i
  let c ← load j
  Op.lift (assertDebug b (a.rows == c.rows && a.cols == c.cols))
  modify i (Arr2.copy (if i = j then
    ⟨a.rows, a.cols, fun a k => rd a.data k, fun a p q => Arr2.rd2 a p q, true⟩ else Arr2.toSrc c))

/-- `resize(m, n, preserve)`, array_base2D.hpp:251-283. -/
def resize (b : Build) (i : Nat) (m n : Int) (preserve : Bool) : Op (Heap2 α) Unit := do
  Op.lift (assertDebug b (decide (m ≥ 0)))
  Op.lift (assertDebug b (decide (n ≥ 0)))
  Op.lift (assertDebug b (semiValid m n))
  let a ← load i
  if ¬ (m = a.rows ∧ n = a.cols) then
    (if preserve then
      rebuild b i m n (fun tmp => foldN (min a.rows m).toNat (fun i t =>
        foldN (min a.cols n).toNat (fun j t => do
          let v ← Arr2.rd2 a i j
          Arr2.wr2 t i j v) t) tmp)
    else do
      let p ← Op.lift (imul m n)
      let q ← Op.lift (imul a.rows a.cols)
      if p ≠ q then rebuild b i m n .ok
      else setDims i (m, n))
  else pure ()

/-- `resize_and_assign(A)`, array_base2D.hpp:287-291; the temporary is a copy of `c`, 191-195. -/
def resizeAndAssignFrom (b : Build) (i : Nat) (c : Arr2 α) : Op (Heap2 α) Unit := do
  rebuild b i c.rows c.cols (fun tmp => do
    (Arr2.copy (Arr2.toSrc c) tmp).1
    pure (Arr2.copy (Arr2.toSrc c) tmp).2)

/-- `resize_and_assign(A)`, array_base2D.hpp:287-291. -/
def resizeAndAssign (b : Build) (i j : Nat) : Op (Heap2 α) Unit := do
  let c ← load j
  resizeAndAssignFrom b i c

/-- `remove_rows(pos, count)`, array_base2D.hpp:304-319. -/
def removeRows (b : Build) (i : Nat) (pos count : Int) : Op (Heap2 α) Unit := do
  Op.lift (assertDebug b (decide (count > 0)))
  let a ← load i
  Op.lift (assertDebug b (validIndex a.rows pos))
  Op.lift (assertDebugM b (do
    let e ← iadd pos count
    let e ← isub e 1
    pure (validIndex a.rows e)))
  let m ← Op.lift (isub a.rows count)
  rebuild b i m (if m = 0 then 0 else a.cols) (fun tmp => do
    let tmp ← Arr2.copyRows0 a.cols (Arr2.rd2 a) tmp pos
    Arr2.copyRows a.cols (Arr2.rd2 a) tmp (pos + count) pos (a.rows - pos - count))

/-- `remove_cols(pos, count)`, array_base2D.hpp:329-344. -/
def removeCols (b : Build) (i : Nat) (pos count : Int) : Op (Heap2 α) Unit := do
  Op.lift (assertDebug b (decide (count > 0)))
  let a ← load i
  Op.lift (assertDebug b (validIndex a.cols pos))
  Op.lift (assertDebugM b (do
    let e ← iadd pos count
    let e ← isub e 1
    pure (validIndex a.cols e)))
  let n ← Op.lift (isub a.cols count)
  rebuild b i (if n = 0 then 0 else a.rows) n (fun tmp => do
    let tmp ← Arr2.copyCols0 a.rows (Arr2.rd2 a) tmp pos
    Arr2.copyCols a.rows (Arr2.rd2 a) tmp (pos + count) pos (a.cols - pos - count))

/-- `remove_row(last - k)`, array_base2D.hpp:366-369: the argument is not used. -/
def removeRowLast (b : Build) (i : Nat) : Op (Heap2 α) Unit := do
  let a ← load i
  let p ← Op.lift (isub a.rows 1)
  removeRows b i p 1

/-- `remove_col(last - k)`, array_base2D.hpp:384-387. -/
def removeColLast (b : Build) (i : Nat) : Op (Heap2 α) Unit := do
  let a ← load i
  let p ← Op.lift (isub a.cols 1)
  removeCols b i p 1

/-- `remove_rows_back(count)`, array_base2D.hpp:402-405. -/
def removeRowsBack (b : Build) (i : Nat) (count : Int) : Op (Heap2 α) Unit := do
  let a ← load i
  let p ← Op.lift (isub a.rows count)
  removeRows b i p count

/-- `remove_cols_back(count)`, array_base2D.hpp:426-429. -/
def removeColsBack (b : Build) (i : Nat) (count : Int) : Op (Heap2 α) Unit := do
  let a ← load i
  let p ← Op.lift (isub a.cols count)
  removeCols b i p count

/-- `remove_rows(indices)`, array_base2D.hpp:438-454. -/
def removeRowsVec (b : Build) (i : Nat) (idx : List Int) : Op (Heap2 α) Unit := do
  if idx.isEmpty then pure ()
  else do
    let a ← load i
    let ci ← Op.lift (complementVec b a.rows idx)
    rebuild b i (len ci) (if len ci = 0 then 0 else a.cols) (fun tmp =>
      foldN tmp.rows.toNat (fun i t => foldN tmp.cols.toNat (fun j t => do
        let k ← rd ci i
        let v ← Arr2.rd2 a k j
        Arr2.wr2 t i j v) t) tmp)

/-- `remove_cols(indices)`, array_base2D.hpp:458-474. -/
def removeColsVec (b : Build) (i : Nat) (idx : List Int) : Op (Heap2 α) Unit := do
  if idx.isEmpty then pure ()
  else do
    let a ← load i
    let ci ← Op.lift (complementVec b a.cols idx)
    rebuild b i (if len ci = 0 then 0 else a.rows) (len ci) (fun tmp =>
      foldN tmp.rows.toNat (fun i t => foldN tmp.cols.toNat (fun j t => do
        let k ← rd ci j
        let v ← Arr2.rd2 a i k
        Arr2.wr2 t i j v) t) tmp)

/-- `insert_rows(pos, A)`, array_base2D.hpp:479-494. -/
def insertRows (b : Build) (i : Nat) (pos : Int) (j : Nat) : Op (Heap2 α) Unit := do
  let a ← load i
  let c ← load j
  Op.lift (assertDebug b (decide (pos ≥ 0) && decide (pos ≤ a.rows)))
  if a.rows = 0 ∧ a.cols = 0 then resizeAndAssignFrom b i c
  else do
    Op.lift (assertDebug b (c.cols == a.cols))
    let m ← Op.lift (iadd a.rows c.rows)
    rebuild b i m a.cols (fun tmp => do
      let tmp ← Arr2.copyRows0 a.cols (Arr2.rd2 a) tmp pos
      let tmp ← Arr2.copyRows c.cols (Arr2.rd2 c) tmp 0 pos c.rows
      Arr2.copyRows a.cols (Arr2.rd2 a) tmp pos (pos + c.rows) (a.rows - pos))

/-- `insert_rows_back(A)`, array_base2D.hpp:510-512. -/
def insertRowsBack (b : Build) (i j : Nat) : Op (Heap2 α) Unit := do
  let a ← load i
  insertRows b i a.rows j

/-- `insert_cols(pos, A)`, array_base2D.hpp:516-531. -/
def insertCols (b : Build) (i : Nat) (pos : Int) (j : Nat) : Op (Heap2 α) Unit := do
  let a ← load i
  let c ← load j
  Op.lift (assertDebug b (decide (pos ≥ 0) && decide (pos ≤ a.cols)))
  if a.rows = 0 ∧ a.cols = 0 then resizeAndAssignFrom b i c
  else do
    Op.lift (assertDebug b (c.rows == a.rows))
    let n ← Op.lift (iadd a.cols c.cols)
    rebuild b i a.rows n (fun tmp => do
      let tmp ← Arr2.copyCols0 a.rows (Arr2.rd2 a) tmp pos
      let tmp ← Arr2.copyCols c.rows (Arr2.rd2 c) tmp 0 pos c.cols
      Arr2.copyCols a.rows (Arr2.rd2 a) tmp pos (pos + c.cols) (a.cols - pos))

/-- `insert_cols_back(A)`, array_base2D.hpp:547-549. -/
def insertColsBack (b : Build) (i j : Nat) : Op (Heap2 α) Unit := do
  let a ← load i
  insertCols b i a.cols j

/-- `insert_row(pos, A)`, array_base2D.hpp:553-581, with a list of elements as the operand. -/
def insertRow (b : Build) (i : Nat) (pos : Int) (xs : List α) : Op (Heap2 α) Unit := do
  let a ← load i
  Op.lift (assertDebug b (decide (pos ≥ 0) && decide (pos ≤ a.rows)))
  if a.rows = 0 ∧ a.cols = 0 ∧ len xs ≠ 0 then do
    resize b i 1 (len xs) true
    modify i (Arr2.copyLinear (len xs) (fun _ k => rd xs k))
  else do
    Op.lift (assertDebug b (len xs == a.cols))
    let m ← Op.lift (iadd a.rows 1)
    rebuild b i m a.cols (fun tmp => do
      let st ← Arr2.insertRowLoop a pos (len xs) (rd xs) tmp
      pure st.2)

/-- `insert_row_back(A)`, array_base2D.hpp:597-599. -/
def insertRowBack (b : Build) (i : Nat) (xs : List α) : Op (Heap2 α) Unit := do
  let a ← load i
  insertRow b i a.rows xs

/-- `insert_col(pos, A)`, array_base2D.hpp:603-628. -/
def insertCol (b : Build) (i : Nat) (pos : Int) (xs : List α) : Op (Heap2 α) Unit := do
  let a ← load i
  Op.lift (assertDebug b (decide (pos ≥ 0) && decide (pos ≤ a.cols)))
  if a.rows = 0 ∧ a.cols = 0 ∧ len xs ≠ 0 then do
    resize b i (len xs) 1 true
    modify i (Arr2.copyLinear (len xs) (fun _ k => rd xs k))
  else do
    Op.lift (assertDebug b (len xs == a.rows))
    let n ← Op.lift (iadd a.cols 1)
    rebuild b i a.rows n (fun tmp => Arr2.insertColLoop a pos (len xs) (rd xs) tmp)

/-- `insert_col_back(A)`, array_base2D.hpp:644-646. -/
def insertColBack (b : Build) (i : Nat) (xs : List α) : Op (Heap2 α) Unit := do
  let a ← load i
  insertCol b i a.cols xs

/-- Copy assignment, array_base2D.hpp:213-217. -/
def copyAssign (b : Build) (i j : Nat) : Op (Heap2 α) Unit := do
  let h : Heap2 α ← Op.get
  Op.lift (assertDebug b ((h.dims i).1 == (h.dims j).1 && (h.dims i).2 == (h.dims j).2))
  onData (Heap.copyAssign b i j)

/-- Move assignment, array_base2D.hpp:221-226. -/
def moveAssign (b : Build) (i j : Nat) : Op (Heap2 α) Unit := do
  let h : Heap2 α ← Op.get
  Op.lift (assertNormal b ((h.dims i).1 == (h.dims j).1 && (h.dims i).2 == (h.dims j).2))
  setDims j (0, 0)
  onData (Heap.moveAssign b i j)

/-- `swap`, array_base2D.hpp:237-241. -/
def swap (i j : Nat) : Op (Heap2 α) Unit := do
  let h : Heap2 α ← Op.get
  setDims j (h.dims i)
  setDims i (h.dims j)
  onData (Heap.swap i j)

/-- `resize_and_assign(A&&)`, array_base2D.hpp:295-299: `swap`, then `swap` with an empty temporary. -/
def resizeAndAssignMove (i j : Nat) : Op (Heap2 α) Unit := do
  swap i j
  setDims j (0, 0)
  onData (Heap.clear j)

end Heap2

variable {α : Type} [Inhabited α]

open Spec (Stmt2 Call2 CallArr2)

/-- Calls the member functions of array_base2D.hpp as cited above. -/
def hexecCall2 (b : Build) (i : Nat) : Call2 α → Op (Heap2 α) Unit
  | .fill x => Heap2.assignValue i x
  | .assignList L => Heap2.assignList b i L
  | .resize m n p => Heap2.resize b i m n p
  | .removeRows p c => Heap2.removeRows b i p c
  | .removeCols p c => Heap2.removeCols b i p c
  | .removeRow p => Heap2.removeRows b i p 1
  | .removeCol p => Heap2.removeCols b i p 1
  | .removeLastRow => Heap2.removeRowLast b i
  | .removeLastCol => Heap2.removeColLast b i
  | .removeRowsFront c => Heap2.removeRows b i 0 c
  | .removeRowsBack c => Heap2.removeRowsBack b i c
  | .removeColsFront c => Heap2.removeCols b i 0 c
  | .removeColsBack c => Heap2.removeColsBack b i c
  | .removeRowsVec idx => Heap2.removeRowsVec b i idx
  | .removeColsVec idx => Heap2.removeColsVec b i idx
  | .insertRow p xs => Heap2.insertRow b i p xs
  | .insertRowFront xs => Heap2.insertRow b i 0 xs
  | .insertRowBack xs => Heap2.insertRowBack b i xs
  | .insertCol p xs => Heap2.insertCol b i p xs
  | .insertColFront xs => Heap2.insertCol b i 0 xs
  | .insertColBack xs => Heap2.insertColBack b i xs

/-- Calls with an array operand, array_base2D.hpp as cited above. -/
def hexecCallArr2 (b : Build) (i j : Nat) : CallArr2 → Op (Heap2 α) Unit
  | .assign => Heap2.assign b i j
  | .resizeAndAssign => Heap2.resizeAndAssign b i j
  | .insertRows p => Heap2.insertRows b i p j
  | .insertRowsFront => Heap2.insertRows b i 0 j
  | .insertRowsBack => Heap2.insertRowsBack b i j
  | .insertCols p => Heap2.insertCols b i p j
  | .insertColsFront => Heap2.insertCols b i 0 j
  | .insertColsBack => Heap2.insertColsBack b i j

/-- Execute one statement of Spec/History2D.lean on the heap.
Members of array_base2D.hpp:148-149 and statements that call its member functions, 153-732. -/
def hexec2 (b : Build) : Stmt2 α → Op (Heap2 α) Unit
  | .call i c => hexecCall2 b i c
  | .callArr i j c => hexecCallArr2 b i j c
  | .copyAssign i j => Heap2.copyAssign b i j
  | .moveAssign i j => Heap2.moveAssign b i j
  | .swap i j => Heap2.swap i j
  | .resizeAndAssignMove i j => Heap2.resizeAndAssignMove i j

/-- Run a program that catches the exception of every rejected statement and of every refused allocation, and goes
on. Members of array_base2D.hpp:148-149 and statements that call its member functions, 153-732. -/
def hexecAll2 (b : Build) (h : Heap2 α) : List (Stmt2 α) → Res (Heap2 α)
  | [] => .ok h
  | c :: cs =>
    match hexec2 b c h with
    | (.ok _, h') => hexecAll2 b h' cs
    | (.trap .exception, h') => hexecAll2 b h' cs
    | (.trap .abort, _) => .trap .abort
    | (.ub, _) => .ub

end Spp
