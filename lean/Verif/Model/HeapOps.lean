import Verif.Model.Heap
import Verif.Spec.History1D

/-
The member functions of one-dimensional arrays on the heap: what Model/Array1D.lean says about the elements, together
with the temporaries, the allocations that may be refused and the pointers of Model/Heap.lean.  Operands are other
arrays of the program (possibly the same one), read through their own pointers.
-/

namespace Spp

namespace Heap

variable {α : Type} [Inhabited α]

/-- `operator=(x)`, array_base1D.hpp:216-220. -/
def assignValue (i : Nat) (x : α) : Op (Heap α) Unit := modify i (Arr1.fill x)

/-- `operator=(list)`, array_base1D.hpp:223-228. -/
def assignList (b : Build) (i : Nat) (xs : List α) : Op (Heap α) Unit := do
  let o ← obj i
  Op.lift (assertDebug b (o.n == len xs))
  modify i (Arr1.copy (Src.ofList xs))

/-- `resize_and_assign(A)`, array_base1D.hpp:304-309: the temporary is a copy of `Aj`. -/
def resizeAndAssign (b : Build) (i j : Nat) : Op (Heap α) Unit := do
  let oj ← obj j
  let lj ← contents oj
  rebuild b i oj.n (fun _ tmp => do
    (Arr1.copy (Src.ofList lj) tmp).1
    pure (Arr1.copy (Src.ofList lj) tmp).2)

/-- `remove(pos, count)`, array_base1D.hpp:321-332. -/
def remove (b : Build) (i : Nat) (pos count : Int) : Op (Heap α) Unit := do
  Op.lift (assertDebug b (decide (count > 0)))
  let o ← obj i
  Op.lift (assertDebug b (validIndex o.n pos))
  Op.lift (assertDebugM b (do
    let e ← iadd pos count
    let e ← isub e 1
    pure (validIndex o.n e)))
  let m ← Op.lift (isub o.n count)
  rebuild b i m (fun l tmp => do
    let tmp ← copyn0 (rd l) tmp pos
    copyn (rd l) tmp (pos + count) pos (o.n - pos - count))

/-- `remove_front(count)`, array_base1D.hpp:341-344. -/
def removeFront (b : Build) (i : Nat) (count : Int) : Op (Heap α) Unit := remove b i 0 count

/-- `remove_back(count)`, array_base1D.hpp:353-356. -/
def removeBack (b : Build) (i : Nat) (count : Int) : Op (Heap α) Unit := do
  let o ← obj i
  let p ← Op.lift (isub o.n count)
  remove b i p count

/-- `remove(last - k)`, array_base1D.hpp:365-368. -/
def removeLast (b : Build) (i : Nat) (k : Int) : Op (Heap α) Unit := do
  let o ← obj i
  let p ← Op.lift (isub o.n 1)
  let p ← Op.lift (isub p k)
  remove b i p 1

/-- `remove(indices)`, array_base1D.hpp:371-385.  The memory of the `std::vector` of remaining indices is not
modelled. -/
def removeVec (b : Build) (i : Nat) (idx : List Int) : Op (Heap α) Unit := do
  if idx.isEmpty then pure ()
  else do
    let o ← obj i
    let ci ← Op.lift (complementVec b o.n idx)
    rebuild b i (len ci) (fun l tmp => copyn0 (fun i => do let j ← rd ci i; rd l j) tmp (len tmp))

/-- `insert(pos, x)`, array_base1D.hpp:389-399. -/
def insert (b : Build) (i : Nat) (pos : Int) (x : α) : Op (Heap α) Unit := do
  let o ← obj i
  Op.lift (assertDebug b (decide (pos ≥ 0) && decide (pos ≤ o.n)))
  let m ← Op.lift (iadd o.n 1)
  rebuild b i m (fun l tmp => do
    let tmp ← copyn0 (rd l) tmp pos
    let tmp ← wr tmp pos x
    copyn (rd l) tmp pos (pos + 1) (o.n - pos))

/-- `insert_front(x)`, array_base1D.hpp:408-411. -/
def insertFront (b : Build) (i : Nat) (x : α) : Op (Heap α) Unit := insert b i 0 x

/-- `insert_back(x)`, array_base1D.hpp:420-423. -/
def insertBack (b : Build) (i : Nat) (x : α) : Op (Heap α) Unit := do
  let o ← obj i
  insert b i o.n x

/-- `insert(pos, A)`, array_base1D.hpp:432-442. -/
def insertArr (b : Build) (i : Nat) (pos : Int) (j : Nat) : Op (Heap α) Unit := do
  let o ← obj i
  let oj ← obj j
  let lj ← contents oj
  Op.lift (assertDebug b (decide (pos ≥ 0) && decide (pos ≤ o.n)))
  let m ← Op.lift (iadd o.n oj.n)
  rebuild b i m (fun l tmp => do
    let tmp ← copyn0 (rd l) tmp pos
    let tmp ← copyn (rd lj) tmp 0 pos oj.n
    copyn (rd l) tmp pos (pos + oj.n) (o.n - pos))

/-- `insert_front(A)`, array_base1D.hpp:451-454. -/
def insertFrontArr (b : Build) (i j : Nat) : Op (Heap α) Unit := insertArr b i 0 j

/-- `insert_back(A)`, array_base1D.hpp:457-460. -/
def insertBackArr (b : Build) (i j : Nat) : Op (Heap α) Unit := do
  let o ← obj i
  insertArr b i o.n j

end Heap

variable {α : Type} [Inhabited α]

open Spec (Stmt)

/-- Execute one statement of Spec/History1D.lean on the heap: calls the member functions of array_base1D.hpp as cited
above and in Model/Heap.lean. -/
def hexec (b : Build) : Stmt α → Op (Heap α) Unit
  | .fill i x => Heap.assignValue i x
  | .assignList i xs => Heap.assignList b i xs
  | .copyAssign i j => Heap.copyAssign b i j
  | .moveAssign i j => Heap.moveAssign b i j
  | .swap i j => Heap.swap i j
  | .resize i n p => Heap.resize b i n p
  | .resizeAndAssign i j => Heap.resizeAndAssign b i j
  | .resizeAndAssignMove i j => Heap.resizeAndAssignMove i j
  | .remove i p c => Heap.remove b i p c
  | .removeFront i c => Heap.removeFront b i c
  | .removeBack i c => Heap.removeBack b i c
  | .removeLast i k => Heap.removeLast b i k
  | .removeVec i idx => Heap.removeVec b i idx
  | .insert i p x => Heap.insert b i p x
  | .insertFront i x => Heap.insertFront b i x
  | .insertBack i x => Heap.insertBack b i x
  | .insertArr i p j => Heap.insertArr b i p j
  | .insertFrontArr i j => Heap.insertFrontArr b i j
  | .insertBackArr i j => Heap.insertBackArr b i j

/-- Run a program that catches the exception of every rejected statement and of every refused allocation, and goes
on. Statements that call the member functions of array_base1D.hpp:130-520. -/
def hexecAll (b : Build) (h : Heap α) : List (Stmt α) → Res (Heap α)
  | [] => .ok h
  | c :: cs =>
    match hexec b c h with
    | (.ok _, h') => hexecAll b h' cs
    | (.trap .exception, h') => hexecAll b h' cs
    | (.trap .abort, _) => .trap .abort
    | (.ub, _) => .ub

end Spp
