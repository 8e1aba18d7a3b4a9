import Verif.Model.History1D
import Verif.Model.History2D
import Verif.Spec.Fixed

/-
Arrays of fixed size: strictpp/fixed_array_base1D.hpp and strictpp/fixed_array_base2D.hpp.  An
object of `FixedArrayBase1D<T, N>` is the list of its `N` elements; an object of
`FixedArrayBase2D<T, M, N>` is an `Arr2` whose dimensions `M`, `N` are part of the type (no
operation below writes them).  The loops `copy` and `fill` are those of Model/Array1D.lean and
Model/Array2D.lean: algorithm.hpp is shared by all arrays.  Not modelled: alignment,
`data()`/`blas_data()`.
-/

namespace Spp

variable {α : Type} [Inhabited α]

namespace Fixed

/-- The default constructor, fixed_array_base1D.hpp:25, 77: `data_` has `N` elements, each of them
default constructed (`Strict<T>` initialises its value to zero). -/
def init (N : Nat) : List α := List.replicate N default

/-- `FixedArrayBase1D(x)`, fixed_array_base1D.hpp:85-93 (also through `Value<T>`). -/
def makeFill (N : Nat) (x : α) : Res (List α) := do
  (Arr1.fill x (init N)).1
  pure (Arr1.fill x (init N)).2

/-- `FixedArrayBase1D(list)`, fixed_array_base1D.hpp:96-101. -/
def makeList (b : Build) (N : Nat) (xs : List α) : Res (List α) := do
  assertDebug b ((N : Int) == len xs)
  (Arr1.copy (Src.ofList xs) (init N)).1
  pure (Arr1.copy (Src.ofList xs) (init N)).2

/-- `FixedArrayBase1D(b, e)`, fixed_array_base1D.hpp:104-110, with iterators at positions `p` and
`q` of an array with elements `l`; the loop is algorithm.hpp:34-39.  It ends when the positions
meet, so with `q` before `p` it runs until it leaves the buffers. -/
def makeIter (b : Build) (N : Nat) (l : List α) (p q : Int) : Res (List α) := do
  assertDebugM b (do
    let d ← isub q p
    pure (d == (N : Int)))
  assertDebug b (decide (q ≥ p))
  if q < p then .ub
  else do
    (Arr1.copy ⟨q - p, fun _ i => rd l (p + i)⟩ (init N)).1
    pure (Arr1.copy ⟨q - p, fun _ i => rd l (p + i)⟩ (init N)).2

/-- Copy constructor, fixed_array_base1D.hpp:113-116. -/
def makeCopy (a : List α) : Res (List α) := do
  (Arr1.copy (Src.ofList a) (init a.length)).1
  pure (Arr1.copy (Src.ofList a) (init a.length)).2

/-- Constructor from an expression, fixed_array_base1D.hpp:127-132. -/
def makeFrom (b : Build) (N : Nat) (src : Src (List α) α) : Res (List α) := do
  assertDebug b ((N : Int) == src.size)
  (Arr1.copy src (init N)).1
  pure (Arr1.copy src (init N)).2

/-- `operator=(x)`, fixed_array_base1D.hpp:135-139. -/
def assignValue (x : α) : Op (List α) Unit := Arr1.fill x

/-- `operator=(list)`, fixed_array_base1D.hpp:142-148. -/
def assignList (b : Build) (xs : List α) : Op (List α) Unit := do
  let l ← Op.get
  Op.lift (assertDebug b (len l == len xs))
  Arr1.copy (Src.ofList xs)

/-- `operator=(expression)`, fixed_array_base1D.hpp:172-178. -/
def assign (b : Build) (src : Src (List α) α) : Op (List α) Unit := do
  let l ← Op.get
  Op.lift (assertDebug b (len l == src.size))
  Arr1.copy src

/-- `operator=(const FixedArrayBase1D&)`, fixed_array_base1D.hpp:151-158. -/
def baseCopyAssign (i j : Nat) : Op (Vars α) Unit :=
  if i ≠ j then do
    let s : Vars α ← Op.get
    Vars.on i (Arr1.copy (Src.ofList (s j)))
  else pure ()

/-- `Ai = Aj` of two `FixedArray1D`: derived1D.hpp:353-355 calls `Base::operator=(A)` with an
argument of the derived class, so the template of fixed_array_base1D.hpp:172-178 is selected, also
when both are the same object (its elements are then those of the array being modified). -/
def copyAssign (b : Build) (i j : Nat) : Op (Vars α) Unit := fun s =>
  Vars.on i (assign b (s.operand i j)) s

/-- Move assignment, fixed_array_base1D.hpp:161-169. -/
def moveAssign (i j : Nat) : Op (Vars α) Unit :=
  if i ≠ j then do
    baseCopyAssign i j
    Vars.on j (assignValue default)
  else pure ()

/-- Move construction of a new array `i`, fixed_array_base1D.hpp:119-124: copy, then zero the
source. -/
def moveConstruct (i j : Nat) : Op (Vars α) Unit := do
  let s : Vars α ← Op.get
  let a ← Op.lift (makeCopy (s j))
  Op.set (s.put i a)
  Vars.on j (assignValue default)

/-- `std::swap(Ai, Aj)`: `T tmp(std::move(Ai)); Ai = std::move(Aj); Aj = std::move(tmp);` - the
fixed arrays have no `swap` of their own.  `tmp` is a local object.
fixed_array_base1D.hpp has no swap of its own: the move constructor and assignment are implicit. -/
def stdSwap (i j : Nat) : Op (Vars α) Unit := do
  let s : Vars α ← Op.get
  let tmp ← Op.lift (makeCopy (s i))
  Vars.on i (assignValue default)
  moveAssign i j
  Vars.on j (Arr1.copy (Src.ofList tmp))

/-- Execute one statement.
Statements on the classes of fixed_array_base1D.hpp:16-235 and fixed_array_base2D.hpp:16-224. -/
def exec (b : Build) : Spec.FStmt α → Op (Vars α) Unit
  | .fill i x => Vars.on i (assignValue x)
  | .assignList i xs => Vars.on i (assignList b xs)
  | .copyAssign i j => copyAssign b i j
  | .moveAssign i j => moveAssign i j
  | .moveConstruct i j => moveConstruct i j
  | .swap i j => stdSwap i j

/-- Run a program that catches the exception of every rejected statement and goes on.
Statements on the classes of fixed_array_base1D.hpp:16-235 and fixed_array_base2D.hpp:16-224. -/
def execAll (b : Build) (s : Vars α) : List (Spec.FStmt α) → Res (Vars α)
  | [] => .ok s
  | c :: cs =>
    match exec b c s with
    | (.ok _, s') => execAll b s' cs
    | (.trap .exception, s') => execAll b s' cs
    | (.trap .abort, _) => .trap .abort
    | (.ub, _) => .ub

end Fixed

namespace Fixed2

/-- The default constructor, fixed_array_base2D.hpp:29, 80. -/
def init (M N : Nat) : Arr2 α := ⟨M, N, Fixed.init (M * N)⟩

/-- `operator=(x)`, fixed_array_base2D.hpp:115-120: `data1D_ = x`. -/
def assignValue (x : α) : Op (Arr2 α) Unit := fun a =>
  ((Fixed.assignValue x a.data).1, { a with data := (Fixed.assignValue x a.data).2 })

/-- `FixedArrayBase2D(x)`, fixed_array_base2D.hpp:84-93. -/
def makeFill (M N : Nat) (x : α) : Res (Arr2 α) := do
  (assignValue x (init M N)).1
  pure (assignValue x (init M N)).2

/-- `FixedArrayBase2D(list)`, fixed_array_base2D.hpp:96-104. -/
def makeList (b : Build) (M N : Nat) (L : List (List α)) : Res (Arr2 α) := do
  assertDebug b (Arr2.validList L)
  assertDebug b ((M : Int) == (Arr2.listSizes L).1)
  assertDebug b ((N : Int) == (Arr2.listSizes L).2)
  Arr2.copyList L (init M N)

/-- Constructor from an expression, fixed_array_base2D.hpp:107-112. -/
def makeFrom (b : Build) (M N : Nat) (src : Src2 (Arr2 α) α) : Res (Arr2 α) := do
  assertDebug b ((M : Int) == src.rows && (N : Int) == src.cols)
  (Arr2.copy src (init M N)).1
  pure (Arr2.copy src (init M N)).2

/-- `operator=(expression)`, fixed_array_base2D.hpp:133-139. -/
def assign (b : Build) (src : Src2 (Arr2 α) α) : Op (Arr2 α) Unit := do
  let a : Arr2 α ← Op.get
  Op.lift (assertDebug b (a.rows == src.rows && a.cols == src.cols))
  Arr2.copy src

/-- `operator=(list)`, fixed_array_base2D.hpp:123-130: a temporary of the same type is built from
the list, then its elements are copied (defaulted copy assignment, 43). -/
def assignList (b : Build) (L : List (List α)) : Op (Arr2 α) Unit := do
  let a : Arr2 α ← Op.get
  let t ← Op.lift (makeList b a.rows.toNat a.cols.toNat L)
  fun a => ((Arr1.copy (Src.ofList t.data) a.data).1,
    { a with data := (Arr1.copy (Src.ofList t.data) a.data).2 })

/-- The elements `data1D_` of all the arrays.
Statements on the classes of fixed_array_base1D.hpp:16-235 and fixed_array_base2D.hpp:16-224. -/
def elems (s : Vars2 α) : Vars α := fun k => (s k).data

/-- Run an operation on the members `data1D_`.
Statements on the classes of fixed_array_base1D.hpp:16-235 and fixed_array_base2D.hpp:16-224. -/
def onElems (op : Op (Vars α) Unit) : Op (Vars2 α) Unit := fun s =>
  ((op (elems s)).1, fun k => { s k with data := (op (elems s)).2 k })

/-- Move assignment (defaulted, fixed_array_base2D.hpp:44): that of `data1D_`. -/
def moveAssign (i j : Nat) : Op (Vars2 α) Unit := onElems (Fixed.moveAssign i j)

/-- Move construction (defaulted, fixed_array_base2D.hpp:37): that of `data1D_`; the new object has
the dimensions of its type. -/
def moveConstruct (i j : Nat) : Op (Vars2 α) Unit := onElems (Fixed.moveConstruct i j)

/-- `std::swap(Ai, Aj)`; see `Fixed.stdSwap`.
Statements on the classes of fixed_array_base1D.hpp:16-235 and fixed_array_base2D.hpp:16-224. -/
def stdSwap (i j : Nat) : Op (Vars2 α) Unit := onElems (Fixed.stdSwap i j)

/-- `Ai = Aj`: derived2D.hpp:725-727 selects the template of fixed_array_base2D.hpp:133-139. -/
def copyAssign (b : Build) (i j : Nat) : Op (Vars2 α) Unit := fun s =>
  Vars2.on i (assign b (s.operand i j)) s

/-- Execute one statement.
Statements on the classes of fixed_array_base1D.hpp:16-235 and fixed_array_base2D.hpp:16-224. -/
def exec (b : Build) : Spec.FStmt2 α → Op (Vars2 α) Unit
  | .fill i x => Vars2.on i (assignValue x)
  | .assignList i L => Vars2.on i (assignList b L)
  | .copyAssign i j => copyAssign b i j
  | .moveAssign i j => moveAssign i j
  | .moveConstruct i j => moveConstruct i j
  | .swap i j => stdSwap i j

/-- Run a program that catches the exception of every rejected statement and goes on.
Statements on the classes of fixed_array_base1D.hpp:16-235 and fixed_array_base2D.hpp:16-224. -/
def execAll (b : Build) (s : Vars2 α) : List (Spec.FStmt2 α) → Res (Vars2 α)
  | [] => .ok s
  | c :: cs =>
    match exec b c s with
    | (.ok _, s') => execAll b s' cs
    | (.trap .exception, s') => execAll b s' cs
    | (.trap .abort, _) => .trap .abort
    | (.ub, _) => .ub

end Fixed2

end Spp
