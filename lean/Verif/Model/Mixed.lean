import Verif.Model.Program
import Verif.Model.HeapOps2
import Verif.Spec.Mixed

/-
Block-structured programs with arrays of one and two dimensions, which share one memory.
-/

namespace Spp
open Spec (Init2 MProg)

variable {α : Type} [Inhabited α]

/-- Memory, and the member `dims_` of the two-dimensional arrays (array_base2D.hpp:148-149).  The member `data1D_` of
the two-dimensional array number `i` is object number `i` of the heap; for a one-dimensional array, which is object
number `i` itself, `dims i` is `none`. -/
structure MHeap (α : Type) where
  heap : Heap α
  dims : Nat → Option (Int × Int)

namespace MHeap

/-- The start of a program: no arrays. Programs that use array_base1D.hpp:130-520 and array_base2D.hpp:153-732. -/
def init (m : Allocator) : MHeap α := ⟨Heap.init m, fun _ => none⟩

/-- An operation of a one-dimensional array, or of the member `data1D_`.
Programs that use array_base1D.hpp:130-520 and array_base2D.hpp:153-732. -/
def onHeap (op : Op (Heap α) β) : Op (MHeap α) β := fun h =>
  ((op h.heap).1, { h with heap := (op h.heap).2 })

/-- Initialisation or assignment of the member `dims_`.
Programs that use array_base1D.hpp:130-520 and array_base2D.hpp:153-732. -/
def setDims (i : Nat) (d : Option (Int × Int)) : Op (MHeap α) Unit := fun h =>
  (.ok (), { h with dims := fun k => if k = i then d else h.dims k })

/-- Dimensions of every object.  The functions of Model/HeapOps2.lean (array_base2D.hpp) are written for a memory in which every array
is two-dimensional; a one-dimensional array, which has no `dims_` and which they do not touch, counts as a column. -/
def dims2 (h : MHeap α) : Nat → Int × Int := fun i =>
  (h.dims i).getD (match h.heap.objs i with
    | none => (0, 0)
    | some o => if o.n = 0 then (0, 0) else (o.n, 1))

/-- An operation of two-dimensional arrays, array_base2D.hpp as cited in Model/HeapOps2.lean. -/
def on2 (op : Op (Heap2 α) Unit) : Op (MHeap α) Unit := fun h =>
  ((op ⟨h.heap, h.dims2⟩).1,
    ⟨(op ⟨h.heap, h.dims2⟩).2.heap, fun i => (h.dims i).map fun _ => (op ⟨h.heap, h.dims2⟩).2.dims i⟩)

/-- A constructor that delegates to `ArrayBase2D(m, n)`, array_base2D.hpp:153-160, and then runs `g`: the member
initialisers allocate, the body checks; an exception destroys the members. -/
def build (b : Build) (i : Nat) (af : AlignmentFlag) (m n : Int) (g : Arr2 α → Res (Arr2 α)) : Op (MHeap α) Unit := do
  let p ← Op.lift (imul m n)
  onHeap (Heap.construct b i af p (fun tmp => do
    assertDebug b (decide (m ≥ 0))
    assertDebug b (decide (n ≥ 0))
    assertDebug b (semiValid m n)
    let t ← g ⟨m, n, tmp⟩
    pure t.data))
  setDims i (some (m, n))

end MHeap

open MHeap

/-- The constructors of array_base2D.hpp: `ArrayBase2D()` 34, `ArrayBase2D(m, n)` 153-160, `ArrayBase2D(m, n, x)`
169-174, `ArrayBase2D(list)` 183-188, copies of arrays of the same type (43, defaulted: member by member) and of the
other type (191-195), and moves (44, defaulted: `data1D_` by array_base1D.hpp:202-206, `dims_` by
fixed_array_base1D.hpp:121-125, which sets the source to zero). -/
def hinit2 (b : Build) (i : Nat) (af : AlignmentFlag) : Init2 α → Op (MHeap α) Unit
  | .empty => do
    onHeap (Heap.setObj i (some (Obj.empty af)))
    setDims i (some (0, 0))
  | .size m n => build b i af m n .ok
  | .fill m n x => build b i af m n (fun t => do
      (Arr2.assignValue x t).1
      pure (Arr2.assignValue x t).2)
  | .list L => build b i af (Arr2.listSizes L).1 (Arr2.listSizes L).2 (fun t => do
      assertDebug b (Arr2.validList L)
      Arr2.copyList L t)
  | .copy j => do
    let h ← Op.get
    let o ← onHeap (Heap.obj j)
    if o.af = af then do
      onHeap (Heap.copyConstruct b i af j)
      setDims i (h.dims j)
    else do
      let l ← onHeap (Heap.contents o)
      let d ← Op.lift (match h.dims j with | some d => .ok d | none => .ub)
      build b i af d.1 d.2 (fun t => do
        (Arr2.copy (Arr2.toSrc ⟨d.1, d.2, l⟩) t).1
        pure (Arr2.copy (Arr2.toSrc ⟨d.1, d.2, l⟩) t).2)
  | .move j => do
    let h ← Op.get
    onHeap (Heap.moveConstruct i j)
    setDims i (h.dims j)
    setDims j (some (0, 0))

/-- The destructor of an array of one (array_base1D.hpp:260-273) or two dimensions (array_base2D.hpp:54, defaulted). -/
def mdestroy (i : Nat) : Op (MHeap α) Unit := do
  onHeap (Heap.destroy i)
  setDims i none

/-- `{ body }` with a local array: its destructor runs on both ways out.
Programs that use array_base1D.hpp:130-520 and array_base2D.hpp:153-732. -/
def mwithLocal (i : Nat) (body : Op (MHeap α) Unit) : Op (MHeap α) Unit := fun h =>
  match body h with
  | (.ok _, h') => mdestroy i h'
  | (.trap .exception, h') =>
    match mdestroy i h' with
    | (.ok _, h'') => (.trap .exception, h'')
    | r => r
  | r => r

/-- `try { p } catch(...) { q }`. Programs that use array_base1D.hpp:130-520 and array_base2D.hpp:153-732. -/
def mtryCatch (p q : Op (MHeap α) Unit) : Op (MHeap α) Unit := fun h =>
  match p h with
  | (.trap .exception, h') => q h'
  | r => r

/-- Running a program: the statements call the member functions of array_base1D.hpp and array_base2D.hpp as cited in
Model/HeapOps.lean and Model/HeapOps2.lean; `read` stands for `rows()`, `cols()` (array_base2D.hpp:651-660), `size()`
and element accesses. -/
def mrun (b : Build) : MProg α → Op (MHeap α) Unit
  | .skip => pure ()
  | .throw => Op.lift (.trap .exception)
  | .stmt c => onHeap (hexec b c)
  | .stmt2 c => on2 (hexec2 b c)
  | .seq p q => do
    mrun b p
    mrun b q
  | .block i af init body => do
    onHeap (hinit b i af init)
    mwithLocal i (mrun b body)
  | .block2 i af init body => do
    hinit2 b i af init
    mwithLocal i (mrun b body)
  | .tryCatch p q => mtryCatch (mrun b p) (mrun b q)
  | .read i f => do
    let o ← onHeap (Heap.obj i)
    let l ← onHeap (Heap.contents o)
    let h ← Op.get
    mrun b (f (h.dims i) l)
  | .loop n p => Op.forN n (fun _ => mrun b p)

end Spp
