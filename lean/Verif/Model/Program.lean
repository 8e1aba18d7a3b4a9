import Verif.Model.HeapOps
import Verif.Spec.Program

/-
Block-structured programs on the heap.  What the language does is built in: the destructor of a local array runs at the
end of its block, and when an exception leaves the block (stack unwinding); nothing runs after the process was aborted.
-/

namespace Spp
open Spec (Init Prog)

variable {α : Type} [Inhabited α]

/-- The constructors of array_base1D.hpp: `ArrayBase1D()` 130-133, `ArrayBase1D(n)` 136-157, `ArrayBase1D(n, x)`
165-169, `ArrayBase1D(list)` 178-182, copies 195-199, 209-213 and moves 202-206. -/
def hinit (b : Build) (i : Nat) (af : AlignmentFlag) : Init α → Op (Heap α) Unit
  | .empty => Heap.setObj i (some (Obj.empty af))
  | .size n => Heap.construct b i af n .ok
  | .fill n x => Heap.construct b i af n (fun l => do
      (Arr1.fill x l).1
      pure (Arr1.fill x l).2)
  | .list xs => Heap.construct b i af (len xs) (fun l => do
      (Arr1.copy (Src.ofList xs) l).1
      pure (Arr1.copy (Src.ofList xs) l).2)
  | .copy j => Heap.copyConstruct b i af j
  | .move j => Heap.moveConstruct i j

/-- `{ body }` with a local array: its destructor (array_base1D.hpp:260-273) runs on both ways out. -/
def withLocal (i : Nat) (body : Op (Heap α) Unit) : Op (Heap α) Unit := fun h =>
  match body h with
  | (.ok _, h') => Heap.destroy i h'
  | (.trap .exception, h') =>
    match Heap.destroy i h' with
    | (.ok _, h'') => (.trap .exception, h'')
    | r => r
  | r => r

/-- `try { p } catch(...) { q }`. The C++ language, [except.handle]. -/
def tryCatch (p q : Op (Heap α) Unit) : Op (Heap α) Unit := fun h =>
  match p h with
  | (.trap .exception, h') => q h'
  | r => r

/-- Running a program: the statements call the member functions of array_base1D.hpp as cited in Model/HeapOps.lean. -/
def hrun (b : Build) : Prog α → Op (Heap α) Unit
  | .skip => pure ()
  | .throw => Op.lift (.trap .exception)
  | .stmt c => hexec b c
  | .seq p q => do
    hrun b p
    hrun b q
  | .block i af init body => do
    hinit b i af init
    withLocal i (hrun b body)
  | .tryCatch p q => tryCatch (hrun b p) (hrun b q)
  | .ite i cond p q => do
    let o ← Heap.obj i
    let l ← Heap.contents o
    if cond l then hrun b p else hrun b q
  | .loop i count p => do
    let o ← Heap.obj i
    let l ← Heap.contents o
    Op.forN (count l) (fun _ => hrun b p)

end Spp
