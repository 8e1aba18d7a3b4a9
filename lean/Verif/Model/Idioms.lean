import Verif.Model.Ops
import Verif.Model.Assign
import Verif.Model.Array1D

/-
Uses of the library that combine several of its operations, as in examples/example1.cpp,
examples/example2.cpp and examples/example3.cpp.
-/

namespace Spp

/-- Slices of slices: `A(r1)(r2)...`, derived1D.hpp:177-209 applied repeatedly (example2.cpp:18-19). -/
def View.chain {σ β : Type} (b : Build) (a : Acc σ β) (s : σ) : List SliceReq → Res (Acc σ β)
  | [] => .ok a
  | r :: rs => do
      let v ← View.mkSlice1 b a s r
      View.chain b v s rs

namespace Idioms

variable {α : Type} [Inhabited α]

/-- `A.remove(in_cond_range(A, f).get_slice())`: array_ops.hpp:813-820 collects the indexes and
constructs the slice `A(indexes)`, slicearray_base1D.hpp:110-126 with slice.hpp:620-626 gives the
indexes back, array_base1D.hpp:371-385 removes them. -/
def removeWhere (b : Build) (f : α → Bool) : Op (List α) Unit := do
  let l ← Op.get
  let idx ← Op.lift (foldN (len l).toNat (fun i (idx : List Int) => do
    let x ← rd l i
    pure (if f x then idx ++ [(i : Int)] else idx)) [])
  let sl ← Op.lift (mkSlice b (len l) (len l == 0) (.vec idx))
  match sl with
  | .vec v => Arr1.removeVec b v
  | .seqN _ _ _ => Op.lift .ub

/-- `A.remove(in_closed_range(A, low, high).get_slice())`, example2.cpp:24-25, with
`in_closed_range` from array_ops.hpp:797-803. -/
def removeClosed (b : Build) (sc : Scalar α) (low high : α) : Op (List α) Unit := do
  Op.lift (assertDebug b (sc.le low high))
  removeWhere b (fun x => sc.le low x && sc.le x high)

/-- `A.remove(in_open_range(A, low, high).get_slice())`, with `in_open_range` from
array_ops.hpp:781-786. -/
def removeOpen (b : Build) (sc : Scalar α) (low high : α) : Op (List α) Unit := do
  Op.lift (assertDebug b (sc.le low high))
  removeWhere b (fun x => sc.lt low x && sc.lt x high)

/-- `x = merge(y[last], exclude(y, last))`, example1.cpp:29: rotation by one position; `y[last]` is
`operator[]` (derived1D.hpp:56-68), the assignment array_base1D.hpp:252-257. -/
def rotate (b : Build) (dst src : Nat) : Op (Store α) Unit := do
  let s : Store α ← Op.get
  let x ← Op.lift (Elem1.sub b (s.a1 src) Pos.last)
  (AStmt.assign (.arr1 dst) (.prepend x (.excludeLast (.lv (.arr1 src)) 0))).run b

/-- `B(odd) = -B(even) + c`, example3.cpp:32 (and 40-41): the assignment of an expression over one half
of the elements to the other half, slicearray_base1D.hpp:88-93. -/
def oddFromEven (b : Build) (neg : α → α) (add : α → α → α) (id : Nat) (c : α) : Op (Store α) Unit :=
  (AStmt.assign (.view (.slice .odd) (.arr1 id))
    (.scalarR (fun x y => .ok (add x y))
      (.unary (fun x => .ok (neg x)) (.view (.slice .even) (.lv (.arr1 id)))) c)).run b

end Idioms
end Spp
