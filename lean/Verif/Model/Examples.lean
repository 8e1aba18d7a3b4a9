import Verif.Model.ErrorTools
import Verif.Model.Assign

/-
Two of the programs in /repo/examples, written with the modelled parts of the library: the Jacobi solver
(examples/example6.cpp) and the trapezoidal method (examples/example5.cpp).

Range-based loops over `irange(n)` are counted loops (C47 says what `irange` yields, C63 what the loop does), with the
size check of the sequence.  The element type is `α` with the arithmetic `sc`; new elements are `sc.zero`, since
`Strict<T>` initialises its value to zero.
-/

namespace Spp.Examples

variable {α : Type}

/-- The variables of `jacobi`: the matrix `A`, the right side `b`, `xprev` and `xnext`. example6.cpp:16-27. -/
def vars (A : Arr2 α) (rhs xprev xnext : List α) : Store α :=
  ⟨fun id => match id with
     | 0 => rhs
     | 1 => xprev
     | 2 => xnext
     | _ => [],
   fun id => match id with
     | 0 => A
     | _ => ⟨0, 0, []⟩⟩

/-- A member function called on the one-dimensional array `id`.
array_base1D.hpp:216-520 on one of several arrays. -/
def onArr1 (id : Nat) (op : Op (List α) Unit) : Op (Store α) Unit := fun s =>
  ((op (s.a1 id)).1, { s with a1 := fun k => if k = id then (op (s.a1 id)).2 else s.a1 k })

/-- The test `within_tol_rel(matvec_prod(A, xnext), b, tol)`, example6.cpp:31.  The object returned by `matvec_prod`
refers to a local function object of `matvec_prod` that no longer exists (C49); here the call is taken to work, as it
does with a function object without state. -/
def passes (b : Build) (sc : Scalar α) (tol nearZero : α) (s : Store α) : Res Bool := do
  let p ← Tm.build b s (.matvec sc.toArith (.lv (.arr2 0)) (.lv (.arr1 2)))
  let r ← Tm.build b s (.lv (.arr1 0))
  ErrorTools.withinTolRelArray b .one sc p r tol nearZero s false

/-- The right side of the assignment `xnext[i] = (b[i] - dot_prod(exclude(A.row(i), i), exclude(xprev, i))) / A(i, i)`,
example6.cpp:38. -/
def entry (b : Build) (sc : Scalar α) (i : Nat) (s : Store α) : Res α := do
  let bi ← Elem1.sub b (s.a1 0) (.at i)
  let r ← Tm.build b s (.exclude (.view (.row (.at i)) (.lv (.arr2 0))) i 1)
  let p ← Tm.build b s (.exclude (.lv (.arr1 1)) i 1)
  let d ← Ops.dotProd b .one sc.toArith r p s sc.zero
  let n ← sc.sub bi d
  let a ← Elem2.sub b (s.a2 0).rows (s.a2 0).cols (s.a2 0).data (.at i) (.at i)
  sc.div n a

/-- The inner loop, example6.cpp:37-39. -/
def sweep (b : Build) (sc : Scalar α) (N : Nat) : Op (Store α) Unit :=
  Op.forN N (fun i => do
    let s : Store α ← Op.get
    let v ← Op.lift (entry b sc i s)
    onArr1 2 (Elem1.subSet b (.at i) v))

/-- The outer loop with its `return`, example6.cpp:30-43; `left` iterations remain and `iter` is the value of the loop
variable. -/
def jacobiLoop (b : Build) (sc : Scalar α) (tol nearZero : α) (N : Nat) :
    Nat → Nat → Op (Store α) (Option (List α × Nat))
  | 0, _ => pure none
  | left + 1, iter => do
      let s : Store α ← Op.get
      let ok ← Op.lift (passes b sc tol nearZero s)
      if ok then pure (some (s.a1 2, iter))
      else do
        sweep b sc N
        (AStmt.assign (.arr1 1) (.lv (.arr1 2))).run b
        jacobiLoop b sc tol nearZero N left (iter + 1)

/-- `VT x{}` and, for dynamic arrays, `x.resize(N)`, example6.cpp:22-28; `size` is the size of the type `VT` if it is
fixed. -/
def zeros (b : Build) (sc : Scalar α) (dynamic : Bool) (size : Nat) (N : Int) : Res (List α) :=
  if dynamic then do
    let r := @Arr1.resize α ⟨sc.zero⟩ b N false []
    r.1
    pure r.2
  else pure (List.replicate size sc.zero)

/-- `jacobi(A, b, tol)`, examples/example6.cpp:17-45. -/
def jacobi (b : Build) (sc : Scalar α) (dynamic : Bool) (A : Arr2 α) (rhs : List α) (tol nearZero : α) :
    Res (Option (List α × Nat)) := do
  if b.ndebug || (A.rows == A.cols && A.cols == len rhs) then .ok () else .trap .abort
  let maxIts ← imul 100 A.rows
  let xprev ← zeros b sc dynamic rhs.length A.rows
  let xnext ← zeros b sc dynamic rhs.length A.rows
  let n ← iadd maxIts 1
  assertDebug b (decide (n > -1))
  (jacobiLoop b sc tol nearZero A.rows.toNat n.toNat 0 (vars A rhs xprev xnext)).1

/-- The lambda `[](auto row) { return sum(row); }` of example6.cpp:53, applied to the elements of a row. -/
def sumOf (ar : Arith α) (l : List (Res α)) : Res α :=
  Ops.sum ar (Acc.oneD (fun _ => len l) (fun _ i => if 0 ≤ i then l.getD i.toNat .ub else .ub) : Acc Unit α) ()
    ar.zero

/-- `A.diag() += Strict{T(2)} * row_reduce(A, ...)`, example6.cpp:53, for the array number 0. -/
def makeDominant (b : Build) (ar : Arith α) (two : α) : Op (Store α) Unit :=
  (AStmt.compound ar.add (.view .diag (.arr2 0))
    (.scalarL ar.mul two (.reduce true (sumOf ar) (.lv (.arr2 0))))).run b

/-- The body of the loop of `ode_solve`, example5.cpp:31-33: the value assigned to `y[i + 1]` when `y[i]` is `y`. -/
def trapezoid (sc : Scalar α) (two h y : α) : Res α := do
  let p ← sc.mul y h
  let q ← sc.div p two
  let n ← sc.add y q
  let g ← sc.div h two
  let d ← sc.sub sc.one g
  sc.div n d

/-- `ode_solve(nsteps, h, y_init)`, examples/example5.cpp:23-36. -/
def odeSolve (b : Build) (sc : Scalar α) (two : α) (nsteps : Int) (h yInit : α) : Res (List α) := do
  assertDebug b (decide (nsteps > 0))
  assertDebug b (sc.lt sc.zero h)
  let n ← iadd nsteps 1
  let y ← @Arr1.make α ⟨sc.zero⟩ b n
  let r := Elem1.subSet b (.at 0) yInit y
  r.1
  -- `irange_m1(y)`, special.hpp:458-461
  let m ← isub (len r.2) 1
  assertDebug b (decide (m > -1))
  foldN m.toNat (fun i l => do
    let u ← Elem1.sub b l (.at i)
    let v ← trapezoid sc two h u
    let k ← iadd i 1
    let r := Elem1.subSet b (.at k) v l
    r.1
    pure r.2) r.2

end Spp.Examples
