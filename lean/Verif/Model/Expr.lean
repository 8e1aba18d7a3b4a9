import Verif.Model.Array2D

/-
Views and expression objects: strictpp/Expr/types.hpp, special.hpp, binary.hpp, unary.hpp,
strictpp/slicearray_base1D.hpp, slicearray_base2D.hpp, strictpp/attach2D.hpp (view2D),
strictpp/derived1D.hpp, derived2D.hpp (slicing, row, col, diag, block, view1D).

A user program that builds a view or an expression is a tree (`Lv` for things that can be assigned
to, `Tm` for things that can be read).  Executing the program (`build`) runs the constructors with
their checks and yields an object (`Acc`), which is what the C++ templates produce: the members
`size()`, `rows()`, `cols()`, `un(i)`, `un(i, j)`, which read the arrays when they are called.

All element types are merged into one type; the functors are arbitrary functions that may fail.
Operands are stored by copy or by reference (types.hpp `CopyOrReferenceExpr`); in this file both are
just the object, lifetimes are the subject of Model/Lifetime.lean.
-/

namespace Spp

/-- Number of dimensions (`dimension()`, derived1D.hpp:272, derived2D.hpp:629). -/
inductive Dim where
  | one
  | two
  deriving DecidableEq, Repr

/-- The arrays that exist while an expression is evaluated.
Objects of Expr/types.hpp:29-427, slicearray_base1D.hpp:24-201, slicearray_base2D.hpp:18-271 over arrays. -/
structure Store (α : Type) where
  a1 : Nat → List α
  a2 : Nat → Arr2 α

/-- A place in a stored array: the array and the offset in its buffer.
Objects of Expr/types.hpp:29-427, slicearray_base1D.hpp:24-201, slicearray_base2D.hpp:18-271 over arrays. -/
inductive Loc where
  | one (id : Nat) (k : Nat)
  | two (id : Nat) (k : Nat)
  deriving DecidableEq, Repr

namespace Store

variable {α : Type}

/-- Reading the referenced element.
Objects of Expr/types.hpp:29-427, slicearray_base1D.hpp:24-201, slicearray_base2D.hpp:18-271 over arrays. -/
def read (s : Store α) : Loc → Res α
  | .one id k => rd (s.a1 id) k
  | .two id k => rd (s.a2 id).data k

/-- Writing the referenced element; outside the buffer this is undefined behaviour.
Objects of Expr/types.hpp:29-427, slicearray_base1D.hpp:24-201, slicearray_base2D.hpp:18-271 over arrays. -/
def write (s : Store α) (l : Loc) (x : α) : Res (Store α) :=
  match l with
  | .one id k => do
      let d ← wr (s.a1 id) k x
      pure { s with a1 := fun i => if i = id then d else s.a1 i }
  | .two id k => do
      let d ← wr (s.a2 id).data k x
      pure { s with a2 := fun i => if i = id then { s.a2 id with data := d } else s.a2 i }

end Store

/-- An object that satisfies `BaseType` (array_traits.hpp): what its members return in a given
state.  `rows` is `size()` for one-dimensional objects and `rows()` for two-dimensional ones; `size`
can fail because it multiplies.  `β` is what an access yields: an element, or (for objects that can
be assigned to) the place of an element, since there `un` returns a reference. -/
structure Acc (σ β : Type) where
  rows : σ → Int
  cols : σ → Int
  size : σ → Res Int
  un : σ → Int → Res β
  un2 : σ → Int → Int → Res β

namespace Acc

variable {σ β γ : Type}

/-- One-dimensional objects have no `un(i, j)`.
Objects of Expr/types.hpp:29-427, slicearray_base1D.hpp:24-201, slicearray_base2D.hpp:18-271 over arrays. -/
def oneD (n : σ → Int) (un : σ → Int → Res β) : Acc σ β :=
  ⟨n, fun _ => 1, fun s => .ok (n s), un, fun _ _ _ => .ub⟩

/-- Two-dimensional objects whose `un(i)` is `un(i / cols(), i % cols())` (index_helper.hpp:97-102)
and whose `size()` is `rows() * cols()`: slicearray_base2D.hpp:108-120, 158-172, IndexExpr2D
types.hpp:231-261, BroadCastExpr 324-347, TensorExpr 370-389. -/
def twoD (b : Build) (m n : σ → Int) (un2 : σ → Int → Int → Res β) : Acc σ β :=
  ⟨m, n, fun s => imul (m s) (n s),
   fun s k => do
     let rc ← Elem2.unflatten b (n s) k
     un2 s rc.1 rc.2,
   un2⟩

/-- Reading through references.
Objects of Expr/types.hpp:29-427, slicearray_base1D.hpp:24-201, slicearray_base2D.hpp:18-271 over arrays. -/
def deref (a : Acc σ β) (f : σ → β → Res γ) : Acc σ γ :=
  ⟨a.rows, a.cols, a.size, fun s i => do let l ← a.un s i; f s l,
   fun s i j => do let l ← a.un2 s i j; f s l⟩

/-- `SliceArrayBase1D`, `ConstSliceArrayBase1D`: slicearray_base1D.hpp:97-107, 127-129, 167-198. -/
def slice (a : Acc σ β) (sl : Slice) : Acc σ β :=
  oneD (fun _ => sl.size) (fun s i => do
    let j ← sl.map i
    a.un s j)

/-- `SliceArrayBase2D`, `ConstSliceArrayBase2D`: slicearray_base2D.hpp:108-172, 228-260. -/
def slice2 (b : Build) (a : Acc σ β) (s1 s2 : Slice) : Acc σ β :=
  twoD b (fun _ => s1.size) (fun _ => s2.size) (fun s i j => do
    let r ← s1.map i
    let c ← s2.map j
    a.un2 s r c)

/-- `strict_convert_slice2D`, `const_strict_convert_slice2D`: attach2D.hpp:114-212. -/
def proxy (a : Acc σ β) (m n : Int) : Acc σ β :=
  ⟨fun _ => m, fun _ => n, fun _ => imul m n, a.un,
   fun s i j => do
     let o ← Elem2.off n i j
     a.un s o⟩

/-- `UnaryExpr`, types.hpp:52-57, 91-100. -/
def unary (f : β → Res β) (a : Acc σ β) : Acc σ β :=
  ⟨a.rows, a.cols, a.size, fun s i => do let x ← a.un s i; f x,
   fun s i j => do let x ← a.un2 s i j; f x⟩

/-- `BinaryExpr`, types.hpp:134-139, 174-183: the extents are those of the first operand. -/
def binary (f : β → β → Res β) (a1 a2 : Acc σ β) : Acc σ β :=
  ⟨a1.rows, a1.cols, a1.size,
   fun s i => do let x ← a1.un s i; let y ← a2.un s i; f x y,
   fun s i j => do let x ← a1.un2 s i j; let y ← a2.un2 s i j; f x y⟩

/-- `generate(irange(n), op)`: a `UnaryExpr` on a `SequenceExpr1D<long>` (types.hpp:196-215,
special.hpp:447-449) whose elements are `0 + 1 * i`. -/
def gen1 (n : Int) (op : σ → Int → Res β) : Acc σ β :=
  oneD (fun _ => n) (fun s k => do
    let p ← imul 1 k
    let i ← iadd 0 p
    op s i)

/-- `generate(irange2D(m, n), op)`: a `UnaryExpr` on an `IndexExpr2D` whose elements are `i*n + j`
(special.hpp:264-268). -/
def gen2 (b : Build) (m n : Int) (op : σ → Int → Res β) : Acc σ β :=
  twoD b (fun _ => m) (fun _ => n) (fun s i j => do
    let o ← Elem2.off n i j
    op s o)

/-- The closure of `merge(A1, A2)`, special.hpp:291, 301; the wrappers `generate(A, id)` do not
change size or elements. -/
def mergeOp (a1 a2 : Acc σ β) (s : σ) (i : Int) : Res β :=
  if i < a1.rows s then a1.un s i
  else do
    let j ← isub i (a1.rows s)
    a2.un s j

/-- The closure of `merge(A, x)`, special.hpp:315. -/
def appendOp (a : Acc σ β) (x : β) (s : σ) (i : Int) : Res β :=
  if i = a.rows s then .ok x else a.un s i

/-- The closure of `merge(x, A)`, special.hpp:331. -/
def prependOp (x : β) (a : Acc σ β) (s : σ) (i : Int) : Res β :=
  if i = 0 then .ok x
  else do
    let j ← isub i 1
    a.un s j

/-- The closure of `exclude(A, pos, count)`, special.hpp:400-402. -/
def excludeOp (a : Acc σ β) (pos count : Int) (s : σ) (j : Int) : Res β :=
  if j < pos then a.un s j
  else do
    let k ← iadd j count
    a.un s k

/-- `horizontal_op`, special.hpp:271-281. -/
def horizontalOp (b : Build) (a1 a2 : Acc σ β) (s : σ) (i : Int) : Res β := do
  let w ← iadd (a1.cols s) (a2.cols s)
  let r ← idiv b i w
  let c ← irem b i w
  let j2 ← isub c (a1.cols s)
  if c < a1.cols s then do
    let p ← imul r (a1.cols s)
    let o ← iadd p c
    a1.un s o
  else do
    let p ← imul r (a2.cols s)
    let o ← iadd p j2
    a2.un s o

/-- The closure of `merge_vertical`, special.hpp:374, 387. -/
def verticalOp (a1 a2 : Acc σ β) (s : σ) (i : Int) : Res β := do
  let n1 ← a1.size s
  if i < n1 then a1.un s i
  else do
    let j ← isub i n1
    a2.un s j

/-- `BroadCastExpr`, types.hpp:311-352; `rowwise` as in the template parameter. -/
def bcast (b : Build) (rowwise : Bool) (a : Acc σ β) : Acc σ β :=
  twoD b a.rows a.rows (fun s i j => if rowwise then a.un s j else a.un s i)

/-- `TensorExpr`, types.hpp:355-395. -/
def tensor (b : Build) (mul : β → β → Res β) (a1 a2 : Acc σ β) : Acc σ β :=
  twoD b a1.rows a2.rows (fun s i j => do
    let x ← a1.un s i
    let y ← a2.un s j
    mul x y)

/-- `transpose`, special.hpp:513-518: an `IndexExpr2D` whose dimensions are fixed when it is built
(`m`, `n`). -/
def transpose (b : Build) (m n : Int) (a : Acc σ β) : Acc σ β :=
  twoD b (fun _ => m) (fun _ => n) (fun s i j => a.un2 s j i)

/-- `empty()`: `size() == 0`, derived1D.hpp:94, derived2D.hpp:124. -/
def empty (a : Acc σ β) (s : σ) : Res Bool := do
  let n ← a.size s
  pure (n == 0)

/-- `operator[]` with an integer, derived1D.hpp:56-68. -/
def sub (b : Build) (a : Acc σ β) (s : σ) (i : Int) : Res β := do
  assertDebug b (validIndex (a.rows s) i)
  a.un s i

/-- `same_size`, array_auxiliary.hpp:30-48. -/
def sameSize (d : Dim) (a1 : Acc σ β) (a2 : Acc σ γ) (s : σ) : Bool :=
  match d with
  | .one => a1.rows s == a2.rows s
  | .two => a1.rows s == a2.rows s && a1.cols s == a2.cols s

end Acc

/-- The ways to get a view of an object: slices, rows, columns, diagonals, blocks, reshapes.
Objects of Expr/types.hpp:29-427, slicearray_base1D.hpp:24-201, slicearray_base2D.hpp:18-271 over arrays. -/
inductive View : Dim → Dim → Type where
  | slice (r : SliceReq) : View .one .one
  | slice2 (r1 r2 : SliceReq) : View .two .two
  | rows (r : SliceReq) : View .two .two
  | cols (r : SliceReq) : View .two .two
  | row (p : Pos) : View .two .one
  | col (p : Pos) : View .two .one
  | diag : View .two .one
  | diagK (k : Int) : View .two .one
  | block (i1 j1 i2 j2 : Pos) : View .two .two
  | blockN (i1 j1 : Pos) (m n : Int) : View .two .two
  | view1D : View .two .one
  | view2D (d : Dim) (m n : Int) : View d .two

namespace View

variable {σ β : Type}

/-- `A(slice)` for a one-dimensional object, derived1D.hpp:177-209. -/
def mkSlice1 (b : Build) (a : Acc σ β) (s : σ) (r : SliceReq) : Res (Acc σ β) := do
  let sl ← Spp.mkSlice b (a.rows s) (a.rows s == 0) r
  pure (a.slice sl)

/-- `A(rowSlice, colSlice)`, derived2D.hpp:365-432.  `empty()` is evaluated once here; the C++ code
evaluates it only for the requests that ask for it. -/
def mkSlice2 (b : Build) (a : Acc σ β) (s : σ) (r1 r2 : SliceReq) : Res (Acc σ β) := do
  let e ← a.empty s
  let p ← Spp.mkSlice2 b (a.rows s) (a.cols s) e r1 r2
  pure (a.slice2 b p.1 p.2)

/-- `view1D()` of a two-dimensional object, derived2D.hpp:241-252, 288-292: a slice of the linear
accessor with `seqN{0, size(), 1}`. -/
def mkView1D (b : Build) (a : Acc σ β) (s : σ) : Res (Acc σ β) := do
  let n ← a.size s
  let sl ← mkSeqN b 0 n 1
  assertDebugM b (sl.valid n)
  pure (a.slice sl)

/-- `row(i)`, derived2D.hpp:215-221, 258-264. -/
def mkRow (b : Build) (a : Acc σ β) (s : σ) (p : Pos) : Res (Acc σ β) := do
  let i ← p.resolve (a.rows s)
  assertDebug b (validIndex (a.rows s) i)
  let first ← imul i (a.cols s)
  let v ← mkView1D b a s
  let l ← iadd first (a.cols s)
  let l ← isub l 1
  mkSlice1 b v s (.seq first l 1)

/-- `col(j)`, derived2D.hpp:224-231, 267-274. -/
def mkCol (b : Build) (a : Acc σ β) (s : σ) (p : Pos) : Res (Acc σ β) := do
  let j ← p.resolve (a.cols s)
  assertDebug b (validIndex (a.cols s) j)
  let m1 ← isub (a.rows s) 1
  let t ← imul m1 (a.cols s)
  let l ← iadd j t
  let v ← mkView1D b a s
  mkSlice1 b v s (.seq j l (a.cols s))

/-- `diag()`, derived2D.hpp:233-235, 276-278. -/
def mkDiag (b : Build) (a : Acc σ β) (s : σ) : Res (Acc σ β) := do
  let v ← mkView1D b a s
  let st ← iadd (a.cols s) 1
  mkSlice1 b v s (.seqN 0 (min (a.rows s) (a.cols s)) st)

/-- `diag(k)`, derived2D.hpp:237-239, 280-282 and `diag_slice_impl` 634-644. -/
def mkDiagK (b : Build) (a : Acc σ β) (s : σ) (k : Int) : Res (Acc σ β) := do
  let v ← mkView1D b a s
  let st ← iadd (a.cols s) 1
  if k ≥ 0 then do
    assertDebug b (decide (k < a.cols s))
    let c ← isub (a.cols s) k
    mkSlice1 b v s (.seqN k (min (a.rows s) c) st)
  else do
    let q ← isub 0 k
    assertDebug b (decide (q < a.rows s))
    let f ← imul q (a.cols s)
    let r ← isub (a.rows s) q
    mkSlice1 b v s (.seqN f (min r (a.cols s)) st)

/-- `block(first_row, first_col, last_row, last_col)`, derived2D.hpp:413-419. -/
def mkBlock (b : Build) (a : Acc σ β) (s : σ) (i1 j1 i2 j2 : Pos) : Res (Acc σ β) := do
  let r1 ← i1.resolve (a.rows s)
  let c1 ← j1.resolve (a.cols s)
  let r2 ← i2.resolve (a.rows s)
  let c2 ← j2.resolve (a.cols s)
  mkSlice2 b a s (.seq r1 r2 1) (.seq c1 c2 1)

/-- `blockN(first_row, first_col, nrows, ncols)`, derived2D.hpp:421-426. -/
def mkBlockN (b : Build) (a : Acc σ β) (s : σ) (i1 j1 : Pos) (m n : Int) : Res (Acc σ β) := do
  let r1 ← i1.resolve (a.rows s)
  let c1 ← j1.resolve (a.cols s)
  mkSlice2 b a s (.seqN r1 m 1) (.seqN c1 n 1)

/-- `view2D(m, n)`, attach2D.hpp:214-289: the check is performed in every build mode; then the proxy
is wrapped in a two-dimensional slice with `seqN{0, m}` and `seqN{0, n}`. -/
def mkView2D (b : Build) (a : Acc σ β) (s : σ) (m n : Int) : Res (Acc σ β) := do
  let p ← imul m n
  let sz ← a.size s
  assertAlways b (p == sz)
  let s1 ← mkSeqN b 0 m 1
  let s2 ← mkSeqN b 0 n 1
  assertDebugM b (s1.valid m)
  assertDebugM b (s2.valid n)
  let q := if s1.size = 0 then (s1, s2.default)
    else if s2.size = 0 then (s1.default, s2)
    else (s1, s2)
  pure ((a.proxy m n).slice2 b q.1 q.2)

/-- Constructing a view of the object `a` in state `s`.
Objects of Expr/types.hpp:29-427, slicearray_base1D.hpp:24-201, slicearray_base2D.hpp:18-271 over arrays. -/
def mk (b : Build) (a : Acc σ β) (s : σ) : View d d' → Res (Acc σ β)
  | .slice r => mkSlice1 b a s r
  | .slice2 r1 r2 => mkSlice2 b a s r1 r2
  -- derived2D.hpp:393-396, 403-406
  | .rows r => mkSlice2 b a s r .all
  | .cols r => mkSlice2 b a s .all r
  | .row p => mkRow b a s p
  | .col p => mkCol b a s p
  | .diag => mkDiag b a s
  | .diagK k => mkDiagK b a s k
  | .block i1 j1 i2 j2 => mkBlock b a s i1 j1 i2 j2
  | .blockN i1 j1 m n => mkBlockN b a s i1 j1 m n
  | .view1D => mkView1D b a s
  | .view2D _ m n => mkView2D b a s m n

end View

/-- Arithmetic of the element type (strict_val.hpp:382-406, 309-366), which may fail. -/
structure Arith (α : Type) where
  zero : α
  one : α
  add : α → α → Res α
  sub : α → α → Res α
  mul : α → α → Res α
  div : α → α → Res α
  ofIndex : Int → Res α

/-- Things that can be assigned to: arrays and views of them (`NonConstBaseType`).
Objects of Expr/types.hpp:29-427, slicearray_base1D.hpp:24-201, slicearray_base2D.hpp:18-271 over arrays. -/
inductive Lv : Dim → Type where
  | arr1 (id : Nat) : Lv .one
  | arr2 (id : Nat) : Lv .two
  | view (v : View d d') (a : Lv d) : Lv d'

/-- Expressions.
Objects of Expr/types.hpp:29-427, slicearray_base1D.hpp:24-201, slicearray_base2D.hpp:18-271 over arrays. -/
inductive Tm (α : Type) : Dim → Type where
  | lv (l : Lv d) : Tm α d
  | view (v : View d d') (a : Tm α d) : Tm α d'
  | unary (f : α → Res α) (a : Tm α d) : Tm α d
  | binary (f : α → α → Res α) (a1 a2 : Tm α d) : Tm α d
  | scalarL (f : α → α → Res α) (x : α) (a : Tm α d) : Tm α d
  | scalarR (f : α → α → Res α) (a : Tm α d) (x : α) : Tm α d
  | sequence (ar : Arith α) (n : Int) (start incr : α) : Tm α .one
  | linspace (ar : Arith α) (n : Int) (start stop : α) : Tm α .one
  | eUnit (ar : Arith α) (k n : Int) : Tm α .one
  | const1D (n : Int) (x : α) : Tm α .one
  | const2D (m n : Int) (x : α) : Tm α .two
  | identity (ar : Arith α) (n : Int) : Tm α .two
  | merge (a1 a2 : Tm α .one) : Tm α .one
  | append (a : Tm α .one) (x : α) : Tm α .one
  | prepend (x : α) (a : Tm α .one) : Tm α .one
  | exclude (a : Tm α .one) (pos count : Int) : Tm α .one
  | excludeLast (a : Tm α .one) (k : Int) : Tm α .one
  | reduce (rowwise : Bool) (g : List (Res α) → Res α) (a : Tm α .two) : Tm α .one
  | matvec (ar : Arith α) (a : Tm α .two) (x : Tm α .one) : Tm α .one
  | bcast (rowwise : Bool) (a : Tm α .one) : Tm α .two
  | tensor (ar : Arith α) (a1 a2 : Tm α .one) : Tm α .two
  | transpose (a : Tm α .two) : Tm α .two
  | mergeH (a1 a2 : Tm α .two) : Tm α .two
  | mergeV (a1 a2 : Tm α .two) : Tm α .two

/-- `un(i)` of an owning array as a reference, array_base1D.hpp:471-479. -/
def Lv.acc1 (α : Type) (id : Nat) : Acc (Store α) Loc :=
  Acc.oneD (fun s => len (s.a1 id))
    (fun s i => if 0 ≤ i ∧ i < len (s.a1 id) then .ok (.one id i.toNat) else .ub)

/-- `un(i)`, `un(i, j)`, `rows()`, `cols()`, `size()` of an owning two-dimensional array,
array_base2D.hpp:660-692: `size()` is the size of the buffer. -/
def Lv.acc2 (α : Type) (id : Nat) : Acc (Store α) Loc :=
  let at_ := fun (s : Store α) (i : Int) =>
    if 0 ≤ i ∧ i < len (s.a2 id).data then Res.ok (Loc.two id i.toNat) else .ub
  ⟨fun s => (s.a2 id).rows, fun s => (s.a2 id).cols, fun s => .ok (len (s.a2 id).data), at_,
   fun s i j => do
     let o ← Elem2.off (s.a2 id).cols i j
     at_ s o⟩

/-- Executing the program text of an assignable object in state `s`.
Objects of Expr/types.hpp:29-427, slicearray_base1D.hpp:24-201, slicearray_base2D.hpp:18-271 over arrays. -/
def Lv.build {α : Type} (b : Build) (s : Store α) : Lv d → Res (Acc (Store α) Loc)
  | .arr1 id => .ok (Lv.acc1 α id)
  | .arr2 id => .ok (Lv.acc2 α id)
  | .view v l => do
      let a ← l.build b s
      v.mk b a s

namespace Tm

variable {α : Type}

/-- `const1D(size, c)`, special.hpp:522-526. -/
def mkConst1D {σ : Type} (b : Build) (n : Int) (x : α) : Res (Acc σ α) := do
  assertDebug b (decide (n > -1))
  assertDebug b (decide (n > -1))
  pure (.gen1 n (fun _ _ => .ok x))

/-- `const2D(rows, cols, c)`, special.hpp:535-541; `IndexExpr2D` checks again, types.hpp:231-235. -/
def mkConst2D {σ : Type} (b : Build) (m n : Int) (x : α) : Res (Acc σ α) := do
  assertDebug b (decide (m > -1))
  assertDebug b (decide (n > -1))
  assertDebug b (semiValid m n)
  assertDebug b (decide (m > -1))
  assertDebug b (decide (n > -1))
  pure (.gen2 b m n (fun _ _ => .ok x))

/-- `generate_const(A, x)`, binary.hpp:438-445. -/
def mkConstLike {σ : Type} (b : Build) (d : Dim) (a : Acc σ α) (s : σ) (x : α) : Res (Acc σ α) :=
  match d with
  | .one => mkConst1D b (a.rows s) x
  | .two => mkConst2D b (a.rows s) (a.cols s) x

/-- `generate(A1, A2, f)`: the constructor of `BinaryExprBase`, types.hpp:114-120. -/
def mkBinary {σ : Type} (b : Build) (d : Dim) (f : α → α → Res α) (a1 a2 : Acc σ α) (s : σ) :
    Res (Acc σ α) := do
  assertDebug b (Acc.sameSize d a1 a2 s)
  pure (.binary f a1 a2)

/-- `SequenceExpr1D`, types.hpp:196-215. -/
def mkSequence {σ : Type} (b : Build) (ar : Arith α) (n : Int) (start incr : α) :
    Res (Acc σ α) := do
  assertDebug b (decide (n > -1))
  pure (.oneD (fun _ => n) (fun _ i => do
    let c ← ar.ofIndex i
    let p ← ar.mul incr c
    ar.add start p))

/-- `irange(n)` followed by `generate`: the size check of `SequenceExpr1D`, types.hpp:203. -/
def mkGen1 {σ : Type} (b : Build) (n : Int) (op : σ → Int → Res α) : Res (Acc σ α) := do
  assertDebug b (decide (n > -1))
  pure (.gen1 n op)

/-- `irange2D(m, n)` followed by `generate`: the checks of `IndexExpr2D`, types.hpp:233-234. -/
def mkGen2 {σ : Type} (b : Build) (m n : Int) (op : σ → Int → Res α) : Res (Acc σ α) := do
  assertDebug b (decide (m > -1))
  assertDebug b (decide (n > -1))
  pure (.gen2 b m n op)

/-- `exclude(A, pos, count)`, special.hpp:394-403. -/
def mkExclude {σ : Type} (b : Build) (a : Acc σ α) (s : σ) (pos count : Int) : Res (Acc σ α) := do
  assertDebug b (decide (count > 0))
  assertDebug b (validIndex (a.rows s) pos)
  assertDebugM b (do
    let e ← iadd pos count
    let e ← isub e 1
    pure (validIndex (a.rows s) e))
  let n ← isub (a.rows s) count
  mkGen1 b n (a.excludeOp pos count)

/-- `merge_horizontal(A1, A2)`, special.hpp:351-362. -/
def mkMergeH {σ : Type} (b : Build) (a1 a2 : Acc σ α) (s : σ) : Res (Acc σ α) := do
  let e1 ← a1.empty s
  let e2 ← a2.empty s
  if !e1 && !e2 then assertDebug b (a1.rows s == a2.rows s) else .ok ()
  let m := if !e1 then a1.rows s else a2.rows s
  let n ← iadd (a1.cols s) (a2.cols s)
  mkGen2 b m n (Acc.horizontalOp b a1 a2)

/-- `merge_vertical(A1, A2)`, special.hpp:379-390. -/
def mkMergeV {σ : Type} (b : Build) (a1 a2 : Acc σ α) (s : σ) : Res (Acc σ α) := do
  let e1 ← a1.empty s
  let e2 ← a2.empty s
  if !e1 && !e2 then assertDebug b (a1.cols s == a2.cols s) else .ok ()
  let n := if !e1 then a1.cols s else a2.cols s
  let m ← iadd (a1.rows s) (a2.rows s)
  mkGen2 b m n (Acc.verticalOp a1 a2)

/-- `ReduceExpr`, types.hpp:271-308: `op_` is applied to `row(i)` or `col(i)`, which are constructed
on every access.  `op_` is any operation that reads elements of the given object in its range. -/
def reduceAcc {σ : Type} (b : Build) (rowwise : Bool) (op : Acc σ α → σ → Res α) (a : Acc σ α) :
    Acc σ α :=
  Acc.oneD (if rowwise then a.rows else a.cols) (fun s i => do
    let r ← (if rowwise then View.mkRow b a s (.at i) else View.mkCol b a s (.at i))
    op r s)

/-- All elements of a one-dimensional object, in order.
Objects of Expr/types.hpp:29-427, slicearray_base1D.hpp:24-201, slicearray_base2D.hpp:18-271 over arrays. -/
def elems {σ : Type} (a : Acc σ α) (s : σ) : List (Res α) :=
  (List.range (a.rows s).toNat).map (fun k : Nat => a.un s k)

/-- The local function `dot` of `matvec_prod`, binary.hpp:715-728: checked element access. -/
def dotOp {σ : Type} (b : Build) (ar : Arith α) (x1 x2 : Acc σ α) (s : σ) : Res α :=
  foldN (x1.rows s).toNat (fun i acc => do
    let u ← x1.sub b s i
    let v ← x2.sub b s i
    let p ← ar.mul u v
    ar.add acc p) ar.zero

/-- Executing the program text of an expression in state `s`.
Objects of Expr/types.hpp:29-427, slicearray_base1D.hpp:24-201, slicearray_base2D.hpp:18-271 over arrays. -/
def build (b : Build) (s : Store α) : Tm α d → Res (Acc (Store α) α)
  | .lv l => do
      let a ← l.build b s
      pure (a.deref Store.read)
  | .view v t => do
      let a ← t.build b s
      v.mk b a s
  | .unary f t => do
      let a ← t.build b s
      pure (a.unary f)
  | .binary f t1 t2 => do
      let a1 ← t1.build b s
      let a2 ← t2.build b s
      mkBinary b d f a1 a2 s
  | .scalarL f x t => do                                          -- binary.hpp:557-633
      let a ← t.build b s
      let c ← mkConstLike b d a s x
      mkBinary b d f c a s
  | .scalarR f t x => do                                          -- binary.hpp:636-712
      let a ← t.build b s
      let c ← mkConstLike b d a s x
      mkBinary b d f a c s
  | .sequence ar n start incr => mkSequence b ar n start incr     -- special.hpp:419-428
  | .linspace ar n start stop => do                               -- special.hpp:432-444
      assertDebug b (decide (n > 0))
      let diff ← ar.sub stop start
      let m ← isub n 1
      let c ← ar.ofIndex m
      let incr ← ar.div diff c
      mkSequence b ar n start incr
  | .eUnit ar k n => do                                           -- special.hpp:489-495
      assertDebug b (decide (k > -1))
      assertDebug b (decide (n > k))
      mkGen1 b n (fun _ i => .ok (if i = k then ar.one else ar.zero))
  | .const1D n x => mkConst1D b n x
  | .const2D m n x => mkConst2D b m n x
  | .identity ar n => do                                          -- special.hpp:504-510
      assertDebug b (decide (n > -1))
      assertDebug b (decide (n > -1))
      assertDebug b (decide (n > -1))
      pure (.twoD b (fun _ => n) (fun _ => n) (fun _ i j => .ok (if i = j then ar.one else ar.zero)))
  | .merge t1 t2 => do                                            -- special.hpp:297-303
      let a1 ← t1.build b s
      let a2 ← t2.build b s
      let n ← iadd (a1.rows s) (a2.rows s)
      mkGen1 b n (Acc.mergeOp a1 a2)
  | .append t x => do                                             -- special.hpp:312-317
      let a ← t.build b s
      let n ← iadd (a.rows s) 1
      mkGen1 b n (a.appendOp x)
  | .prepend x t => do                                            -- special.hpp:328-333
      let a ← t.build b s
      let n ← iadd (a.rows s) 1
      mkGen1 b n (Acc.prependOp x a)
  | .exclude t pos count => do
      let a ← t.build b s
      mkExclude b a s pos count
  | .excludeLast t _ => do                                        -- special.hpp:412-415
      let a ← t.build b s
      let p ← isub (a.rows s) 1
      mkExclude b a s p 1
  | .reduce rowwise g t => do                                     -- special.hpp:550-561
      let a ← t.build b s
      pure (reduceAcc b rowwise (fun r s => g (elems r s)) a)
  | .matvec ar t x => do                                          -- binary.hpp:715-728
      let a ← t.build b s
      let v ← x.build b s
      assertDebug b (a.cols s == v.rows s)
      pure (reduceAcc b true (fun r s => dotOp b ar r v s) a)
  | .bcast rowwise t => do                                        -- special.hpp:564-575
      let a ← t.build b s
      pure (a.bcast b rowwise)
  | .tensor ar t1 t2 => do                                        -- binary.hpp:731-735
      let a1 ← t1.build b s
      let a2 ← t2.build b s
      pure (Acc.tensor b ar.mul a1 a2)
  | .transpose t => do                                            -- special.hpp:513-518
      let a ← t.build b s
      assertDebug b (decide (a.cols s > -1))
      assertDebug b (decide (a.rows s > -1))
      pure (a.transpose b (a.cols s) (a.rows s))
  | .mergeH t1 t2 => do
      let a1 ← t1.build b s
      let a2 ← t2.build b s
      mkMergeH b a1 a2 s
  | .mergeV t1 t2 => do
      let a1 ← t1.build b s
      let a2 ← t2.build b s
      mkMergeV b a1 a2 s

end Tm

end Spp
