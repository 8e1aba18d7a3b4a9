import Verif.Model.Array2D
import Verif.Model.Heap
import Verif.Model.Overload

/-
The bridge to the Eigen library: strictpp/Eigen/map.hpp and strictpp/Eigen/matrix_ops.hpp.

Eigen itself is not modelled beyond its documented interface: a `Map` of a `RowMajor` matrix type has no
elements of its own, its coefficient (i, j) is the element `i * cols + j` after the pointer; a product of
matrices that is assigned to a matrix is first evaluated into a temporary; `eigen_assert` is `assert`.  How Eigen
adds up the products of one coefficient is a parameter (`dot`): a partial function of the list of factors, undefined
where the built-in arithmetic overflows.
-/

namespace Spp

/-- `Eigen::AlignmentType`: its values are numbers of bytes.
The Eigen library, as Eigen/map.hpp:20-78 and Eigen/matrix_ops.hpp:15-33 use it. -/
inductive EigenAlignment where
  | unaligned
  | aligned8
  | aligned16
  | aligned32
  | aligned64
  | aligned128
  deriving DecidableEq, Repr

/-- The value of the enumerator in Eigen: the number of bytes of which the pointer is promised to be a multiple.
The Eigen library, as Eigen/map.hpp:20-78 and Eigen/matrix_ops.hpp:15-33 use it. -/
def EigenAlignment.bytes : EigenAlignment → Nat
  | .unaligned => 0
  | .aligned8 => 8
  | .aligned16 => 16
  | .aligned32 => 32
  | .aligned64 => 64
  | .aligned128 => 128

/-- `eigen_align`, Eigen/map.hpp:20-40. -/
def eigenAlign (align : Nat) : EigenAlignment :=
  if align = 0 then .unaligned
  else if align = 8 then .aligned8
  else if align = 16 then .aligned16
  else if align = 32 then .aligned32
  else if align = 64 then .aligned64
  else if align = 128 then .aligned128
  else .unaligned

/-- An `Eigen::Map`: constness and alignment are part of its type.
The Eigen library, as Eigen/map.hpp:20-78 and Eigen/matrix_ops.hpp:15-33 use it. -/
structure EigenMap where
  const : Bool
  align : EigenAlignment
  ptr : Option Nat
  rows : Int
  cols : Int
  deriving DecidableEq, Repr

/-- `map(A)`, Eigen/map.hpp:58-78, with `CopyConstTo`, 43-52; `const` tells whether `A` is a const array.  For fixed-size
arrays (65-70) rows and columns are part of the type instead of arguments; they are the same numbers. -/
def eigenMap (const : Bool) (af : AlignmentFlag) (blasData : Option Nat) (rows cols : Int) : EigenMap :=
  ⟨const, eigenAlign (alignmentOf af), blasData, rows, cols⟩

/-- The address of the coefficient (i, j) of a row-major map over elements of `size` bytes (Eigen).
The Eigen library, as Eigen/map.hpp:20-78 and Eigen/matrix_ops.hpp:15-33 use it. -/
def EigenMap.address (M : EigenMap) (size : Nat) (i j : Int) : Option Int :=
  M.ptr.map fun p => p + (i * M.cols + j) * size

variable {α : Type} [Inhabited α]

/-- The factors of the coefficient (i, j) of a product: row `i` of `A` and column `j` of `B` (Eigen).
The Eigen library, as Eigen/map.hpp:20-78 and Eigen/matrix_ops.hpp:15-33 use it. -/
def eigenFactors (A B : Arr2 α) (i j : Int) : Res (List (α × α)) :=
  foldN A.cols.toNat (fun k l => do
    let x ← Arr2.rd2 A i k
    let y ← Arr2.rd2 B k j
    pure (l ++ [(x, y)])) []

/-- One coefficient of a product (Eigen); `none` is undefined behaviour of the built-in arithmetic.
The Eigen library, as Eigen/map.hpp:20-78 and Eigen/matrix_ops.hpp:15-33 use it. -/
def eigenCoeff (dot : List (α × α) → Option α) (A B : Arr2 α) (i j : Int) : Res α := do
  let l ← eigenFactors A B i j
  match dot l with
  | some v => pure v
  | none => .ub

/-- `eigen_assert(c)`: `assert`, so it is compiled out by `NDEBUG`; what Eigen then does with matrices of wrong sizes is
undefined. The Eigen library, as Eigen/map.hpp:20-78 and Eigen/matrix_ops.hpp:15-33 use it. -/
def eigenAssert (b : Build) (c : Bool) : Res Unit :=
  if c then .ok () else if b.ndebug then .ub else .trap .abort

/-- `CE = AE * BE`, Eigen/matrix_ops.hpp:23: the sizes are asserted, the product is evaluated into a temporary, then the
coefficients are assigned one by one. -/
def eigenAssignProduct (b : Build) (dot : List (α × α) → Option α) (A B C : Arr2 α) : Res (Arr2 α) := do
  eigenAssert b (A.cols == B.rows)
  let t ← foldN A.rows.toNat (fun i t => foldN B.cols.toNat (fun j t => do
    let v ← eigenCoeff dot A B i j
    Arr2.wr2 t i j v) t) ⟨A.rows, B.cols, List.replicate (A.rows * B.cols).toNat default⟩
  eigenAssert b (C.rows == A.rows && C.cols == B.cols)
  foldN A.rows.toNat (fun i c => foldN B.cols.toNat (fun j c => do
    let v ← Arr2.rd2 t i j
    Arr2.wr2 c i j v) c) C

/-- The body of `matrix_prod(A, B, C)`, Eigen/matrix_ops.hpp:15-24, on the values of the arrays (the assignment reads
`A` and `B` completely before it writes). -/
def matrixProdInto (b : Build) (dot : List (α × α) → Option α) (A B C : Arr2 α) : Res (Arr2 α) := do
  assertDebug b (A.cols == B.rows)
  assertDebug b (C.rows == A.rows)
  assertDebug b (C.cols == B.cols)
  eigenAssignProduct b dot A B C

/-- `matrix_prod(Ai, Aj, Ak)` on variables, any of which may be the same, Eigen/matrix_ops.hpp:15-24. -/
def matrixProd (b : Build) (dot : List (α × α) → Option α) (i j k : Nat) : Op (Vars2 α) Unit := do
  let s : Vars2 α ← Op.get
  let c ← Op.lift (matrixProdInto b dot (s i) (s j) (s k))
  Op.set (s.put k c)

/-- `matrix_prod(A, B)`, Eigen/matrix_ops.hpp:27-33. -/
def matrixProdNew (b : Build) (dot : List (α × α) → Option α) (A B : Arr2 α) : Res (Arr2 α) := do
  assertDebug b (A.cols == B.rows)
  let C ← Arr2.make b A.rows B.cols
  matrixProdInto b dot A B C

/-- The overload set of `map`, Eigen/map.hpp:58-60: one function with a forwarding reference to an array that owns its
elements, `TwoDimOwnerType`, array_traits.hpp:260; inside `map` the parameter has a name, so that the overloads of
`blas_data` deleted for temporaries are not chosen. -/
def eigenMapSet : List Cpp.Cand :=
  [⟨[.fwd], Cpp.on1 (fun t => t.noRef.dimBase .two && t.owner), false, 0⟩]

end Spp
