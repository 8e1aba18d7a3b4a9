import Verif.Model.Array2D
import Verif.Spec.Array1D

/- Two-dimensional arrays as matrices. -/

namespace Spp.Spec

/-- A matrix with `m` rows and `n` columns; `el i j` is the element in row `i`, column `j` (only
positions below `m` and `n` matter). -/
structure Mat (α : Type) where
  m : Nat
  n : Nat
  el : Nat → Nat → α

/-- The array `a` is the matrix `M`: same dimensions, `m*n` stored elements, no rows exactly when
there are no columns, and the stored elements are those of the matrix in row-major order. -/
structure IsMat {α : Type} (a : Arr2 α) (M : Mat α) : Prop where
  rows : a.rows = M.m
  cols : a.cols = M.n
  size : a.data.length = M.m * M.n
  zero : M.m = 0 ↔ M.n = 0
  el : ∀ i j, i < M.m → j < M.n → a.data[i * M.n + j]? = some (M.el i j)

/-- The shape invariant alone. -/
structure Shape {α : Type} (a : Arr2 α) : Prop where
  rows : 0 ≤ a.rows
  cols : 0 ≤ a.cols
  size : (a.data.length : Int) = a.rows * a.cols
  zero : a.rows = 0 ↔ a.cols = 0

/-- The operand, read while the modified array holds `s`, is the matrix `M`, with both linear and
two-index access. -/
structure Denotes2 {σ α : Type} (src : Src2 σ α) (s : σ) (M : Mat α) : Prop where
  rows : src.rows = M.m
  cols : src.cols = M.n
  zero : M.m = 0 ↔ M.n = 0
  un2 : ∀ i j : Nat, i < M.m → j < M.n → src.un2 s i j = .ok (M.el i j)
  un : ∀ i j : Nat, i < M.m → j < M.n → src.un s (i * M.n + j : Nat) = .ok (M.el i j)

namespace Mat

variable {α : Type}

/-- All elements equal. -/
def const (m n : Nat) (x : α) : Mat α := ⟨m, n, fun _ _ => x⟩

/-- Rows `pos .. pos+count-1` deleted; a matrix without rows has no columns either. -/
def removeRows (M : Mat α) (pos count : Nat) : Mat α :=
  ⟨M.m - count, if M.m - count = 0 then 0 else M.n,
   fun i j => M.el (if i < pos then i else i + count) j⟩

/-- Columns `pos .. pos+count-1` deleted. -/
def removeCols (M : Mat α) (pos count : Nat) : Mat α :=
  ⟨if M.n - count = 0 then 0 else M.m, M.n - count,
   fun i j => M.el i (if j < pos then j else j + count)⟩

/-- The rows whose numbers are not in `idx`, in order. -/
def removeRowsAt [Inhabited α] (M : Mat α) (idx : List Int) : Mat α :=
  let keep := (List.range M.m).filter (fun k : Nat => (k : Int) ∉ idx)
  ⟨keep.length, if keep.length = 0 then 0 else M.n, fun i j => M.el (keep.getD i 0) j⟩

/-- The columns whose numbers are not in `idx`, in order. -/
def removeColsAt [Inhabited α] (M : Mat α) (idx : List Int) : Mat α :=
  let keep := (List.range M.n).filter (fun k : Nat => (k : Int) ∉ idx)
  ⟨if keep.length = 0 then 0 else M.m, keep.length, fun i j => M.el i (keep.getD j 0)⟩

/-- The rows of `N` put in so that they start at row `pos`. -/
def insertRows (M N : Mat α) (pos : Nat) : Mat α :=
  ⟨M.m + N.m, M.n, fun i j =>
    if i < pos then M.el i j else if i < pos + N.m then N.el (i - pos) j else M.el (i - N.m) j⟩

/-- The columns of `N` put in so that they start at column `pos`. -/
def insertCols (M N : Mat α) (pos : Nat) : Mat α :=
  ⟨M.m, M.n + N.n, fun i j =>
    if j < pos then M.el i j else if j < pos + N.n then N.el i (j - pos) else M.el i (j - N.n)⟩

/-- A list as a matrix with one row. -/
def ofRow [Inhabited α] (xs : List α) : Mat α := ⟨1, xs.length, fun _ j => xs.getD j default⟩

/-- A list as a matrix with one column. -/
def ofCol [Inhabited α] (xs : List α) : Mat α := ⟨xs.length, 1, fun i _ => xs.getD i default⟩

/-- Same top-left corner, zero elsewhere. -/
def resized [Inhabited α] (M : Mat α) (m n : Nat) : Mat α :=
  ⟨m, n, fun i j => if i < M.m ∧ j < M.n then M.el i j else default⟩

/-- The same elements in row-major order, laid out with `n` columns. -/
def reshaped (M : Mat α) (m n : Nat) : Mat α :=
  ⟨m, n, fun i j => M.el ((i * n + j) / M.n) ((i * n + j) % M.n)⟩

/-- Nested lists as a matrix. -/
def ofLists [Inhabited α] (L : List (List α)) : Mat α :=
  ⟨L.length, (L.getD 0 []).length, fun i j => (L.getD i []).getD j default⟩

/-- The same matrix. -/
def Same (M N : Mat α) : Prop :=
  M.m = N.m ∧ M.n = N.n ∧ ∀ i j, i < M.m → j < M.n → M.el i j = N.el i j

end Mat

end Spp.Spec
