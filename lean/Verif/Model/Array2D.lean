import Verif.Model.Array1D

/-
Owning two-dimensional arrays: strictpp/array_base2D.hpp, the two-dimensional copy loops of
strictpp/ArrayCommon/algorithm.hpp and the list checks of strictpp/ArrayCommon/valid.hpp:50-89.

As in Model/Array1D.lean, loop indices are plain integers (an index that overflowed `index_t` would
also lie outside every buffer), while sizes and conditions use `index_t` arithmetic.
-/

namespace Spp

/-- An `ArrayBase2D` object: `dims_` and `data1D_`, array_base2D.hpp:148-149. -/
structure Arr2 (α : Type) where
  rows : Int
  cols : Int
  data : List α
  deriving DecidableEq, Repr

/-- A readable two-dimensional operand: `rows()`, `cols()`, linear access `un(i)` and two-index
access `un(i, j)`.  The elements may depend on the current contents `σ` of the array being modified.
`array` tells whether the operand is an owning/fixed array, which selects the overload of `copy`
(algorithm.hpp:69-74 instead of 77-84). -/
structure Src2 (σ : Type) (α : Type) where
  rows : Int
  cols : Int
  un : σ → Int → Res α
  un2 : σ → Int → Int → Res α
  array : Bool

namespace Arr2

variable {α : Type} [Inhabited α]

/-- The default constructed array, array_base2D.hpp:35. -/
def empty : Arr2 α := ⟨0, 0, []⟩

/-- `un(i, j)`, array_base2D.hpp:682-692. -/
def rd2 (a : Arr2 α) (i j : Int) : Res α := rd a.data (i * a.cols + j)

/-- `un(i, j) = x`, array_base2D.hpp:682-686. -/
def wr2 (a : Arr2 α) (i j : Int) (x : α) : Res (Arr2 α) := do
  let d ← wr a.data (i * a.cols + j) x
  pure { a with data := d }

/-- `un(i) = x`, array_base2D.hpp:668-671. -/
def wr1 (a : Arr2 α) (i : Int) (x : α) : Res (Arr2 α) := do
  let d ← wr a.data i x
  pure { a with data := d }

/-- An operand that is another two-dimensional array. A program that uses the classes of array_base2D.hpp:28-150. -/
def toSrc {σ : Type} (a : Arr2 α) : Src2 σ α :=
  ⟨a.rows, a.cols, fun _ i => rd a.data i, fun _ i j => rd2 a i j, true⟩

/-- `copy_rows(A1, A2, n)`, algorithm.hpp:105-113; `cols` is `A1.cols()`. -/
def copyRows0 (cols : Int) (src : Int → Int → Res α) (dst : Arr2 α) (n : Int) : Res (Arr2 α) :=
  foldN n.toNat (fun i t => foldN cols.toNat (fun j t => do
    let v ← src i j
    wr2 t i j v) t) dst

/-- `copy_rows(A1, A2, start1, start2, n)`, algorithm.hpp:116-124. -/
def copyRows (cols : Int) (src : Int → Int → Res α) (dst : Arr2 α) (start1 start2 n : Int) :
    Res (Arr2 α) :=
  foldN n.toNat (fun i t => foldN cols.toNat (fun j t => do
    let v ← src (i + start1) j
    wr2 t (i + start2) j v) t) dst

/-- `copy_cols(A1, A2, n)`, algorithm.hpp:127-135; `rows` is `A1.rows()`. -/
def copyCols0 (rows : Int) (src : Int → Int → Res α) (dst : Arr2 α) (n : Int) : Res (Arr2 α) :=
  foldN rows.toNat (fun i t => foldN n.toNat (fun j t => do
    let v ← src i j
    wr2 t i j v) t) dst

/-- `copy_cols(A1, A2, start1, start2, n)`, algorithm.hpp:138-146. -/
def copyCols (rows : Int) (src : Int → Int → Res α) (dst : Arr2 α) (start1 start2 n : Int) :
    Res (Arr2 α) :=
  foldN rows.toNat (fun i t => foldN n.toNat (fun j t => do
    let v ← src i (j + start1)
    wr2 t i (j + start2) v) t) dst

/-- `ArrayBase2D(m, n)`, array_base2D.hpp:153-160: the member initialisers run first. -/
def make (b : Build) (m n : Int) : Res (Arr2 α) := do
  let p ← imul m n
  let d ← Arr1.make b p
  assertDebug b (decide (m ≥ 0))
  assertDebug b (decide (n ≥ 0))
  assertDebug b (semiValid m n)
  pure ⟨m, n, d⟩

/-- `copy(A1, A2)` for two arrays, algorithm.hpp:69-74: linear. -/
def copyLinear (size : Int) (un : Arr2 α → Int → Res α) : Op (Arr2 α) Unit :=
  Op.forN size.toNat (fun i => do
    let a : Arr2 α ← Op.get
    let v ← Op.lift (un a i)
    let a' ← Op.lift (wr1 a i v)
    Op.set a')

/-- `copy(A1, A2)` in the general case, algorithm.hpp:77-84. -/
def copyTwoIndex (rows cols : Int) (un2 : Arr2 α → Int → Int → Res α) : Op (Arr2 α) Unit :=
  Op.forN rows.toNat (fun i => Op.forN cols.toNat (fun j => do
    let a : Arr2 α ← Op.get
    let v ← Op.lift (un2 a i j)
    let a' ← Op.lift (wr2 a i j v)
    Op.set a'))

/-- `copy(A1, A2)`: overload resolution between the two.  For arrays `A1.size()` is the number of
stored elements, which is `rows*cols` (Spec `Shape`). A program that uses the classes of array_base2D.hpp:28-150. -/
def copy (src : Src2 (Arr2 α) α) : Op (Arr2 α) Unit :=
  if src.array then copyLinear (src.rows * src.cols) src.un else copyTwoIndex src.rows src.cols src.un2

/-- `data1D_ = x`, array_base2D.hpp:199-202 (`operator=(value_type)`). -/
def assignValue (x : α) : Op (Arr2 α) Unit := do
  let a : Arr2 α ← Op.get
  Op.set { a with data := (Arr1.fill x a.data).2 }
  Op.lift (Arr1.fill x a.data).1

/-- `ArrayBase2D(m, n, x)`, array_base2D.hpp:169-174. -/
def makeFill (b : Build) (m n : Int) (x : α) : Res (Arr2 α) := do
  let a ← make b m n
  (assignValue x a).1
  pure (assignValue x a).2

/-- Constructor from an expression, array_base2D.hpp:191-195, and copy constructor (defaulted, 43:
member-wise, which gives the same elements). -/
def makeFrom (b : Build) (src : Src2 (Arr2 α) α) : Res (Arr2 α) := do
  let a ← make b src.rows src.cols
  (copy src a).1
  pure (copy src a).2

/-- `list2D_row_col_sizes`, valid.hpp:76-89. -/
def listSizes (L : List (List α)) : Int × Int :=
  match L with
  | [] => (0, 0)
  | r :: rs => if rs.length = 0 ∧ r.length = 0 then (0, 0) else ((rs.length : Int) + 1, r.length)

/-- `valid_list2D`, valid.hpp:50-72. -/
def validList (L : List (List α)) : Bool :=
  match L with
  | [] => true
  | r :: rs =>
    if rs.length = 0 ∧ r.length = 0 then true
    else if r.length = 0 then false
    else (r :: rs).all (fun row => row.length == r.length)

/-- `copy(list, A)`, algorithm.hpp:48-58: rows and columns of the list in order. -/
def copyList (L : List (List α)) (a : Arr2 α) : Res (Arr2 α) :=
  foldN L.length (fun i t =>
    foldN (L.getD i []).length (fun j t => do
      let v ← rd (L.getD i []) j
      wr2 t i j v) t) a

/-- Constructor from nested lists, array_base2D.hpp:183-188. -/
def makeList (b : Build) (L : List (List α)) : Res (Arr2 α) := do
  let a ← make b (listSizes L).1 (listSizes L).2
  assertDebug b (validList L)
  copyList L a

/-- `operator=(expression)`, array_base2D.hpp:230-234. -/
def assign (b : Build) (src : Src2 (Arr2 α) α) : Op (Arr2 α) Unit := do
  let a : Arr2 α ← Op.get
  Op.lift (assertDebug b (a.rows == src.rows && a.cols == src.cols))
  copy src

/-- `operator=(list)`, array_base2D.hpp:205-209: a temporary is built, then moved in.  In builds
without the check the dimensions are those of the array, the elements those of the list. -/
def assignList (b : Build) (L : List (List α)) : Op (Arr2 α) Unit := do
  let tmp ← Op.lift (makeList b L)
  let a : Arr2 α ← Op.get
  Op.lift (assertDebug b (a.rows == tmp.rows && a.cols == tmp.cols))
  Op.lift (assertNormal b (a.rows == tmp.rows && a.cols == tmp.cols))
  Op.lift (assertNormal b (len a.data == len tmp.data))
  Op.set { a with data := tmp.data }

/-- `resize(m, n, preserve)`, array_base2D.hpp:251-283. -/
def resize (b : Build) (m n : Int) (preserve : Bool) : Op (Arr2 α) Unit := do
  Op.lift (assertDebug b (decide (m ≥ 0)))
  Op.lift (assertDebug b (decide (n ≥ 0)))
  Op.lift (assertDebug b (semiValid m n))
  let a : Arr2 α ← Op.get
  if ¬ (m = a.rows ∧ n = a.cols) then
    (if preserve then do
      let tmp ← Op.lift (make b m n)
      let tmp ← Op.lift (foldN (min a.rows m).toNat (fun i t =>
        foldN (min a.cols n).toNat (fun j t => do
          let v ← rd2 a i j
          wr2 t i j v) t) tmp)
      Op.set tmp
    else do
      let p ← Op.lift (imul m n)
      let q ← Op.lift (imul a.rows a.cols)
      if p ≠ q then do
        let tmp ← Op.lift (make b m n)
        Op.set tmp
      else Op.set { a with rows := m, cols := n })
  else pure ()

/-- `resize_and_assign(A)`, array_base2D.hpp:287-291. -/
def resizeAndAssign (b : Build) (src : Src2 (Arr2 α) α) : Op (Arr2 α) Unit := do
  let a : Arr2 α ← Op.get
  let tmp ← Op.lift (makeFrom b { src with un := fun _ => src.un a, un2 := fun _ => src.un2 a })
  Op.set tmp

/-- `remove_rows(pos, count)`, array_base2D.hpp:304-319. -/
def removeRows (b : Build) (pos count : Int) : Op (Arr2 α) Unit := do
  Op.lift (assertDebug b (decide (count > 0)))
  let a : Arr2 α ← Op.get
  Op.lift (assertDebug b (validIndex a.rows pos))
  Op.lift (assertDebugM b (do
    let e ← iadd pos count
    let e ← isub e 1
    pure (validIndex a.rows e)))
  let m ← Op.lift (isub a.rows count)
  let tmp ← Op.lift (make b m (if m = 0 then 0 else a.cols))
  let tmp ← Op.lift (copyRows0 a.cols (rd2 a) tmp pos)
  let tmp ← Op.lift (copyRows a.cols (rd2 a) tmp (pos + count) pos (a.rows - pos - count))
  Op.set tmp

/-- `remove_cols(pos, count)`, array_base2D.hpp:329-344. -/
def removeCols (b : Build) (pos count : Int) : Op (Arr2 α) Unit := do
  Op.lift (assertDebug b (decide (count > 0)))
  let a : Arr2 α ← Op.get
  Op.lift (assertDebug b (validIndex a.cols pos))
  Op.lift (assertDebugM b (do
    let e ← iadd pos count
    let e ← isub e 1
    pure (validIndex a.cols e)))
  let n ← Op.lift (isub a.cols count)
  let tmp ← Op.lift (make b (if n = 0 then 0 else a.rows) n)
  let tmp ← Op.lift (copyCols0 a.rows (rd2 a) tmp pos)
  let tmp ← Op.lift (copyCols a.rows (rd2 a) tmp (pos + count) pos (a.cols - pos - count))
  Op.set tmp

/-- `remove_row(pos)`, array_base2D.hpp:354-357. -/
def removeRow (b : Build) (pos : Int) : Op (Arr2 α) Unit := removeRows b pos 1

/-- `remove_row(last - k)`, array_base2D.hpp:366-369: the argument is not used. -/
def removeRowLast (b : Build) (_k : Int) : Op (Arr2 α) Unit := do
  let a : Arr2 α ← Op.get
  let p ← Op.lift (isub a.rows 1)
  removeRow b p

/-- `remove_col(pos)`, array_base2D.hpp:372-375. -/
def removeCol (b : Build) (pos : Int) : Op (Arr2 α) Unit := removeCols b pos 1

/-- `remove_col(last - k)`, array_base2D.hpp:384-387: the argument is not used. -/
def removeColLast (b : Build) (_k : Int) : Op (Arr2 α) Unit := do
  let a : Arr2 α ← Op.get
  let p ← Op.lift (isub a.cols 1)
  removeCol b p

/-- `remove_rows_front(count)`, array_base2D.hpp:390-393. -/
def removeRowsFront (b : Build) (count : Int) : Op (Arr2 α) Unit := removeRows b 0 count

/-- `remove_rows_back(count)`, array_base2D.hpp:402-405. -/
def removeRowsBack (b : Build) (count : Int) : Op (Arr2 α) Unit := do
  let a : Arr2 α ← Op.get
  let p ← Op.lift (isub a.rows count)
  removeRows b p count

/-- `remove_cols_front(count)`, array_base2D.hpp:414-417. -/
def removeColsFront (b : Build) (count : Int) : Op (Arr2 α) Unit := removeCols b 0 count

/-- `remove_cols_back(count)`, array_base2D.hpp:426-429. -/
def removeColsBack (b : Build) (count : Int) : Op (Arr2 α) Unit := do
  let a : Arr2 α ← Op.get
  let p ← Op.lift (isub a.cols count)
  removeCols b p count

/-- `remove_rows(indices)`, array_base2D.hpp:438-454. -/
def removeRowsVec (b : Build) (idx : List Int) : Op (Arr2 α) Unit := do
  if idx.isEmpty then pure ()
  else do
    let a : Arr2 α ← Op.get
    let ci ← Op.lift (complementVec b a.rows idx)
    let tmp ← Op.lift (make b (len ci) (if len ci = 0 then 0 else a.cols))
    let tmp ← Op.lift (foldN tmp.rows.toNat (fun i t => foldN tmp.cols.toNat (fun j t => do
      let k ← rd ci i
      let v ← rd2 a k j
      wr2 t i j v) t) tmp)
    Op.set tmp

/-- `remove_cols(indices)`, array_base2D.hpp:458-474. -/
def removeColsVec (b : Build) (idx : List Int) : Op (Arr2 α) Unit := do
  if idx.isEmpty then pure ()
  else do
    let a : Arr2 α ← Op.get
    let ci ← Op.lift (complementVec b a.cols idx)
    let tmp ← Op.lift (make b (if len ci = 0 then 0 else a.rows) (len ci))
    let tmp ← Op.lift (foldN tmp.rows.toNat (fun i t => foldN tmp.cols.toNat (fun j t => do
      let k ← rd ci j
      let v ← rd2 a i k
      wr2 t i j v) t) tmp)
    Op.set tmp

/-- `insert_rows(pos, A)`, array_base2D.hpp:479-494. -/
def insertRows (b : Build) (pos : Int) (src : Src2 (Arr2 α) α) : Op (Arr2 α) Unit := do
  let a : Arr2 α ← Op.get
  Op.lift (assertDebug b (decide (pos ≥ 0) && decide (pos ≤ a.rows)))
  if a.rows = 0 ∧ a.cols = 0 then resizeAndAssign b src
  else do
    Op.lift (assertDebug b (src.cols == a.cols))
    let m ← Op.lift (iadd a.rows src.rows)
    let tmp ← Op.lift (make b m a.cols)
    let tmp ← Op.lift (copyRows0 a.cols (rd2 a) tmp pos)
    let tmp ← Op.lift (copyRows src.cols (src.un2 a) tmp 0 pos src.rows)
    let tmp ← Op.lift (copyRows a.cols (rd2 a) tmp pos (pos + src.rows) (a.rows - pos))
    Op.set tmp

/-- `insert_rows_front(A)`, array_base2D.hpp:504-506. -/
def insertRowsFront (b : Build) (src : Src2 (Arr2 α) α) : Op (Arr2 α) Unit := insertRows b 0 src

/-- `insert_rows_back(A)`, array_base2D.hpp:510-512. -/
def insertRowsBack (b : Build) (src : Src2 (Arr2 α) α) : Op (Arr2 α) Unit := do
  let a : Arr2 α ← Op.get
  insertRows b a.rows src

/-- `insert_cols(pos, A)`, array_base2D.hpp:516-531. -/
def insertCols (b : Build) (pos : Int) (src : Src2 (Arr2 α) α) : Op (Arr2 α) Unit := do
  let a : Arr2 α ← Op.get
  Op.lift (assertDebug b (decide (pos ≥ 0) && decide (pos ≤ a.cols)))
  if a.rows = 0 ∧ a.cols = 0 then resizeAndAssign b src
  else do
    Op.lift (assertDebug b (src.rows == a.rows))
    let n ← Op.lift (iadd a.cols src.cols)
    let tmp ← Op.lift (make b a.rows n)
    let tmp ← Op.lift (copyCols0 a.rows (rd2 a) tmp pos)
    let tmp ← Op.lift (copyCols src.rows (src.un2 a) tmp 0 pos src.cols)
    let tmp ← Op.lift (copyCols a.rows (rd2 a) tmp pos (pos + src.cols) (a.cols - pos))
    Op.set tmp

/-- `insert_cols_front(A)`, array_base2D.hpp:541-543. -/
def insertColsFront (b : Build) (src : Src2 (Arr2 α) α) : Op (Arr2 α) Unit := insertCols b 0 src

/-- `insert_cols_back(A)`, array_base2D.hpp:547-549. -/
def insertColsBack (b : Build) (src : Src2 (Arr2 α) α) : Op (Arr2 α) Unit := do
  let a : Arr2 α ← Op.get
  insertCols b a.cols src

/-- The loop of `insert_row`, array_base2D.hpp:566-577; the state is (count, tmp). -/
def insertRowLoop (a : Arr2 α) (pos size : Int) (un : Int → Res α) (tmp : Arr2 α) :
    Res (Nat × Arr2 α) :=
  foldN tmp.rows.toNat (fun i st =>
    if (i : Int) ≠ pos then do
      let t ← foldN size.toNat (fun j t => do
        let v ← rd2 a st.1 j
        wr2 t i j v) st.2
      pure (st.1 + 1, t)
    else do
      let t ← foldN size.toNat (fun j t => do
        let v ← un j
        wr2 t i j v) st.2
      pure (st.1, t)) (0, tmp)

/-- `insert_row(pos, A)`, array_base2D.hpp:553-581.  Into an empty array: `resize(1, A.size())` and
then `copyn(A, *this, A.size())` in place. -/
def insertRow (b : Build) (pos : Int) (src : Src (Arr2 α) α) : Op (Arr2 α) Unit := do
  let a : Arr2 α ← Op.get
  Op.lift (assertDebug b (decide (pos ≥ 0) && decide (pos ≤ a.rows)))
  if a.rows = 0 ∧ a.cols = 0 ∧ src.size ≠ 0 then do
    resize b 1 src.size true
    copyLinear src.size src.un
  else do
    Op.lift (assertDebug b (src.size == a.cols))
    let m ← Op.lift (iadd a.rows 1)
    let tmp ← Op.lift (make b m a.cols)
    let st ← Op.lift (insertRowLoop a pos src.size (src.un a) tmp)
    Op.set st.2

/-- `insert_row_front(A)`, array_base2D.hpp:591-593. -/
def insertRowFront (b : Build) (src : Src (Arr2 α) α) : Op (Arr2 α) Unit := insertRow b 0 src

/-- `insert_row_back(A)`, array_base2D.hpp:597-599. -/
def insertRowBack (b : Build) (src : Src (Arr2 α) α) : Op (Arr2 α) Unit := do
  let a : Arr2 α ← Op.get
  insertRow b a.rows src

/-- The loop of `insert_col`, array_base2D.hpp:616-624; `count` restarts in every row. -/
def insertColLoop (a : Arr2 α) (pos size : Int) (un : Int → Res α) (tmp : Arr2 α) :
    Res (Arr2 α) :=
  foldN size.toNat (fun i t => do
    let st ← foldN tmp.cols.toNat (fun j (st : Nat × Arr2 α) =>
      if (j : Int) ≠ pos then do
        let v ← rd2 a i st.1
        let t ← wr2 st.2 i j v
        pure (st.1 + 1, t)
      else do
        let v ← un i
        let t ← wr2 st.2 i j v
        pure (st.1, t)) (0, t)
    pure st.2) tmp

/-- `insert_col(pos, A)`, array_base2D.hpp:603-628. -/
def insertCol (b : Build) (pos : Int) (src : Src (Arr2 α) α) : Op (Arr2 α) Unit := do
  let a : Arr2 α ← Op.get
  Op.lift (assertDebug b (decide (pos ≥ 0) && decide (pos ≤ a.cols)))
  if a.rows = 0 ∧ a.cols = 0 ∧ src.size ≠ 0 then do
    resize b src.size 1 true
    copyLinear src.size src.un
  else do
    Op.lift (assertDebug b (src.size == a.rows))
    let n ← Op.lift (iadd a.cols 1)
    let tmp ← Op.lift (make b a.rows n)
    let t ← Op.lift (insertColLoop a pos src.size (src.un a) tmp)
    Op.set t

/-- `insert_col_front(A)`, array_base2D.hpp:638-640. -/
def insertColFront (b : Build) (src : Src (Arr2 α) α) : Op (Arr2 α) Unit := insertCol b 0 src

/-- `insert_col_back(A)`, array_base2D.hpp:644-646. -/
def insertColBack (b : Build) (src : Src (Arr2 α) α) : Op (Arr2 α) Unit := do
  let a : Arr2 α ← Op.get
  insertCol b a.cols src

end Arr2

/-! ### Several two-dimensional arrays -/

/-- Named two-dimensional arrays of a program. A program that uses the classes of array_base2D.hpp:28-150. -/
abbrev Vars2 (α : Type) := Nat → Arr2 α

namespace Vars2

variable {α : Type} [Inhabited α]

/-- Replace one array. A program that uses the classes of array_base2D.hpp:28-150. -/
def put (s : Vars2 α) (i : Nat) (a : Arr2 α) : Vars2 α := fun k => if k = i then a else s k

/-- Apply a member function to array `i`. A program that uses the classes of array_base2D.hpp:28-150. -/
def on (i : Nat) (op : Op (Arr2 α) Unit) : Op (Vars2 α) Unit := fun s =>
  ((op (s i)).1, s.put i (op (s i)).2)

/-- Copy assignment, array_base2D.hpp:213-217: the element copy is `ArrayBase1D`'s copy assignment
(array_base1D.hpp:231-238), which does nothing on self assignment; the dimensions are not copied. -/
def copyAssign (b : Build) (i j : Nat) : Op (Vars2 α) Unit := do
  let s : Vars2 α ← Op.get
  Op.lift (assertDebug b ((s i).rows == (s j).rows && (s i).cols == (s j).cols))
  if i ≠ j then
    on i (fun a => ((Arr1.assign b (Src.ofList (s j).data) a.data).1,
      { a with data := (Arr1.assign b (Src.ofList (s j).data) a.data).2 }))
  else pure ()

/-- Move assignment, array_base2D.hpp:221-226: `A.dims_ = 0` comes first and there is no guard
against self assignment; `data1D_ = std::move(A.data1D_)` is array_base1D.hpp:241-249, which has
one. -/
def moveAssign (b : Build) (i j : Nat) : Op (Vars2 α) Unit := do
  let s : Vars2 α ← Op.get
  Op.lift (assertNormal b ((s i).rows == (s j).rows && (s i).cols == (s j).cols))
  Op.set (s.put j { s j with rows := 0, cols := 0 })
  if i ≠ j then do
    let s : Vars2 α ← Op.get
    Op.lift (assertNormal b (len (s i).data == len (s j).data))
    Op.set ((s.put i { s i with data := (s j).data }).put j { s j with data := [] })
  else pure ()

/-- `swap`, array_base2D.hpp:237-241. -/
def swap (i j : Nat) : Op (Vars2 α) Unit := fun s =>
  (.ok (), fun k => if k = i then s j else if k = j then s i else s k)

/-- `Ai.resize_and_assign(std::move(Aj))`, array_base2D.hpp:295-299. -/
def resizeAndAssignMove (i j : Nat) : Op (Vars2 α) Unit := do
  swap i j
  let s : Vars2 α ← Op.get
  Op.set (s.put j Arr2.empty)

/-- Move construction of a new array `i` (defaulted, array_base2D.hpp:44): the move constructor of
the dimensions zeroes the source (fixed_array_base1D.hpp:121-125), that of the elements empties it
(array_base1D.hpp:202-206). -/
def moveConstruct (i j : Nat) : Op (Vars2 α) Unit := fun s =>
  (.ok (), (s.put i (s j)).put j Arr2.empty)

end Vars2

end Spp
