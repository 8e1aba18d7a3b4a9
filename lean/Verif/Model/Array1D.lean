import Verif.Model.Slice

/-
Owning one-dimensional arrays: strictpp/array_base1D.hpp, and the copy loops of
strictpp/ArrayCommon/algorithm.hpp.

An array is the list of its elements (`data_[0], ..., data_[n_-1]`).  Storage management is modelled
separately in Model/Heap.lean.  `default` stands for the value-initialised element (zero).
Indices inside loops are plain integers: a sum that overflowed `index_t` would also lie outside
every buffer, and both are undefined behaviour, so nothing is lost.  Sums in checks and in sizes use
`index_t` arithmetic.  Failing allocations (`std::bad_alloc`) are not modelled, except for negative
sizes, for which `new[]` throws.
-/

namespace Spp

/-- A readable one-dimensional operand: its size and its unchecked element access.  The elements may
depend on the current contents `σ` of the array being modified (aliasing).
A program that uses the classes of array_base1D.hpp:28-127. -/
structure Src (σ : Type) (α : Type) where
  size : Int
  un : σ → Int → Res α

/-- An operand that is another array (or list) with elements `l`.
A program that uses the classes of array_base1D.hpp:28-127. -/
def Src.ofList {σ α : Type} (l : List α) : Src σ α := ⟨l.length, fun _ i => rd l i⟩

/-- `copyn(A1, A2, n)`, algorithm.hpp:87-93: `A2[i] = A1[i]` for `i < n`; `src` reads `A1`. -/
def copyn0 (src : Int → Res α) (dst : List α) (n : Int) : Res (List α) :=
  foldN n.toNat (fun i t => do
    let v ← src i
    wr t i v) dst

/-- `copyn(A1, A2, start1, start2, n)`, algorithm.hpp:96-102. -/
def copyn (src : Int → Res α) (dst : List α) (start1 start2 n : Int) : Res (List α) :=
  foldN n.toNat (fun i t => do
    let v ← src (start1 + i)
    wr t (start2 + i) v) dst

namespace Arr1

variable {α : Type} [Inhabited α]

/-- `ArrayBase1D(n)`, array_base1D.hpp:136-157: `n` value-initialised elements.  A negative `n`
makes `new[]` throw `std::bad_array_new_length` in builds without the check. -/
def make (b : Build) (n : Int) : Res (List α) := do
  assertDebug b (decide (n > -1))
  if n < 0 then .trap .exception else .ok (List.replicate n.toNat default)

/-- `fill(x, A)`, algorithm.hpp:149-154. -/
def fill (x : α) : Op (List α) Unit := do
  let l ← Op.get
  Op.forN l.length (fun i => do
    let l ← Op.get
    let l' ← Op.lift (wr l i x)
    Op.set l')

/-- `copy(A1, A2)`, algorithm.hpp:61-66: ascending loop over the size of the source. -/
def copy (src : Src (List α) α) : Op (List α) Unit :=
  Op.forN src.size.toNat (fun i => do
    let l ← Op.get
    let v ← Op.lift (src.un l i)
    let l' ← Op.lift (wr l i v)
    Op.set l')

/-- Constructor `ArrayBase1D(n, x)`, array_base1D.hpp:165-169. -/
def makeFill (b : Build) (n : Int) (x : α) : Res (List α) := do
  let l ← make b n
  ((fill x) l).1
  pure ((fill x) l).2

/-- Constructors from another operand: list 178-182, copy 195-199, expression 209-213 (all allocate
the size of the operand and copy it). -/
def makeFrom (b : Build) (src : Src (List α) α) : Res (List α) := do
  let l ← make b src.size
  ((copy src) l).1
  pure ((copy src) l).2

/-- `operator=(x)`, array_base1D.hpp:216-220. -/
def assignValue (x : α) : Op (List α) Unit := fill x

/-- `operator=(list)` 223-228, `operator=(const ArrayBase1D&)` for two different arrays 231-238 and
`operator=(expression)` 252-257: check the size, then copy in place. -/
def assign (b : Build) (src : Src (List α) α) : Op (List α) Unit := do
  let l ← Op.get
  Op.lift (assertDebug b (len l == src.size))
  copy src

/-- `resize(n, preserve)`, array_base1D.hpp:289-301. -/
def resize (b : Build) (n : Int) (preserve : Bool) : Op (List α) Unit := do
  Op.lift (assertDebug b (decide (n > -1)))
  let l ← Op.get
  if n ≠ len l then do
    let tmp ← Op.lift (make b n)
    let tmp ← Op.lift (if preserve then copyn0 (rd l) tmp (min (len l) n) else .ok tmp)
    Op.set tmp
  else pure ()

/-- `resize_and_assign(expression)`, array_base1D.hpp:304-309: evaluates into a temporary first. -/
def resizeAndAssign (b : Build) (src : Src (List α) α) : Op (List α) Unit := do
  let l ← Op.get
  let tmp ← Op.lift (makeFrom b ⟨src.size, fun _ => src.un l⟩)
  Op.set tmp

/-- `remove(pos, count)`, array_base1D.hpp:321-332. -/
def remove (b : Build) (pos count : Int) : Op (List α) Unit := do
  Op.lift (assertDebug b (decide (count > 0)))
  let l ← Op.get
  Op.lift (assertDebug b (validIndex (len l) pos))
  Op.lift (assertDebugM b (do
    let e ← iadd pos count
    let e ← isub e 1
    pure (validIndex (len l) e)))
  let m ← Op.lift (isub (len l) count)
  let tmp ← Op.lift (make b m)
  let tmp ← Op.lift (copyn0 (rd l) tmp pos)
  let tmp ← Op.lift (copyn (rd l) tmp (pos + count) pos (len l - pos - count))
  Op.set tmp

/-- `remove_front(count)`, array_base1D.hpp:341-344. -/
def removeFront (b : Build) (count : Int) : Op (List α) Unit := remove b 0 count

/-- `remove_back(count)`, array_base1D.hpp:353-356. -/
def removeBack (b : Build) (count : Int) : Op (List α) Unit := do
  let l ← Op.get
  let p ← Op.lift (isub (len l) count)
  remove b p count

/-- `remove(last - k)`, array_base1D.hpp:365-368; `k` is the stored distance. -/
def removeLast (b : Build) (k : Int) : Op (List α) Unit := do
  let l ← Op.get
  let p ← Op.lift (isub (len l) 1)
  let p ← Op.lift (isub p k)
  remove b p 1

/-- `remove(indices)`, array_base1D.hpp:371-385. -/
def removeVec (b : Build) (idx : List Int) : Op (List α) Unit := do
  if idx.isEmpty then pure ()
  else do
    let l ← Op.get
    let ci ← Op.lift (complementVec b (len l) idx)
    let tmp ← Op.lift (make b (len ci))
    let tmp ← Op.lift (copyn0 (fun i => do let j ← rd ci i; rd l j) tmp (len tmp))
    Op.set tmp

/-- `insert(pos, x)`, array_base1D.hpp:389-399. -/
def insert (b : Build) (pos : Int) (x : α) : Op (List α) Unit := do
  let l ← Op.get
  Op.lift (assertDebug b (decide (pos ≥ 0) && decide (pos ≤ len l)))
  let m ← Op.lift (iadd (len l) 1)
  let tmp ← Op.lift (make b m)
  let tmp ← Op.lift (copyn0 (rd l) tmp pos)
  let tmp ← Op.lift (wr tmp pos x)
  let tmp ← Op.lift (copyn (rd l) tmp pos (pos + 1) (len l - pos))
  Op.set tmp

/-- `insert_front(x)`, array_base1D.hpp:408-411. -/
def insertFront (b : Build) (x : α) : Op (List α) Unit := insert b 0 x

/-- `insert_back(x)`, array_base1D.hpp:420-423. -/
def insertBack (b : Build) (x : α) : Op (List α) Unit := do
  let l ← Op.get
  insert b (len l) x

/-- `insert(pos, A)`, array_base1D.hpp:432-442; `A` may read the array itself, which is not modified
before the final swap. -/
def insertArr (b : Build) (pos : Int) (src : Src (List α) α) : Op (List α) Unit := do
  let l ← Op.get
  Op.lift (assertDebug b (decide (pos ≥ 0) && decide (pos ≤ len l)))
  let m ← Op.lift (iadd (len l) src.size)
  let tmp ← Op.lift (make b m)
  let tmp ← Op.lift (copyn0 (rd l) tmp pos)
  let tmp ← Op.lift (copyn (src.un l) tmp 0 pos src.size)
  let tmp ← Op.lift (copyn (rd l) tmp pos (pos + src.size) (len l - pos))
  Op.set tmp

/-- `insert_front(A)`, array_base1D.hpp:451-454. -/
def insertFrontArr (b : Build) (src : Src (List α) α) : Op (List α) Unit := insertArr b 0 src

/-- `insert_back(A)`, array_base1D.hpp:457-460. -/
def insertBackArr (b : Build) (src : Src (List α) α) : Op (List α) Unit := do
  let l ← Op.get
  insertArr b (len l) src

end Arr1

/-! ### Several arrays -/

/-- Named arrays of a program. A program that uses the classes of array_base1D.hpp:28-127. -/
abbrev Vars (α : Type) := Nat → List α

namespace Vars

variable {α : Type} [Inhabited α]

/-- Replace one array. A program that uses the classes of array_base1D.hpp:28-127. -/
def put (s : Vars α) (i : Nat) (l : List α) : Vars α := fun k => if k = i then l else s k

/-- Apply a member function to array `i`. A program that uses the classes of array_base1D.hpp:28-127. -/
def on (i : Nat) (op : Op (List α) Unit) : Op (Vars α) Unit := fun s =>
  ((op (s i)).1, s.put i (op (s i)).2)

/-- Copy assignment `Ai = Aj`, array_base1D.hpp:231-238 (guarded against self assignment). -/
def copyAssign (b : Build) (i j : Nat) : Op (Vars α) Unit :=
  if i ≠ j then do
    let s : Vars α ← Op.get
    on i (Arr1.assign b (Src.ofList (s j)))
  else pure ()

/-- `swap`, array_base1D.hpp:276-280. -/
def swap (i j : Nat) : Op (Vars α) Unit := fun s =>
  (.ok (), fun k => if k = i then s j else if k = j then s i else s k)

/-- Move assignment `Ai = std::move(Aj)`, array_base1D.hpp:241-249: swap, then give the source an
empty array.  `noexcept`, hence `NORMAL_ASSERT`. -/
def moveAssign (b : Build) (i j : Nat) : Op (Vars α) Unit :=
  if i ≠ j then do
    let s : Vars α ← Op.get
    Op.lift (assertNormal b (len (s i) == len (s j)))
    swap i j
    let s : Vars α ← Op.get
    Op.set (s.put j [])
  else pure ()

/-- `Ai.resize_and_assign(std::move(Aj))`, array_base1D.hpp:312-317 (no self check). -/
def resizeAndAssignMove (i j : Nat) : Op (Vars α) Unit := do
  swap i j
  let s : Vars α ← Op.get
  Op.set (s.put j [])

/-- Move construction of array `i` from `j`, array_base1D.hpp:202-206 (`i` is a new variable). -/
def moveConstruct (i j : Nat) : Op (Vars α) Unit := fun s =>
  (.ok (), (s.put i (s j)).put j [])

end Vars

end Spp
