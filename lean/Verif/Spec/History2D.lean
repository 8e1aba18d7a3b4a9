import Verif.Spec.Array2D
import Verif.Spec.History1D

/- Programs over several named two-dimensional arrays, and what each statement means in terms of
matrices. -/

namespace Spp.Spec

/-- The nested list `L` has `m` rows of `n` elements each.  The list with one empty row counts as
0×0. -/
def Rect {α : Type} (L : List (List α)) (m n : Nat) : Prop :=
  (0 < n ∧ L.length = m ∧ 0 < m ∧ ∀ r ∈ L, r.length = n) ∨
  (m = 0 ∧ n = 0 ∧ (L.length = 0 ∨ (L.length = 1 ∧ ∀ r ∈ L, r.length = 0)))

instance {α : Type} (L : List (List α)) (m n : Nat) : Decidable (Rect L m n) := by
  unfold Rect; infer_instance

/-- A member function call on one array that involves no other two-dimensional array. -/
inductive Call2 (α : Type) where
  | fill (x : α)                               -- A = x
  | assignList (L : List (List α))             -- A = {{...}, {...}}
  | resize (m n : Int) (preserve : Bool)
  | removeRows (pos count : Int)
  | removeCols (pos count : Int)
  | removeRow (pos : Int)
  | removeCol (pos : Int)
  | removeLastRow                              -- A.remove_row(last)
  | removeLastCol
  | removeRowsFront (count : Int)
  | removeRowsBack (count : Int)
  | removeColsFront (count : Int)
  | removeColsBack (count : Int)
  | removeRowsVec (idx : List Int)
  | removeColsVec (idx : List Int)
  | insertRow (pos : Int) (xs : List α)        -- A.insert_row(pos, X)
  | insertRowFront (xs : List α)
  | insertRowBack (xs : List α)
  | insertCol (pos : Int) (xs : List α)
  | insertColFront (xs : List α)
  | insertColBack (xs : List α)

/-- A member function call with another (or the same) two-dimensional array as operand. -/
inductive CallArr2 where
  | assign                                     -- A = B, B an expression
  | resizeAndAssign
  | insertRows (pos : Int)
  | insertRowsFront
  | insertRowsBack
  | insertCols (pos : Int)
  | insertColsFront
  | insertColsBack

/-- A statement. -/
inductive Stmt2 (α : Type) where
  | call (i : Nat) (c : Call2 α)
  | callArr (i j : Nat) (c : CallArr2)
  | copyAssign (i j : Nat)                     -- Ai = Aj
  | moveAssign (i j : Nat)                     -- Ai = std::move(Aj)
  | swap (i j : Nat)
  | resizeAndAssignMove (i j : Nat)            -- Ai.resize_and_assign(std::move(Aj))

namespace Mat
variable {α : Type} [Inhabited α]

/-- The 0×0 matrix. -/
def empty : Mat α := ⟨0, 0, fun _ _ => default⟩

def insertRows? (M N : Mat α) (pos : Int) : Option (Mat α) :=
  if M.m = 0 then (if pos = 0 then some N else none)
  else if 0 ≤ pos ∧ pos ≤ M.m ∧ N.n = M.n then some (M.insertRows N pos.toNat) else none

def insertCols? (M N : Mat α) (pos : Int) : Option (Mat α) :=
  if M.m = 0 then (if pos = 0 then some N else none)
  else if 0 ≤ pos ∧ pos ≤ M.n ∧ N.m = M.m then some (M.insertCols N pos.toNat) else none

def insertRow? (M : Mat α) (xs : List α) (pos : Int) : Option (Mat α) :=
  if xs.length = 0 then none else M.insertRows? (ofRow xs) pos

def insertCol? (M : Mat α) (xs : List α) (pos : Int) : Option (Mat α) :=
  if xs.length = 0 then none else M.insertCols? (ofCol xs) pos

def removeRows? (M : Mat α) (pos count : Int) : Option (Mat α) :=
  if 0 ≤ pos ∧ 0 < count ∧ pos + count ≤ M.m
  then some (M.removeRows pos.toNat count.toNat) else none

def removeCols? (M : Mat α) (pos count : Int) : Option (Mat α) :=
  if 0 ≤ pos ∧ 0 < count ∧ pos + count ≤ M.n
  then some (M.removeCols pos.toNat count.toNat) else none

/-- The matrix meaning of a call; `none` if its arguments are invalid. -/
def call (M : Mat α) : Call2 α → Option (Mat α)
  | .fill x => some (const M.m M.n x)
  | .assignList L => if Rect L M.m M.n then some ⟨M.m, M.n, (ofLists L).el⟩ else none
  | .resize m n p =>
      if 0 ≤ m ∧ 0 ≤ n ∧ (m = 0 ↔ n = 0) then
        if p then some (M.resized m.toNat n.toNat)
        else if m * n = M.m * M.n then some (M.reshaped m.toNat n.toNat)
        else some (const m.toNat n.toNat default)
      else none
  | .removeRows pos count => M.removeRows? pos count
  | .removeCols pos count => M.removeCols? pos count
  | .removeRow pos => M.removeRows? pos 1
  | .removeCol pos => M.removeCols? pos 1
  | .removeLastRow => M.removeRows? (M.m - 1) 1
  | .removeLastCol => M.removeCols? (M.n - 1) 1
  | .removeRowsFront count => M.removeRows? 0 count
  | .removeRowsBack count => M.removeRows? (M.m - count) count
  | .removeColsFront count => M.removeCols? 0 count
  | .removeColsBack count => M.removeCols? (M.n - count) count
  | .removeRowsVec idx =>
      if idx.Pairwise (· < ·) ∧ ∀ x ∈ idx, 0 ≤ x ∧ x < M.m then some (M.removeRowsAt idx) else none
  | .removeColsVec idx =>
      if idx.Pairwise (· < ·) ∧ ∀ x ∈ idx, 0 ≤ x ∧ x < M.n then some (M.removeColsAt idx) else none
  | .insertRow pos xs => M.insertRow? xs pos
  | .insertRowFront xs => M.insertRow? xs 0
  | .insertRowBack xs => M.insertRow? xs M.m
  | .insertCol pos xs => M.insertCol? xs pos
  | .insertColFront xs => M.insertCol? xs 0
  | .insertColBack xs => M.insertCol? xs M.n

/-- The matrix meaning of a call with an array operand `N`. -/
def callArr (M N : Mat α) : CallArr2 → Option (Mat α)
  | .assign => if M.m = N.m ∧ M.n = N.n then some N else none
  | .resizeAndAssign => some N
  | .insertRows pos => M.insertRows? N pos
  | .insertRowsFront => M.insertRows? N 0
  | .insertRowsBack => M.insertRows? N M.m
  | .insertCols pos => M.insertCols? N pos
  | .insertColsFront => M.insertCols? N 0
  | .insertColsBack => M.insertCols? N M.n

end Mat

variable {α : Type} [Inhabited α]

/-- The matrix meaning of a statement.  Self move-assignment has none: see
`Props.C34_self_move_breaks_shape`. -/
def Stmt2.meaning (s : Nat → Mat α) : Stmt2 α → Option (Nat → Mat α)
  | call i c => ((s i).call c).map (upd s i)
  | callArr i j c => ((s i).callArr (s j) c).map (upd s i)
  | copyAssign i j =>
      if (s i).m = (s j).m ∧ (s i).n = (s j).n then some (upd s i (s j)) else none
  | moveAssign i j =>
      if i ≠ j ∧ (s i).m = (s j).m ∧ (s i).n = (s j).n
      then some (upd (upd s i (s j)) j Mat.empty) else none
  | swap i j => some (upd (upd s i (s j)) j (s i))
  | resizeAndAssignMove i j => some (upd (upd s i (s j)) j Mat.empty)

/-- Integer arguments are of moderate size. -/
def Call2.Moderate : Call2 α → Prop
  | .resize m n _ => m * n < 2 ^ 61
  | .assignList L => (L.length : Int) * (L.getD 0 []).length < 2 ^ 61
  | .removeRows p c => Mod p ∧ Mod c
  | .removeCols p c => Mod p ∧ Mod c
  | .removeRow p => Mod p
  | .removeCol p => Mod p
  | .removeRowsFront c => Mod c
  | .removeRowsBack c => Mod c
  | .removeColsFront c => Mod c
  | .removeColsBack c => Mod c
  | .insertRow _ xs => Mod xs.length
  | .insertRowFront xs => Mod xs.length
  | .insertRowBack xs => Mod xs.length
  | .insertCol _ xs => Mod xs.length
  | .insertColFront xs => Mod xs.length
  | .insertColBack xs => Mod xs.length
  | _ => True
where Mod (x : Int) : Prop := -(2 ^ 61) ≤ x ∧ x ≤ 2 ^ 61

def Stmt2.Moderate : Stmt2 α → Prop
  | call _ c => c.Moderate
  | _ => True

/-- All arrays have fewer than 2^61 elements. -/
def ModerateSizes2 (s : Nat → Mat α) : Prop := ∀ i, ((s i).m : Int) * (s i).n < 2 ^ 61

/-- The matrix meaning of a whole program; invalid statements are reported and have no effect. -/
def meaningOf2 (s : Nat → Mat α) : List (Stmt2 α) → (Nat → Mat α)
  | [] => s
  | c :: cs => meaningOf2 ((c.meaning s).getD s) cs

/-- Sizes stay moderate throughout. -/
def StaysModerate2 (s : Nat → Mat α) : List (Stmt2 α) → Prop
  | [] => ModerateSizes2 s
  | c :: cs => ModerateSizes2 s ∧ c.Moderate ∧ StaysModerate2 ((c.meaning s).getD s) cs

/-- The program contains no self move-assignment and no move assignment between arrays of different
shapes (which aborts the process). -/
def NoBadMove2 (s : Nat → Mat α) : List (Stmt2 α) → Prop
  | [] => True
  | c :: cs => (∀ i j, c = .moveAssign i j → c.meaning s ≠ none) ∧
      NoBadMove2 ((c.meaning s).getD s) cs

/-- Every named array is the matrix of the same name. -/
def AreMats (v : Vars2 α) (s : Nat → Mat α) : Prop := ∀ i, IsMat (v i) (s i)

end Spp.Spec
