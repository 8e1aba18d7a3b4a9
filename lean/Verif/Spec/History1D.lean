import Verif.Spec.Array1D

/-
Programs over several named one-dimensional arrays, and what each statement means in terms of lists.
-/

namespace Spp.Spec

/-- A statement of a program that modifies named arrays.  Operands named by a number are other
arrays (possibly the same one). -/
inductive Stmt (α : Type) where
  | fill (i : Nat) (x : α)                        -- Ai = x
  | assignList (i : Nat) (xs : List α)            -- Ai = {x0, x1, ...}
  | copyAssign (i j : Nat)                        -- Ai = Aj
  | moveAssign (i j : Nat)                        -- Ai = std::move(Aj)
  | swap (i j : Nat)                              -- Ai.swap(Aj)
  | resize (i : Nat) (n : Int) (preserve : Bool)  -- Ai.resize(n, preserve)
  | resizeAndAssign (i j : Nat)                   -- Ai.resize_and_assign(Aj)
  | resizeAndAssignMove (i j : Nat)               -- Ai.resize_and_assign(std::move(Aj))
  | remove (i : Nat) (pos count : Int)            -- Ai.remove(pos, count)
  | removeFront (i : Nat) (count : Int)
  | removeBack (i : Nat) (count : Int)
  | removeLast (i : Nat) (k : Int)                -- Ai.remove(last - k)
  | removeVec (i : Nat) (idx : List Int)          -- Ai.remove(indices)
  | insert (i : Nat) (pos : Int) (x : α)          -- Ai.insert(pos, x)
  | insertFront (i : Nat) (x : α)
  | insertBack (i : Nat) (x : α)
  | insertArr (i : Nat) (pos : Int) (j : Nat)     -- Ai.insert(pos, Aj)
  | insertFrontArr (i j : Nat)
  | insertBackArr (i j : Nat)

/-- Replace one entry. -/
def upd (s : Nat → β) (i : Nat) (v : β) : Nat → β := fun k => if k = i then v else s k

/-- The list meaning of a statement; `none` if its arguments are invalid. -/
def Stmt.meaning [Inhabited α] (s : Nat → List α) : Stmt α → Option (Nat → List α)
  | fill i x => some (upd s i (List.replicate (s i).length x))
  | assignList i xs => if (s i).length = xs.length then some (upd s i xs) else none
  | copyAssign i j => if (s i).length = (s j).length then some (upd s i (s j)) else none
  | moveAssign i j =>
      if i = j then some s
      else if (s i).length = (s j).length then some (upd (upd s i (s j)) j []) else none
  | swap i j => some (upd (upd s i (s j)) j (s i))
  | resize i n p =>
      if n < 0 then none
      else if p then some (upd s i (resized default (s i) n.toNat))
      else if n = (s i).length then some s
      else some (upd s i (List.replicate n.toNat default))
  | resizeAndAssign i j => some (upd s i (s j))
  | resizeAndAssignMove i j => some (upd (upd s i (s j)) j [])
  | remove i pos count =>
      if 0 ≤ pos ∧ 0 < count ∧ pos + count ≤ (s i).length
      then some (upd s i (removed (s i) pos.toNat count.toNat)) else none
  | removeFront i count =>
      if 0 < count ∧ count ≤ (s i).length then some (upd s i ((s i).drop count.toNat)) else none
  | removeBack i count =>
      if 0 < count ∧ count ≤ (s i).length
      then some (upd s i ((s i).take ((s i).length - count.toNat))) else none
  | removeLast i k =>
      if 0 ≤ k ∧ k < (s i).length
      then some (upd s i ((s i).eraseIdx ((s i).length - 1 - k.toNat))) else none
  | removeVec i idx =>
      if idx.Pairwise (· < ·) ∧ ∀ x ∈ idx, 0 ≤ x ∧ x < (s i).length
      then some (upd s i (withoutPositions (s i) idx)) else none
  | insert i pos x =>
      if 0 ≤ pos ∧ pos ≤ (s i).length then some (upd s i (inserted (s i) pos.toNat [x])) else none
  | insertFront i x => some (upd s i (x :: s i))
  | insertBack i x => some (upd s i (s i ++ [x]))
  | insertArr i pos j =>
      if 0 ≤ pos ∧ pos ≤ (s i).length then some (upd s i (inserted (s i) pos.toNat (s j))) else none
  | insertFrontArr i j => some (upd s i (s j ++ s i))
  | insertBackArr i j => some (upd s i (s i ++ s j))

/-- All integer arguments of the statement are of moderate size (absolute value at most 2^62), so
that no index computation inside a check overflows `index_t`. -/
def Stmt.Moderate : Stmt α → Prop
  | resize _ n _ => Mod n
  | remove _ p c => Mod p ∧ Mod c
  | removeFront _ c => Mod c
  | removeBack _ c => Mod c
  | removeLast _ k => Mod k
  | insert _ p _ => Mod p
  | insertArr _ p _ => Mod p
  | _ => True
where Mod (x : Int) : Prop := -(2 ^ 61) ≤ x ∧ x ≤ 2 ^ 61

/-- All arrays have moderate sizes (below 2^61 elements). -/
def ModerateSizes (s : Nat → List α) : Prop := ∀ i, ((s i).length : Int) < 2 ^ 61

/-- The list meaning of a whole program: invalid statements are reported (by an exception that the
program catches) and have no effect. -/
def meaningOf [Inhabited α] (s : Nat → List α) : List (Stmt α) → (Nat → List α)
  | [] => s
  | c :: cs => meaningOf ((c.meaning s).getD s) cs

/-- Sizes stay moderate throughout. -/
def StaysModerate [Inhabited α] (s : Nat → List α) : List (Stmt α) → Prop
  | [] => ModerateSizes s
  | c :: cs => ModerateSizes s ∧ c.Moderate ∧ StaysModerate ((c.meaning s).getD s) cs

end Spp.Spec
