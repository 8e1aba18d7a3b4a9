import Verif.Spec.History2D

/-
Programs over several named arrays of fixed size (`FixedArray1D`, `FixedArray2D`), and what each
statement means in terms of lists and matrices.  The size of an array is part of its type: no
statement changes it.
-/

namespace Spp.Spec

variable {α : Type} [Inhabited α]

/-- A list of zeros (`default` is zero for every arithmetic type) as long as `l`. -/
def zerosLike (l : List α) : List α := List.replicate l.length default

/-- A statement on named fixed one-dimensional arrays. -/
inductive FStmt (α : Type) where
  | fill (i : Nat) (x : α)               -- Ai = x
  | assignList (i : Nat) (xs : List α)   -- Ai = {x0, x1, ...}
  | copyAssign (i j : Nat)               -- Ai = Aj
  | moveAssign (i j : Nat)               -- Ai = std::move(Aj)
  | moveConstruct (i j : Nat)            -- a new Ai(std::move(Aj))
  | swap (i j : Nat)                     -- std::swap(Ai, Aj)

/-- Moves and swaps are between arrays of one type; a new array is not the old one. -/
def FStmt.Typed (s : Nat → List α) : FStmt α → Prop
  | moveAssign i j => (s i).length = (s j).length
  | moveConstruct i j => i ≠ j ∧ (s i).length = (s j).length
  | swap i j => (s i).length = (s j).length
  | _ => True

/-- The list meaning; `none` if the sizes differ. -/
def FStmt.meaning (s : Nat → List α) : FStmt α → Option (Nat → List α)
  | fill i x => some (upd s i (List.replicate (s i).length x))
  | assignList i xs => if (s i).length = xs.length then some (upd s i xs) else none
  | copyAssign i j => if (s i).length = (s j).length then some (upd s i (s j)) else none
  | moveAssign i j =>
      if i = j then some s else some (upd (upd s i (s j)) j (zerosLike (s j)))
  | moveConstruct i j => some (upd (upd s i (s j)) j (zerosLike (s j)))
  | swap i j => some (upd (upd s i (s j)) j (s i))

/-- The meaning of a program that goes on after every rejected statement. -/
def fmeaningOf (s : Nat → List α) : List (FStmt α) → (Nat → List α)
  | [] => s
  | c :: cs => fmeaningOf ((c.meaning s).getD s) cs

/-- All statements of the program are well typed.  Sizes never change, so the sizes at the start
decide. -/
def FTyped (s : Nat → List α) (p : List (FStmt α)) : Prop := ∀ c ∈ p, c.Typed s

/-- A statement on named fixed two-dimensional arrays. -/
inductive FStmt2 (α : Type) where
  | fill (i : Nat) (x : α)                       -- Ai = x
  | assignList (i : Nat) (L : List (List α))     -- Ai = {{...}, {...}}
  | copyAssign (i j : Nat)                       -- Ai = Aj
  | moveAssign (i j : Nat)                       -- Ai = std::move(Aj)
  | moveConstruct (i j : Nat)                    -- a new Ai(std::move(Aj))
  | swap (i j : Nat)                             -- std::swap(Ai, Aj)

/-- Two matrices of the same shape. -/
def SameShape (M N : Mat α) : Prop := M.m = N.m ∧ M.n = N.n

instance (M N : Mat α) : Decidable (SameShape M N) := by unfold SameShape; infer_instance

def FStmt2.Typed (s : Nat → Mat α) : FStmt2 α → Prop
  | moveAssign i j => SameShape (s i) (s j)
  | moveConstruct i j => i ≠ j ∧ SameShape (s i) (s j)
  | swap i j => SameShape (s i) (s j)
  | _ => True

/-- The zero matrix of the same shape. -/
def Mat.zeros (M : Mat α) : Mat α := Mat.const M.m M.n default

/-- The matrix meaning; `none` if the shapes differ. -/
def FStmt2.meaning (s : Nat → Mat α) : FStmt2 α → Option (Nat → Mat α)
  | fill i x => some (upd s i (Mat.const (s i).m (s i).n x))
  | assignList i L =>
      if Rect L (s i).m (s i).n then some (upd s i ⟨(s i).m, (s i).n, (Mat.ofLists L).el⟩) else none
  | copyAssign i j => if SameShape (s i) (s j) then some (upd s i (s j)) else none
  | moveAssign i j => if i = j then some s else some (upd (upd s i (s j)) j (s j).zeros)
  | moveConstruct i j => some (upd (upd s i (s j)) j (s j).zeros)
  | swap i j => some (upd (upd s i (s j)) j (s i))

def fmeaningOf2 (s : Nat → Mat α) : List (FStmt2 α) → (Nat → Mat α)
  | [] => s
  | c :: cs => fmeaningOf2 ((c.meaning s).getD s) cs

def FTyped2 (s : Nat → Mat α) (p : List (FStmt2 α)) : Prop := ∀ c ∈ p, c.Typed s

end Spp.Spec
