import Verif.Spec.Heap
import Verif.Spec.History1D

/- Programs on arrays when memory can run out: what they mean in terms of lists. -/

namespace Spp.Spec

variable {α : Type}

/-- The array a statement modifies first. -/
def Stmt.target : Stmt α → Nat
  | fill i _ | assignList i _ | copyAssign i _ | moveAssign i _ | swap i _ | resize i _ _ | resizeAndAssign i _
  | resizeAndAssignMove i _ | remove i _ _ | removeFront i _ | removeBack i _ | removeLast i _ | removeVec i _
  | insert i _ _ | insertFront i _ | insertBack i _ | insertArr i _ _ | insertFrontArr i _ | insertBackArr i _ => i

/-- The arrays a statement mentions. -/
def Stmt.vars : Stmt α → List Nat
  | copyAssign i j | moveAssign i j | swap i j | resizeAndAssign i j | resizeAndAssignMove i j | insertArr i _ j
  | insertFrontArr i j | insertBackArr i j => [i, j]
  | c => [c.target]

/-- The statement gives the array new storage: all insertions and removals, `resize_and_assign` of an lvalue, and
`resize` to another size.  Assignments, moves and swaps never do. -/
def Stmt.rebuilds (s : Nat → List α) : Stmt α → Bool
  | fill .. | assignList .. | copyAssign .. | moveAssign .. | swap .. | resizeAndAssignMove .. => false
  | resize i n _ => n ≠ (s i).length
  | removeVec _ idx => idx ≠ []
  | _ => true

/-- The valid statement asks for memory: it gives the array new storage, and not for zero elements. -/
def Stmt.allocates (s s' : Nat → List α) (c : Stmt α) : Bool := c.rebuilds s && !(s' c.target).isEmpty

/-- One statement of a program when memory can run out.  `fails k` says whether request number `k` is refused; the
state is the number of requests so far and the arrays.  A statement whose request is refused has no effect, just as an
invalid one. -/
def memStep [Inhabited α] (fails : Nat → Bool) (st : Nat × (Nat → List α)) (c : Stmt α) : Nat × (Nat → List α) :=
  match c.meaning st.2 with
  | none => st
  | some s' =>
    if c.allocates st.2 s' then (st.1 + 1, if fails st.1 then st.2 else s') else (st.1, s')

/-- The program. -/
def memRun [Inhabited α] (fails : Nat → Bool) (st : Nat × (Nat → List α)) (cs : List (Stmt α)) :
    Nat × (Nat → List α) :=
  cs.foldl (memStep fails) st

/-- Sizes and arguments stay moderate during the program, and no move assignment between arrays of different sizes
(which ends the process) is attempted. -/
def memModerate [Inhabited α] (fails : Nat → Bool) (st : Nat × (Nat → List α)) (cs : List (Stmt α)) : Prop :=
  ∀ pre c post, cs = pre ++ c :: post → ModerateSizes (memRun fails st pre).2 ∧ c.Moderate ∧
    ∀ i j, c = .moveAssign i j → c.meaning (memRun fails st pre).2 ≠ none

/-- The live arrays of `h` are those of `s`. -/
def Holds (h : Heap α) (s : Nat → List α) : Prop := ∀ i l, view h i = some l → l = s i

/-- The arrays a statement mentions are live, and those whose storage it exchanges have the same type. -/
def Stmt.WellTyped (h : Heap α) (c : Stmt α) : Prop :=
  (∀ i ∈ c.vars, h.objs i ≠ none) ∧
  match c with
  | moveAssign i j | swap i j | resizeAndAssignMove i j => SameType h i j
  | _ => True

/-- Nothing that a program can observe of its arrays changed between `h` and `h'`: the same arrays are live, with the
same elements, and storage is owned properly. -/
structure Unchanged (h h' : Heap α) : Prop where
  views : ∀ k, view h' k = view h k
  owned : Owned h'

end Spp.Spec
