import Verif.Spec.Memory
import Verif.Spec.History2D
import Verif.Model.HeapOps2

/- Programs on two-dimensional arrays when memory can run out: what they mean in terms of matrices. -/

namespace Spp.Spec

variable {α : Type}

/-- What can be read of array `i`: its dimensions and its elements; `none` if it is not live. -/
def view2 (h : Heap2 α) (i : Nat) : Option (Arr2 α) :=
  (view h.heap i).map fun l => ⟨(h.dims i).1, (h.dims i).2, l⟩

/-- The array a statement modifies first. -/
def Stmt2.target : Stmt2 α → Nat
  | call i _ | callArr i _ _ | copyAssign i _ | moveAssign i _ | swap i _ | resizeAndAssignMove i _ => i

/-- The arrays a statement mentions. -/
def Stmt2.vars : Stmt2 α → List Nat
  | call i _ => [i]
  | callArr i j _ | copyAssign i j | moveAssign i j | swap i j | resizeAndAssignMove i j => [i, j]

/-- The statement gives the array new storage: all insertions and removals, `resize_and_assign` of an lvalue, and
`resize` to other dimensions (without preserving the elements: to another number of elements). -/
def Stmt2.rebuilds (S : Nat → Mat α) : Stmt2 α → Bool
  | call _ (.fill _) => false
  | call i (.resize m n p) => if p then ¬ (m = (S i).m ∧ n = (S i).n) else m * n ≠ (S i).m * (S i).n
  | call _ (.removeRowsVec idx) | call _ (.removeColsVec idx) => idx ≠ []
  | call .. => true
  | callArr _ _ .assign => false
  | callArr .. => true
  | copyAssign .. | moveAssign .. | swap .. | resizeAndAssignMove .. => false

/-- The statement asks for memory.  `A = {{...}, ...}` asks for as many elements as the list has rows times the length
of its first row, before anything is checked; other statements ask only when they are valid and give the array new
storage that is not empty. -/
def Stmt2.asks [Inhabited α] (S : Nat → Mat α) : Stmt2 α → Bool
  | call _ (.assignList L) => L.length * (L.getD 0 []).length ≠ 0
  | c =>
    match c.meaning S with
    | none => false
    | some S' => c.rebuilds S && (S' c.target).m ≠ 0

/-- One statement of a program when memory can run out.  `fails k` says whether request number `k` is refused; the
state is the number of requests so far and the arrays.  A statement whose request is refused has no effect, just as an
invalid one. -/
def memStep2 [Inhabited α] (fails : Nat → Bool) (st : Nat × (Nat → Mat α)) (c : Stmt2 α) : Nat × (Nat → Mat α) :=
  if c.asks st.2 then (st.1 + 1, if fails st.1 then st.2 else (c.meaning st.2).getD st.2)
  else (st.1, (c.meaning st.2).getD st.2)

/-- The program. -/
def memRun2 [Inhabited α] (fails : Nat → Bool) (st : Nat × (Nat → Mat α)) (cs : List (Stmt2 α)) :
    Nat × (Nat → Mat α) :=
  cs.foldl (memStep2 fails) st

/-- Sizes and arguments stay moderate during the program, and no self move-assignment or move assignment between arrays
of different shapes is attempted. -/
def memModerate2 [Inhabited α] (fails : Nat → Bool) (st : Nat × (Nat → Mat α)) (cs : List (Stmt2 α)) : Prop :=
  ∀ pre c post, cs = pre ++ c :: post → ModerateSizes2 (memRun2 fails st pre).2 ∧ c.Moderate ∧
    ∀ i j, c = .moveAssign i j → c.meaning (memRun2 fails st pre).2 ≠ none

/-- The live arrays of `h` are the matrices `S`: the same dimensions, the same elements, and the shape invariant of
`IsMat`.  Arrays that are not live count as empty. -/
def Holds2 (h : Heap2 α) (S : Nat → Mat α) : Prop := ∀ i, IsMat ((view2 h i).getD ⟨0, 0, []⟩) (S i)

/-- The arrays a statement mentions are live, and those whose storage it exchanges have the same type. -/
def Stmt2.WellTyped (h : Heap2 α) (c : Stmt2 α) : Prop :=
  (∀ i ∈ c.vars, h.heap.objs i ≠ none) ∧
  match c with
  | moveAssign i j | swap i j | resizeAndAssignMove i j => SameType h.heap i j
  | _ => True

/-- Nothing that a program can observe of its arrays changed between `h` and `h'`: the same arrays are live, with the
same dimensions and elements, and storage is owned properly. -/
structure Unchanged2 (h h' : Heap2 α) : Prop where
  views : ∀ k, view2 h' k = view2 h k
  owned : Owned h'.heap

end Spp.Spec
