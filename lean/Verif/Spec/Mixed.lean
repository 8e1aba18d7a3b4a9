import Verif.Spec.Program
import Verif.Spec.Memory2
import Verif.Spec.Expr

/-
Block-structured programs with one- and two-dimensional arrays in one memory, and what they mean in terms of lists and
matrices.
-/

namespace Spp.Spec

/-- How a local two-dimensional array is initialised. -/
inductive Init2 (α : Type) where
  | empty                         -- Array2D<T> Ai;
  | size (m n : Int)              -- Array2D<T> Ai(m, n);
  | fill (m n : Int) (x : α)      -- Array2D<T> Ai(m, n, x);
  | list (L : List (List α))      -- Array2D<T> Ai{{x00, x01, ...}, ...};
  | copy (j : Nat)                -- Array2D<T> Ai(Aj);
  | move (j : Nat)                -- Array2D<T> Ai(std::move(Aj));

/-- A program. -/
inductive MProg (α : Type) where
  | skip
  /-- `throw` of anything -/
  | throw
  /-- a statement on one-dimensional arrays -/
  | stmt (c : Stmt α)
  /-- a statement on two-dimensional arrays -/
  | stmt2 (c : Stmt2 α)
  | seq (p q : MProg α)
  /-- `{ Array1D<T, af> Ai init; body }` -/
  | block (i : Nat) (af : AlignmentFlag) (init : Init α) (body : MProg α)
  /-- `{ Array2D<T, af> Ai init; body }` -/
  | block2 (i : Nat) (af : AlignmentFlag) (init : Init2 α) (body : MProg α)
  /-- `try { p } catch(...) { q }` -/
  | tryCatch (p q : MProg α)
  /-- What is done next, its arguments and conditions, depends on the dimensions of `Ai` (if it is two-dimensional) and
  on its elements. -/
  | read (i : Nat) (f : Option (Int × Int) → List α → MProg α)
  /-- `for(n repetitions) { p }` -/
  | loop (n : Nat) (p : MProg α)

/-! ### Scopes and types, which the compiler checks -/

/-- The number of dimensions of an array. -/
inductive Rank where
  | vector
  | matrix
  deriving DecidableEq

/-- The arrays in scope and their types. -/
abbrev MCtx := Nat → Option (Rank × AlignmentFlag)

/-- The arrays with their alignment only. -/
def MCtx.flags (Γ : MCtx) : Ctx := fun i => (Γ i).map Prod.snd

/-- `Ai` is in scope and has that many dimensions. -/
def MCtx.Is (Γ : MCtx) (r : Rank) (i : Nat) : Prop := (Γ i).map Prod.fst = some r

/-- The statement uses two-dimensional arrays in scope; those whose storage it exchanges have the same type. -/
def Stmt2.Typed (Γ : MCtx) (c : Stmt2 α) : Prop :=
  (∀ i ∈ c.vars, Γ.Is .matrix i) ∧
  match c with
  | moveAssign i j | swap i j | resizeAndAssignMove i j => Γ i = Γ j
  | _ => True

/-- The arrays of the surrounding program that the initialisation uses. -/
def Init2.uses : Init2 α → List Nat
  | copy j | move j => [j]
  | _ => []

/-- An array can be copied from an array of the other alignment, but only moved from one of the same type. -/
def Init2.Typed (Γ : MCtx) (af : AlignmentFlag) : Init2 α → Prop
  | copy j => Γ.Is .matrix j
  | move j => Γ j = some (.matrix, af)
  | _ => True

/-- The program is well scoped; the names of local arrays are not in use already. -/
def MProg.Typed (Γ : MCtx) : MProg α → Prop
  | skip | throw => True
  | stmt c => c.Typed Γ.flags ∧ ∀ i ∈ c.vars, Γ.Is .vector i
  | stmt2 c => c.Typed Γ
  | seq p q | tryCatch p q => p.Typed Γ ∧ q.Typed Γ
  | block i af init body => Γ i = none ∧ (init.Typed Γ.flags af ∧ ∀ j ∈ init.uses, Γ.Is .vector j) ∧
      body.Typed (upd Γ i (some (.vector, af)))
  | block2 i af init body => Γ i = none ∧ init.Typed Γ af ∧ body.Typed (upd Γ i (some (.matrix, af)))
  | read i f => Γ i ≠ none ∧ ∀ d l, (f d l).Typed Γ
  | loop _ p => p.Typed Γ

/-- The program mentions array `k` or declares a local array of that name. -/
def MProg.Mentions (k : Nat) : MProg α → Prop
  | skip | throw => False
  | stmt c => k ∈ c.vars
  | stmt2 c => k ∈ c.vars
  | seq p q | tryCatch p q => p.Mentions k ∨ q.Mentions k
  | block i _ init body => k = i ∨ k ∈ init.uses ∨ body.Mentions k
  | block2 i _ init body => k = i ∨ k ∈ init.uses ∨ body.Mentions k
  | read i f => k = i ∨ ∃ d l, (f d l).Mentions k
  | loop _ p => p.Mentions k

/-! ### Meaning -/

/-- The value of an array. -/
inductive Val (α : Type) where
  | vec (l : List α)
  | mat (M : Mat α)

namespace Val
variable {α : Type}

/-- The elements; those of a matrix row by row. -/
def list : Val α → List α
  | vec l => l
  | mat M => M.flat

/-- The dimensions, if there are two. -/
def dims : Val α → Option (Int × Int)
  | vec _ => none
  | mat M => some (M.m, M.n)

/-- The matrix; a list counts as a column. -/
def matrix [Inhabited α] : Val α → Mat α
  | vec [] => Mat.empty
  | vec (x :: l) => Mat.ofCol (x :: l)
  | mat M => M

end Val

/-- The number of requests for memory so far, and the arrays.  An array that does not exist counts as `vec []`. -/
abbrev MState (α : Type) := Nat × (Nat → Val α)

variable {α : Type} [Inhabited α]

/-- The lists of the state. -/
def MState.lists (st : MState α) : PState α := (st.1, fun i => (st.2 i).list)

/-- The matrices of the state. -/
def MState.mats (st : MState α) : Nat → Mat α := fun i => (st.2 i).matrix

/-- What happens to the lists number `ks`. -/
def MState.change (st : MState α) (ks : List Nat) (r : Exit × PState α) : Exit × MState α :=
  (r.1, r.2.1, fun k => if k ∈ ks then .vec (r.2.2 k) else st.2 k)

/-- One statement on two-dimensional arrays: without effect if its arguments are invalid (which ends the process in the
case of move assignment) or its request for memory is refused. -/
def Stmt2.step (b : Build) (fails : Nat → Bool) (c : Stmt2 α) (st : MState α) : Exit × MState α :=
  if c.asks st.mats then
    if fails st.1 then (.exception, st.1 + 1, st.2) else (next.1, st.1 + 1, next.2)
  else (next.1, st.1, next.2)
where next : Exit × (Nat → Val α) :=
  match c.meaning st.mats with
  | none => (match c with | .moveAssign .. => .abort | _ => .ofKind b.kind, st.2)
  | some S' => (.normal, fun k => if k ∈ c.vars then .mat (S' k) else st.2 k)

/-- A new matrix `Ai` from a request for memory (if `asks`); `none` if the arguments are invalid, which is found out
after the request. -/
def newMat (b : Build) (fails : Nat → Bool) (i : Nat) (asks : Bool) (M : Option (Mat α)) (st : MState α) :
    Exit × MState α :=
  if asks ∧ fails st.1 then (.exception, st.1 + 1, st.2)
  else
    match M with
    | none => (.ofKind b.kind, st.1 + asks.toNat, st.2)
    | some M => (.normal, st.1 + asks.toNat, upd st.2 i (.mat M))

/-- The dimensions of a matrix. -/
def Dims? (m n : Int) : Prop := 0 ≤ m ∧ 0 ≤ n ∧ (m = 0 ↔ n = 0)

instance (m n : Int) : Decidable (Dims? m n) := by unfold Dims?; infer_instance

/-- A nested list as a matrix, if all rows have the same length; `{{}}` is empty. -/
def listMat (L : List (List α)) : Option (Mat α) :=
  if Rect L L.length (L.getD 0 []).length then some (Mat.ofLists L)
  else if Rect L 0 0 then some Mat.empty else none

/-- Initialisation of `Ai`. -/
def Init2.step (b : Build) (fails : Nat → Bool) (i : Nat) (init : Init2 α) (st : MState α) : Exit × MState α :=
  match init with
  | .empty => newMat b fails i false (some Mat.empty) st
  | .size m n => newMat b fails i (0 < m * n)
      (if Dims? m n then some (Mat.const m.toNat n.toNat default) else none) st
  | .fill m n x => newMat b fails i (0 < m * n) (if Dims? m n then some (Mat.const m.toNat n.toNat x) else none) st
  | .list L => newMat b fails i (L.length * (L.getD 0 []).length ≠ 0) (listMat L) st
  | .copy j => newMat b fails i ((st.2 j).matrix.m ≠ 0) (some (st.2 j).matrix) st
  | .move j => (.normal, st.1, upd (upd st.2 j (.mat Mat.empty)) i (.mat (st.2 j).matrix))

/-- The arguments are of moderate size, and they are valid if the build does not check that. -/
def Init2.Moderate (b : Build) (st : MState α) : Init2 α → Prop
  | .size m n | .fill m n _ => -(2 ^ 63) ≤ m * n ∧ m * n < 2 ^ 63 ∧ (¬ Dims? m n → b.Checked)
  | .list L => (L.length : Int) * (L.getD 0 []).length < 2 ^ 63 ∧ ((∀ m n, ¬ Rect L m n) → b.Checked)
  | .copy j => ((st.2 j).matrix.m : Int) * (st.2 j).matrix.n < 2 ^ 63
  | _ => True

/-- `n` repetitions, stopped by an exception. -/
def mrepeated (f : MState α → Exit × MState α) : Nat → MState α → Exit × MState α
  | 0, st => (.normal, st)
  | n + 1, st =>
    match mrepeated f n st with
    | (.normal, st') => f st'
    | r => r

/-- The meaning of a program, with any set of requests for memory refused.  At the end of a block its array is gone. -/
def MProg.run (b : Build) (fails : Nat → Bool) : MProg α → MState α → Exit × MState α
  | skip, st => (.normal, st)
  | throw, st => (.exception, st)
  | stmt c, st => st.change c.vars (c.step b fails st.lists)
  | stmt2 c, st => c.step b fails st
  | seq p q, st =>
    match p.run b fails st with
    | (.normal, st') => q.run b fails st'
    | r => r
  | block i _ init body, st =>
    match st.change (i :: init.uses) (init.step b fails i st.lists) with
    | (.normal, st') =>
      let r := body.run b fails st'
      (r.1, r.2.1, upd r.2.2 i (.vec []))
    | r => r
  | block2 i _ init body, st =>
    match init.step b fails i st with
    | (.normal, st') =>
      let r := body.run b fails st'
      (r.1, r.2.1, upd r.2.2 i (.vec []))
    | r => r
  | tryCatch p q, st =>
    match p.run b fails st with
    | (.exception, st') => q.run b fails st'
    | r => r
  | read i f, st => (f (st.2 i).dims (st.2 i).list).run b fails st
  | loop n p, st => mrepeated (p.run b fails) n st

/-- Every statement that is executed has moderate sizes and arguments, and it is valid if the build does not check
that.  A two-dimensional array is not move-assigned to itself. -/
def MProg.Moderate (b : Build) (fails : Nat → Bool) : MProg α → MState α → Prop
  | skip, _ | throw, _ => True
  | stmt c, st => ModerateSizes st.lists.2 ∧ c.Moderate ∧
      (c.meaning st.lists.2 = none → b.Checked ∧ ((∃ i j, c = .moveAssign i j) → b.ndebug = false))
  | stmt2 c, st => ModerateSizes2 st.mats ∧ c.Moderate ∧ (∀ i, c ≠ .moveAssign i i) ∧
      (c.meaning st.mats = none → b.Checked ∧ ((∃ i j, c = .moveAssign i j) → b.ndebug = false))
  | seq p q, st => p.Moderate b fails st ∧ ∀ st', p.run b fails st = (.normal, st') → q.Moderate b fails st'
  | block i _ init body, st => ∀ st', st.change (i :: init.uses) (init.step b fails i st.lists) = (.normal, st') →
      body.Moderate b fails st'
  | block2 i _ init body, st => init.Moderate b st ∧
      ∀ st', init.step b fails i st = (.normal, st') → body.Moderate b fails st'
  | tryCatch p q, st => p.Moderate b fails st ∧ ∀ st', p.run b fails st = (.exception, st') → q.Moderate b fails st'
  | read i f, st => (f (st.2 i).dims (st.2 i).list).Moderate b fails st
  | loop n p, st => ∀ k < n, ∀ st', mrepeated (p.run b fails) k st = (.normal, st') → p.Moderate b fails st'

end Spp.Spec
