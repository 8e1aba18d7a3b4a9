import Verif.Spec.Memory

/-
Block-structured programs on one-dimensional arrays: local arrays that are destroyed at the end of their block however
it is left, exceptions, handlers, branches and loops; and what such programs mean in terms of lists.
-/

namespace Spp.Spec

/-- How a local array is initialised. -/
inductive Init (α : Type) where
  | empty                      -- Array1D<T> Ai;
  | size (n : Int)             -- Array1D<T> Ai(n);
  | fill (n : Int) (x : α)     -- Array1D<T> Ai(n, x);
  | list (xs : List α)         -- Array1D<T> Ai{x0, x1, ...};
  | copy (j : Nat)             -- Array1D<T> Ai(Aj);
  | move (j : Nat)             -- Array1D<T> Ai(std::move(Aj));

/-- A program. -/
inductive Prog (α : Type) where
  | skip
  | stmt (c : Stmt α)
  | seq (p q : Prog α)
  /-- `{ Array1D<T, af> Ai init; body }` -/
  | block (i : Nat) (af : AlignmentFlag) (init : Init α) (body : Prog α)
  /-- `throw` of anything -/
  | throw
  /-- `try { p } catch(...) { q }` -/
  | tryCatch (p q : Prog α)
  /-- `if(cond(Ai)) { p } else { q }` -/
  | ite (i : Nat) (cond : List α → Bool) (p q : Prog α)
  /-- `for(auto n = count(Ai); n > 0; --n) { p }` -/
  | loop (i : Nat) (count : List α → Nat) (p : Prog α)

/-- The program has no handlers. -/
def Prog.NoHandler : Prog α → Prop
  | skip | throw | stmt _ => True
  | seq p q | ite _ _ p q => p.NoHandler ∧ q.NoHandler
  | block _ _ _ p | loop _ _ p => p.NoHandler
  | tryCatch _ _ => False

/-! ### Scopes and types, which the compiler checks -/

/-- The arrays in scope and their types. -/
abbrev Ctx := Nat → Option AlignmentFlag

/-- The statement uses arrays in scope; those whose storage it exchanges have the same type. -/
def Stmt.Typed (Γ : Ctx) (c : Stmt α) : Prop :=
  (∀ i ∈ c.vars, Γ i ≠ none) ∧
  match c with
  | moveAssign i j | swap i j | resizeAndAssignMove i j => Γ i = Γ j
  | _ => True

/-- An array can be copied from an array of the other type, but only moved from one of the same type. -/
def Init.Typed (Γ : Ctx) (af : AlignmentFlag) : Init α → Prop
  | copy j => Γ j ≠ none
  | move j => Γ j = some af
  | _ => True

/-- The program is well scoped; the names of local arrays are not in use already. -/
def Prog.Typed (Γ : Ctx) : Prog α → Prop
  | skip | throw => True
  | stmt c => c.Typed Γ
  | seq p q | tryCatch p q => p.Typed Γ ∧ q.Typed Γ
  | block i af init body => Γ i = none ∧ init.Typed Γ af ∧ body.Typed (upd Γ i (some af))
  | ite i _ p q => Γ i ≠ none ∧ p.Typed Γ ∧ q.Typed Γ
  | loop i _ p => Γ i ≠ none ∧ p.Typed Γ

/-! ### Meaning -/

/-- The arrays of the surrounding program that the initialisation uses. -/
def Init.uses : Init α → List Nat
  | copy j | move j => [j]
  | _ => []

/-- The program mentions array `k` or declares a local array of that name. -/
def Prog.Mentions (k : Nat) : Prog α → Prop
  | skip | throw => False
  | stmt c => k ∈ c.vars
  | seq p q | tryCatch p q => p.Mentions k ∨ q.Mentions k
  | block i _ init body => k = i ∨ k ∈ init.uses ∨ body.Mentions k
  | ite i _ p q => k = i ∨ p.Mentions k ∨ q.Mentions k
  | loop i _ p => k = i ∨ p.Mentions k

/-- How a program is left. -/
inductive Exit where
  | normal
  | exception
  | abort
  deriving DecidableEq

/-- How a failed check is reported. -/
def Exit.ofKind : Kind → Exit
  | .exception => exception
  | .abort => abort

/-- The number of requests for memory so far, and the arrays. -/
abbrev PState (α : Type) := Nat × (Nat → List α)

variable {α : Type} [Inhabited α]

/-- One statement: without effect if its arguments are invalid (which ends the process in the case of move assignment)
or its request for memory is refused. -/
def Stmt.step (b : Build) (fails : Nat → Bool) (c : Stmt α) (st : PState α) : Exit × PState α :=
  match c.meaning st.2 with
  | none => (match c with | .moveAssign .. => .abort | _ => .ofKind b.kind, st)
  | some s' =>
    if c.allocates st.2 s' then
      if fails st.1 then (.exception, st.1 + 1, st.2) else (.normal, st.1 + 1, s')
    else (.normal, st.1, s')

/-- A new array `Ai` with the elements `l`: one request for memory unless it is empty. -/
def make (fails : Nat → Bool) (i : Nat) (l : List α) (st : PState α) : Exit × PState α :=
  if l = [] then (.normal, st.1, upd st.2 i l)
  else if fails st.1 then (.exception, st.1 + 1, st.2) else (.normal, st.1 + 1, upd st.2 i l)

/-- Initialisation of `Ai`.  A negative size is always an error; a move makes no request and leaves its source empty. -/
def Init.step (b : Build) (fails : Nat → Bool) (i : Nat) (init : Init α) (st : PState α) : Exit × PState α :=
  match init with
  | .empty => make fails i [] st
  | .size n => if n < 0 then (bad, st) else make fails i (List.replicate n.toNat default) st
  | .fill n x => if n < 0 then (bad, st) else make fails i (List.replicate n.toNat x) st
  | .list xs => make fails i xs st
  | .copy j => make fails i (st.2 j) st
  | .move j => (.normal, st.1, upd (upd st.2 j []) i (st.2 j))
where bad : Exit := if b.Checked then .ofKind b.kind else .exception

/-- `n` repetitions, stopped by an exception. -/
def repeated (f : PState α → Exit × PState α) : Nat → PState α → Exit × PState α
  | 0, st => (.normal, st)
  | n + 1, st =>
    match repeated f n st with
    | (.normal, st') => f st'
    | r => r

/-- The meaning of a program, with any set of requests for memory refused.  At the end of a block its array is gone. -/
def Prog.run (b : Build) (fails : Nat → Bool) : Prog α → PState α → Exit × PState α
  | skip, st => (.normal, st)
  | throw, st => (.exception, st)
  | stmt c, st => c.step b fails st
  | seq p q, st =>
    match p.run b fails st with
    | (.normal, st') => q.run b fails st'
    | r => r
  | block i _ init body, st =>
    match init.step b fails i st with
    | (.normal, st') =>
      let r := body.run b fails st'
      (r.1, r.2.1, upd r.2.2 i [])
    | r => r
  | tryCatch p q, st =>
    match p.run b fails st with
    | (.exception, st') => q.run b fails st'
    | r => r
  | ite i cond p q, st => if cond (st.2 i) then p.run b fails st else q.run b fails st
  | loop i count p, st => repeated (p.run b fails) (count (st.2 i)) st

/-- Every statement that is executed has moderate sizes and arguments, and it is valid if the build does not check
that. -/
def Prog.Moderate (b : Build) (fails : Nat → Bool) : Prog α → PState α → Prop
  | skip, _ | throw, _ => True
  | stmt c, st => ModerateSizes st.2 ∧ c.Moderate ∧
      (c.meaning st.2 = none → b.Checked ∧ ((∃ i j, c = .moveAssign i j) → b.ndebug = false))
  | seq p q, st => p.Moderate b fails st ∧ ∀ st', p.run b fails st = (.normal, st') → q.Moderate b fails st'
  | block i _ init body, st => ∀ st', init.step b fails i st = (.normal, st') → body.Moderate b fails st'
  | tryCatch p q, st => p.Moderate b fails st ∧ ∀ st', p.run b fails st = (.exception, st') → q.Moderate b fails st'
  | ite i cond p q, st => if cond (st.2 i) then p.Moderate b fails st else q.Moderate b fails st
  | loop i count p, st => ∀ n < count (st.2 i), ∀ st', repeated (p.run b fails) n st = (.normal, st') →
      p.Moderate b fails st'

/-- The outcome of the program in the model. -/
def Exit.res : Exit → Res Unit
  | normal => .ok ()
  | exception => .trap .exception
  | abort => .trap .abort

/-- The heap `h` realises the state `st`: storage is owned properly, exactly the arrays in scope exist, they have their
types and elements, and so many requests for memory were made. -/
structure Realises (Γ : Ctx) (h : Heap α) (st : PState α) : Prop where
  owned : Owned h
  live : ∀ i, (h.objs i).map Obj.af = Γ i
  views : ∀ i, view h i = (Γ i).map fun _ => st.2 i
  requests : h.requests = st.1

end Spp.Spec
