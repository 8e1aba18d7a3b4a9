import Verif.Spec.Statements
import Verif.Spec.Modest
import Verif.Spec.History1D
import Verif.Spec.History2D

/-
Programs in which expressions, views and the member functions that change sizes are mixed, with sequencing, conditions,
loops, exceptions and steps that depend on the contents of the arrays.  What they do is said by rules (`Does`, `Runs`)
in terms of lists and matrices.
-/

namespace Spp.Spec

variable {α : Type} [Inhabited α]

/-- Member functions of a one-dimensional array whose operand is an expression. -/
inductive Use1 where
  | resizeAndAssign                              -- A.resize_and_assign(t), also Array1D A(t)
  | insert (pos : Int)                           -- A.insert(pos, t)
  | insertFront
  | insertBack

/-- The list after the call; `none` if the position is invalid. -/
def Use1.meaning (l xs : List α) : Use1 → Option (List α)
  | .resizeAndAssign => some xs
  | .insert pos => if 0 ≤ pos ∧ pos ≤ l.length then some (inserted l pos.toNat xs) else none
  | .insertFront => some (xs ++ l)
  | .insertBack => some (l ++ xs)

/-- Member functions of a two-dimensional array whose operand is an expression. -/
inductive Use2 where
  | resizeAndAssign                              -- A.resize_and_assign(t), also Array2D A(t)
  | insertRows (pos : Int)
  | insertRowsFront
  | insertRowsBack
  | insertCols (pos : Int)
  | insertColsFront
  | insertColsBack

/-- The matrix after the call; `none` if position or size of the operand is invalid. -/
def Use2.meaning (M N : Mat α) : Use2 → Option (Mat α)
  | .resizeAndAssign => some N
  | .insertRows pos => M.insertRows? N pos
  | .insertRowsFront => M.insertRows? N 0
  | .insertRowsBack => M.insertRows? N M.m
  | .insertCols pos => M.insertCols? N pos
  | .insertColsFront => M.insertCols? N 0
  | .insertColsBack => M.insertCols? N M.n

/-- Member functions of a two-dimensional array whose operand is a one-dimensional expression. -/
inductive UseRow where
  | insertRow (pos : Int)                        -- A.insert_row(pos, t)
  | insertRowFront
  | insertRowBack
  | insertCol (pos : Int)
  | insertColFront
  | insertColBack

/-- The matrix after the call; `none` if the position is invalid or the operand is empty or not of the right size. -/
def UseRow.meaning (M : Mat α) (xs : List α) : UseRow → Option (Mat α)
  | .insertRow pos => M.insertRow? xs pos
  | .insertRowFront => M.insertRow? xs 0
  | .insertRowBack => M.insertRow? xs M.m
  | .insertCol pos => M.insertCol? xs pos
  | .insertColFront => M.insertCol? xs 0
  | .insertColBack => M.insertCol? xs M.n

/-- A statement. -/
inductive EStmt (α : Type) where
  | eval (c : AStmt α)                           -- assignments to arrays and views
  | elem1 (l : Lv .one) (p : Pos) (f : α → Res α)      -- A[p] = x, A(even)[last - k] += x, ...: f gives the new element
  | elem2 (l : Lv .two) (p q : Pos) (f : α → Res α)    -- A(p, q) = x, ...
  | list (c : Stmt α)                            -- member functions of one-dimensional arrays
  | mat (c : Stmt2 α)                            -- member functions of two-dimensional arrays
  | use1 (i : Nat) (u : Use1) (t : Tm α .one)
  | use2 (i : Nat) (u : Use2) (t : Tm α .two)
  | useRow (i : Nat) (u : UseRow) (t : Tm α .one)

/-- A program; `read f` is a step that depends on the contents and sizes of the arrays, such as a condition. -/
inductive EProg (α : Type) where
  | skip
  | throw
  | stmt (c : EStmt α)
  | seq (p q : EProg α)
  | tryCatch (p q : EProg α)
  | read (f : Store α → EProg α)
  | loop (count : Store α → Nat) (p : EProg α)

/-- `n` times. -/
def EProg.times (p : EProg α) : Nat → EProg α
  | 0 => .skip
  | n + 1 => .seq (p.times n) p

/-- The matrix of results is the matrix `N`: no element fails. -/
def IsTable (X : Mat (Res α)) (N : Mat α) : Prop :=
  X.m = N.m ∧ X.n = N.n ∧ ∀ i j, i < N.m → j < N.n → X.el i j = .ok (N.el i j)

/-- What a statement does: in state `s` it ends with `r` in state `s'`.  `K` tells whether invalid statements are
rejected, and how. -/
inductive Does (K : Option Kind) : EStmt α → Store α → Res Unit → Store α → Prop where
  /-- the elements are computed and written one after the other -/
  | eval {c : AStmt α} {s : Store α} {cs : List Loc} : AStmt.Valid s c → Places c.target.2 s cs →
      Does K (.eval c) s (stepwise c.value cs 0 s).1 (stepwise c.value cs 0 s).2
  | evalRejected {c : AStmt α} {s : Store α} {k0 k : Kind} : ¬ AStmt.Valid s c → K = some k0 →
      Does K (.eval c) s (.trap k) s
  /-- the element at the position is replaced -/
  | elem1 {l : Lv .one} {p : Pos} {f : α → Res α} {s : Store α} {c : Loc} : l.Valid s →
      InRange (l.cells s).dims.1 (target (l.cells s).dims.1 p) →
      List.getD (l.cells s) (target (l.cells s).dims.1 p).toNat .ub = .ok c →
      Does K (.elem1 l p f) s (stepwise (fun _ s => (s.read c).bind f) [c] 0 s).1
        (stepwise (fun _ s => (s.read c).bind f) [c] 0 s).2
  | elem1Rejected {l : Lv .one} {p : Pos} {f : α → Res α} {s : Store α} {k0 : Kind} :
      ¬ (l.Valid s ∧ InRange (l.cells s).dims.1 (target (l.cells s).dims.1 p)) → K = some k0 →
      Does K (.elem1 l p f) s (.trap k0) s
  | elem2 {l : Lv .two} {p q : Pos} {f : α → Res α} {s : Store α} {c : Loc} : l.Valid s →
      InRange (l.cells s).dims.1 (target (l.cells s).dims.1 p) →
      InRange (l.cells s).dims.2 (target (l.cells s).dims.2 q) →
      Mat.el (l.cells s) (target (l.cells s).dims.1 p).toNat (target (l.cells s).dims.2 q).toNat = .ok c →
      Does K (.elem2 l p q f) s (stepwise (fun _ s => (s.read c).bind f) [c] 0 s).1
        (stepwise (fun _ s => (s.read c).bind f) [c] 0 s).2
  | elem2Rejected {l : Lv .two} {p q : Pos} {f : α → Res α} {s : Store α} {k0 : Kind} :
      ¬ (l.Valid s ∧ InRange (l.cells s).dims.1 (target (l.cells s).dims.1 p) ∧
        InRange (l.cells s).dims.2 (target (l.cells s).dims.2 q)) → K = some k0 →
      Does K (.elem2 l p q f) s (.trap k0) s
  | list {c : Stmt α} {s : Store α} {v : Nat → List α} : c.meaning s.a1 = some v →
      Does K (.list c) s (.ok ()) { s with a1 := v }
  | listRejected {c : Stmt α} {s : Store α} {k0 : Kind} : c.meaning s.a1 = none → K = some k0 →
      Does K (.list c) s (.trap k0) s
  | mat {c : Stmt2 α} {s : Store α} {S S' : Nat → Mat α} {v : Nat → Arr2 α} : AreMats s.a2 S →
      c.meaning S = some S' → AreMats v S' → Does K (.mat c) s (.ok ()) { s with a2 := v }
  | matRejected {c : Stmt2 α} {s : Store α} {S : Nat → Mat α} {k0 : Kind} : AreMats s.a2 S → c.meaning S = none →
      K = some k0 → Does K (.mat c) s (.trap k0) s
  | use1 {i : Nat} {u : Use1} {t : Tm α .one} {s : Store α} {xs l : List α} : t.Valid s →
      t.meaning s = xs.map Res.ok → u.meaning (s.a1 i) xs = some l →
      Does K (.use1 i u t) s (.ok ()) { s with a1 := upd s.a1 i l }
  | use1Rejected {i : Nat} {u : Use1} {t : Tm α .one} {s : Store α} {xs : List α} {k0 : Kind} : t.Valid s →
      t.meaning s = xs.map Res.ok → u.meaning (s.a1 i) xs = none → K = some k0 → Does K (.use1 i u t) s (.trap k0) s
  | use1Invalid {i : Nat} {u : Use1} {t : Tm α .one} {s : Store α} {k0 k : Kind} : ¬ t.Valid s → K = some k0 →
      Does K (.use1 i u t) s (.trap k) s
  | use2 {i : Nat} {u : Use2} {t : Tm α .two} {s : Store α} {M N M' : Mat α} {a : Arr2 α} : t.Valid s →
      IsMat (s.a2 i) M → IsTable (t.meaning s) N → u.meaning M N = some M' → IsMat a M' →
      Does K (.use2 i u t) s (.ok ()) { s with a2 := upd s.a2 i a }
  | use2Rejected {i : Nat} {u : Use2} {t : Tm α .two} {s : Store α} {M N : Mat α} {k0 : Kind} : t.Valid s →
      IsMat (s.a2 i) M → IsTable (t.meaning s) N → u.meaning M N = none → K = some k0 →
      Does K (.use2 i u t) s (.trap k0) s
  | use2Invalid {i : Nat} {u : Use2} {t : Tm α .two} {s : Store α} {k0 k : Kind} : ¬ t.Valid s → K = some k0 →
      Does K (.use2 i u t) s (.trap k) s
  | useRow {i : Nat} {u : UseRow} {t : Tm α .one} {s : Store α} {M M' : Mat α} {xs : List α} {a : Arr2 α} : t.Valid s →
      IsMat (s.a2 i) M → t.meaning s = xs.map Res.ok → u.meaning M xs = some M' → IsMat a M' →
      Does K (.useRow i u t) s (.ok ()) { s with a2 := upd s.a2 i a }
  | useRowRejected {i : Nat} {u : UseRow} {t : Tm α .one} {s : Store α} {M : Mat α} {xs : List α} {k0 : Kind} :
      t.Valid s → IsMat (s.a2 i) M → t.meaning s = xs.map Res.ok → u.meaning M xs = none → K = some k0 →
      Does K (.useRow i u t) s (.trap k0) s
  | useRowInvalid {i : Nat} {u : UseRow} {t : Tm α .one} {s : Store α} {k0 k : Kind} : ¬ t.Valid s → K = some k0 →
      Does K (.useRow i u t) s (.trap k) s

/-- What a program does. -/
inductive Runs (K : Option Kind) : EProg α → Store α → Res Unit → Store α → Prop where
  | skip {s : Store α} : Runs K .skip s (.ok ()) s
  | throw {s : Store α} : Runs K .throw s (.trap .exception) s
  | stmt {c : EStmt α} {s s' : Store α} {r : Res Unit} : Does K c s r s' → Runs K (.stmt c) s r s'
  | seq {p q : EProg α} {s s1 s2 : Store α} {r : Res Unit} : Runs K p s (.ok ()) s1 → Runs K q s1 r s2 →
      Runs K (.seq p q) s r s2
  | seqStop {p q : EProg α} {s s1 : Store α} {r : Res Unit} : Runs K p s r s1 → r ≠ .ok () → Runs K (.seq p q) s r s1
  | tryCaught {p q : EProg α} {s s1 s2 : Store α} {r : Res Unit} : Runs K p s (.trap .exception) s1 →
      Runs K q s1 r s2 → Runs K (.tryCatch p q) s r s2
  | tryPass {p q : EProg α} {s s1 : Store α} {r : Res Unit} : Runs K p s r s1 → r ≠ .trap .exception →
      Runs K (.tryCatch p q) s r s1
  | read {f : Store α → EProg α} {s s' : Store α} {r : Res Unit} : Runs K (f s) s r s' → Runs K (.read f) s r s'
  | loop {count : Store α → Nat} {p : EProg α} {s s' : Store α} {r : Res Unit} : Runs K (p.times (count s)) s r s' →
      Runs K (.loop count p) s r s'

/-- The program, started in `s`, comes to the statement `c` in state `u`. -/
inductive ComesTo (K : Option Kind) : EProg α → Store α → EStmt α → Store α → Prop where
  | stmt {c : EStmt α} {s : Store α} : ComesTo K (.stmt c) s c s
  | seqLeft {p q : EProg α} {s u : Store α} {c : EStmt α} : ComesTo K p s c u → ComesTo K (.seq p q) s c u
  | seqRight {p q : EProg α} {s s1 u : Store α} {c : EStmt α} : Runs K p s (.ok ()) s1 → ComesTo K q s1 c u →
      ComesTo K (.seq p q) s c u
  | tryLeft {p q : EProg α} {s u : Store α} {c : EStmt α} : ComesTo K p s c u → ComesTo K (.tryCatch p q) s c u
  | tryRight {p q : EProg α} {s s1 u : Store α} {c : EStmt α} : Runs K p s (.trap .exception) s1 →
      ComesTo K q s1 c u → ComesTo K (.tryCatch p q) s c u
  | read {f : Store α → EProg α} {s u : Store α} {c : EStmt α} : ComesTo K (f s) s c u → ComesTo K (.read f) s c u
  | loop {count : Store α → Nat} {p : EProg α} {s u : Store α} {c : EStmt α} : ComesTo K (p.times (count s)) s c u →
      ComesTo K (.loop count p) s c u

/-- All arrays have fewer than 2^61 elements and the shape the array classes guarantee. -/
def _root_.Spp.Store.Moderate (s : Store α) : Prop :=
  (∀ id, ((s.a1 id).length : Int) < 2 ^ 61) ∧ ∀ id, Shape (s.a2 id) ∧ ((s.a2 id).data.length : Int) < 2 ^ 61

/-- The limits within which a statement is considered: sizes and numbers are not astronomically large (they may be
wrong), the operations on elements have no undefined behaviour of their own, arrays are not moved to themselves or
to arrays of another size, the elements of an expression from which an array is made can be computed, and what is
inserted into an empty two-dimensional array as its first row or column is not computed from this array. -/
def EStmt.Fits (s : Store α) : EStmt α → Prop
  | .eval c => s.Moderate ∧ c.Modest s ∧ c.Total
  | .elem1 l p f => s.Moderate ∧ l.Modest s ∧ p.Modest ∧ ∀ x, f x ≠ .ub
  | .elem2 l p q f => s.Moderate ∧ l.Modest s ∧ (p.Modest ∧ q.Modest) ∧ ∀ x, f x ≠ .ub
  | .list c => s.Moderate ∧ c.Moderate ∧ ∀ i j, c = .moveAssign i j → c.meaning s.a1 ≠ none
  | .mat c => s.Moderate ∧ c.Moderate ∧
      ∀ i j, c = .moveAssign i j → i ≠ j ∧ (s.a2 i).rows = (s.a2 j).rows ∧ (s.a2 i).cols = (s.a2 j).cols
  | .use1 _ _ t => s.Moderate ∧ t.Modest s ∧ t.Total ∧ (t.Valid s → ∀ r ∈ (t.meaning s).flat, ∃ x, r = .ok x)
  | .use2 _ _ t => s.Moderate ∧ t.Modest s ∧ t.Total ∧ (t.Valid s → ∀ r ∈ (t.meaning s).flat, ∃ x, r = .ok x)
  | .useRow i _ t => s.Moderate ∧ t.Modest s ∧ t.Total ∧ (t.Valid s → ∀ r ∈ (t.meaning s).flat, ∃ x, r = .ok x) ∧
      ((s.a2 i).rows = 0 → ¬ t.Mentions (.two, i))

/-- The arrays a statement may change: the one it is applied to and, when elements are moved or swapped, the other. -/
def Stmt.changed : Stmt α → List Nat
  | .moveAssign i j | .swap i j | .resizeAndAssignMove i j => [i, j]
  | .copyAssign i _ | .resizeAndAssign i _ | .insertArr i _ _ | .insertFrontArr i _ | .insertBackArr i _ => [i]
  | .fill i _ | .assignList i _ | .resize i _ _ | .remove i _ _ | .removeFront i _ | .removeBack i _ | .removeLast i _
  | .removeVec i _ | .insert i _ _ | .insertFront i _ | .insertBack i _ => [i]

/-- The same for two-dimensional arrays. -/
def Stmt2.changed : Stmt2 α → List Nat
  | .moveAssign i j | .swap i j | .resizeAndAssignMove i j => [i, j]
  | .call i _ | .callArr i _ _ | .copyAssign i _ => [i]

/-- The statement may change the one-dimensional (`.one`) or two-dimensional (`.two`) array of that number. -/
def EStmt.Changes (a : Dim × Nat) : EStmt α → Prop
  | .eval c => c.dest = a
  | .elem1 l _ _ => l.array = a
  | .elem2 l _ _ _ => l.array = a
  | .list c => a.1 = .one ∧ a.2 ∈ c.changed
  | .mat c => a.1 = .two ∧ a.2 ∈ c.changed
  | .use1 i _ _ => a = (.one, i)
  | .use2 i _ _ => a = (.two, i)
  | .useRow i _ _ => a = (.two, i)

/-- The array is the same in both states: size and contents. -/
def SameArray (s s' : Store α) : Dim × Nat → Prop
  | (.one, i) => s'.a1 i = s.a1 i
  | (.two, i) => s'.a2 i = s.a2 i

end Spp.Spec
