import Verif.Model.Assign
import Verif.Spec.Expr
import Verif.Spec.History2D

/-
What statements do to the arrays: the list of writes they perform, and nothing else.
-/

namespace Spp.Spec

variable {α : Type}

/-- All elements, or the first failure. -/
def evalAll : List (Res α) → Res (List α)
  | [] => .ok []
  | r :: rs => do
      let x ← r
      let xs ← evalAll rs
      pure (x :: xs)

/-- The value last written to a place, if any. -/
def lastWrite : List (Loc × α) → Loc → Option α
  | [], _ => none
  | (k, x) :: ws, l =>
      match lastWrite ws l with
      | some y => some y
      | none => if k = l then some x else none

/-- `s'` is what remains of `s` after the writes `ws`, in this order: same sizes, every written
place holds the value written last, all other places hold what they held before. -/
def Effect (s s' : Store α) (ws : List (Loc × α)) : Prop :=
  SameSizes s s' ∧
  ∀ l, s'.read l = match lastWrite ws l with
    | some x => .ok x
    | none => s.read l

/-- The place exists. -/
def _root_.Spp.Loc.Valid (s : Store α) : Loc → Prop
  | .one id k => k < (s.a1 id).length
  | .two id k => k < (s.a2 id).data.length

/-- The array number `id`, as a whole. -/
def _root_.Spp.Lv.whole : (d : Dim) → Nat → Lv d
  | .one, id => .arr1 id
  | .two, id => .arr2 id

/-- The places an assignable object refers to are `cs`, in linear order. -/
def Places {d : Dim} (l : Lv d) (s : Store α) (cs : List Loc) : Prop :=
  (l.cells s).flat = cs.map Res.ok ∧ ∀ c ∈ cs, c.Valid s

/-- Executing a statement in state `s` had the result `r`: the values `vals` were computed and written
to the places `cs` one after the other, up to the first value that failed (if any), which is the
outcome of the statement; `xs` are the values before it. -/
def Writes (cs : List Loc) (vals : List (Res α)) (s : Store α) (r : Res Unit × Store α) : Prop :=
  ∃ xs : List α, Effect s r.2 (cs.zip xs) ∧
    ((vals = xs.map Res.ok ∧ r.1 = .ok ()) ∨
     ∃ e rest, vals = xs.map Res.ok ++ e :: rest ∧ (∀ x, e ≠ .ok x) ∧
       r.1 = (e >>= fun _ => .ok ()))

/-- No element of the expression depends on a place that has been overwritten by the time the
element is computed, when the values are written to `cs` one after the other. -/
def NoClobber {d : Dim} (t : Tm α d) (s : Store α) (cs : List Loc) : Prop :=
  ∀ (k : Nat) (s' : Store α), k < cs.length → SameSizes s s' →
    (∀ c, c ∉ cs.take k → s'.read c = s.read c) →
    (t.meaning s').flat[k]? = (t.meaning s).flat[k]?

/-- The values that meet the place `c` when `ys` are combined with the places `cs` one after the
other. -/
def hits (cs : List Loc) (ys : List α) (c : Loc) : List α :=
  ((cs.zip ys).filter (fun p => decide (p.1 = c))).map Prod.snd

/-- The array a place belongs to: dimension and number. -/
def _root_.Spp.Loc.array : Loc → Dim × Nat
  | .one id _ => (.one, id)
  | .two id _ => (.two, id)

/-- The array an assignable object is a view of. -/
def _root_.Spp.Lv.array : {d : Dim} → Lv d → Dim × Nat
  | _, .arr1 id => (.one, id)
  | _, .arr2 id => (.two, id)
  | _, .view _ l => l.array

/-- The expression reads the array `a`. -/
def _root_.Spp.Tm.Mentions (a : Dim × Nat) : {d : Dim} → Tm α d → Prop
  | _, .lv l => l.array = a
  | _, .view _ t => t.Mentions a
  | _, .unary _ t => t.Mentions a
  | _, .binary _ t1 t2 => t1.Mentions a ∨ t2.Mentions a
  | _, .scalarL _ _ t => t.Mentions a
  | _, .scalarR _ t _ => t.Mentions a
  | _, .merge t1 t2 => t1.Mentions a ∨ t2.Mentions a
  | _, .append t _ => t.Mentions a
  | _, .prepend _ t => t.Mentions a
  | _, .exclude t _ _ => t.Mentions a
  | _, .excludeLast t _ => t.Mentions a
  | _, .reduce _ _ t => t.Mentions a
  | _, .matvec _ t x => t.Mentions a ∨ x.Mentions a
  | _, .bcast _ t => t.Mentions a
  | _, .tensor _ t1 t2 => t1.Mentions a ∨ t2.Mentions a
  | _, .transpose t => t.Mentions a
  | _, .mergeH t1 t2 => t1.Mentions a ∨ t2.Mentions a
  | _, .mergeV t1 t2 => t1.Mentions a ∨ t2.Mentions a
  | _, _ => False

/-- Element-wise operations, of any depth, on the assigned object `l` itself and on operands that do
not read the array that is assigned to. -/
inductive Pointwise {α : Type} {d : Dim} (l : Lv d) : Tm α d → Prop where
  | same : Pointwise l (.lv l)
  | other {t : Tm α d} : ¬ t.Mentions l.array → Pointwise l t
  | unary {f : α → Res α} {t : Tm α d} : Pointwise l t → Pointwise l (.unary f t)
  | binary {f : α → α → Res α} {t1 t2 : Tm α d} : Pointwise l t1 → Pointwise l t2 →
      Pointwise l (.binary f t1 t2)
  | scalarL {f : α → α → Res α} {x : α} {t : Tm α d} : Pointwise l t → Pointwise l (.scalarL f x t)
  | scalarR {f : α → α → Res α} {t : Tm α d} {x : α} : Pointwise l t → Pointwise l (.scalarR f t x)

/-- The parts of a statement make sense and have matching sizes. -/
def _root_.Spp.AStmt.Valid (s : Store α) : AStmt α → Prop
  | .assign l t => l.Valid s ∧ t.Valid s ∧ (l.cells s).dims = (t.meaning s).dims
  | .fill l _ => l.Valid s
  | .list l xs => l.Valid s ∧ (l.cells s).dims.1 = xs.length
  | .list2 l L => l.Valid s ∧ Rect L (l.cells s).dims.1 (l.cells s).dims.2
  | .compound _ l t => l.Valid s ∧ t.Valid s ∧ (l.cells s).dims = (t.meaning s).dims
  | .compoundX _ l _ => l.Valid s

/-- All numbers in the statement are 64-bit and all intermediate objects small enough. -/
def _root_.Spp.AStmt.Sound (s : Store α) : AStmt α → Prop
  | .assign l t => l.Sound s ∧ t.Sound s
  | .fill l _ => l.Sound s
  | .list l _ => l.Sound s
  | .list2 l _ => l.Sound s
  | .compound _ l t => l.Sound s ∧ t.Sound s
  | .compoundX _ l _ => l.Sound s

end Spp.Spec
