import Verif.Spec.Assign

/-
Statements as sequences of writes, one element after the other, whatever they read.
-/

namespace Spp.Spec

variable {α : Type}

/-- One element after the other: the `k`-th place is given the value number `k`, computed in the state that the
writes before it have left; the first value that fails is the outcome. -/
def stepwise (val : Nat → Store α → Res α) : List Loc → Nat → Store α → Res Unit × Store α
  | [], _, s => (.ok (), s)
  | c :: cs, k, s =>
      match val k s with
      | .ok x =>
          match s.write c x with
          | .ok s' => stepwise val cs (k + 1) s'
          | .trap q => (.trap q, s)
          | .ub => (.ub, s)
      | .trap q => (.trap q, s)
      | .ub => (.ub, s)

/-- Element number `k` of a list of values. -/
def nth (xs : List α) (k : Nat) : Res α :=
  match xs[k]? with
  | some x => .ok x
  | none => .ub

/-- The value a statement gives to the place number `k`, computed in the state `u`. -/
def _root_.Spp.AStmt.value : AStmt α → Nat → Store α → Res α
  | .assign _ t, k, u => (t.meaning u).flat.getD k .ub
  | .fill _ x, _, _ => .ok x
  | .list _ xs, k, _ => nth xs k
  | .list2 _ L, k, _ => nth L.flatten k
  | .compound op l t, k, u => do
      let c ← (l.cells u).flat.getD k .ub
      let x ← u.read c
      let y ← (t.meaning u).flat.getD k .ub
      op x y
  | .compoundX op l x, k, u => do
      let c ← (l.cells u).flat.getD k .ub
      let y ← u.read c
      op y x

/-- The places a statement writes to. -/
def _root_.Spp.AStmt.Places (s : Store α) (cs : List Loc) : AStmt α → Prop
  | .assign l _ => Spec.Places l s cs
  | .fill l _ => Spec.Places l s cs
  | .list l _ => Spec.Places l s cs
  | .list2 l _ => Spec.Places l s cs
  | .compound _ l _ => Spec.Places l s cs
  | .compoundX _ l _ => Spec.Places l s cs

/-- The array a statement writes to. -/
def _root_.Spp.AStmt.dest : AStmt α → Dim × Nat
  | .assign l _ => l.array
  | .fill l _ => l.array
  | .list l _ => l.array
  | .list2 l _ => l.array
  | .compound _ l _ => l.array
  | .compoundX _ l _ => l.array

/-- A statement reads the array `a`: its right operand does, or it is a compound assignment to it. -/
def _root_.Spp.AStmt.Reads (a : Dim × Nat) : AStmt α → Prop
  | .assign _ t => t.Mentions a
  | .compound _ l t => l.array = a ∨ t.Mentions a
  | .compoundX _ l _ => l.array = a
  | _ => False

/-- Two statements that write to different arrays, neither of which reads what the other writes. -/
def _root_.Spp.AStmt.Independent (p q : AStmt α) : Prop :=
  p.dest ≠ q.dest ∧ ¬ p.Reads q.dest ∧ ¬ q.Reads p.dest

end Spp.Spec
