import Verif.Spec.Statements
import Mathlib.Logic.Function.Basic
import Mathlib.Logic.Relation

/-
Statements executed by several threads at the same time.
-/

namespace Spp.Spec

variable {α : Type}

/-- The places an assignable object consists of. -/
def _root_.Spp.Lv.parts (s : Store α) {d : Dim} (l : Lv d) : List (Res Loc) := (l.cells s).flat

/-- The places of the arrays, slices and blocks that occur in an expression. -/
def _root_.Spp.Tm.inputs (s : Store α) : {d : Dim} → Tm α d → List (Res Loc)
  | _, .lv l => l.parts s
  | _, .view _ t => t.inputs s
  | _, .unary _ t => t.inputs s
  | _, .binary _ t1 t2 => t1.inputs s ++ t2.inputs s
  | _, .scalarL _ _ t => t.inputs s
  | _, .scalarR _ t _ => t.inputs s
  | _, .merge t1 t2 => t1.inputs s ++ t2.inputs s
  | _, .append t _ => t.inputs s
  | _, .prepend _ t => t.inputs s
  | _, .exclude t _ _ => t.inputs s
  | _, .excludeLast t _ => t.inputs s
  | _, .reduce _ _ t => t.inputs s
  | _, .matvec _ t x => t.inputs s ++ x.inputs s
  | _, .bcast _ t => t.inputs s
  | _, .tensor _ t1 t2 => t1.inputs s ++ t2.inputs s
  | _, .transpose t => t.inputs s
  | _, .mergeH t1 t2 => t1.inputs s ++ t2.inputs s
  | _, .mergeV t1 t2 => t1.inputs s ++ t2.inputs s
  | _, _ => []

/-- The places a statement assigns to, in order. -/
def _root_.Spp.AStmt.outputs (s : Store α) : AStmt α → List (Res Loc)
  | .assign l _ => l.parts s
  | .fill l _ => l.parts s
  | .list l _ => l.parts s
  | .list2 l _ => l.parts s
  | .compound _ l _ => l.parts s
  | .compoundX _ l _ => l.parts s

/-- The places a statement reads. -/
def _root_.Spp.AStmt.inputs (s : Store α) : AStmt α → List (Res Loc)
  | .assign _ t => t.inputs s
  | .compound _ l t => l.parts s ++ t.inputs s
  | .compoundX _ l _ => l.parts s
  | _ => []

/-- A thread of execution: it is about to assign to the place number `k` of its first statement, or it was
stopped by an exception. -/
inductive Thread (α : Type) where
  | run (todo : List (AStmt α)) (k : Nat)
  | stop (r : Res Unit)

/-- How a thread has ended, if it has. -/
def Thread.result : Thread α → Option (Res Unit)
  | .run [] _ => some (.ok ())
  | .run (_ :: _) _ => none
  | .stop r => some r

/-- Several threads and the memory they share.  `seen i` are the contents the memory has had since thread `i` last
wrote to it. -/
structure Machine (n : Nat) (α : Type) where
  thread : Fin n → Thread α
  mem : Store α
  seen : Fin n → List (Store α)

/-- Thread `i` is about to execute the statements `T i`. -/
def Machine.start {n : Nat} (T : Fin n → List (AStmt α)) (s : Store α) : Machine n α :=
  ⟨fun i => .run (T i) 0, s, fun _ => [s]⟩

/-- Every place holds what it held at one of these moments, not necessarily the same for all places. -/
def Mixed (vs : List (Store α)) (w : Store α) : Prop :=
  (∃ v ∈ vs, SameSizes v w) ∧ ∀ c, ∃ v ∈ vs, w.read c = v.read c

/-- One step of one of the threads: it computes the value of the next element - the places that the value depends
on may have been read at different moments since the thread's last step - and stores it, or the computation fails
and ends the thread, or the thread goes on to its next statement. -/
inductive Move {n : Nat} : Machine n α → Machine n α → Prop
  | write {m : Machine n α} {i : Fin n} {st : AStmt α} {rest : List (AStmt α)} {k : Nat} {c : Loc}
      {w mem' : Store α} {x : α} :
      m.thread i = .run (st :: rest) k → (st.outputs m.mem)[k]? = some (.ok c) → Mixed (m.seen i) w →
      st.value k w = .ok x → m.mem.write c x = .ok mem' →
      Move m ⟨Function.update m.thread i (.run (st :: rest) (k + 1)), mem',
        fun j => if j = i then [mem'] else mem' :: m.seen j⟩
  | fail {m : Machine n α} {i : Fin n} {st : AStmt α} {rest : List (AStmt α)} {k : Nat} {w : Store α}
      {r : Res Unit} :
      m.thread i = .run (st :: rest) k → k < (st.outputs m.mem).length → Mixed (m.seen i) w →
      (do let _ ← st.value k w; .ok ()) = r → r ≠ .ok () →
      Move m ⟨Function.update m.thread i (.stop r), m.mem, m.seen⟩
  | next {m : Machine n α} {i : Fin n} {st : AStmt α} {rest : List (AStmt α)} {k : Nat} :
      m.thread i = .run (st :: rest) k → k = (st.outputs m.mem).length →
      Move m ⟨Function.update m.thread i (.run rest 0), m.mem, m.seen⟩

/-- `m'` can be reached from `m`. -/
def Reaches {n : Nat} : Machine n α → Machine n α → Prop := Relation.ReflTransGen Move

/-- Every thread has ended. -/
def Machine.Ended {n : Nat} (m : Machine n α) : Prop := ∀ i, m.thread i |>.result.isSome

/-- A thread reads or writes the place. -/
def Uses (s : Store α) (sts : List (AStmt α)) (c : Loc) : Prop :=
  ∃ st ∈ sts, Res.ok c ∈ st.inputs s ∨ Res.ok c ∈ st.outputs s

/-- A thread writes the place. -/
def Modifies (s : Store α) (sts : List (AStmt α)) (c : Loc) : Prop := ∃ st ∈ sts, Res.ok c ∈ st.outputs s

/-- No thread writes a place that another thread reads or writes. -/
def Apart {n : Nat} (s : Store α) (T : Fin n → List (AStmt α)) : Prop :=
  ∀ i j, i ≠ j → ∀ c, Modifies s (T i) c → ¬ Uses s (T j) c

/-- All statements are accepted. -/
def AllAccepted {n : Nat} (s : Store α) (T : Fin n → List (AStmt α)) : Prop :=
  ∀ i, ∀ st ∈ T i, AStmt.Sound s st ∧ AStmt.Valid s st

end Spp.Spec
