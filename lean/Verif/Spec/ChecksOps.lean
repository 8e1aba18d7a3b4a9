import Verif.Spec.Checks
import Verif.Model.StableOps

/- Spec/Checks.lean for operations on whole arrays: the element types and the operands. -/

namespace Spp.Spec

/-- Element types with an order, compiled with and without checks. -/
structure SameScalar {α : Type} (x y : Scalar α) : Prop extends SameArith x.toArith y.toArith where
  neg : ∀ u, Survives (x.neg u) (y.neg u)
  lt : x.lt = y.lt
  le : x.le = y.le
  eq : x.eq = y.eq
  pow : ∀ u v, Survives (x.pow u v) (y.pow u v)
  sqrt : ∀ u, Survives (x.sqrt u) (y.sqrt u)

/-- Floating-point types, compiled with and without checks. -/
structure SameFScalar {α : Type} (x y : FScalar α) : Prop extends SameScalar x.toScalar y.toScalar where
  fma : ∀ u v w, Survives (x.fma u v w) (y.fma u v w)

/-- An operation applied to the same operand text: built and run with checks, and without. -/
def SurvivesOn {α A : Type} {d : Dim} (b : Build) (s : Store α) (t t' : Tm α d)
    (f f' : Acc (Store α) α → Res A) : Prop :=
  Survives (t.build b s >>= f) (t'.build (off b) s >>= f')

/-- The same with two operands. -/
def SurvivesOn2 {α A : Type} {d : Dim} (b : Build) (s : Store α) (t t' u u' : Tm α d)
    (f f' : Acc (Store α) α → Acc (Store α) α → Res A) : Prop :=
  Survives (t.build b s >>= fun x => u.build b s >>= fun y => f x y)
    (t'.build (off b) s >>= fun x => u'.build (off b) s >>= fun y => f' x y)

/-- Two array objects, built with and without checks, that have the same extents; every element the
first one gives the second one gives too. -/
structure SameAcc {σ β : Type} (a a' : Acc σ β) : Prop where
  rows : a'.rows = a.rows
  cols : a'.cols = a.cols
  size : ∀ s, Survives (a.size s) (a'.size s)
  un : ∀ s i, Survives (a.un s i) (a'.un s i)
  un2 : ∀ s i j, Survives (a.un2 s i j) (a'.un2 s i j)

/-- The statements one after the other; the first one that fails ends the program. -/
def inOrder {σ : Type} : List (Op σ Unit) → Op σ Unit
  | [] => pure ()
  | c :: cs => do
      c
      inOrder cs

end Spp.Spec
