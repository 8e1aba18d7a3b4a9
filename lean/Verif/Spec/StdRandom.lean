import Verif.Model.StdRandom
import Verif.Spec.Assign

/-
What is assumed of the distributions of the standard library, and the sequence of draws.
-/

namespace Spp.Spec

open StdRandom

variable {α G : Type}

/-- The state of a generator after `k` draws; `f` is a draw. -/
def stateAt (f : G → α × G) (g : G) : Nat → G
  | 0 => g
  | k + 1 => (f (stateAt f g k)).2

/-- The `k`-th value drawn, starting from 0. -/
def valueAt (f : G → α × G) (g : G) (k : Nat) : α := (f (stateAt f g k)).1

/-- The first `n` values. -/
def firstValues (f : G → α × G) (g : G) (n : Nat) : List α := (List.range n).map (valueAt f g)

/-- What the C++ standard says about a uniform distribution: it must not be made with `low > high`, and if it
is made, all values lie between the bounds. -/
structure Contract [LinearOrder α] (D : Dist α G) : Prop where
  ordered : ∀ low high, D.pre low high = true → low ≤ high
  bounded : ∀ low high g, D.pre low high = true →
    low ≤ (D.draw low high g).1 ∧ (D.draw low high g).1 ≤ high

/-- With these bounds the generator can be made, and its draws are those of `f`, all of which satisfy `P`. -/
structure Serves (gen : Gen α G) (low high : α) (f : G → α × G) (P : α → Prop) : Prop where
  makes : gen.make low high = .ok ()
  draws : ∀ g, gen.random low high g = .ok (f g)
  good : ∀ g, P (f g).1

/-- One after the other, the arrays with places `ls` receive the values drawn by their generators. -/
def writesOf (f : G → α × G) : List (List Loc × G) → List (Loc × α)
  | [] => []
  | (cs, g) :: rest => cs.zip (firstValues f g cs.length) ++ writesOf f rest

end Spp.Spec
