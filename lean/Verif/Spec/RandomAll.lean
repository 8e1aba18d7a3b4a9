import Verif.Model.RandomAll
import Verif.Spec.Random
import Verif.Spec.StdRandom

/-
Repetitions in sequences of numbers.
-/

namespace Spp.Spec

/-- From position `start` on the list repeats itself after `period` elements. -/
def Repeats {α : Type} (start period : Nat) (l : List α) : Prop :=
  ∀ i, start ≤ i → i + period < l.length → l[i + period]? = l[i]?

/-- One after the other, arrays with the places `cs` receive numbers that depend only on the size of the array. -/
def bySize {α : Type} (vals : Nat → List α) (cs : List (List Loc)) : List (Loc × α) :=
  (cs.map fun c => c.zip (vals c.length)).flatten

/-- The draw succeeds with a value that depends only on the new state of the generator, or only on the two new
states. -/
def Draws (b : Build) {α : Type} (draw : Int → Res (α × Int)) : Prop :=
  (∃ f : Int → Res α, ∀ p, draw p = (do let q ← Semi.generate b p; let v ← f q; pure (v, q))) ∨
  (∃ f : Int → Int → Res α, ∀ p, draw p = (do
    let q ← Semi.generate b p; let r ← Semi.generate b q; let v ← f q r; pure (v, r)))

end Spp.Spec
