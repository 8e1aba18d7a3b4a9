import Verif.Model.Random
import Verif.Spec.Ints
import Verif.Spec.Assign
import Mathlib.Logic.Function.Iterate

/-
The sequence of numbers behind the semi-random generator, in exact arithmetic.
-/

namespace Spp.Spec

/-- One step of the generator once its state is below the modulus. -/
def nextState (x : Int) : Int := (8 * x + 13) % 10000000

/-- The state after the first step: the only step in which `unsigned` arithmetic can wrap around. -/
def firstState (clock seed : Int) : Int :=
  ((8 * (((clock + seed) * 100000) % 2 ^ 32) + 13) % 2 ^ 32) % 10000000

/-- The state after `n + 1` steps. -/
def stateAfter (clock seed : Int) (n : Nat) : Int := nextState^[n] (firstState clock seed)

/-- A value of type `unsigned int`. -/
def IsUInt (x : Int) : Prop := 0 ≤ x ∧ x < 2 ^ 32

/-- A range of integers of type `t` in which semi-random numbers can be drawn: not empty, its bounds, the
number of its values and the modulus of the generator are representable. -/
structure GoodRange (t : IntTy) (low high : Int) : Prop where
  le : low ≤ high
  lo : Fits t low
  hi : Fits t high
  count : Fits t (high - low + 1)
  wide : Fits t 10000000

end Spp.Spec
