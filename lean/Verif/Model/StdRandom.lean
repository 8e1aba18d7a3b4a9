import Verif.Model.Random
import Mathlib.Order.Defs.LinearOrder
import Mathlib.Order.BooleanAlgebra.Basic

/-
Random numbers from the standard library: strictpp/Util/random.hpp.

`std::mt19937`, `std::random_device` and the standard distributions are not modelled but represented by an
arbitrary `Dist`: a generator with any type of state, started in any state.  What the library relies on
(that the values of a distribution lie between its bounds) is a hypothesis of the theorems.  Overloads that
only unwrap `Low`, `High`, `Size`, `Rows` and `Cols` are not repeated.
-/

namespace Spp.StdRandom

open Semi

/-- A distribution over `α` together with its source of randomness, whose states are `G`: the precondition of
its constructor, `dst{low, high}`, and a draw, `dst(gen)`. Util/random.hpp:146-212. -/
structure Dist (α G : Type) where
  pre : α → α → Bool
  draw : α → α → G → α × G

/-- `Generator<T>`: the constructor, which has undefined behaviour if the precondition of the distribution is
violated, and `random()`. Util/random.hpp:146-212. -/
structure Gen (α G : Type) where
  make : α → α → Res Unit
  random : α → α → G → Res (α × G)

variable {α G : Type}

/-- `Generator<T>` for integers and standard floating-point types, random.hpp:149-161, 179-191. -/
def plain (D : Dist α G) : Gen α G :=
  ⟨fun low high => if D.pre low high then .ok () else .ub,
   fun low high g => .ok (D.draw low high g)⟩

/-- `Generator<bool>`, random.hpp:164-176: a distribution of `int`. -/
def boolean (D : Dist Int G) : Gen Bool G :=
  ⟨fun low high => if D.pre low.toInt high.toInt then .ok () else .ub,
   fun low high g =>
     let r := D.draw low.toInt high.toInt g
     .ok (if r.1.tmod 2 = 0 then false else true, r.2)⟩

/-- `Generator<float128>`, random.hpp:196-210: a distribution of `double` with the bounds converted to
`double` by `rn`. -/
def quad (rn : α → α) (D : Dist α G) : Gen α G :=
  ⟨fun low high => if D.pre (rn low) (rn high) then .ok () else .ub,
   fun low high g => .ok (D.draw (rn low) (rn high) g)⟩

variable [LinearOrder α]

/-- `rands(low, high)`, random.hpp:214-219, 322-331; `g` is the state given by `std::random_device`. -/
def rands (b : Build) (gen : Gen α G) (low high : α) (g : G) : Res α := do
  assertDebug b (decide (low ≤ high))
  gen.make low high
  let (x, _) ← gen.random low high g
  pure x

/-- `random(A, low, high)` for one array, random.hpp:222-230. -/
def random1 (b : Build) (gen : Gen α G) (dst : Acc (Store α) Loc) (low high : α) (g : G) :
    Op (Store α) Unit := do
  Op.lift (assertDebug b (decide (low ≤ high)))
  Op.lift (gen.make low high)
  let s : Store α ← Op.get
  let n ← Op.lift (dst.size s)
  fillFrom dst (gen.random low high) 0 n.toNat g

/-- An argument `low` or `high`: a value, or a reference to an element of an array
(random.hpp:360-369: `BasesAndStrict&&...` are references). -/
inductive Bound (α : Type) where
  | val (x : α)
  | elem (l : Loc)

/-- The value of the argument at the moment it is read. Util/random.hpp:146-212. -/
def Bound.get (s : Store α) : Bound α → Res α
  | .val x => .ok x
  | .elem l => s.read l

/-- `random(A, B, ..., low, high)`, random.hpp:360-381: one array after the other, each with a generator of
its own; the bounds are passed on by reference. -/
def random (b : Build) (gen : Gen α G) (low high : Bound α) :
    List (Acc (Store α) Loc × G) → Op (Store α) Unit
  | [] => pure ()
  | (dst, g) :: rest => do
      let s : Store α ← Op.get
      let lo ← Op.lift (low.get s)
      let hi ← Op.lift (high.get s)
      random1 b gen dst lo hi g
      random b gen low high rest

/-- `random<T>(n, low, high)` and `random<T>(m, n, low, high)`, random.hpp:233-248: what happens when the
expression is made.  Every access to an element is a draw (`Semi.draws`). -/
def randomExpr (b : Build) (gen : Gen α G) (low high : α) : Res Unit := do
  assertDebug b (decide (low ≤ high))
  gen.make low high

/-- `rands_not0(low, high)`, random.hpp:252-263, 341-350, with at most `fuel` draws. -/
def randsNot0 (b : Build) (zero : α) (gen : Gen α G) (low high : α) (g : G) (fuel : Nat) : Res (Option α) := do
  assertDebug b (decide (low ≤ high))
  assertDebug b (!(decide (low = zero) && decide (high = zero)))
  gen.make low high
  let r ← untilNot0 (gen.random low high) (fun x => decide (x = zero)) fuel g
  pure (r.map Prod.fst)

/-- `random_not0(A, low, high)` for one array, random.hpp:266-281, with at most `fuel` draws for each
element. -/
def randomNot0 (b : Build) (zero : α) (gen : Gen α G) (dst : Acc (Store α) Loc) (low high : α) (g : G)
    (fuel : Nat) : Op (Store α) (Option Unit) := do
  Op.lift (assertDebug b (decide (low ≤ high)))
  Op.lift (assertDebug b (!(decide (low = zero) && decide (high = zero))))
  Op.lift (gen.make low high)
  let s : Store α ← Op.get
  let n ← Op.lift (dst.size s)
  fillNot0From dst (gen.random low high) (fun x => decide (x = zero)) fuel 0 n.toNat g

end Spp.StdRandom
