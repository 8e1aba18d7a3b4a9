import Verif.Model.Assign
import Verif.Model.StableOps

/-
The pseudo-random generator that needs no standard library: strictpp/Util/semi_random.hpp.

Modelled: `SemiGenerator` for integers, booleans and floating-point numbers, `semi_rands`,
`semi_rands_not0`, the versions that fill an array, and the sequence of draws behind the versions that
return an expression.  Overloads that only unwrap `Low`, `High`, `Size`, `Rows`, `Cols` and `Seed` are not
repeated.  The loops do not depend on the type `G` of the generator: Model/StdRandom.lean uses them too.
-/

namespace Spp.Semi

open IntTy

/-- `modulus_`, semi_random.hpp:180. -/
def modulus : Int := 10000000
/-- `multiplier_`, semi_random.hpp:181. -/
def multiplier : Int := 8
/-- `increment_`, semi_random.hpp:182. -/
def increment : Int := 13

/-- The constructor: the initial `previous_`, semi_random.hpp:156-162.  `clock` is the character
`__TIME__[7]`, the last digit of the time of compilation. -/
def seeded (clock seed : Int) : Res Int := do
  let x ← SInt.mul .uint clock 100000
  let y ← SInt.mul .uint seed 100000
  SInt.add .uint x y

/-- `generate()`, semi_random.hpp:187-190: the new `previous_`, which is also the result. -/
def generate (b : Build) (previous : Int) : Res Int := do
  let x ← SInt.mul .uint multiplier previous
  let y ← SInt.add .uint x increment
  SInt.rem b .uint y modulus

/-- `random()` for integers, semi_random.hpp:164-165, 168-173: the value and the new `previous_`. -/
def randomInt (b : Build) (t : IntTy) (low high : Int) (previous : Int) : Res (Int × Int) := do
  let r ← generate b previous
  if low = 0 ∧ high = 1 then do
    let r' ← generate b r
    pure (if r > r' then 0 else 1, r')
  else do
    let d ← SInt.sub t high low
    let n ← SInt.add t d 1
    let k ← SInt.rem b t (SInt.cast t r) n
    let v ← SInt.add t low k
    pure (v, r)

/-- `random()` for booleans, semi_random.hpp:164-165, 174-176. -/
def randomBool (b : Build) (previous : Int) : Res (Bool × Int) := do
  let r ← generate b previous
  let r' ← generate b r
  pure (if r > r' then false else true, r')

/-- `random()` for floating-point numbers, semi_random.hpp:164-167. -/
def randomFloat {K : Type} (b : Build) (sc : Scalar K) (low high : K) (previous : Int) : Res (K × Int) := do
  let r ← generate b previous
  let x ← sc.ofIndex r
  let m ← sc.ofIndex modulus
  let q ← sc.div x m
  let d ← sc.sub high low
  let y ← sc.mul q d
  let v ← sc.add low y
  pure (v, r)

/-- `k` consecutive draws from a generator: the values and the state afterwards.  These are the elements
of the expression `semi_random<T>(n, low, high, seed)` when they are accessed one after the other
(semi_random.hpp:214-230: every access calls `g.random()`). -/
def draws {α G : Type} (draw : G → Res (α × G)) : Nat → G → Res (List α × G)
  | 0, p => .ok ([], p)
  | k + 1, p => do
      let (x, p) ← draw p
      let (l, p) ← draws draw k p
      pure (x :: l, p)

/-- `while(true) { if(auto r = g.random(); r != 0) return r; }`, semi_random.hpp:240-244, 257-262, 275-279,
293-297, followed for at most `fuel` steps; `none`: it has not ended by then. -/
def untilNot0 {α G : Type} (draw : G → Res (α × G)) (isZero : α → Bool) :
    Nat → G → Res (Option (α × G))
  | 0, _ => .ok none
  | fuel + 1, p => do
      let (x, p) ← draw p
      if isZero x then untilNot0 draw isZero fuel p else pure (some (x, p))

/-- `semi_rands<T>(low, high, seed)` for integers, semi_random.hpp:194-199, 307-316. -/
def semiRands (b : Build) (t : IntTy) (clock low high seed : Int) : Res Int := do
  assertDebug b (decide (low ≤ high))
  let p ← seeded clock seed
  let (v, _) ← randomInt b t low high p
  pure v

/-- `semi_rands<bool>(seed)`, semi_random.hpp:194-199, 319-322. -/
def semiRandsBool (b : Build) (clock seed : Int) : Res Bool := do
  let p ← seeded clock seed
  let (v, _) ← randomBool b p
  pure v

/-- `semi_rands<T>(low, high, seed)` for floating-point numbers, semi_random.hpp:194-199, 307-316. -/
def semiRandsFloat {K : Type} (b : Build) (sc : Scalar K) (clock : Int) (low high : K) (seed : Int) :
    Res K := do
  assertDebug b (sc.le low high)
  let p ← seeded clock seed
  let (v, _) ← randomFloat b sc low high p
  pure v

/-- `semi_rands_not0<T>(low, high, seed)` for integers, semi_random.hpp:234-245, 326-335. -/
def semiRandsNot0 (b : Build) (t : IntTy) (clock low high seed : Int) (fuel : Nat) : Res (Option Int) := do
  assertDebug b (decide (low ≤ high))
  assertDebug b (!(decide (low = 0) && decide (high = 0)))
  let p ← seeded clock seed
  let r ← untilNot0 (randomInt b t low high) (fun x => decide (x = 0)) fuel p
  pure (r.map Prod.fst)

/-- `for(auto& x : A) x = draw()`, semi_random.hpp:208-210, for the elements from `i` on. -/
def fillFrom {α G : Type} (dst : Acc (Store α) Loc) (draw : G → Res (α × G)) :
    Nat → Nat → G → Op (Store α) Unit
  | _, 0, _ => pure ()
  | i, k + 1, p => do
      let s : Store α ← Op.get
      let l ← Op.lift (dst.un s i)
      let (x, p) ← Op.lift (draw p)
      put l x
      fillFrom dst draw (i + 1) k p

/-- `semi_random(A, low, high, seed)` for integers, semi_random.hpp:202-211, 345-357. -/
def semiRandom (b : Build) (t : IntTy) (clock : Int) (dst : Acc (Store Int) Loc) (low high seed : Int) :
    Op (Store Int) Unit := do
  Op.lift (assertDebug b (decide (low ≤ high)))
  let s : Store Int ← Op.get
  let n ← Op.lift (dst.size s)
  let sd ← Op.lift (SInt.add .uint seed (SInt.cast .uint n))
  let p ← Op.lift (seeded clock sd)
  let n ← Op.lift (dst.size s)
  fillFrom dst (randomInt b t low high) 0 n.toNat p

/-- `for(auto& x : A) while(true) if(auto r = g.random(); r != 0) { x = r; break; }`,
semi_random.hpp:256-263, for the elements from `i` on, with at most `fuel` draws for each element. -/
def fillNot0From {α G : Type} (dst : Acc (Store α) Loc) (draw : G → Res (α × G)) (isZero : α → Bool)
    (fuel : Nat) : Nat → Nat → G → Op (Store α) (Option Unit)
  | _, 0, _ => pure (some ())
  | i, k + 1, p => do
      let s : Store α ← Op.get
      let l ← Op.lift (dst.un s i)
      let r ← Op.lift (untilNot0 draw isZero fuel p)
      match r with
      | none => pure none
      | some (x, p) => do
          put l x
          fillNot0From dst draw isZero fuel (i + 1) k p

/-- `semi_random_not0(A, low, high, seed)` for integers, semi_random.hpp:248-264, 370-383. -/
def semiRandomNot0 (b : Build) (t : IntTy) (clock : Int) (dst : Acc (Store Int) Loc) (low high seed : Int)
    (fuel : Nat) : Op (Store Int) (Option Unit) := do
  Op.lift (assertDebug b (decide (low ≤ high)))
  Op.lift (assertDebug b (!(decide (low = 0) && decide (high = 0))))
  let s : Store Int ← Op.get
  let n ← Op.lift (dst.size s)
  let sd ← Op.lift (SInt.add .uint seed (SInt.cast .uint n))
  let p ← Op.lift (seeded clock sd)
  let n ← Op.lift (dst.size s)
  fillNot0From dst (randomInt b t low high) (fun x => decide (x = 0)) fuel 0 n.toNat p

/-- The generator `semi_random<T>(n, low, high, seed)` and `semi_random<T>(m, n, low, high, seed)` capture,
semi_random.hpp:214-230 (both add the last extent to the seed). -/
def exprState (b : Build) (clock low high n seed : Int) : Res Int := do
  assertDebug b (decide (low ≤ high))
  let sd ← SInt.add .uint seed (SInt.cast .uint n)
  seeded clock sd

end Spp.Semi
