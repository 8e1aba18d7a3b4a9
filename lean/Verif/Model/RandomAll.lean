import Verif.Model.StdRandom

/-
Filling several arrays in one call: strictpp/Util/semi_random.hpp:202-211, 248-264, 360-393 and
strictpp/Util/random.hpp:384-421.  The arrays of one call may have different element types; here they have the
same one.
-/

namespace Spp.Semi

variable {α : Type}

/-- `semi_random(A, low, high, seed)` for any element type, semi_random.hpp:202-211; `ordered` is `low <= high` and
`draw` is `random()` of a generator with these bounds. -/
def semiFill (b : Build) (ordered : Bool) (draw : Int → Res (α × Int)) (clock seed : Int)
    (dst : Acc (Store α) Loc) : Op (Store α) Unit := do
  Op.lift (assertDebug b ordered)
  let s : Store α ← Op.get
  let n ← Op.lift (dst.size s)
  let sd ← Op.lift (SInt.add .uint seed (SInt.cast .uint n))
  let p ← Op.lift (seeded clock sd)
  let n ← Op.lift (dst.size s)
  fillFrom dst draw 0 n.toNat p

/-- `semi_random(A, B, ...)`, semi_random.hpp:360-366: one array after the other, with bounds 0 and 1 and seed 1. -/
def semiRandomAll (b : Build) (draw : Int → Res (α × Int)) (clock : Int) :
    List (Acc (Store α) Loc) → Op (Store α) Unit
  | [] => pure ()
  | dst :: rest => do
      semiFill b true draw clock 1 dst
      semiRandomAll b draw clock rest

end Spp.Semi

namespace Spp.StdRandom

variable {α G : Type} [LinearOrder α]

/-- `random_not0(A, B, ..., low, high)`, random.hpp:394-414, and `random_not0(A, B, ...)` with bounds 0 and 1,
random.hpp:417-422: one array after the other, each with a generator of its own.  `none`: the loops have not ended
after `fuel` draws for one element. -/
def randomNot0All (b : Build) (zero : α) (gen : Gen α G) (low high : Bound α) (fuel : Nat) :
    List (Acc (Store α) Loc × G) → Op (Store α) (Option Unit)
  | [] => pure (some ())
  | (dst, g) :: rest => do
      let s : Store α ← Op.get
      let lo ← Op.lift (low.get s)
      let hi ← Op.lift (high.get s)
      let r ← randomNot0 b zero gen dst lo hi g fuel
      match r with
      | none => pure none
      | some () => randomNot0All b zero gen low high fuel rest

end Spp.StdRandom
