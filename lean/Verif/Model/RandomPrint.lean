import Verif.Model.RandomExpr
import Verif.Model.Table

/-
Printing random expressions: `operator<<` and `ostream_base_print` (strictpp/array_IO.hpp:228-325) applied to the
objects of Model/RandomExpr.lean, where every `A.un(...)` draws a number.
-/

namespace Spp.IO

open RandExpr

variable {α G : Type}

/-- `ostream_base_print` of a one-dimensional random expression, array_IO.hpp:228-264.  The operands of `<<` are evaluated
from left to right, so the label comes before the access. -/
def printRand1 (f : Format) (digit : Int → Int) (sh : α → List Char) (name : List Char) (n : Nat)
    (access : G → Res (Option (α × G))) (g : G) : Res (Option (List Char × G)) :=
  let out := nameLine name
  let out := if f.detailed && n == 0 then out ++ "[]\n".toList else out
  if !f.rowStyle then
    loop n (fun i x => do
      let label ← (if f.detailed then do
          let sp ← smartSpaces digit n i
          pure (['['] ++ digits i ++ "] =".toList ++ sp)
        else pure [])
      next (access x.2) fun r => .ok (some (x.1 ++ label ++ (sh r.1 ++ ['\n']), r.2))) (out, g)
  else
    next (loop n (fun i x => do
      let label ← pure (if f.detailed then ['['] ++ digits i ++ "] = ".toList else [])
      next (access x.2) fun r =>
        .ok (some (x.1 ++ label ++ (sh r.1 ++ (if i + 1 == n then [] else [' ', ' '])), r.2))) (out, g))
      fun x => .ok (some (x.1 ++ ['\n'], x.2))

/-- `ostream_base_print` of a two-dimensional random expression, array_IO.hpp:301-325; `width` is the computation of the
field width. -/
def printRand2 (f : Format) (digit : Int → Int) (sh : α → List Char) (width : Res Int) (name : List Char) (m n : Nat)
    (access : G → Res (Option (α × G))) (g : G) : Res (Option (List Char × G)) := do
  let out := nameLine name
  let out := if f.detailed && m * n == 0 then out ++ "[]\n".toList else out
  let w ← width
  loop m (fun i x =>
    next (loop n (fun j x => do
      let label ← (if f.detailed then do
          let sp ← smartSpaces digit m i
          pure (['['] ++ digits i ++ [',', ' '] ++ digits j ++ "] =".toList ++ sp)
        else pure [])
      next (access x.2) fun r =>
        .ok (some (x.1 ++ label ++ (pad w (sh r.1) ++ (if (j : Int) + 1 = n then [] else [' ', ' '])), r.2))) x)
      fun x => .ok (some (x.1 ++ ['\n'], x.2))) (out, g)

/-- The field width for a random expression of integers between `low` and `high`, array_IO.hpp:208-210, 276, 288-289. -/
def randIntWidth (t : IntTy) (digit : Int → Int) (low high : Int) : Res Int := do
  let a ← abss t low
  let c ← abss t high
  let m := maxs a c
  pure (if t.signed then digit m + 2 else digit m + 1)

open FVal in
/-- The field width for a random expression of floating-point numbers between `low` and `high`, array_IO.hpp:216-218,
276, 291-296; `maxs`, strict_math.hpp:41-44. -/
def randFloatWidth (lg : ℚ → ℚ) (scientific : Bool) (P : Int) (low high : FVal) : Res Int :=
  let m := if lt (absVal high) (absVal low) then absVal low else absVal high
  if scientific then .ok 0
  else do
    let c ← countDigitV lg m
    let t ← IntTy.int.arith (c + P)
    IntTy.int.arith (t + 2)

end Spp.IO
