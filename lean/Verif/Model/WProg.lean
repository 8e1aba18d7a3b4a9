import Verif.Spec.WProg
import Verif.Model.EProg

/-
Executing the programs of Spec/WProg.lean with the modelled functions.
-/

namespace Spp
open Spec (Reduction Query Test WProg)

variable {α : Type} [Inhabited α]

/-- `t[p]` of an expression, derived1D.hpp:56-68. -/
def readElem1 (b : Build) (t : Tm α .one) (p : Pos) (s : Store α) : Res α := do
  let a ← t.build b s
  assertDebugM b (do let i ← p.resolve (a.rows s); pure (validIndex (a.rows s) i))
  let i ← p.resolve (a.rows s)
  a.un s i

/-- `t(p, q)` of an expression, derived2D.hpp:58-75. -/
def readElem2 (b : Build) (t : Tm α .two) (p q : Pos) (s : Store α) : Res α := do
  let a ← t.build b s
  let i ← p.resolve (a.rows s)
  let j ← q.resolve (a.cols s)
  assertDebug b (validIndex (a.rows s) i && validIndex (a.cols s) j)
  a.un2 s i j

/-- `sum`, `prod`, `mean`, `min`, `max`, `norm_inf`, `norm1`, `norm1_scaled`, `norm2`, `norm2_scaled` with a default for empty
arrays: array_ops.hpp:314-371, 482-525. -/
def execReduction (b : Build) (d : Dim) (sc : Scalar α) (dflt : α) (a : Acc (Store α) α) (s : Store α) : Reduction → Res α
  | .sum => Ops.sum sc.toArith a s dflt
  | .prod => Ops.prod sc.toArith a s dflt
  | .mean => Ops.mean sc.toArith a s dflt
  | .min => Ops.min sc a s dflt
  | .max => Ops.max sc a s dflt
  | .norm1 => Ops.norm1 sc a s dflt
  | .normInf => Ops.normInf sc a s dflt
  | .norm2 => Ops.norm2 b d sc a s dflt
  | .norm1Scaled => Ops.norm1Scaled sc a s dflt
  | .norm2Scaled => Ops.norm2Scaled b d sc a s dflt

/-- Compute a number: the argument, an expression, is built first, then the function (array_ops.hpp:314-371, 471-525,
552-562) or the
subscript (derived1D.hpp:56-68, derived2D.hpp:58-75) is called. -/
def queryRun (b : Build) (s : Store α) : Query α → Res α
  | .lit x => .ok x
  | .elem1 t p => readElem1 b t p s
  | .elem2 t p q => readElem2 b t p q s
  | .reduce (d := d) sc f dflt t => do
      let a ← t.build b s
      execReduction b d sc dflt a s f
  | .dot (d := d) ar dflt t1 t2 => do
      let a1 ← t1.build b s
      let a2 ← t2.build b s
      Ops.dotProd b d ar a1 a2 s dflt
  | .poly ar x dflt t => do
      let a ← t.build b s
      Ops.polynomial b ar a x s dflt

/-- Compute a condition: comparisons of numbers (strict_val.hpp:474-513), `A == B` (array_auxiliary.hpp:65-77), `any_of`
and `all_of` (array_ops.hpp:687-701, 732-746), `!`, `&&`, `||` of strict booleans (strict_val.hpp:65-69, 461-470), which are functions
and compute both operands.  The left operand is computed first; C++ leaves the order open. -/
def testRun (b : Build) (s : Store α) : Test α → Res Bool
  | .cmp f x y => do
      let a ← queryRun b s x
      let c ← queryRun b s y
      pure (f a c)
  | .equal (d := d) ne t1 t2 => do
      let a1 ← t1.build b s
      let a2 ← t2.build b s
      Ops.equal d ne a1 a2 s
  | .any f dflt t => do
      let a ← t.build b s
      Ops.anyOf (fun x => .ok (f x)) a s dflt
  | .all f dflt t => do
      let a ← t.build b s
      Ops.allOf (fun x => .ok (f x)) a s dflt
  | .not c => do
      let v ← testRun b s c
      pure (!v)
  | .and c1 c2 => do
      let v ← testRun b s c1
      let w ← testRun b s c2
      pure (v && w)
  | .or c1 c2 => do
      let v ← testRun b s c1
      let w ← testRun b s c2
      pure (v || w)

/-- Execute a program, followed for at most `fuel` nested steps; `none`: it has not ended by then.  Control flow is that
of C++; the statements are those of Model/EProg.lean (calls of array_base1D.hpp:130-520 and
array_base2D.hpp:153-732). -/
def wprogRun (b : Build) : Nat → WProg α → Store α → Option (Res Unit × Store α)
  | 0, _, _ => none
  | _ + 1, .prog p, s => some (eprogRun b p s)
  | n + 1, .ask q k, s =>
      match queryRun b s q with
      | .ok x => wprogRun b n (k x) s
      | .trap e => some (.trap e, s)
      | .ub => some (.ub, s)
  | n + 1, .cond c p q, s =>
      match testRun b s c with
      | .ok true => wprogRun b n p s
      | .ok false => wprogRun b n q s
      | .trap e => some (.trap e, s)
      | .ub => some (.ub, s)
  | n + 1, .whileDo c p, s =>
      match testRun b s c with
      | .ok true =>
        match wprogRun b n p s with
        | some (.ok _, s') => wprogRun b n (.whileDo c p) s'
        | r => r
      | .ok false => some (.ok (), s)
      | .trap e => some (.trap e, s)
      | .ub => some (.ub, s)
  | n + 1, .seq p q, s =>
      match wprogRun b n p s with
      | some (.ok _, s') => wprogRun b n q s'
      | r => r
  | n + 1, .tryCatch p q, s =>
      match wprogRun b n p s with
      | some (.trap .exception, s') => wprogRun b n q s'
      | r => r

end Spp
