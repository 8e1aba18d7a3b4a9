import Verif.Model.Ops

/-
Comparisons with a tolerance and errors: strictpp/Util/error_tools.hpp.

The default tolerance is a parameter.  The overloads that take a braced list convert it to an array and call
these (error_tools.hpp:87-160); they are not repeated.
-/

namespace Spp.ErrorTools

variable {σ α : Type}

/-- `within_tol_abs(x, y, tol)`, error_tools.hpp:33-38. -/
def withinTolAbs (b : Build) (sc : Scalar α) (x y tol : α) : Res Bool := do
  assertDebug b (sc.le sc.zero tol)
  let d ← sc.sub x y
  let a ← sc.abss d
  pure (sc.le a tol)

/-- `within_tol_rel(x, y, tol, near_zero)`, error_tools.hpp:41-54. -/
def withinTolRel (b : Build) (sc : Scalar α) (x y tol nearZero : α) : Res Bool := do
  assertDebug b (sc.le sc.zero tol)
  assertDebug b (sc.le sc.zero nearZero)
  let abs1 ← sc.abss x
  let abs2 ← sc.abss y
  if sc.le (sc.maxs abs1 abs2) nearZero then pure true
  else do
    let d ← sc.sub x y
    let a ← sc.abss d
    let q ← sc.div a (sc.maxs abs1 abs2)
    pure (sc.le q tol)

/-- `within_tol_abs(A1, A2, tol, empty_default)`, error_tools.hpp:58-68. -/
def withinTolAbsArray (b : Build) (d : Dim) (sc : Scalar α) (a1 a2 : Acc σ α) (tol : α) (s : σ)
    (dflt : Bool) : Res Bool := do
  assertDebug b (Acc.sameSize d a1 a2 s)
  let e ← a1.empty s
  if e then pure dflt
  else Ops.allOf2 b d (fun x y => withinTolAbs b sc x y tol) a1 a2 s false

/-- `within_tol_rel(A1, A2, tol, near_zero, empty_default)`, error_tools.hpp:71-84. -/
def withinTolRelArray (b : Build) (d : Dim) (sc : Scalar α) (a1 a2 : Acc σ α) (tol nearZero : α) (s : σ)
    (dflt : Bool) : Res Bool := do
  assertDebug b (Acc.sameSize d a1 a2 s)
  let e ← a1.empty s
  if e then pure dflt
  else Ops.allOf2 b d (fun x y => withinTolRel b sc x y tol nearZero) a1 a2 s false

/-- `abs_error(approx, exact)`, error_tools.hpp:164-167. -/
def absError (sc : Scalar α) (approx exact : α) : Res α := do
  let d ← sc.sub approx exact
  sc.abss d

/-- `rel_error(approx, exact)`, error_tools.hpp:170-176. -/
def relError (sc : Scalar α) (approx exact : α) : Res (Option α) :=
  if sc.eq approx sc.zero || sc.eq exact sc.zero then pure none
  else do
    let d ← sc.sub approx exact
    let q ← sc.div d exact
    let a ← sc.abss q
    pure (some a)

/-- `max_abs_error(approx, exact, empty_default)`, error_tools.hpp:180-190. -/
def maxAbsError (b : Build) (d : Dim) (sc : Scalar α) (approx exact : Acc σ α) (s : σ) (dflt : α) : Res α := do
  assertDebug b (Acc.sameSize d approx exact s)
  let e ← approx.empty s
  if e then pure dflt
  else do
    let t ← Tm.mkBinary b d sc.sub approx exact s
    Ops.normInf sc t s sc.zero

/-- `max_rel_error(approx, exact, empty_default)`, error_tools.hpp:193-207.  The `||` of strict booleans
(strict_val.hpp:467-470) evaluates both operands. -/
def maxRelError (b : Build) (d : Dim) (sc : Scalar α) (approx exact : Acc σ α) (s : σ) (dflt : α) :
    Res (Option α) := do
  assertDebug b (Acc.sameSize d approx exact s)
  let e ← approx.empty s
  if e then pure (some dflt)
  else do
    let z1 ← Ops.hasZero sc approx s false
    let z2 ← Ops.hasZero sc exact s false
    if z1 || z2 then pure none
    else do
      let t ← Tm.mkBinary b d sc.sub approx exact s
      let q ← Tm.mkBinary b d sc.div t exact s
      let v ← Ops.normInf sc q s sc.zero
      pure (some v)

end Spp.ErrorTools
