import Verif.Model.ErrorTools
import Verif.Model.StableOps

/-
The program examples/example4.cpp: relative errors of `polynomial` and `stable_polynomial`, measured against
`polynomial` in a wider type.

The numbers drawn by `rands` and `random` are an input: for every iteration the point and the coefficients (C83 says
what `random` fills in).  `α` is the narrow type with the arithmetic `fs`, `β` the wide type with the arithmetic `sq`,
`widen` the conversion `.sq()` and the function object of `array_cast`.  What the program prints is its result.
-/

namespace Spp.Examples

variable {α β : Type}

/-- The array `C` as an operand of functions. array_base1D.hpp:216-520, `un` and `size`. -/
def coeffs (C : List α) : Acc Unit α := .oneD (fun _ => len C) (fun _ i => rd C i)

/-- `array_cast<float128>(C)`, unary.hpp:340-343 with functors.hpp:166-172. -/
def widened (widen : α → β) (C : List α) : Acc Unit β :=
  .oneD (fun _ => len C) (fun _ i => do
    let c ← rd C i
    pure (widen c))

/-- The two relative errors of one iteration, example4.cpp:24-29. -/
def polyErrors (b : Build) (fs : FScalar α) (sq : Scalar β) (widen : α → β) (x : α) (C : List α) :
    Res (Option β × Option β) := do
  let p ← Ops.polynomial b fs.toArith (coeffs C) x () fs.zero
  let pst ← Stable.polynomial b fs (coeffs C) x () fs.zero
  let pq ← Ops.polynomial b sq.toArith (widened widen C) (widen x) () sq.zero
  let rel ← ErrorTools.relError sq (widen p) pq
  let relStable ← ErrorTools.relError sq (widen pst) pq
  pure (rel, relStable)

/-- `max_err`, `sum_err`, `max_err_stable` and `sum_err_stable`, example4.cpp:14-15. -/
structure Stats (β : Type) where
  maxErr : β
  sumErr : β
  maxStable : β
  sumStable : β

/-- The end of the loop body, example4.cpp:30-37; the exception is `std::runtime_error`. -/
def record (sq : Scalar β) (st : Stats β) : Option β × Option β → Res (Stats β)
  | (some r, some t) => do
      let s1 ← sq.add st.sumErr r
      let m1 := sq.maxs st.maxErr r
      let s2 ← sq.add st.sumStable t
      let m2 := sq.maxs st.maxStable t
      pure ⟨m1, s1, m2, s2⟩
  | _ => .trap .exception

/-- The loop, example4.cpp:19-38: one entry of `draws` per iteration. -/
def polyStats (b : Build) (fs : FScalar α) (sq : Scalar β) (widen : α → β) (draws : List (α × List α)) :
    Res (Stats β) :=
  draws.foldlM (fun st d => do
    let e ← polyErrors b fs sq widen d.1 d.2
    record sq st e) ⟨sq.zero, sq.zero, sq.zero, sq.zero⟩

/-- The numbers printed, example4.cpp:43-47: the maximum and the average for `polynomial`, the maximum and the average
for `stable_polynomial`. -/
def polyReport (b : Build) (fs : FScalar α) (sq : Scalar β) (widen : α → β) (draws : List (α × List α)) :
    Res (β × β × β × β) := do
  let st ← polyStats b fs sq widen draws
  let n ← sq.ofIndex draws.length
  let a1 ← sq.div st.sumErr n
  let n ← sq.ofIndex draws.length
  let a2 ← sq.div st.sumStable n
  pure (st.maxErr, a1, st.maxStable, a2)

end Spp.Examples
