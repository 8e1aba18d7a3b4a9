import Verif.Model.IndexRange
import Verif.Spec.Expr
import Verif.Spec.Iter

/-
What loops over index ranges do.
-/

namespace Spp.Spec

/-- The number of indexes for an object with `m` rows and `n` columns (a list has `m` elements).  `none`: the
object has no last element, row or column to leave out. -/
def rangeCount (m n : Nat) : Range → Option Nat
  | .elems => some m
  | .elemsM1 => if m = 0 then none else some (m - 1)
  | .rows => some m
  | .rowsM1 => if m = 0 then none else some (m - 1)
  | .cols => some n
  | .colsM1 => if n = 0 then none else some (n - 1)

/-- `irange` and `irange_m1` are for one dimension, the other functions for two. -/
def rangeFits : Dim → Range → Prop
  | .one, k => k = .elems ∨ k = .elemsM1
  | .two, k => k ≠ .elems ∧ k ≠ .elemsM1

/-- The loop `for(i = 0; i < n; ++i) body(i)`. -/
def countingLoop {σ : Type} (n : Nat) (body : Int → Op σ Unit) : Op σ Unit :=
  Op.forN n (fun i => body i)

end Spp.Spec
