import Verif.Model.Expr

/-
Variadic overloads of `merge`, `merge_horizontal` and `merge_vertical`
(strictpp/Expr/special.hpp:287-390): how the recursion on the parameter pack nests the binary
overloads.  The recursive overload for arrays repeats the body of the binary one with
`ArgsE = merge(AArgs...)` as the second operand.
-/

namespace Spp.Tm

variable {α : Type}

/-- `merge(A1, A2, As...)`, special.hpp:287-293; the recursion ends in the binary overload 296-302. -/
def mergeN (t1 t2 : Tm α .one) : List (Tm α .one) → Tm α .one
  | [] => .merge t1 t2
  | t3 :: ts => .merge t1 (mergeN t2 t3 ts)

/-- `merge(A, x1, ..., xn)` with `n >= 1` scalars, special.hpp:305-316: `merge(merge(A, x), xs...)`. -/
def appendN (t : Tm α .one) (x : α) : List α → Tm α .one
  | [] => .append t x
  | y :: ys => appendN (.append t x) y ys

/-- `merge(x1, ..., xn, A)` with `n >= 1` scalars, special.hpp:319-332: `merge(x1, merge(x2, ...))`. -/
def prependN (x : α) : List α → Tm α .one → Tm α .one
  | [], t => .prepend x t
  | y :: ys, t => .prepend x (prependN y ys t)

/-- `merge_horizontal(A1, A2, As...)`, special.hpp:336-361. -/
def mergeHN (t1 t2 : Tm α .two) : List (Tm α .two) → Tm α .two
  | [] => .mergeH t1 t2
  | t3 :: ts => .mergeH t1 (mergeHN t2 t3 ts)

/-- `merge_vertical(A1, A2, As...)`, special.hpp:364-389. -/
def mergeVN (t1 t2 : Tm α .two) : List (Tm α .two) → Tm α .two
  | [] => .mergeV t1 t2
  | t3 :: ts => .mergeV t1 (mergeVN t2 t3 ts)

/-- `irange(n)`, special.hpp:447-449: the sequence `0, 1, ..., n-1` of `index_t`. -/
def irange (ar : Arith α) (n : Int) : Tm α .one := .sequence ar n ar.zero ar.one

end Spp.Tm
