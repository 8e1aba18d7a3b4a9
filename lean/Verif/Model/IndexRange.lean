import Verif.Model.Iter

/-
`irange` of arrays and loops over it: strictpp/Expr/special.hpp:447-486.
-/

namespace Spp

/-- The arithmetic of `index_t` (only `+` and `*` are used). `irange`, Expr/special.hpp:447-486. -/
def indexes : Arith Int := ⟨0, 1, iadd, isub, imul, idiv ⟨true, true, true⟩, Res.ok⟩

/-- Which of the functions is called. `irange`, Expr/special.hpp:447-486. -/
inductive Range where
  | elems   -- `irange(A)`
  | elemsM1 -- `irange_m1(A)`
  | rows    -- `irange_row(A)`
  | rowsM1  -- `irange_row_m1(A)`
  | cols    -- `irange_col(A)`
  | colsM1  -- `irange_col_m1(A)`
  deriving DecidableEq, Repr

namespace Range

variable {σ β : Type}

/-- The number handed to `irange(n)`: special.hpp:452-486, derived1D.hpp:98-100. -/
def count (k : Range) (a : Acc σ β) (s : σ) : Res Int :=
  match k with
  | .elems => a.size s
  | .elemsM1 => do let n ← a.size s; isub n 1
  | .rows => .ok (a.rows s)
  | .rowsM1 => isub (a.rows s) 1
  | .cols => .ok (a.cols s)
  | .colsM1 => isub (a.cols s) 1

/-- The object returned, special.hpp:447-449: it holds the number, not the array. -/
def mk (b : Build) (k : Range) (a : Acc σ β) (s : σ) : Res (Acc σ Int) := do
  let n ← k.count a s
  Tm.mkSequence b indexes n 0 1

/-- `for(auto i : irange(A)) body(i)`, followed for at most `fuel` steps. `irange`, Expr/special.hpp:447-486. -/
def each (b : Build) (k : Range) (a : Acc σ β) (body : Int → Op σ Unit) (fuel : Nat) :
    Op σ (Option Unit) := do
  let s : σ ← Op.get
  let r ← Op.lift (k.mk b a s)
  It.each b (fun _ => .index r) 0 body fuel

end Range

end Spp
