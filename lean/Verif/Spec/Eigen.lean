import Verif.Spec.Array2D
import Verif.Spec.Float

/- Products of matrices. -/

namespace Spp.Spec

/-- The factors of coefficient (i, j) of the product: row `i` of `M` against column `j` of `N`. -/
def Mat.factors {α : Type} (M N : Mat α) (i j : Nat) : List (α × α) :=
  (List.range M.n).map fun k => (M.el i k, N.el k j)

/-- The sizes fit: `M * N` exists and `C` has its size. -/
def Mat.Fits {α : Type} (M N C : Mat α) : Prop := M.n = N.m ∧ C.m = M.m ∧ C.n = N.n

/-- The exact sum of products. -/
def sumOfProducts {R : Type} [Zero R] [Add R] [Mul R] (l : List (R × R)) : R := (l.map fun q => q.1 * q.2).sum

/-- The sum of the absolute values of the products. -/
def sumOfAbsProducts {R : Type} [Zero R] [Add R] [Mul R] [Neg R] [Max R] (l : List (R × R)) : R :=
  (l.map fun q => max (q.1 * q.2) (-(q.1 * q.2))).sum

/-- Built-in integer arithmetic with largest value `top`: in whatever order the products are added, the sum is exact
if not even the sum of the absolute values exceeds `top`. -/
def ExactDot (top : Int) (dot : List (Int × Int) → Option Int) : Prop :=
  ∀ l, sumOfAbsProducts l ≤ top → dot l = some (sumOfProducts l)

/-- `v` is the result of adding up the products of `l` in some order and grouping, every multiplication and addition
rounded by `rn`, with or without fused multiply-add. -/
inductive Computes (rn : ℚ → ℚ) : List (ℚ × ℚ) → ℚ → Prop where
  | nil : Computes rn [] 0
  | prod (x y : ℚ) : Computes rn [(x, y)] (rn (x * y))
  | add {l l' : List (ℚ × ℚ)} {v v' : ℚ} : Computes rn l v → Computes rn l' v' → Computes rn (l ++ l') (rn (v + v'))
  | fma {l : List (ℚ × ℚ)} {v : ℚ} (x y : ℚ) : Computes rn l v → Computes rn ((x, y) :: l) (rn (x * y + v))
  | perm {l l' : List (ℚ × ℚ)} {v : ℚ} : l.Perm l' → Computes rn l v → Computes rn l' v

end Spp.Spec
