import Verif.Spec.Expr

/-
What it means that the text of an expression denotes a list or matrix.
-/

namespace Spp.Spec

/-- Executing the text of expression `t` while the arrays hold `s0` succeeds, and from then on,
whatever the arrays contain (as long as their sizes stay the same), the resulting object reads as the
list or matrix `x s`.  The size of `x` is fixed and small enough for `index_t`. -/
def Gives {α : Type} {d : Dim} (b : Build) (s0 : Store α) (t : Tm α d) (x : Store α → Sem α d) :
    Prop :=
  Small (x s0) ∧ (∀ s, SameSizes s0 s → (x s).dims = (x s0).dims) ∧
  ∃ a, t.build b s0 = .ok a ∧ ∀ s, SameSizes s0 s → Den d a s (x s)

namespace Mat

/-- The columns of a matrix, from left to right. -/
def columns {β : Type} (M : Mat β) : List (List β) := (List.range M.n).map M.col

/-- The rows of a matrix, from top to bottom. -/
def lines {β : Type} (M : Mat β) : List (List β) := (List.range M.m).map M.row

end Mat

/-- No functor, scalar operation or reduction in the expression has undefined behaviour of its own.
(Integer overflow in an element operation, say, is not an access to memory.) -/
def _root_.Spp.Tm.Total {α : Type} : {d : Dim} → Tm α d → Prop
  | _, .lv _ => True
  | _, .view _ t => t.Total
  | _, .unary f t => (∀ x, f x ≠ .ub) ∧ t.Total
  | _, .binary f t1 t2 => (∀ x y, f x y ≠ .ub) ∧ t1.Total ∧ t2.Total
  | _, .scalarL f _ t => (∀ x y, f x y ≠ .ub) ∧ t.Total
  | _, .scalarR f t _ => (∀ x y, f x y ≠ .ub) ∧ t.Total
  | _, .sequence ar _ _ _ => ArTotal ar
  | _, .linspace ar _ _ _ => ArTotal ar
  | _, .eUnit _ _ _ => True
  | _, .const1D _ _ => True
  | _, .const2D _ _ _ => True
  | _, .identity _ _ => True
  | _, .merge t1 t2 => t1.Total ∧ t2.Total
  | _, .append t _ => t.Total
  | _, .prepend _ t => t.Total
  | _, .exclude t _ _ => t.Total
  | _, .excludeLast t _ => t.Total
  | _, .reduce _ g t => (∀ l : List (Res α), (∀ r ∈ l, r ≠ .ub) → g l ≠ .ub) ∧ t.Total
  | _, .matvec ar t x => ArTotal ar ∧ t.Total ∧ x.Total
  | _, .bcast _ t => t.Total
  | _, .tensor ar t1 t2 => ArTotal ar ∧ t1.Total ∧ t2.Total
  | _, .transpose t => t.Total
  | _, .mergeH t1 t2 => t1.Total ∧ t2.Total
  | _, .mergeV t1 t2 => t1.Total ∧ t2.Total
where
  ArTotal (ar : Arith α) : Prop :=
    (∀ x y, ar.add x y ≠ .ub) ∧ (∀ x y, ar.sub x y ≠ .ub) ∧ (∀ x y, ar.mul x y ≠ .ub) ∧
    (∀ x y, ar.div x y ≠ .ub) ∧ ∀ i, ar.ofIndex i ≠ .ub

end Spp.Spec
