import Verif.Spec.FBound

/-
Contraction: a compiler that inlines an element of an expression may compute a product and a sum or difference that uses
it with one rounding (`-ffp-contract=fast`, the default of GCC when the processor has such instructions, which
tests/CMakeLists.txt:62-66 and benchmarks/CMakeLists.txt:50-54 ask for with `-march=native`).
-/

namespace Spp.Spec

/-- The formula of one element: elements of arrays, numbers of the text and operations. -/
inductive Formula where
  | elem (x : FVal)
  | num (c : ℚ)
  | neg (a : Formula)
  | abs (a : Formula)
  | add (a b : Formula)
  | sub (a b : Formula)
  | mul (a b : Formula)
  | div (a : Formula) (c : ℚ)

namespace Formula

mutual

/-- `v` may be computed for the formula.  A product may be computed exactly on its way into a sum or difference. -/
def Computes (F : Fmt) : Formula → FVal → Prop
  | elem x, v => v = x
  | num c, v => v = literal c
  | neg a, v => ∃ x, a.Computes F x ∧ v = FVal.neg x
  | abs a, v => ∃ x, a.Computes F x ∧ F.scalar.abss x = .ok v
  | add a b, v =>
      (∃ x y, a.Computes F x ∧ b.Computes F y ∧ v = FVal.add F x y) ∨
      (∃ x y z, a.Product F x y ∧ b.Computes F z ∧ v = FVal.fma F x y z) ∨
      (∃ x y z, b.Product F x y ∧ a.Computes F z ∧ v = FVal.fma F x y z)
  | sub a b, v =>
      (∃ x y, a.Computes F x ∧ b.Computes F y ∧ v = FVal.sub F x y) ∨
      (∃ x y z, a.Product F x y ∧ b.Computes F z ∧ v = FVal.fma F x y (FVal.neg z)) ∨
      (∃ x y z, b.Product F x y ∧ a.Computes F z ∧ v = FVal.fma F (FVal.neg x) y z)
  | mul a b, v => ∃ x y, a.Computes F x ∧ b.Computes F y ∧ v = FVal.mul F x y
  | div a c, v => ∃ x, a.Computes F x ∧ v = FVal.div F x (literal c)

/-- The formula is a product, perhaps with another sign, and its factors may be computed as `x` and `y`. -/
def Product (F : Fmt) : Formula → FVal → FVal → Prop
  | mul a b, x, y => a.Computes F x ∧ b.Computes F y
  | neg a, x, y => ∃ x', a.Product F x' y ∧ x = FVal.neg x'
  | _, _, _ => False

end

/-- The operations on formulas. -/
def arith : Arith Formula where
  zero := elem (.fin false 0)
  one := num 1
  add a b := .ok (add a b)
  sub a b := .ok (sub a b)
  mul a b := .ok (mul a b)
  div _ _ := .ub
  ofIndex _ := .ub

end Formula

/-- The operation on formulas. -/
def FOp.formula : FOp → Formula → Formula → Res Formula
  | .add => Formula.arith.add
  | .sub => Formula.arith.sub
  | .mul => Formula.arith.mul

/-- The program text with formulas as elements. -/
def FTm.formulas : {d : Dim} → FTm d → Tm Formula d
  | _, .lv l => .lv l
  | _, .view v e => .view v e.formulas
  | _, .neg e => .unary (fun a => .ok (.neg a)) e.formulas
  | _, .abs e => .unary (fun a => .ok (.abs a)) e.formulas
  | _, .bin o e1 e2 => .binary o.formula e1.formulas e2.formulas
  | _, .left o c e => .scalarL o.formula (.num c) e.formulas
  | _, .right o e c => .scalarR o.formula e.formulas (.num c)
  | _, .divided e c => .unary (fun a => .ok (.div a c)) e.formulas
  | _, .const1D n c => .const1D n (.num c)
  | _, .const2D m n c => .const2D m n (.num c)
  | _, .merge e1 e2 => .merge e1.formulas e2.formulas
  | _, .append e c => .append e.formulas (.num c)
  | _, .prepend c e => .prepend (.num c) e.formulas
  | _, .exclude e pos count => .exclude e.formulas pos count
  | _, .excludeLast e k => .excludeLast e.formulas k
  | _, .matvec e x => .matvec Formula.arith e.formulas x.formulas
  | _, .bcast r e => .bcast r e.formulas
  | _, .tensor e1 e2 => .tensor Formula.arith e1.formulas e2.formulas
  | _, .transpose e => .transpose e.formulas
  | _, .mergeH e1 e2 => .mergeH e1.formulas e2.formulas
  | _, .mergeV e1 e2 => .mergeV e1.formulas e2.formulas

/-- Every element stands for itself. -/
def symbols (s : Store FVal) : Store Formula := Store.each Formula.elem s

end Spp.Spec
