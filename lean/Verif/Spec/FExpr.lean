import Verif.Model.StableOps
import Verif.Spec.Expr
import Mathlib.Algebra.Order.Ring.Rat
import Mathlib.Algebra.Order.AbsoluteValue.Basic

/-
Expressions of floating-point arrays made of sums, differences, products, divisions by a number and everything that only
rearranges elements: the expression as it is written in a program, the same expression with magnitudes, and the number of
roundings that an element goes through.
-/

namespace Spp.Spec

/-- An arithmetic operation of two arrays or of an array and a number. -/
inductive FOp where
  | add | sub | mul

/-- Expressions of numbers.  `left o c e` is `c o e`, `right o e c` is `e o c`, `divided e c` is `e / c`. -/
inductive FTm : Dim → Type where
  | lv (l : Lv d) : FTm d
  | view (v : View d d') (e : FTm d) : FTm d'
  | neg (e : FTm d) : FTm d
  | abs (e : FTm d) : FTm d
  | bin (o : FOp) (e1 e2 : FTm d) : FTm d
  | left (o : FOp) (c : ℚ) (e : FTm d) : FTm d
  | right (o : FOp) (e : FTm d) (c : ℚ) : FTm d
  | divided (e : FTm d) (c : ℚ) : FTm d
  | const1D (n : Int) (c : ℚ) : FTm .one
  | const2D (m n : Int) (c : ℚ) : FTm .two
  | merge (e1 e2 : FTm .one) : FTm .one
  | append (e : FTm .one) (c : ℚ) : FTm .one
  | prepend (c : ℚ) (e : FTm .one) : FTm .one
  | exclude (e : FTm .one) (pos count : Int) : FTm .one
  | excludeLast (e : FTm .one) (k : Int) : FTm .one
  | matvec (e : FTm .two) (x : FTm .one) : FTm .one
  | bcast (rowwise : Bool) (e : FTm .one) : FTm .two
  | tensor (e1 e2 : FTm .one) : FTm .two
  | transpose (e : FTm .two) : FTm .two
  | mergeH (e1 e2 : FTm .two) : FTm .two
  | mergeV (e1 e2 : FTm .two) : FTm .two

/-- The operation in the arithmetic `fs`. -/
def FOp.op (fs : FScalar ℚ) : FOp → ℚ → ℚ → Res ℚ
  | .add => fs.add
  | .sub => fs.sub
  | .mul => fs.mul

namespace FTm

/-- The program text, with the operations of `fs`. -/
def tm (fs : FScalar ℚ) : {d : Dim} → FTm d → Tm ℚ d
  | _, .lv l => .lv l
  | _, .view v e => .view v (e.tm fs)
  | _, .neg e => .unary fs.neg (e.tm fs)
  | _, .abs e => .unary fs.abss (e.tm fs)
  | _, .bin o e1 e2 => .binary (o.op fs) (e1.tm fs) (e2.tm fs)
  | _, .left o c e => .scalarL (o.op fs) c (e.tm fs)
  | _, .right o e c => .scalarR (o.op fs) (e.tm fs) c
  | _, .divided e c => .scalarR fs.div (e.tm fs) c
  | _, .const1D n c => .const1D n c
  | _, .const2D m n c => .const2D m n c
  | _, .merge e1 e2 => .merge (e1.tm fs) (e2.tm fs)
  | _, .append e c => .append (e.tm fs) c
  | _, .prepend c e => .prepend c (e.tm fs)
  | _, .exclude e pos count => .exclude (e.tm fs) pos count
  | _, .excludeLast e k => .excludeLast (e.tm fs) k
  | _, .matvec e x => .matvec fs.toArith (e.tm fs) (x.tm fs)
  | _, .bcast r e => .bcast r (e.tm fs)
  | _, .tensor e1 e2 => .tensor fs.toArith (e1.tm fs) (e2.tm fs)
  | _, .transpose e => .transpose (e.tm fs)
  | _, .mergeH e1 e2 => .mergeH (e1.tm fs) (e2.tm fs)
  | _, .mergeV e1 e2 => .mergeV (e1.tm fs) (e2.tm fs)

/-- The operation on magnitudes: differences become sums. -/
def _root_.Spp.Spec.FOp.mag : FOp → FOp
  | .sub => .add
  | o => o

/-- The same expression with magnitudes: no signs, differences become sums, numbers their absolute values. -/
def mag : {d : Dim} → FTm d → FTm d
  | _, .lv l => .lv l
  | _, .view v e => .view v e.mag
  | _, .neg e => e.mag
  | _, .abs e => e.mag
  | _, .bin o e1 e2 => .bin o.mag e1.mag e2.mag
  | _, .left o c e => .left o.mag |c| e.mag
  | _, .right o e c => .right o.mag e.mag |c|
  | _, .divided e c => .divided e.mag |c|
  | _, .const1D n c => .const1D n |c|
  | _, .const2D m n c => .const2D m n |c|
  | _, .merge e1 e2 => .merge e1.mag e2.mag
  | _, .append e c => .append e.mag |c|
  | _, .prepend c e => .prepend |c| e.mag
  | _, .exclude e pos count => .exclude e.mag pos count
  | _, .excludeLast e k => .excludeLast e.mag k
  | _, .matvec e x => .matvec e.mag x.mag
  | _, .bcast r e => .bcast r e.mag
  | _, .tensor e1 e2 => .tensor e1.mag e2.mag
  | _, .transpose e => .transpose e.mag
  | _, .mergeH e1 e2 => .mergeH e1.mag e2.mag
  | _, .mergeV e1 e2 => .mergeV e1.mag e2.mag

/-- The roundings of a sum or difference whose operands went through `k` and `j` roundings: the larger number and one
more; of a product: both and one more. -/
def _root_.Spp.Spec.FOp.roundings (k j : Nat) : FOp → Nat
  | .mul => k + j + 1
  | _ => max k j + 1

/-- The number of roundings that an element of the expression goes through, at most.  A product of a matrix and a
vector adds up as many products as the matrix has columns. -/
def roundings (fs : FScalar ℚ) (s : Store ℚ) : {d : Dim} → FTm d → Nat
  | _, .lv _ => 0
  | _, .view _ e => e.roundings fs s
  | _, .neg e => e.roundings fs s
  | _, .abs e => e.roundings fs s
  | _, .bin o e1 e2 => o.roundings (e1.roundings fs s) (e2.roundings fs s)
  | _, .left _ _ e => e.roundings fs s + 1
  | _, .right _ e _ => e.roundings fs s + 1
  | _, .divided e _ => e.roundings fs s + 1
  | _, .const1D _ _ => 0
  | _, .const2D _ _ _ => 0
  | _, .merge e1 e2 => max (e1.roundings fs s) (e2.roundings fs s)
  | _, .append e _ => e.roundings fs s
  | _, .prepend _ e => e.roundings fs s
  | _, .exclude e _ _ => e.roundings fs s
  | _, .excludeLast e _ => e.roundings fs s
  | _, .matvec e x => e.roundings fs s + x.roundings fs s + 1 + ((e.tm fs).meaning s).dims.2
  | _, .bcast _ e => e.roundings fs s
  | _, .tensor e1 e2 => e1.roundings fs s + e2.roundings fs s + 1
  | _, .transpose e => e.roundings fs s
  | _, .mergeH e1 e2 => max (e1.roundings fs s) (e2.roundings fs s)
  | _, .mergeV e1 e2 => max (e1.roundings fs s) (e2.roundings fs s)

/-- No division by zero. -/
def Divides : {d : Dim} → FTm d → Prop
  | _, .lv _ => True
  | _, .view _ e => e.Divides
  | _, .neg e => e.Divides
  | _, .abs e => e.Divides
  | _, .bin _ e1 e2 => e1.Divides ∧ e2.Divides
  | _, .left _ _ e => e.Divides
  | _, .right _ e _ => e.Divides
  | _, .divided e c => c ≠ 0 ∧ e.Divides
  | _, .const1D _ _ => True
  | _, .const2D _ _ _ => True
  | _, .merge e1 e2 => e1.Divides ∧ e2.Divides
  | _, .append e _ => e.Divides
  | _, .prepend _ e => e.Divides
  | _, .exclude e _ _ => e.Divides
  | _, .excludeLast e _ => e.Divides
  | _, .matvec e x => e.Divides ∧ x.Divides
  | _, .bcast _ e => e.Divides
  | _, .tensor e1 e2 => e1.Divides ∧ e2.Divides
  | _, .transpose e => e.Divides
  | _, .mergeH e1 e2 => e1.Divides ∧ e2.Divides
  | _, .mergeV e1 e2 => e1.Divides ∧ e2.Divides

/-- The expression is the one with magnitudes already: no signs, differences or negative numbers. -/
def Positive {d : Dim} (e : FTm d) : Prop := e.mag = e

end FTm

/-- All arrays with the absolute values of their elements. -/
def magnitudes (s : Store ℚ) : Store ℚ :=
  ⟨fun id => (s.a1 id).map (fun x => |x|),
   fun id => ⟨(s.a2 id).rows, (s.a2 id).cols, (s.a2 id).data.map (fun x => |x|)⟩⟩

end Spp.Spec
