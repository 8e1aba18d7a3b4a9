import Verif.Spec.FExpr
import Verif.Spec.Ieee

/-
Bounds on the errors of expressions in IEEE arithmetic: the expression itself, evaluated with pairs of a magnitude and an
error instead of numbers.
-/

namespace Spp.Spec

/-- Bounds on the magnitude of the exact number, on the error of the computed number, and on the magnitudes of all
numbers that are computed on the way. -/
structure Bound where
  size : ℚ
  err : ℚ
  peak : ℚ
deriving DecidableEq

namespace Bound

/-- A number without error. -/
def exact (x : ℚ) : Bound := ⟨|x|, 0, |x|⟩

/-- A number rounded to `p` binary digits, which may add half a unit in the last place to the relative error and
`least` to the error. -/
def rounded (p : Nat) (least size err peak : ℚ) : Bound :=
  let e := err + unit p * (size + err) + least
  ⟨size, e, max peak (size + e)⟩

/-- Sums and differences; they are exact when subnormal. -/
def add (p : Nat) (a b : Bound) : Bound := rounded p 0 (a.size + b.size) (a.err + b.err) (max a.peak b.peak)

/-- Products; half the smallest number is lost when they are subnormal. -/
def mul (p : Nat) (emin : Int) (a b : Bound) : Bound :=
  rounded p (2 ^ emin / 2) (a.size * b.size) (a.err * b.size + a.size * b.err + a.err * b.err) (max a.peak b.peak)

/-- Quotients by a number without error. -/
def div (p : Nat) (emin : Int) (a b : Bound) : Bound :=
  rounded p (2 ^ emin / 2) (a.size / b.size) (a.err / b.size) (max a.peak b.peak)

/-- The arithmetic of bounds.  Only the operations of `FTm` matter. -/
def scalar (p : Nat) (emin : Int) : FScalar Bound where
  zero := exact 0
  one := exact 1
  add a b := .ok (add p a b)
  sub a b := .ok (add p a b)
  mul a b := .ok (mul p emin a b)
  div a b := .ok (div p emin a b)
  ofIndex _ := .ub
  neg a := .ok a
  lt _ _ := false
  le _ _ := false
  eq _ _ := false
  pow _ _ := .ub
  sqrt _ := .ub
  fma _ _ _ := .ub

end Bound

/-- The operation in the arithmetic `sc`. -/
def FOp.run {α : Type} (sc : FScalar α) : FOp → α → α → Res α
  | .add => sc.add
  | .sub => sc.sub
  | .mul => sc.mul

/-- The program text in the arithmetic `sc`; `lit` says which element a number in the text is. -/
def FTm.text {α : Type} (sc : FScalar α) (lit : ℚ → α) : {d : Dim} → FTm d → Tm α d
  | _, .lv l => .lv l
  | _, .view v e => .view v (e.text sc lit)
  | _, .neg e => .unary sc.neg (e.text sc lit)
  | _, .abs e => .unary sc.abss (e.text sc lit)
  | _, .bin o e1 e2 => .binary (o.run sc) (e1.text sc lit) (e2.text sc lit)
  | _, .left o c e => .scalarL (o.run sc) (lit c) (e.text sc lit)
  | _, .right o e c => .scalarR (o.run sc) (e.text sc lit) (lit c)
  | _, .divided e c => .scalarR sc.div (e.text sc lit) (lit c)
  | _, .const1D n c => .const1D n (lit c)
  | _, .const2D m n c => .const2D m n (lit c)
  | _, .merge e1 e2 => .merge (e1.text sc lit) (e2.text sc lit)
  | _, .append e c => .append (e.text sc lit) (lit c)
  | _, .prepend c e => .prepend (lit c) (e.text sc lit)
  | _, .exclude e pos count => .exclude (e.text sc lit) pos count
  | _, .excludeLast e k => .excludeLast (e.text sc lit) k
  | _, .matvec e x => .matvec sc.toArith (e.text sc lit) (x.text sc lit)
  | _, .bcast r e => .bcast r (e.text sc lit)
  | _, .tensor e1 e2 => .tensor sc.toArith (e1.text sc lit) (e2.text sc lit)
  | _, .transpose e => .transpose (e.text sc lit)
  | _, .mergeH e1 e2 => .mergeH (e1.text sc lit) (e2.text sc lit)
  | _, .mergeV e1 e2 => .mergeV (e1.text sc lit) (e2.text sc lit)

/-- The numbers in the text have a property. -/
def FTm.Literals (P : ℚ → Prop) : {d : Dim} → FTm d → Prop
  | _, .lv _ => True
  | _, .view _ e => e.Literals P
  | _, .neg e => e.Literals P
  | _, .abs e => e.Literals P
  | _, .bin _ e1 e2 => e1.Literals P ∧ e2.Literals P
  | _, .left _ c e => P c ∧ e.Literals P
  | _, .right _ e c => P c ∧ e.Literals P
  | _, .divided e c => P c ∧ e.Literals P
  | _, .const1D _ c => P c
  | _, .const2D _ _ c => P c
  | _, .merge e1 e2 => e1.Literals P ∧ e2.Literals P
  | _, .append e c => P c ∧ e.Literals P
  | _, .prepend c e => P c ∧ e.Literals P
  | _, .exclude e _ _ => e.Literals P
  | _, .excludeLast e _ => e.Literals P
  | _, .matvec e x => e.Literals P ∧ x.Literals P
  | _, .bcast _ e => e.Literals P
  | _, .tensor e1 e2 => e1.Literals P ∧ e2.Literals P
  | _, .transpose e => e.Literals P
  | _, .mergeH e1 e2 => e1.Literals P ∧ e2.Literals P
  | _, .mergeV e1 e2 => e1.Literals P ∧ e2.Literals P

/-- The number `c` in a program; it is one of the format. -/
def literal (c : ℚ) : FVal := .fin (decide (c < 0)) |c|

/-- All arrays with other elements. -/
def Store.each {α β : Type} (f : α → β) (s : Store α) : Store β :=
  ⟨fun id => (s.a1 id).map f, fun id => ⟨(s.a2 id).rows, (s.a2 id).cols, (s.a2 id).data.map f⟩⟩

/-- The numbers the elements stand for. -/
def numbersOf (s : Store FVal) : Store ℚ := Store.each FVal.val s

/-- The elements have no errors. -/
def inputs (s : Store FVal) : Store Bound := Store.each (fun x => Bound.exact x.val) s

end Spp.Spec
