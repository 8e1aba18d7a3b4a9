import Verif.Spec.Gives
import Verif.Spec.Assign

/-
Programs of realistic size.  Checks such as `start + stride * (size - 1) < size()` are themselves
computed in 64-bit arithmetic, so a request with astronomically large numbers can overflow inside the
check.  Here: all numbers in a program are at most 2^31 in absolute value, and every object that can
be built has fewer than 2^62 elements.  Nothing is said about the numbers being *right*: positions
may lie outside the objects, sizes may be negative or mismatched.
-/

namespace Spp.Spec

/-- A number of at most 2^31 in absolute value. -/
def Modest (x : Int) : Prop := -2 ^ 31 ≤ x ∧ x ≤ 2 ^ 31

instance (x : Int) : Decidable (Modest x) := inferInstanceAs (Decidable (_ ∧ _))

/-- Fewer than 2^62 elements, and no rows exactly when there are no columns. -/
def Roomy {β : Type} : {d : Dim} → Sem β d → Prop
  | .one, l => (List.length l : Int) < 2 ^ 62
  | .two, M => ((M.m * M.n : Nat) : Int) < 2 ^ 62 ∧ (M.m = 0 ↔ M.n = 0)

/-- Every array has the shape the array classes guarantee and fewer than 2^62 elements. -/
def _root_.Spp.Store.Roomy {α : Type} (s : Store α) : Prop :=
  (∀ id, ((s.a1 id).length : Int) < 2 ^ 62) ∧
  (∀ id, Shape (s.a2 id) ∧ ((s.a2 id).data.length : Int) < 2 ^ 62)

/-- All numbers in the request are modest. -/
def _root_.Spp.SliceReq.Modest : SliceReq → Prop
  | .seqN start size stride => Spec.Modest start ∧ Spec.Modest size ∧ Spec.Modest stride
  | .seq first last stride => Spec.Modest first ∧ Spec.Modest last ∧ Spec.Modest stride
  | .skipN k => Spec.Modest k
  | .firstN k => Spec.Modest k
  | .lastN k => Spec.Modest k
  | .vec idx => ∀ i ∈ idx, Spec.Modest i
  | .complement idx => ∀ i ∈ idx, Spec.Modest i
  | _ => True

/-- The number in the position is modest. -/
def _root_.Spp.Pos.Modest : Pos → Prop
  | .at i => Spec.Modest i
  | .fromLast k => Spec.Modest k

/-- All numbers in the view are modest. -/
def _root_.Spp.View.Modest : {d d' : Dim} → View d d' → Prop
  | _, _, .slice r => r.Modest
  | _, _, .slice2 r1 r2 => r1.Modest ∧ r2.Modest
  | _, _, .rows r => r.Modest
  | _, _, .cols r => r.Modest
  | _, _, .row p => p.Modest
  | _, _, .col p => p.Modest
  | _, _, .diag => True
  | _, _, .diagK k => Spec.Modest k
  | _, _, .block i1 j1 i2 j2 => i1.Modest ∧ j1.Modest ∧ i2.Modest ∧ j2.Modest
  | _, _, .blockN i1 j1 m n => i1.Modest ∧ j1.Modest ∧ Spec.Modest m ∧ Spec.Modest n
  | _, _, .view1D => True
  | _, _, .view2D _ m n => Spec.Modest m ∧ Spec.Modest n

/-- All numbers are modest, and whatever part of the assignable object makes sense has fewer than
2^62 elements. -/
def _root_.Spp.Lv.Modest {α : Type} (s : Store α) : {d : Dim} → Lv d → Prop
  | _, .arr1 _ => True
  | _, .arr2 _ => True
  | _, .view v l => l.Modest s ∧ v.Modest ∧
      ((Lv.view v l).Valid s → Roomy ((Lv.view v l).cells s))

/-- All numbers are modest, and whatever part of the expression makes sense has fewer than 2^62
elements.  (For a tensor product this excludes that exactly one operand is empty.) -/
def _root_.Spp.Tm.Modest {α : Type} (s : Store α) : {d : Dim} → Tm α d → Prop
  | _, .lv l => l.Modest s
  | _, .view v t => t.Modest s ∧ v.Modest ∧
      ((Tm.view v t).Valid s → Roomy ((Tm.view v t).meaning s))
  | _, .unary _ t => t.Modest s
  | _, .binary _ t1 t2 => t1.Modest s ∧ t2.Modest s
  | _, .scalarL _ _ t => t.Modest s
  | _, .scalarR _ t _ => t.Modest s
  | _, .sequence _ n _ _ => Spec.Modest n
  | _, .linspace _ n _ _ => Spec.Modest n
  | _, .eUnit _ k n => Spec.Modest k ∧ Spec.Modest n
  | _, .const1D n _ => Spec.Modest n
  | _, .const2D m n _ => Spec.Modest m ∧ Spec.Modest n ∧ m * n < 2 ^ 62
  | _, .identity _ n => Spec.Modest n ∧ n * n < 2 ^ 62
  | _, .merge t1 t2 => t1.Modest s ∧ t2.Modest s ∧
      ((Tm.merge t1 t2).Valid s → Roomy ((Tm.merge t1 t2).meaning s))
  | _, .append t x => t.Modest s ∧ ((Tm.append t x).Valid s → Roomy ((Tm.append t x).meaning s))
  | _, .prepend x t => t.Modest s ∧ ((Tm.prepend x t).Valid s → Roomy ((Tm.prepend x t).meaning s))
  | _, .exclude t pos count => t.Modest s ∧ Spec.Modest pos ∧ Spec.Modest count
  | _, .excludeLast t _ => t.Modest s
  | _, .reduce _ _ t => t.Modest s
  | _, .matvec _ t x => t.Modest s ∧ x.Modest s
  | _, .bcast rw t => t.Modest s ∧ ((Tm.bcast rw t).Valid s → Roomy ((Tm.bcast rw t).meaning s))
  | _, .tensor ar t1 t2 => t1.Modest s ∧ t2.Modest s ∧
      ((Tm.tensor ar t1 t2).Valid s → Roomy ((Tm.tensor ar t1 t2).meaning s))
  | _, .transpose t => t.Modest s
  | _, .mergeH t1 t2 => t1.Modest s ∧ t2.Modest s ∧
      ((Tm.mergeH t1 t2).Valid s → Roomy ((Tm.mergeH t1 t2).meaning s))
  | _, .mergeV t1 t2 => t1.Modest s ∧ t2.Modest s ∧
      ((Tm.mergeV t1 t2).Valid s → Roomy ((Tm.mergeV t1 t2).meaning s))

/-- The parts of the statement are modest. -/
def _root_.Spp.AStmt.Modest {α : Type} (s : Store α) : AStmt α → Prop
  | .assign l t => l.Modest s ∧ t.Modest s
  | .fill l _ => l.Modest s
  | .list l _ => l.Modest s
  | .list2 l _ => l.Modest s
  | .compound _ l t => l.Modest s ∧ t.Modest s
  | .compoundX _ l _ => l.Modest s

/-- No operation on elements in the statement has undefined behaviour of its own. -/
def _root_.Spp.AStmt.Total {α : Type} : AStmt α → Prop
  | .assign _ t => t.Total
  | .fill _ _ => True
  | .list _ _ => True
  | .list2 _ _ => True
  | .compound op _ t => (∀ x y, op x y ≠ .ub) ∧ t.Total
  | .compoundX op _ _ => ∀ x y, op x y ≠ .ub

/-- The object a statement assigns to. -/
def _root_.Spp.AStmt.target {α : Type} : AStmt α → (d : Dim) × Lv d
  | .assign l _ => ⟨_, l⟩
  | .fill l _ => ⟨_, l⟩
  | .list l _ => ⟨_, l⟩
  | .list2 l _ => ⟨_, l⟩
  | .compound _ l _ => ⟨_, l⟩
  | .compoundX _ l _ => ⟨_, l⟩

/-- Same sizes, and nothing outside `cs` has changed. -/
def Within {α : Type} (cs : List Loc) (s t : Store α) : Prop :=
  SameSizes s t ∧ ∀ c, c ∉ cs → t.read c = s.read c

end Spp.Spec
