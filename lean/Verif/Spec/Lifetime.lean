import Verif.Model.Lifetime

/-
What is said about lifetimes: the arrays an expression mentions, and the expressions that keep no reference to a
temporary.
-/

namespace Spp.Spec

open Spp

/-- The owning arrays mentioned in the text. -/
def lvArrays : Lv d → List Ref
  | .arr1 id => [.array1 id]
  | .arr2 id => [.array2 id]
  | .view _ l => lvArrays l

/-- The owning arrays mentioned in the text. -/
def arrays {α : Type} : Tm α d → List Ref
  | .lv l => lvArrays l
  | .view _ t | .unary _ t | .scalarL _ _ t | .scalarR _ t _ | .append t _ | .prepend _ t | .exclude t _ _
  | .excludeLast t _ | .reduce _ _ t | .bcast _ t | .transpose t => arrays t
  | .binary _ t1 t2 | .merge t1 t2 | .tensor _ t1 t2 | .mergeH t1 t2 | .mergeV t1 t2 => arrays t1 ++ arrays t2
  | .matvec _ t x => arrays t ++ arrays x
  | .sequence .. | .linspace .. | .eUnit .. | .const1D .. | .const2D .. | .identity .. => []

/-- The text is the name of an array. -/
def isArray {α : Type} : Tm α d → Bool
  | .lv (.arr1 _) => true
  | .lv (.arr2 _) => true
  | _ => false

/-- `transpose` is applied to named arrays only and `matvec_prod` does not occur. -/
def Safe {α : Type} : Tm α d → Prop
  | .lv _ => True
  | .view _ t | .unary _ t | .scalarL _ _ t | .scalarR _ t _ | .append t _ | .prepend _ t | .exclude t _ _
  | .excludeLast t _ | .reduce _ _ t | .bcast _ t => Safe t
  | .transpose t => isArray t = true
  | .binary _ t1 t2 | .merge t1 t2 | .tensor _ t1 t2 | .mergeH t1 t2 | .mergeV t1 t2 => Safe t1 ∧ Safe t2
  | .matvec _ _ _ => False
  | .sequence .. | .linspace .. | .eUnit .. | .const1D .. | .const2D .. | .identity .. => True

/-- `matvec_prod` does not occur. -/
def NoMatvec {α : Type} : Tm α d → Prop
  | .lv _ => True
  | .view _ t | .unary _ t | .scalarL _ _ t | .scalarR _ t _ | .append t _ | .prepend _ t | .exclude t _ _
  | .excludeLast t _ | .reduce _ _ t | .bcast _ t | .transpose t => NoMatvec t
  | .binary _ t1 t2 | .merge t1 t2 | .tensor _ t1 t2 | .mergeH t1 t2 | .mergeV t1 t2 => NoMatvec t1 ∧ NoMatvec t2
  | .matvec _ _ _ => False
  | .sequence .. | .linspace .. | .eUnit .. | .const1D .. | .const2D .. | .identity .. => True

/-- Two objects behave alike in the given states. -/
structure SameObject {α β : Type} (m : Mem α) (a' : Acc (Mem α) β) (a : Acc (Store α) β) : Prop where
  rows : a'.rows m = a.rows m.store
  cols : a'.cols m = a.cols m.store
  size : a'.size m = a.size m.store
  un : ∀ i, a'.un m i = a.un m.store i
  un2 : ∀ i j, a'.un2 m i j = a.un2 m.store i j

end Spp.Spec
