import Verif.Spec.Assign

/-
The conditions of Spec/Expr.lean can be decided, which the concrete examples use.
-/

namespace Spp.Spec

variable {α : Type}

instance (x : Int) : Decidable (IsIndex x) := inferInstanceAs (Decidable (_ ∧ _))
instance (n i : Int) : Decidable (InRange n i) := inferInstanceAs (Decidable (_ ∧ _))
instance (f l k : Int) : Decidable (Consistent f l k) :=
  inferInstanceAs (Decidable ((_ ∧ _) ∨ (_ ∧ _) ∨ (_ ∧ _)))
instance (l : List Int) : Decidable (Increasing l) :=
  inferInstanceAs (Decidable (l.Pairwise (· < ·)))
instance (n : Int) : (p : Pos) → Decidable (NoOverflow n p)
  | .at _ => .isTrue trivial
  | .fromLast _ => inferInstanceAs (Decidable (_ ∧ _))

instance : (r : SliceReq) → Decidable r.Args
  | .seqN _ _ _ => inferInstanceAs (Decidable (_ ∧ _ ∧ _))
  | .seq _ _ _ => inferInstanceAs (Decidable (_ ∧ _ ∧ _))
  | .skipN _ => inferInstanceAs (Decidable (IsIndex _))
  | .firstN _ => inferInstanceAs (Decidable (IsIndex _))
  | .lastN _ => inferInstanceAs (Decidable (IsIndex _))
  | .vec idx => inferInstanceAs (Decidable (∀ i ∈ idx, IsIndex i))
  | .complement idx => inferInstanceAs (Decidable (∀ i ∈ idx, IsIndex i))
  | .all => .isTrue trivial
  | .reverse => .isTrue trivial
  | .even => .isTrue trivial
  | .odd => .isTrue trivial

instance decUpto (size : Int) (P : Int → Prop) [DecidablePred P] :
    Decidable (∀ i : Int, 0 ≤ i → i < size → P i) :=
  decidable_of_iff (∀ k : Fin size.toNat, P ((k : Nat) : Int)) ⟨
    fun h i h0 h1 => by
      have := h ⟨i.toNat, by omega⟩
      simp only [Int.toNat_of_nonneg h0] at this
      exact this,
    fun h k => h _ (by omega) (by have := k.isLt; omega)⟩

instance (n : Int) : (r : SliceReq) → Decidable (r.Valid n)
  | .seqN start size stride => inferInstanceAs (Decidable (0 ≤ start ∧ 0 ≤ size ∧
      ∀ i : Int, 0 ≤ i → i < size → InRange n (start + i * stride)))
  | .seq _ _ _ => inferInstanceAs (Decidable (_ ∧ _ ∧ _))
  | .skipN _ => inferInstanceAs (Decidable (_ ∧ _))
  | .firstN _ => inferInstanceAs (Decidable (_ ∧ _))
  | .lastN _ => inferInstanceAs (Decidable (_ ∧ _))
  | .vec idx => inferInstanceAs (Decidable (∀ i ∈ idx, InRange n i))
  | .complement idx => inferInstanceAs (Decidable (_ ∧ ∀ i ∈ idx, InRange n i))
  | .all => .isTrue trivial
  | .reverse => .isTrue trivial
  | .even => .isTrue trivial
  | .odd => .isTrue trivial

instance : (p : Pos) → Decidable p.Args
  | .at _ => inferInstanceAs (Decidable (IsIndex _))
  | .fromLast _ => inferInstanceAs (Decidable (IsIndex _))

instance : {d d' : Dim} → (v : View d d') → Decidable v.Args
  | _, _, .slice _ => inferInstanceAs (Decidable (SliceReq.Args _))
  | _, _, .slice2 _ _ => inferInstanceAs (Decidable (_ ∧ _))
  | _, _, .rows _ => inferInstanceAs (Decidable (SliceReq.Args _))
  | _, _, .cols _ => inferInstanceAs (Decidable (SliceReq.Args _))
  | _, _, .row _ => inferInstanceAs (Decidable (Pos.Args _))
  | _, _, .col _ => inferInstanceAs (Decidable (Pos.Args _))
  | _, _, .diag => .isTrue trivial
  | _, _, .diagK _ => inferInstanceAs (Decidable (IsIndex _))
  | _, _, .block _ _ _ _ => inferInstanceAs (Decidable (_ ∧ _ ∧ _ ∧ _))
  | _, _, .blockN _ _ _ _ => inferInstanceAs (Decidable (_ ∧ _ ∧ _ ∧ _))
  | _, _, .view1D => .isTrue trivial
  | _, _, .view2D _ _ _ => inferInstanceAs (Decidable (_ ∧ _))

instance (m n : Nat) : {d d' : Dim} → (v : View d d') → Decidable (v.Valid m n)
  | _, _, .slice _ => inferInstanceAs (Decidable (SliceReq.Valid _ _))
  | _, _, .slice2 _ _ => inferInstanceAs (Decidable (_ ∧ _))
  | _, _, .rows _ => inferInstanceAs (Decidable (SliceReq.Valid _ _))
  | _, _, .cols _ => inferInstanceAs (Decidable (SliceReq.Valid _ _))
  | _, _, .row _ => inferInstanceAs (Decidable (InRange _ _))
  | _, _, .col _ => inferInstanceAs (Decidable (InRange _ _))
  | _, _, .diag => .isTrue trivial
  | _, _, .diagK _ => inferInstanceAs (Decidable (_ ∧ _))
  | _, _, .block _ _ _ _ => inferInstanceAs (Decidable (_ ∧ _ ∧ _ ∧ _ ∧ _ ∧ _))
  | _, _, .blockN i1 j1 p q => inferInstanceAs (Decidable (
      NoOverflow m i1 ∧ NoOverflow n j1 ∧ 0 ≤ target m i1 ∧ 0 ≤ target n j1 ∧ 0 ≤ p ∧ 0 ≤ q ∧
      (p ≠ 0 → target m i1 + p ≤ m) ∧ (q ≠ 0 → target n j1 + q ≤ n)))
  | _, _, .view1D => .isTrue trivial
  | _, _, .view2D _ _ _ => inferInstanceAs (Decidable (_ ∧ _ ∧ _))

instance {β : Type} : {d : Dim} → (x : Sem β d) → Decidable (Small x)
  | .one, l => inferInstanceAs (Decidable ((List.length l : Int) < 2 ^ 63 - 1))
  | .two, M => inferInstanceAs (Decidable (((Mat.m M * Mat.n M : Nat) : Int) < 2 ^ 63 - 1 ∧
      (Mat.m M = 0 ↔ Mat.n M = 0)))

instance (s : Store α) : (c : Loc) → Decidable (c.Valid s)
  | .one _ _ => inferInstanceAs (Decidable (_ < _))
  | .two _ _ => inferInstanceAs (Decidable (_ < _))

instance decLvValid (s : Store α) : {d : Dim} → (l : Lv d) → Decidable (l.Valid s)
  | _, .arr1 _ => .isTrue trivial
  | _, .arr2 _ => .isTrue trivial
  | _, .view _ l => @instDecidableAnd _ _ (decLvValid s l) inferInstance

instance decLvSound (s : Store α) : {d : Dim} → (l : Lv d) → Decidable (l.Sound s)
  | _, .arr1 _ => .isTrue trivial
  | _, .arr2 _ => .isTrue trivial
  | _, .view _ l => @instDecidableAnd _ _ (decLvSound s l) inferInstance

instance decOk {β : Type} : (r : Res β) → Decidable (∃ x, r = .ok x)
  | .ok x => .isTrue ⟨x, rfl⟩
  | .trap _ => .isFalse (by simp)
  | .ub => .isFalse (by simp)

instance decTmValid (s : Store α) : {d : Dim} → (t : Tm α d) → Decidable (t.Valid s)
  | _, .lv l => decLvValid s l
  | _, .view _ t => @instDecidableAnd _ _ (decTmValid s t) inferInstance
  | _, .unary _ t => decTmValid s t
  | _, .binary _ t1 t2 => @instDecidableAnd _ _ (decTmValid s t1)
      (@instDecidableAnd _ _ (decTmValid s t2) inferInstance)
  | _, .scalarL _ _ t => decTmValid s t
  | _, .scalarR _ t _ => decTmValid s t
  | _, .sequence _ n _ _ => inferInstanceAs (Decidable (0 ≤ n))
  | _, .linspace ar n start stop => inferInstanceAs (Decidable (0 < n ∧ ∃ incr,
      (do let diff ← ar.sub stop start; let m ← ar.ofIndex (n - 1); ar.div diff m) = .ok incr))
  | _, .eUnit _ k n => inferInstanceAs (Decidable (InRange n k))
  | _, .const1D n _ => inferInstanceAs (Decidable (0 ≤ n))
  | _, .const2D m n _ => inferInstanceAs (Decidable (0 ≤ m ∧ 0 ≤ n ∧ (m = 0 ↔ n = 0)))
  | _, .identity _ n => inferInstanceAs (Decidable (0 ≤ n))
  | _, .merge t1 t2 => @instDecidableAnd _ _ (decTmValid s t1) (decTmValid s t2)
  | _, .append t _ => decTmValid s t
  | _, .prepend _ t => decTmValid s t
  | _, .exclude t _ _ => @instDecidableAnd _ _ (decTmValid s t) inferInstance
  | _, .excludeLast t _ => @instDecidableAnd _ _ (decTmValid s t) inferInstance
  | _, .reduce _ _ t => decTmValid s t
  | _, .matvec _ t1 t2 => @instDecidableAnd _ _ (decTmValid s t1)
      (@instDecidableAnd _ _ (decTmValid s t2) inferInstance)
  | _, .bcast _ t => decTmValid s t
  | _, .tensor _ t1 t2 => @instDecidableAnd _ _ (decTmValid s t1) (decTmValid s t2)
  | _, .transpose t => decTmValid s t
  | _, .mergeH t1 t2 => @instDecidableAnd _ _ (decTmValid s t1)
      (@instDecidableAnd _ _ (decTmValid s t2) inferInstance)
  | _, .mergeV t1 t2 => @instDecidableAnd _ _ (decTmValid s t1)
      (@instDecidableAnd _ _ (decTmValid s t2) inferInstance)

instance decTmSound (s : Store α) : {d : Dim} → (t : Tm α d) → Decidable (t.Sound s)
  | _, .lv l => decLvSound s l
  | _, .view _ t => @instDecidableAnd _ _ (decTmSound s t) inferInstance
  | _, .unary _ t => decTmSound s t
  | _, .binary _ t1 t2 => @instDecidableAnd _ _ (decTmSound s t1) (decTmSound s t2)
  | _, .scalarL _ _ t => decTmSound s t
  | _, .scalarR _ t _ => decTmSound s t
  | _, .sequence _ n _ _ => inferInstanceAs (Decidable (n < 2 ^ 63 - 1))
  | _, .linspace _ n _ _ => inferInstanceAs (Decidable (n < 2 ^ 63 - 1))
  | _, .eUnit _ _ n => inferInstanceAs (Decidable (n < 2 ^ 63 - 1))
  | _, .const1D n _ => inferInstanceAs (Decidable (n < 2 ^ 63 - 1))
  | _, .const2D m n _ => inferInstanceAs (Decidable (m * n < 2 ^ 63 - 1))
  | _, .identity _ n => inferInstanceAs (Decidable (n * n < 2 ^ 63 - 1))
  | _, .merge t1 t2 => @instDecidableAnd _ _ (decTmSound s t1)
      (@instDecidableAnd _ _ (decTmSound s t2) inferInstance)
  | _, .append t _ => @instDecidableAnd _ _ (decTmSound s t) inferInstance
  | _, .prepend _ t => @instDecidableAnd _ _ (decTmSound s t) inferInstance
  | _, .exclude t _ _ => @instDecidableAnd _ _ (decTmSound s t) inferInstance
  | _, .excludeLast t _ => decTmSound s t
  | _, .reduce _ _ t => decTmSound s t
  | _, .matvec _ t1 t2 => @instDecidableAnd _ _ (decTmSound s t1) (decTmSound s t2)
  | _, .bcast _ t => @instDecidableAnd _ _ (decTmSound s t) inferInstance
  | _, .tensor _ t1 t2 => @instDecidableAnd _ _ (decTmSound s t1)
      (@instDecidableAnd _ _ (decTmSound s t2) inferInstance)
  | _, .transpose t => decTmSound s t
  | _, .mergeH t1 t2 => @instDecidableAnd _ _ (decTmSound s t1)
      (@instDecidableAnd _ _ (decTmSound s t2) inferInstance)
  | _, .mergeV t1 t2 => @instDecidableAnd _ _ (decTmSound s t1)
      (@instDecidableAnd _ _ (decTmSound s t2) inferInstance)

instance decMentions (a : Dim × Nat) : {d : Dim} → (t : Tm α d) → Decidable (t.Mentions a)
  | _, .lv l => inferInstanceAs (Decidable (l.array = a))
  | _, .view _ t => decMentions a t
  | _, .unary _ t => decMentions a t
  | _, .binary _ t1 t2 => @instDecidableOr _ _ (decMentions a t1) (decMentions a t2)
  | _, .scalarL _ _ t => decMentions a t
  | _, .scalarR _ t _ => decMentions a t
  | _, .merge t1 t2 => @instDecidableOr _ _ (decMentions a t1) (decMentions a t2)
  | _, .append t _ => decMentions a t
  | _, .prepend _ t => decMentions a t
  | _, .exclude t _ _ => decMentions a t
  | _, .excludeLast t _ => decMentions a t
  | _, .reduce _ _ t => decMentions a t
  | _, .matvec _ t1 t2 => @instDecidableOr _ _ (decMentions a t1) (decMentions a t2)
  | _, .bcast _ t => decMentions a t
  | _, .tensor _ t1 t2 => @instDecidableOr _ _ (decMentions a t1) (decMentions a t2)
  | _, .transpose t => decMentions a t
  | _, .mergeH t1 t2 => @instDecidableOr _ _ (decMentions a t1) (decMentions a t2)
  | _, .mergeV t1 t2 => @instDecidableOr _ _ (decMentions a t1) (decMentions a t2)
  | _, .sequence _ _ _ _ => .isFalse (fun h => h)
  | _, .linspace _ _ _ _ => .isFalse (fun h => h)
  | _, .eUnit _ _ _ => .isFalse (fun h => h)
  | _, .const1D _ _ => .isFalse (fun h => h)
  | _, .const2D _ _ _ => .isFalse (fun h => h)
  | _, .identity _ _ => .isFalse (fun h => h)

end Spp.Spec
