import Verif.Spec.Lifetime

/-
Lemmas about lifetimes: an object whose references are alive behaves like the object of Model/Expr.lean.
-/

set_option linter.unusedSectionVars false

namespace Spp

open Spec

variable {α β γ : Type}

/-- The object in states with the given set of live objects. -/
def Acc.fix (l : Ref → Bool) (a : Acc (Mem α) β) : Acc (Store α) β :=
  ⟨fun s => a.rows ⟨s, l⟩, fun s => a.cols ⟨s, l⟩, fun s => a.size ⟨s, l⟩, fun s => a.un ⟨s, l⟩, fun s => a.un2 ⟨s, l⟩⟩

theorem Acc.fix_same {l : Ref → Bool} {s : Store α} {a' : Acc (Mem α) β} {a : Acc (Store α) β} (h : a'.fix l = a) :
    SameObject ⟨s, l⟩ a' a := by
  subst h
  exact ⟨rfl, rfl, rfl, fun _ => rfl, fun _ _ => rfl⟩

theorem Acc.fix_through {l : Ref → Bool} {r : Ref} (h : l r = true) (a : Acc (Mem α) β) :
    (a.through r).fix l = a.fix l := by
  unfold Acc.fix Acc.through
  simp [h]

/-- Related outcomes. -/
inductive SimRes {A B : Type} (R : A → B → Prop) : Res A → Res B → Prop where
  | ok {x y} (h : R x y) : SimRes R (.ok x) (.ok y)
  | trap (k) : SimRes R (.trap k) (.trap k)
  | ub : SimRes R .ub .ub

namespace SimRes

variable {A B C D : Type} {R : A → B → Prop} {S : C → D → Prop}

theorem bind {x : Res A} {y : Res B} {f : A → Res C} {g : B → Res D} (h : SimRes R x y)
    (hf : ∀ u v, R u v → SimRes S (f u) (g v)) : SimRes S (x >>= f) (y >>= g) := by
  cases h with
  | ok h => exact hf _ _ h
  | trap k => exact .trap k
  | ub => exact .ub

theorem same {x : Res A} {f : A → Res C} {g : A → Res D} (hf : ∀ u, SimRes S (f u) (g u)) :
    SimRes S (x >>= f) (x >>= g) := by
  cases x with
  | ok a => exact hf a
  | trap k => exact .trap k
  | ub => exact .ub

theorem mono {R' : A → B → Prop} {x : Res A} {y : Res B} (h : SimRes R x y) (hr : ∀ u v, R u v → R' u v) :
    SimRes R' x y := by
  cases h with
  | ok h => exact .ok (hr _ _ h)
  | trap k => exact .trap k
  | ub => exact .ub

end SimRes

/-- The object behaves like `a` whichever of the two sets of objects is alive. -/
structure Fixed2 (l0 l : Ref → Bool) (a' : Acc (Mem α) β) (a : Acc (Store α) β) : Prop where
  first : a'.fix l0 = a
  second : a'.fix l = a

section

variable {l0 l : Ref → Bool} (b : Build) (s : Store α)

theorem mkSlice1_sim {a' : Acc (Mem α) β} {a} (h : Fixed2 l0 l a' a) (r : SliceReq) :
    SimRes (Fixed2 l0 l) (View.mkSlice1 b a' ⟨s, l0⟩ r) (View.mkSlice1 b a s r) := by
  obtain ⟨rfl, h2⟩ := h
  refine SimRes.same fun sl => .ok ⟨rfl, ?_⟩
  show (a'.fix l).slice sl = _
  rw [h2]

theorem mkSlice2_sim {a' : Acc (Mem α) β} {a} (h : Fixed2 l0 l a' a) (r1 r2 : SliceReq) :
    SimRes (Fixed2 l0 l) (View.mkSlice2 b a' ⟨s, l0⟩ r1 r2) (View.mkSlice2 b a s r1 r2) := by
  obtain ⟨rfl, h2⟩ := h
  refine SimRes.same fun e => SimRes.same fun q => .ok ⟨rfl, ?_⟩
  show (a'.fix l).slice2 b q.1 q.2 = _
  rw [h2]

theorem mkView1D_sim {a' : Acc (Mem α) β} {a} (h : Fixed2 l0 l a' a) :
    SimRes (Fixed2 l0 l) (View.mkView1D b a' ⟨s, l0⟩) (View.mkView1D b a s) := by
  obtain ⟨rfl, h2⟩ := h
  refine SimRes.same fun n => SimRes.same fun sl => SimRes.same fun _ => .ok ⟨rfl, ?_⟩
  show (a'.fix l).slice sl = _
  rw [h2]

theorem mkRow_sim {a' : Acc (Mem α) β} {a} (h : Fixed2 l0 l a' a) (p : Pos) :
    SimRes (Fixed2 l0 l) (View.mkRow b a' ⟨s, l0⟩ p) (View.mkRow b a s p) := by
  have hv := mkView1D_sim b s h
  obtain ⟨rfl, h2⟩ := h
  refine SimRes.same fun i => SimRes.same fun _ => SimRes.same fun f => hv.bind fun u v huv => ?_
  exact SimRes.same fun x => SimRes.same fun y => mkSlice1_sim b s huv _

theorem mkCol_sim {a' : Acc (Mem α) β} {a} (h : Fixed2 l0 l a' a) (p : Pos) :
    SimRes (Fixed2 l0 l) (View.mkCol b a' ⟨s, l0⟩ p) (View.mkCol b a s p) := by
  have hv := mkView1D_sim b s h
  obtain ⟨rfl, h2⟩ := h
  refine SimRes.same fun i => SimRes.same fun _ => SimRes.same fun f => SimRes.same fun x => SimRes.same fun y =>
    hv.bind fun u v huv => ?_
  exact mkSlice1_sim b s huv _

theorem mkDiag_sim {a' : Acc (Mem α) β} {a} (h : Fixed2 l0 l a' a) :
    SimRes (Fixed2 l0 l) (View.mkDiag b a' ⟨s, l0⟩) (View.mkDiag b a s) := by
  have hv := mkView1D_sim b s h
  obtain ⟨rfl, h2⟩ := h
  refine hv.bind fun u v huv => SimRes.same fun x => ?_
  exact mkSlice1_sim b s huv _

theorem mkDiagK_sim {a' : Acc (Mem α) β} {a} (h : Fixed2 l0 l a' a) (k : Int) :
    SimRes (Fixed2 l0 l) (View.mkDiagK b a' ⟨s, l0⟩ k) (View.mkDiagK b a s k) := by
  have hv := mkView1D_sim b s h
  obtain ⟨rfl, h2⟩ := h
  refine hv.bind fun u v huv => SimRes.same fun x => ?_
  by_cases hk : k ≥ 0
  · rw [if_pos hk, if_pos hk]
    exact SimRes.same fun _ => SimRes.same fun c => mkSlice1_sim b s huv _
  · rw [if_neg hk, if_neg hk]
    exact SimRes.same fun q => SimRes.same fun _ => SimRes.same fun _ => SimRes.same fun _ => mkSlice1_sim b s huv _

theorem mkView2D_sim {a' : Acc (Mem α) β} {a} (h : Fixed2 l0 l a' a) (m n : Int) :
    SimRes (Fixed2 l0 l) (View.mkView2D b a' ⟨s, l0⟩ m n) (View.mkView2D b a s m n) := by
  obtain ⟨rfl, h2⟩ := h
  refine SimRes.same fun p => SimRes.same fun z => SimRes.same fun _ => SimRes.same fun s1 => SimRes.same fun s2 =>
    SimRes.same fun _ => SimRes.same fun _ => .ok ⟨rfl, ?_⟩
  show ((a'.fix l).proxy m n).slice2 b _ _ = _
  rw [h2]

theorem view_sim {d d' : Dim} {a' : Acc (Mem α) β} {a} (h : Fixed2 l0 l a' a) (v : View d d') :
    SimRes (Fixed2 l0 l) (v.mk b a' ⟨s, l0⟩) (v.mk b a s) := by
  cases v with
  | slice r => exact mkSlice1_sim b s h r
  | slice2 r1 r2 => exact mkSlice2_sim b s h r1 r2
  | rows r => exact mkSlice2_sim b s h r .all
  | cols r => exact mkSlice2_sim b s h .all r
  | row p => exact mkRow_sim b s h p
  | col p => exact mkCol_sim b s h p
  | diag => exact mkDiag_sim b s h
  | diagK k => exact mkDiagK_sim b s h k
  | block i1 j1 i2 j2 =>
    obtain ⟨h1, h2⟩ := id h
    subst h1
    exact SimRes.same fun _ => SimRes.same fun _ => SimRes.same fun _ => SimRes.same fun _ => mkSlice2_sim b s h _ _
  | blockN i1 j1 m n =>
    obtain ⟨h1, h2⟩ := id h
    subst h1
    exact SimRes.same fun _ => SimRes.same fun _ => mkSlice2_sim b s h _ _
  | view1D => exact mkView1D_sim b s h
  | view2D _ m n => exact mkView2D_sim b s h m n

theorem reduceAcc_fix (rowwise : Bool) {op : Acc (Mem α) β → Mem α → Res β} {op' : Acc (Store α) β → Store α → Res β}
    (hop : ∀ (r' : Acc (Mem α) β) r, r'.fix l = r → ∀ s, op r' ⟨s, l⟩ = op' r s) {a' : Acc (Mem α) β} {a}
    (h : a'.fix l = a) : (Tm.reduceAcc b rowwise op a').fix l = Tm.reduceAcc b rowwise op' a := by
  subst h
  have hu : ∀ s i, (Tm.reduceAcc b rowwise op a').un ⟨s, l⟩ i = (Tm.reduceAcc b rowwise op' (a'.fix l)).un s i := by
    intro s i
    have key : ∀ (x : Res (Acc (Mem α) β)) y, SimRes (Fixed2 l l) x y →
        (x >>= fun r => op r ⟨s, l⟩) = (y >>= fun r => op' r s) := by
      intro x y hxy
      cases hxy with
      | ok h => exact hop _ _ h.first s
      | trap k => rfl
      | ub => rfl
    cases rowwise with
    | true => exact key _ _ (mkRow_sim b s ⟨rfl, rfl⟩ _)
    | false => exact key _ _ (mkCol_sim b s ⟨rfl, rfl⟩ _)
  unfold Acc.fix at hu ⊢
  cases rowwise <;> simp only [Tm.reduceAcc, Acc.oneD, if_true, if_false, Acc.mk.injEq, Bool.false_eq_true,
    true_and, and_true] <;> funext s i <;> exact hu s i

end

/-- The references an expression object follows are alive. -/
def Needs (l : Ref → Bool) {d : Dim} (p : List Nat) : Tm α d → Prop
  | .lv v => ∀ r ∈ lvArrays v, l r = true
  | .view _ t | .unary _ t | .scalarL _ _ t | .scalarR _ t _ | .append t _ | .prepend _ t | .exclude t _ _
  | .excludeLast t _ | .reduce _ _ t | .bcast _ t => Needs l (0 :: p) t
  | .transpose t => Needs l (0 :: p) t ∧ (isArray t = true ∨ l (.temp (0 :: p)) = true)
  | .binary _ t1 t2 | .merge t1 t2 | .tensor _ t1 t2 | .mergeH t1 t2 | .mergeV t1 t2 =>
    Needs l (0 :: p) t1 ∧ Needs l (1 :: p) t2
  | .matvec _ t x => Needs l (0 :: p) t ∧ Needs l (1 :: p) x ∧ l (.loc p) = true ∧
    (isArray x = true ∨ l (.temp (1 :: p)) = true)
  | .sequence .. | .linspace .. | .eUnit .. | .const1D .. | .const2D .. | .identity .. => True

/-- The operand behaves like `a`, and if it is an array it is alive. -/
structure OpRel (l0 l : Ref → Bool) (o : Operand α β) (a : Acc (Store α) β) : Prop where
  acc : Fixed2 l0 l o.acc a
  live : ∀ r, o.array = some r → l0 r = true ∧ l r = true

theorem OpRel.stored {l0 l : Ref → Bool} {o : Operand α β} {a} (h : OpRel l0 l o a) : Fixed2 l0 l o.stored a := by
  unfold Operand.stored
  split
  · rename_i r hr
    exact ⟨by rw [Acc.fix_through (h.live r hr).1, h.acc.first], by rw [Acc.fix_through (h.live r hr).2, h.acc.second]⟩
  · exact h.acc

theorem OpRel.captured {l0 l : Ref → Bool} {o : Operand α β} {a} (h : OpRel l0 l o a) {p : List Nat}
    (h0 : o.array ≠ none ∨ l0 (.temp p) = true) (h1 : o.array ≠ none ∨ l (.temp p) = true) :
    Fixed2 l0 l (o.captured p) a := by
  unfold Operand.captured
  split
  · rename_i r hr
    exact ⟨by rw [Acc.fix_through (h.live r hr).1, h.acc.first], by rw [Acc.fix_through (h.live r hr).2, h.acc.second]⟩
  · rename_i hn
    exact ⟨by rw [Acc.fix_through (h0.resolve_left (fun k => k hn)), h.acc.first],
      by rw [Acc.fix_through (h1.resolve_left (fun k => k hn)), h.acc.second]⟩

theorem OpRel.object {l0 l : Ref → Bool} {a' : Acc (Mem α) β} {a} (h : Fixed2 l0 l a' a) :
    OpRel l0 l (.object a') a :=
  ⟨h, fun r hr => by cases hr⟩

theorem SimRes.object {l0 l : Ref → Bool} {x : Res (Acc (Mem α) β)} {y : Res (Acc (Store α) β)}
    (h : SimRes (Fixed2 l0 l) x y) : SimRes (OpRel l0 l) (x >>= fun a => pure (.object a)) y := by
  cases h with
  | ok h => exact .ok (OpRel.object h)
  | trap k => exact .trap k
  | ub => exact .ub

theorem lv_make_sim (b : Build) (s : Store α) {l0 l : Ref → Bool} {d : Dim} (v : Lv d)
    (h0 : ∀ r ∈ lvArrays v, l0 r = true) (h1 : ∀ r ∈ lvArrays v, l r = true) :
    SimRes (OpRel l0 l) (v.make b ⟨s, l0⟩) (v.build b s) := by
  induction v with
  | arr1 id =>
    exact .ok ⟨⟨rfl, rfl⟩, fun r hr => by cases hr; exact ⟨h0 _ (by simp [lvArrays]), h1 _ (by simp [lvArrays])⟩⟩
  | arr2 id =>
    exact .ok ⟨⟨rfl, rfl⟩, fun r hr => by cases hr; exact ⟨h0 _ (by simp [lvArrays]), h1 _ (by simp [lvArrays])⟩⟩
  | view v l ih =>
    exact (ih h0 h1).bind fun o a ho => (view_sim b s ho.stored v).object

theorem isArray_cases {d : Dim} {t : Tm α d} (h : isArray t = true) :
    (∃ id, d = .one ∧ HEq t (Tm.lv (α := α) (.arr1 id))) ∨ ∃ id, d = .two ∧ HEq t (Tm.lv (α := α) (.arr2 id)) := by
  unfold isArray at h
  split at h
  · exact .inl ⟨_, rfl, HEq.rfl⟩
  · exact .inr ⟨_, rfl, HEq.rfl⟩
  · cases h

theorem isArray_some (b : Build) {m : Mem α} {d : Dim} {t : Tm α d} {p : List Nat} (h : isArray t = true) {o}
    (ho : t.make b m p = .ok o) : o.array ≠ none := by
  rcases isArray_cases h with ⟨id, rfl, h⟩ | ⟨id, rfl, h⟩
  · obtain rfl := eq_of_heq h
    simp only [Tm.make, Lv.make, Res.ok_bind, Res.pure_eq, Res.ok.injEq] at ho
    subst ho; simp
  · obtain rfl := eq_of_heq h
    simp only [Tm.make, Lv.make, Res.ok_bind, Res.pure_eq, Res.ok.injEq] at ho
    subst ho; simp

/-- In the second component the outcome of `make` is remembered. -/
theorem SimRes.remember {A B : Type} {R : A → B → Prop} {x : Res A} {y : Res B} (h : SimRes R x y) :
    SimRes (fun u v => R u v ∧ x = .ok u) x y := by
  cases h with
  | ok h => exact .ok ⟨h, rfl⟩
  | trap k => exact .trap k
  | ub => exact .ub

theorem OpRel.rows {l0 l : Ref → Bool} {o : Operand α β} {a} (h : OpRel l0 l o a) (s : Store α) :
    o.acc.rows ⟨s, l0⟩ = a.rows s := by rw [← h.acc.first]; rfl

theorem OpRel.cols {l0 l : Ref → Bool} {o : Operand α β} {a} (h : OpRel l0 l o a) (s : Store α) :
    o.acc.cols ⟨s, l0⟩ = a.cols s := by rw [← h.acc.first]; rfl

section

variable {l0 l : Ref → Bool} (b : Build) (s : Store α)

theorem mkBinary_sim (d : Dim) (f : β → β → Res β) {a1' a2' : Acc (Mem α) β} {a1 a2} (h1 : Fixed2 l0 l a1' a1)
    (h2 : Fixed2 l0 l a2' a2) :
    SimRes (Fixed2 l0 l) (Tm.mkBinary b d f a1' a2' ⟨s, l0⟩) (Tm.mkBinary b d f a1 a2 s) := by
  obtain ⟨rfl, h1⟩ := h1
  obtain ⟨rfl, h2⟩ := h2
  have : Acc.sameSize d a1' a2' ⟨s, l0⟩ = Acc.sameSize d (a1'.fix l0) (a2'.fix l0) s := by cases d <;> rfl
  unfold Tm.mkBinary
  rw [this]
  refine SimRes.same fun _ => .ok ⟨rfl, ?_⟩
  show Acc.binary f (a1'.fix l) (a2'.fix l) = _
  rw [h1, h2]

theorem mkConstLike_sim (d : Dim) {a' : Acc (Mem α) β} {a} (h : Fixed2 l0 l a' a) (x : β) :
    SimRes (Fixed2 l0 l) (Tm.mkConstLike b d a' ⟨s, l0⟩ x) (Tm.mkConstLike b d a s x) := by
  obtain ⟨rfl, h2⟩ := h
  cases d with
  | one => exact SimRes.same fun _ => SimRes.same fun _ => .ok ⟨rfl, rfl⟩
  | two =>
    exact SimRes.same fun _ => SimRes.same fun _ => SimRes.same fun _ => SimRes.same fun _ => SimRes.same fun _ =>
      .ok ⟨rfl, rfl⟩

theorem mkGen1_sim (n : Int) {op : Mem α → Int → Res β} {op' : Store α → Int → Res β}
    (h0 : ∀ s i, op ⟨s, l0⟩ i = op' s i) (h : ∀ s i, op ⟨s, l⟩ i = op' s i) :
    SimRes (Fixed2 l0 l) (Tm.mkGen1 b n op) (Tm.mkGen1 b n op') := by
  refine SimRes.same fun _ => .ok ⟨?_, ?_⟩ <;> simp only [Acc.fix, Acc.gen1, Acc.oneD, h0, h]

theorem mkGen2_sim (m n : Int) {op : Mem α → Int → Res β} {op' : Store α → Int → Res β}
    (h0 : ∀ s i, op ⟨s, l0⟩ i = op' s i) (h : ∀ s i, op ⟨s, l⟩ i = op' s i) :
    SimRes (Fixed2 l0 l) (Tm.mkGen2 b m n op) (Tm.mkGen2 b m n op') := by
  refine SimRes.same fun _ => SimRes.same fun _ => .ok ⟨?_, ?_⟩ <;>
    simp only [Acc.fix, Acc.gen2, Acc.twoD, h0, h]

theorem mkExclude_sim {a' : Acc (Mem α) β} {a} (h : Fixed2 l0 l a' a) (pos count : Int) :
    SimRes (Fixed2 l0 l) (Tm.mkExclude b a' ⟨s, l0⟩ pos count) (Tm.mkExclude b a s pos count) := by
  obtain ⟨rfl, h2⟩ := h
  refine SimRes.same fun _ => SimRes.same fun _ => SimRes.same fun _ => SimRes.same fun n => mkGen1_sim b n
    (fun _ _ => rfl) (fun s i => ?_)
  show (a'.fix l).excludeOp pos count s i = _
  rw [h2]

theorem mkMergeH_sim {a1' a2' : Acc (Mem α) β} {a1 a2} (h1 : Fixed2 l0 l a1' a1) (h2 : Fixed2 l0 l a2' a2) :
    SimRes (Fixed2 l0 l) (Tm.mkMergeH b a1' a2' ⟨s, l0⟩) (Tm.mkMergeH b a1 a2 s) := by
  obtain ⟨rfl, h1⟩ := h1
  obtain ⟨rfl, h2⟩ := h2
  have hop : ∀ s i, Acc.horizontalOp b a1' a2' ⟨s, l⟩ i = Acc.horizontalOp b (a1'.fix l0) (a2'.fix l0) s i := fun s i => by
    show Acc.horizontalOp b (a1'.fix l) (a2'.fix l) s i = _
    rw [h1, h2]
  refine SimRes.same fun e1 => SimRes.same fun e2 => ?_
  by_cases hc : (!e1 && !e2) = true
  · simp only [hc, if_true]
    exact SimRes.same fun _ => SimRes.same fun n => mkGen2_sim b _ n (fun _ _ => rfl) hop
  · simp only [hc]
    exact SimRes.same fun _ => SimRes.same fun n => mkGen2_sim b _ n (fun _ _ => rfl) hop

theorem mkMergeV_sim {a1' a2' : Acc (Mem α) β} {a1 a2} (h1 : Fixed2 l0 l a1' a1) (h2 : Fixed2 l0 l a2' a2) :
    SimRes (Fixed2 l0 l) (Tm.mkMergeV b a1' a2' ⟨s, l0⟩) (Tm.mkMergeV b a1 a2 s) := by
  obtain ⟨rfl, h1⟩ := h1
  obtain ⟨rfl, h2⟩ := h2
  have hop : ∀ s i, Acc.verticalOp a1' a2' ⟨s, l⟩ i = Acc.verticalOp (a1'.fix l0) (a2'.fix l0) s i := fun s i => by
    show Acc.verticalOp (a1'.fix l) (a2'.fix l) s i = _
    rw [h1, h2]
  refine SimRes.same fun e1 => SimRes.same fun e2 => ?_
  by_cases hc : (!e1 && !e2) = true
  · simp only [hc, if_true]
    exact SimRes.same fun _ => SimRes.same fun n => mkGen2_sim b n _ (fun _ _ => rfl) hop
  · simp only [hc]
    exact SimRes.same fun _ => SimRes.same fun n => mkGen2_sim b n _ (fun _ _ => rfl) hop

end

theorem make_sim (b : Build) (s : Store α) {l0 l : Ref → Bool} {d : Dim} (t : Tm α d) : ∀ {p : List Nat},
    Needs l0 p t → Needs l p t → SimRes (OpRel l0 l) (t.make b ⟨s, l0⟩ p) (t.build b s) := by
  induction t with
  | lv v =>
    intro p h0 h1
    refine (lv_make_sim b s v h0 h1).bind fun o a ho => .ok ⟨⟨?_, ?_⟩, ho.live⟩
    · rw [← ho.acc.first]; rfl
    · rw [← ho.acc.second]; rfl
  | view v t ih =>
    intro p h0 h1
    exact (ih h0 h1).bind fun o a ho => (view_sim b s ho.stored v).object
  | unary f t ih =>
    intro p h0 h1
    refine (ih h0 h1).bind fun o a ho => .ok (.object ⟨?_, ?_⟩)
    · rw [← ho.stored.first]; rfl
    · rw [← ho.stored.second]; rfl
  | binary f t1 t2 ih1 ih2 =>
    intro p h0 h1
    exact (ih1 h0.1 h1.1).bind fun o1 a1 ho1 => (ih2 h0.2 h1.2).bind fun o2 a2 ho2 =>
      (mkBinary_sim b s _ f ho1.stored ho2.stored).object
  | scalarL f x t ih =>
    intro p h0 h1
    exact (ih h0 h1).bind fun o a ho => (mkConstLike_sim b s _ ho.acc x).bind fun c' c hc =>
      (mkBinary_sim b s _ f hc ho.stored).object
  | scalarR f t x ih =>
    intro p h0 h1
    exact (ih h0 h1).bind fun o a ho => (mkConstLike_sim b s _ ho.acc x).bind fun c' c hc =>
      (mkBinary_sim b s _ f ho.stored hc).object
  | sequence ar n start incr =>
    intro p _ _
    exact SimRes.object (SimRes.same fun _ => .ok ⟨rfl, rfl⟩)
  | linspace ar n start stop =>
    intro p _ _
    exact SimRes.same fun _ => SimRes.same fun _ => SimRes.same fun _ => SimRes.same fun _ => SimRes.same fun _ =>
      SimRes.object (SimRes.same fun _ => .ok ⟨rfl, rfl⟩)
  | eUnit ar k n =>
    intro p _ _
    exact SimRes.same fun _ => SimRes.same fun _ =>
      SimRes.object (mkGen1_sim b n (fun _ _ => rfl) (fun _ _ => rfl))
  | const1D n x =>
    intro p _ _
    exact SimRes.object (SimRes.same fun _ => SimRes.same fun _ => .ok ⟨rfl, rfl⟩)
  | const2D m n x =>
    intro p _ _
    exact SimRes.object (SimRes.same fun _ => SimRes.same fun _ => SimRes.same fun _ => SimRes.same fun _ =>
      SimRes.same fun _ => .ok ⟨rfl, rfl⟩)
  | identity ar n =>
    intro p _ _
    exact SimRes.same fun _ => SimRes.same fun _ => SimRes.same fun _ => .ok (.object ⟨rfl, rfl⟩)
  | merge t1 t2 ih1 ih2 =>
    intro p h0 h1
    refine (ih1 h0.1 h1.1).bind fun o1 a1 ho1 => (ih2 h0.2 h1.2).bind fun o2 a2 ho2 => ?_
    rw [ho1.rows, ho2.rows]
    refine SimRes.same fun n => SimRes.object (mkGen1_sim b n (fun s i => ?_) (fun s i => ?_))
    · rw [← ho1.stored.first, ← ho2.stored.first]; rfl
    · rw [← ho1.stored.second, ← ho2.stored.second]; rfl
  | append t x ih =>
    intro p h0 h1
    refine (ih h0 h1).bind fun o a ho => ?_
    rw [ho.rows]
    refine SimRes.same fun n => SimRes.object (mkGen1_sim b n (fun s i => ?_) (fun s i => ?_))
    · rw [← ho.stored.first]; rfl
    · rw [← ho.stored.second]; rfl
  | prepend x t ih =>
    intro p h0 h1
    refine (ih h0 h1).bind fun o a ho => ?_
    rw [ho.rows]
    refine SimRes.same fun n => SimRes.object (mkGen1_sim b n (fun s i => ?_) (fun s i => ?_))
    · rw [← ho.stored.first]; rfl
    · rw [← ho.stored.second]; rfl
  | exclude t pos count ih =>
    intro p h0 h1
    exact (ih h0 h1).bind fun o a ho => (mkExclude_sim b s ho.stored pos count).object
  | excludeLast t k ih =>
    intro p h0 h1
    refine (ih h0 h1).bind fun o a ho => ?_
    rw [ho.rows]
    exact SimRes.same fun n => (mkExclude_sim b s ho.stored n 1).object
  | reduce rowwise g t ih =>
    intro p h0 h1
    refine (ih h0 h1).bind fun o a ho => .ok (.object ⟨?_, ?_⟩)
    · exact reduceAcc_fix b rowwise (fun r' r hr s => by subst hr; rfl) ho.stored.first
    · exact reduceAcc_fix b rowwise (fun r' r hr s => by subst hr; rfl) ho.stored.second
  | matvec ar t x ih1 ih2 =>
    intro p h0 h1
    refine (ih1 h0.1 h1.1).bind fun o a ho => (ih2 h0.2.1 h1.2.1).remember.bind fun v w hv => ?_
    obtain ⟨hv, hmk⟩ := hv
    rw [ho.cols, hv.rows]
    have hc := hv.captured (p := 1 :: p) (h0.2.2.2.imp_left (fun h => isArray_some b h hmk))
      (h1.2.2.2.imp_left (fun h => isArray_some b h hmk))
    refine SimRes.same fun _ => .ok (.object ⟨?_, ?_⟩)
    · refine reduceAcc_fix b true (fun r' r hr s => ?_) ho.stored.first
      subst hr
      simp only [h0.2.2.1, if_true]
      rw [← hc.first]
      rfl
    · refine reduceAcc_fix b true (fun r' r hr s => ?_) ho.stored.second
      subst hr
      simp only [h1.2.2.1, if_true]
      rw [← hc.second]
      rfl
  | bcast rowwise t ih =>
    intro p h0 h1
    refine (ih h0 h1).bind fun o a ho => .ok (.object ⟨?_, ?_⟩)
    · rw [← ho.stored.first]; rfl
    · rw [← ho.stored.second]; rfl
  | tensor ar t1 t2 ih1 ih2 =>
    intro p h0 h1
    refine (ih1 h0.1 h1.1).bind fun o1 a1 ho1 => (ih2 h0.2 h1.2).bind fun o2 a2 ho2 => .ok (.object ⟨?_, ?_⟩)
    · rw [← ho1.stored.first, ← ho2.stored.first]; rfl
    · rw [← ho1.stored.second, ← ho2.stored.second]; rfl
  | transpose t ih =>
    intro p h0 h1
    refine (ih h0.1 h1.1).remember.bind fun o a ho => ?_
    obtain ⟨ho, hmk⟩ := ho
    rw [ho.cols, ho.rows]
    have hc := ho.captured (p := 0 :: p) (h0.2.imp_left (fun h => isArray_some b h hmk))
      (h1.2.imp_left (fun h => isArray_some b h hmk))
    refine SimRes.same fun _ => SimRes.same fun _ => .ok (.object ⟨?_, ?_⟩)
    · show (Acc.fix l0 _).transpose b _ _ = _
      rw [hc.first]
    · show (Acc.fix l _).transpose b _ _ = _
      rw [hc.second]
  | mergeH t1 t2 ih1 ih2 =>
    intro p h0 h1
    exact (ih1 h0.1 h1.1).bind fun o1 a1 ho1 => (ih2 h0.2 h1.2).bind fun o2 a2 ho2 =>
      (mkMergeH_sim b s ho1.stored ho2.stored).object
  | mergeV t1 t2 ih1 ih2 =>
    intro p h0 h1
    exact (ih1 h0.1 h1.1).bind fun o1 a1 ho1 => (ih2 h0.2 h1.2).bind fun o2 a2 ho2 =>
      (mkMergeV_sim b s ho1.stored ho2.stored).object

theorem needs_safe {l : Ref → Bool} {d : Dim} {t : Tm α d} : ∀ {p : List Nat}, Safe t → (∀ r ∈ arrays t, l r = true) →
    Needs l p t := by
  induction t with
  | lv v => intro p _ h; exact h
  | view v t ih => intro p hs h; exact ih hs h
  | unary f t ih => intro p hs h; exact ih hs h
  | scalarL f x t ih => intro p hs h; exact ih hs h
  | scalarR f t x ih => intro p hs h; exact ih hs h
  | append t x ih => intro p hs h; exact ih hs h
  | prepend x t ih => intro p hs h; exact ih hs h
  | exclude t pos count ih => intro p hs h; exact ih hs h
  | excludeLast t k ih => intro p hs h; exact ih hs h
  | reduce r g t ih => intro p hs h; exact ih hs h
  | bcast r t ih => intro p hs h; exact ih hs h
  | transpose t ih =>
    intro p hs h
    refine ⟨ih ?_ h, .inl hs⟩
    rcases isArray_cases hs with ⟨id, hd, _⟩ | ⟨id, _, h⟩
    · cases hd
    · obtain rfl := eq_of_heq h; trivial
  | binary f t1 t2 ih1 ih2 =>
    intro p hs h
    exact ⟨ih1 hs.1 (fun r hr => h r (List.mem_append_left _ hr)), ih2 hs.2 (fun r hr => h r (List.mem_append_right _ hr))⟩
  | merge t1 t2 ih1 ih2 =>
    intro p hs h
    exact ⟨ih1 hs.1 (fun r hr => h r (List.mem_append_left _ hr)), ih2 hs.2 (fun r hr => h r (List.mem_append_right _ hr))⟩
  | tensor ar t1 t2 ih1 ih2 =>
    intro p hs h
    exact ⟨ih1 hs.1 (fun r hr => h r (List.mem_append_left _ hr)), ih2 hs.2 (fun r hr => h r (List.mem_append_right _ hr))⟩
  | mergeH t1 t2 ih1 ih2 =>
    intro p hs h
    exact ⟨ih1 hs.1 (fun r hr => h r (List.mem_append_left _ hr)), ih2 hs.2 (fun r hr => h r (List.mem_append_right _ hr))⟩
  | mergeV t1 t2 ih1 ih2 =>
    intro p hs h
    exact ⟨ih1 hs.1 (fun r hr => h r (List.mem_append_left _ hr)), ih2 hs.2 (fun r hr => h r (List.mem_append_right _ hr))⟩
  | matvec ar t x _ _ => intro p hs _; exact hs.elim
  | _ => intro p _ _; trivial

theorem needs_all {l : Ref → Bool} (hl : ∀ r, l r = true) {d : Dim} (t : Tm α d) : ∀ {p : List Nat}, Needs l p t := by
  induction t with
  | lv v => intro p r _; exact hl r
  | view v t ih => intro p; exact ih
  | unary f t ih => intro p; exact ih
  | scalarL f x t ih => intro p; exact ih
  | scalarR f t x ih => intro p; exact ih
  | append t x ih => intro p; exact ih
  | prepend x t ih => intro p; exact ih
  | exclude t pos count ih => intro p; exact ih
  | excludeLast t k ih => intro p; exact ih
  | reduce r g t ih => intro p; exact ih
  | bcast r t ih => intro p; exact ih
  | transpose t ih => intro p; exact ⟨ih, .inr (hl _)⟩
  | binary f t1 t2 ih1 ih2 => intro p; exact ⟨ih1, ih2⟩
  | merge t1 t2 ih1 ih2 => intro p; exact ⟨ih1, ih2⟩
  | tensor ar t1 t2 ih1 ih2 => intro p; exact ⟨ih1, ih2⟩
  | mergeH t1 t2 ih1 ih2 => intro p; exact ⟨ih1, ih2⟩
  | mergeV t1 t2 ih1 ih2 => intro p; exact ⟨ih1, ih2⟩
  | matvec ar t x ih1 ih2 => intro p; exact ⟨ih1, ih2, hl _, .inr (hl _)⟩
  | _ => intro p; trivial

theorem needs_noMatvec {l : Ref → Bool} {d : Dim} {t : Tm α d} (ht : ∀ p, l (.temp p) = true) :
    ∀ {p : List Nat}, NoMatvec t → (∀ r ∈ arrays t, l r = true) → Needs l p t := by
  induction t with
  | lv v => intro p _ h; exact h
  | view v t ih => intro p hs h; exact ih hs h
  | unary f t ih => intro p hs h; exact ih hs h
  | scalarL f x t ih => intro p hs h; exact ih hs h
  | scalarR f t x ih => intro p hs h; exact ih hs h
  | append t x ih => intro p hs h; exact ih hs h
  | prepend x t ih => intro p hs h; exact ih hs h
  | exclude t pos count ih => intro p hs h; exact ih hs h
  | excludeLast t k ih => intro p hs h; exact ih hs h
  | reduce r g t ih => intro p hs h; exact ih hs h
  | bcast r t ih => intro p hs h; exact ih hs h
  | transpose t ih => intro p hs h; exact ⟨ih hs h, .inr (ht _)⟩
  | binary f t1 t2 ih1 ih2 =>
    intro p hs h
    exact ⟨ih1 hs.1 (fun r hr => h r (List.mem_append_left _ hr)), ih2 hs.2 (fun r hr => h r (List.mem_append_right _ hr))⟩
  | merge t1 t2 ih1 ih2 =>
    intro p hs h
    exact ⟨ih1 hs.1 (fun r hr => h r (List.mem_append_left _ hr)), ih2 hs.2 (fun r hr => h r (List.mem_append_right _ hr))⟩
  | tensor ar t1 t2 ih1 ih2 =>
    intro p hs h
    exact ⟨ih1 hs.1 (fun r hr => h r (List.mem_append_left _ hr)), ih2 hs.2 (fun r hr => h r (List.mem_append_right _ hr))⟩
  | mergeH t1 t2 ih1 ih2 =>
    intro p hs h
    exact ⟨ih1 hs.1 (fun r hr => h r (List.mem_append_left _ hr)), ih2 hs.2 (fun r hr => h r (List.mem_append_right _ hr))⟩
  | mergeV t1 t2 ih1 ih2 =>
    intro p hs h
    exact ⟨ih1 hs.1 (fun r hr => h r (List.mem_append_left _ hr)), ih2 hs.2 (fun r hr => h r (List.mem_append_right _ hr))⟩
  | matvec ar t x _ _ => intro p hs _; exact hs.elim
  | _ => intro p _ _; trivial

/-- Every successful outcome has the property. -/
def Res.Every {A : Type} (P : A → Prop) (x : Res A) : Prop := ∀ a, x = .ok a → P a

theorem Res.Every.bind {A B : Type} {P : B → Prop} {x : Res A} {f : A → Res B} (h : ∀ a, Res.Every P (f a)) :
    Res.Every P (x >>= f) := by
  intro c hc
  cases x with
  | ok a => exact h a c hc
  | trap k => cases hc
  | ub => cases hc

theorem Res.Every.obj {x : Res (Acc (Mem α) β)} :
    Res.Every (fun o : Operand α β => o.array = none) (x >>= fun a => pure (.object a)) :=
  Res.Every.bind fun a o ho => by cases ho; rfl

theorem Res.Every.obj' {a : Acc (Mem α) β} :
    Res.Every (fun o : Operand α β => o.array = none) (pure (.object a)) :=
  fun o ho => by cases ho; rfl

theorem not_isArray_none (b : Build) {m : Mem α} {d : Dim} {t : Tm α d} {p : List Nat} (h : isArray t = false) :
    Res.Every (fun o : Operand α α => o.array = none) (t.make b m p) := by
  cases t with
  | lv v =>
    cases v with
    | arr1 id => cases h
    | arr2 id => cases h
    | view v l =>
      intro o ho
      simp only [Tm.make, Lv.make] at ho
      have hq : ∀ q, Lv.make b m (.view v l) = .ok q → q.array = none :=
        Res.Every.bind (fun o => Res.Every.obj)
      simp only [Lv.make] at hq
      revert ho hq
      generalize (do let o ← Lv.make b m l; let a ← v.mk b o.stored m; pure (Operand.object a) : Res (Operand α Loc)) = x
      intro ho hq
      cases x with
      | ok q => cases ho; exact hq q rfl
      | trap k => cases ho
      | ub => cases ho
  | view v t => exact Res.Every.bind fun _ => Res.Every.obj
  | unary f t => exact Res.Every.bind fun _ => Res.Every.obj'
  | binary f t1 t2 => exact Res.Every.bind fun _ => Res.Every.bind fun _ => Res.Every.obj
  | scalarL f x t => exact Res.Every.bind fun _ => Res.Every.bind fun _ => Res.Every.obj
  | scalarR f t x => exact Res.Every.bind fun _ => Res.Every.bind fun _ => Res.Every.obj
  | sequence ar n start incr => exact Res.Every.obj
  | linspace ar n start stop =>
    exact Res.Every.bind fun _ => Res.Every.bind fun _ => Res.Every.bind fun _ => Res.Every.bind fun _ =>
      Res.Every.bind fun _ => Res.Every.obj
  | eUnit ar k n => exact Res.Every.bind fun _ => Res.Every.bind fun _ => Res.Every.obj
  | const1D n x => exact Res.Every.obj
  | const2D k n x => exact Res.Every.obj
  | identity ar n => exact Res.Every.bind fun _ => Res.Every.bind fun _ => Res.Every.bind fun _ => Res.Every.obj'
  | merge t1 t2 => exact Res.Every.bind fun _ => Res.Every.bind fun _ => Res.Every.bind fun _ => Res.Every.obj
  | append t x => exact Res.Every.bind fun _ => Res.Every.bind fun _ => Res.Every.obj
  | prepend x t => exact Res.Every.bind fun _ => Res.Every.bind fun _ => Res.Every.obj
  | exclude t pos count => exact Res.Every.bind fun _ => Res.Every.obj
  | excludeLast t k => exact Res.Every.bind fun _ => Res.Every.bind fun _ => Res.Every.obj
  | reduce r g t => exact Res.Every.bind fun _ => Res.Every.obj'
  | matvec ar t x => exact Res.Every.bind fun _ => Res.Every.bind fun _ => Res.Every.bind fun _ => Res.Every.obj'
  | bcast r t => exact Res.Every.bind fun _ => Res.Every.obj'
  | tensor ar t1 t2 => exact Res.Every.bind fun _ => Res.Every.bind fun _ => Res.Every.obj'
  | transpose t => exact Res.Every.bind fun _ => Res.Every.bind fun _ => Res.Every.bind fun _ => Res.Every.obj'
  | mergeH t1 t2 => exact Res.Every.bind fun _ => Res.Every.bind fun _ => Res.Every.obj
  | mergeV t1 t2 => exact Res.Every.bind fun _ => Res.Every.bind fun _ => Res.Every.obj

theorem Res.ok_bind_inv {A B : Type} {x : Res A} {f : A → Res B} {c : B} (h : (x >>= f) = .ok c) :
    ∃ a, x = .ok a ∧ f a = .ok c := by
  cases x with
  | ok a => exact ⟨a, rfl, h⟩
  | trap k => cases h
  | ub => cases h

end Spp
