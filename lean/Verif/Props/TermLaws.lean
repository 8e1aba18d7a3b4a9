import Verif.Lemmas.TermLaws
import Verif.Lemmas.Sample
import Verif.Spec.Decide

/-
Laws of views and expressions (C111): pairs of expressions that are equal, element by element, for all
contents of the arrays.
-/

set_option linter.unusedSectionVars false

namespace Spp.Props
open Spec TermLaws

variable {α : Type} [Inhabited α] {s0 : Store α}

/-! ### Views of element-wise operations -/

/-- C111: a view of `f(A)` is `f` of the view of `A`, for every kind of view. -/
theorem C111_view_unary (b : Build) (hs : Store.Ok s0) {d d' : Dim} (v : View d d') (f : α → Res α)
    {t : Tm α d} (hS : (Tm.view v t).Sound s0) (hV : (Tm.view v t).Valid s0) :
    SameTerms b s0 (.view v (.unary f t)) (.unary f (.view v t)) := by
  have e : ∀ s, Tm.meaning s (.view v (.unary f t)) = Tm.meaning s (.unary f (.view v t)) :=
    fun s => sel_map f v (t.meaning s)
  refine same b hs ⟨hS.1, hS.2.1, ?_⟩ ⟨hV.1, ?_⟩ hS hV (fun s _ => .of_eq (e s))
  · exact small_congr (View.sel_dims v (map_dims f _).symm) hS.2.2
  · show v.Valid (Sem.dims ((t.meaning s0).map f)).1 (Sem.dims ((t.meaning s0).map f)).2
    rw [map_dims]; exact hV.2

/-- C111: a view of an operation between two objects is the operation between the views. -/
theorem C111_view_binary (b : Build) (hs : Store.Ok s0) {d d' : Dim} (v : View d d')
    (f : α → α → Res α) {t u : Tm α d} (hS : (Tm.view v t).Sound s0) (hV : (Tm.view v t).Valid s0)
    (hS' : u.Sound s0) (hV' : u.Valid s0) (hd : (t.meaning s0).dims = (u.meaning s0).dims) :
    SameTerms b s0 (.view v (.binary f t u)) (.binary f (.view v t) (.view v u)) := by
  have e : ∀ s, SameSizes s0 s →
      Tm.meaning s (.view v (.binary f t u)) = Tm.meaning s (.binary f (.view v t) (.view v u)) :=
    fun s h => sel_zip f v (by rw [t.meaning_dims h, u.meaning_dims h, hd])
  have ez : (Sem.zip f (t.meaning s0) (u.meaning s0)).dims = (t.meaning s0).dims := zip_dims_left f hd
  refine same b hs ⟨⟨hS.1, hS'⟩, hS.2.1, ?_⟩ ⟨⟨hV.1, hV', hd⟩, ?_⟩ ⟨hS, hS', hS.2.1, ?_⟩
    ⟨hV, ⟨hV', ?_⟩, View.sel_dims v hd⟩ (fun s h => .of_eq (e s h))
  · exact small_congr (View.sel_dims v ez.symm) hS.2.2
  · show v.Valid (Sem.zip f (t.meaning s0) (u.meaning s0)).dims.1 (Sem.zip f (t.meaning s0) (u.meaning s0)).dims.2
    rw [ez]; exact hV.2
  · exact small_congr (View.sel_dims v hd) hS.2.2
  · rw [← hd]; exact hV.2

/-- C111: a view of an operation with a scalar is the operation on the view. -/
theorem C111_view_scalar (b : Build) (hs : Store.Ok s0) {d d' : Dim} (v : View d d')
    (f : α → α → Res α) (x : α) {t : Tm α d} (hS : (Tm.view v t).Sound s0) (hV : (Tm.view v t).Valid s0) :
    SameTerms b s0 (.view v (.scalarL f x t)) (.scalarL f x (.view v t)) ∧
    SameTerms b s0 (.view v (.scalarR f t x)) (.scalarR f (.view v t) x) := by
  constructor
  · refine same b hs ⟨hS.1, hS.2.1, ?_⟩ ⟨hV.1, ?_⟩ hS hV (fun s _ => .of_eq (sel_map _ v (t.meaning s)))
    · exact small_congr (View.sel_dims v (map_dims _ _).symm) hS.2.2
    · show v.Valid (Sem.dims ((t.meaning s0).map _)).1 (Sem.dims ((t.meaning s0).map _)).2
      rw [map_dims]; exact hV.2
  · refine same b hs ⟨hS.1, hS.2.1, ?_⟩ ⟨hV.1, ?_⟩ hS hV (fun s _ => .of_eq (sel_map _ v (t.meaning s)))
    · exact small_congr (View.sel_dims v (map_dims _ _).symm) hS.2.2
    · show v.Valid (Sem.dims ((t.meaning s0).map _)).1 (Sem.dims ((t.meaning s0).map _)).2
      rw [map_dims]; exact hV.2

/-- `(x + y)(reverse) = x(reverse) + y(reverse)` and `row(-A, last) = -row(A, last)`. -/
example : SameTerms ⟨false, true, false⟩ Sample.store
    (.view (.slice .reverse) (.binary Sample.ints.add Sample.x Sample.y))
    (.binary Sample.ints.add (.view (.slice .reverse) Sample.x) (.view (.slice .reverse) Sample.y)) ∧
    SameTerms ⟨false, true, false⟩ Sample.store (.view (.row (.fromLast 0)) (.unary (fun x => .ok (-x)) Sample.A))
      (.unary (fun x => .ok (-x)) (.view (.row (.fromLast 0)) Sample.A)) :=
  ⟨C111_view_binary _ Sample.store_ok _ _ (by decide) (by decide) (by decide) (by decide) (by decide),
   C111_view_unary _ Sample.store_ok _ _ (by decide) (by decide)⟩

/-- C111: `transpose` commutes with element-wise operations. -/
theorem C111_transpose_elementwise (b : Build) (hs : Store.Ok s0) (f : α → Res α) (g : α → α → Res α)
    {t u : Tm α .two} (hS : t.Sound s0) (hV : t.Valid s0) (hS' : u.Sound s0) (hV' : u.Valid s0)
    (hd : (t.meaning s0).dims = (u.meaning s0).dims) :
    SameTerms b s0 (.transpose (.unary f t)) (.unary f (.transpose t)) ∧
    SameTerms b s0 (.transpose (.binary g t u)) (.binary g (.transpose t) (.transpose u)) := by
  refine ⟨same b hs hS hV hS hV (fun s _ => .of_eq rfl),
    same b hs ⟨hS, hS'⟩ ⟨hV, hV', hd⟩ ⟨hS, hS'⟩ ⟨hV, hV', ?_⟩ (fun s _ => .of_eq rfl)⟩
  exact dims_two.2 ⟨(dims_two.1 hd).2, (dims_two.1 hd).1⟩

example : SameTerms ⟨false, true, false⟩ Sample.store
    (.transpose (.binary Sample.ints.mul Sample.A Sample.A))
    (.binary Sample.ints.mul (.transpose Sample.A) (.transpose Sample.A)) :=
  (C111_transpose_elementwise _ Sample.store_ok .ok _ (by decide) (by decide) (by decide) (by decide)
    (by decide)).2

/-- C111: concatenation and element-wise operations commute. -/
theorem C111_merge_elementwise (b : Build) (hs : Store.Ok s0) (f : α → Res α) (g : α → α → Res α)
    {t u t' u' : Tm α .one} (hS : (Tm.merge t u).Sound s0) (hV : (Tm.merge t u).Valid s0)
    (hS' : (Tm.merge t' u').Sound s0) (hV' : (Tm.merge t' u').Valid s0)
    (h1 : (t.meaning s0).dims = (t'.meaning s0).dims) (h2 : (u.meaning s0).dims = (u'.meaning s0).dims) :
    SameTerms b s0 (.unary f (.merge t u)) (.merge (.unary f t) (.unary f u)) ∧
    SameTerms b s0 (.binary g (.merge t u) (.merge t' u')) (.merge (.binary g t t') (.binary g u u')) := by
  refine ⟨same b hs hS hV ⟨hS.1, hS.2.1, ?_⟩ hV (fun s _ => .of_eq ?_),
    same b hs ⟨hS, hS'⟩ ⟨hV, hV', ?_⟩ ⟨⟨hS.1, hS'.1⟩, ⟨hS.2.1, hS'.2.1⟩, ?_⟩
      ⟨⟨hV.1, hV'.1, h1⟩, hV.2, hV'.2, h2⟩ (fun s h => .of_eq ?_)⟩
  · show ((Sem.dims ((t.meaning s0).map f)).1 + (Sem.dims ((u.meaning s0).map f)).1 : Int) < _
    rw [map_dims, map_dims]; exact hS.2.2
  · exact List.map_append (l₁ := t.meaning s) (l₂ := u.meaning s)
  · refine dims_one.2 ?_
    show (List.append (t.meaning s0) (u.meaning s0)).length = (List.append (t'.meaning s0) (u'.meaning s0)).length
    exact len_append (dims_one.1 h1) (dims_one.1 h2)
  · show ((Sem.zip g (t.meaning s0) (t'.meaning s0)).dims.1 + (Sem.zip g (u.meaning s0) (u'.meaning s0)).dims.1 : Int) < _
    rw [zip_dims_left g h1, zip_dims_left g h2]; exact hS.2.2
  · have hl : List.length (t.meaning s) = List.length (t'.meaning s) :=
      dims_one.1 (by rw [t.meaning_dims h, t'.meaning_dims h, h1])
    exact List.zipWith_append hl

example : SameTerms ⟨false, true, false⟩ Sample.store
    (.binary Sample.ints.add (.merge Sample.x Sample.y) (.merge Sample.y Sample.x))
    (.merge (.binary Sample.ints.add Sample.x Sample.y) (.binary Sample.ints.add Sample.y Sample.x)) :=
  (C111_merge_elementwise _ Sample.store_ok .ok _ (by decide) (by decide) (by decide) (by decide)
    (by decide) (by decide)).2

/-! ### Transposed matrices -/

theorem small_of_eq {β : Type} {d : Dim} {x y : Sem β d} (e : x = y) (h : Small x) : Small y := e ▸ h

/-- C111: the rows of `transpose(A)` are the columns of `A`, and the other way round; its diagonals are
those of `A` with the opposite number. -/
theorem C111_transpose_lines (b : Build) (hs : Store.Ok s0) {t : Tm α .two} {p : Pos} {k : Int} :
    ((Tm.view (.col p) t).Sound s0 → (Tm.view (.col p) t).Valid s0 →
      SameTerms b s0 (.view (.row p) (.transpose t)) (.view (.col p) t)) ∧
    ((Tm.view (.row p) t).Sound s0 → (Tm.view (.row p) t).Valid s0 →
      SameTerms b s0 (.view (.col p) (.transpose t)) (.view (.row p) t)) ∧
    ((Tm.view (.diagK k) t).Sound s0 → (Tm.view (.diagK k) t).Valid s0 →
      SameTerms b s0 (.view (.diagK (-k)) (.transpose t)) (.view (.diagK k) t)) := by
  refine ⟨fun hS hV => same b hs hS hV hS hV (fun s _ => .of_eq rfl),
    fun hS hV => same b hs hS hV hS hV (fun s _ => .of_eq rfl), fun hS hV => ?_⟩
  have e : ∀ M : Mat (Res α), Mat.diagonal M.transposed (-k) = Mat.diagonal M k := by
    intro M
    unfold Mat.diagonal Mat.transposed
    simp only [Int.neg_neg]
    by_cases h0 : k = 0
    · subst h0
      simp [Nat.min_comm]
    · by_cases hk : 0 ≤ k
      · rw [if_neg (by omega), if_pos hk, Nat.min_comm]
      · rw [if_pos (by omega), if_neg hk, Nat.min_comm]
  have hsm := hS.1
  have hv : -((t.meaning s0).dims.1 : Int) < k ∧ k < (t.meaning s0).dims.2 := hV.2
  have hks : Small (t.meaning s0) := (C43_reads b hs hS.1 hV.1).1
  refine same b hs ⟨hS.1, ?_, ?_⟩ ⟨hV.1, ?_⟩ hS hV (fun s _ => .of_eq (e _))
  · have : IsIndex k := hS.2.1
    have hz : ((t.meaning s0).dims.1 : Int) < 2 ^ 63 := by
      have h1 := hks.1
      have h2 := hks.2
      change ((Mat.m (t.meaning s0) : Nat) : Int) < 2 ^ 63
      by_cases hm : Mat.m (t.meaning s0) = 0
      · omega
      · have : Mat.m (t.meaning s0) * 1 ≤ Mat.m (t.meaning s0) * Mat.n (t.meaning s0) :=
          Nat.mul_le_mul_left _ (by omega)
        omega
    show IsIndex (-k)
    unfold IsIndex at this ⊢
    omega
  · exact small_of_eq (d := .one) (e (t.meaning s0)).symm hS.2.2
  · show -((t.meaning s0).dims.2 : Int) < -k ∧ -k < ((t.meaning s0).dims.1 : Int)
    omega

example : SameTerms ⟨false, true, false⟩ Sample.store (.view (.row (.at 2)) (.transpose Sample.A))
    (.view (.col (.at 2)) Sample.A) ∧
    SameTerms ⟨false, true, false⟩ Sample.store (.view (.diagK (-1)) (.transpose Sample.A))
      (.view (.diagK 1) Sample.A) :=
  ⟨(C111_transpose_lines _ Sample.store_ok (k := 0)).1 (by decide) (by decide),
   (C111_transpose_lines _ Sample.store_ok (p := .at 0)).2.2 (by decide) (by decide)⟩

theorem cross_transposed {β : Type} (M : Mat (Res β)) (rs cs : List Int) :
    (M.cross rs cs).transposed = M.transposed.cross cs rs := by
  unfold Mat.cross
  by_cases h : rs = [] ∨ cs = []
  · rw [if_pos h, if_pos h.symm]; rfl
  · rw [if_neg h, if_neg (fun h' => h h'.symm)]
    simp only [Mat.transposed, Mat.mk.injEq, true_and]
    funext i j
    unfold Mat.pick
    simp only
    by_cases h2 : 0 ≤ rs.getD j 0 ∧ rs.getD j 0 < (M.m : Int) ∧ 0 ≤ cs.getD i 0 ∧ cs.getD i 0 < (M.n : Int)
    · rw [if_pos h2, if_pos ⟨h2.2.2.1, h2.2.2.2, h2.1, h2.2.1⟩]
    · rw [if_neg h2, if_neg (fun h' => h2 ⟨h'.2.2.1, h'.2.2.2, h'.1, h'.2.1⟩)]

theorem sub_transposed {β : Type} (M : Mat (Res β)) (r c p q : Nat) :
    (M.sub r c p q).transposed = M.transposed.sub c r q p := by
  unfold Mat.sub
  by_cases h : p = 0 ∨ q = 0
  · rw [if_pos h, if_pos h.symm]; rfl
  · rw [if_neg h, if_neg (fun h' => h h'.symm)]; rfl

theorem small_transposed {β : Type} {M : Mat (Res β)} (h : Small (d := .two) M) :
    Small (d := .two) M.transposed :=
  ⟨by show ((M.n * M.m : Nat) : Int) < 2 ^ 63 - 1; rw [Nat.mul_comm]; exact h.1, h.2.symm⟩

/-- C111: `transpose(A(r1, r2)) = transpose(A)(r2, r1)`; row slices become column slices. -/
theorem C111_transpose_slices (b : Build) (hs : Store.Ok s0) {t : Tm α .two} {r1 r2 : SliceReq} :
    ((Tm.view (.slice2 r1 r2) t).Sound s0 → (Tm.view (.slice2 r1 r2) t).Valid s0 →
      SameTerms b s0 (.transpose (.view (.slice2 r1 r2) t)) (.view (.slice2 r2 r1) (.transpose t))) ∧
    ((Tm.view (.rows r1) t).Sound s0 → (Tm.view (.rows r1) t).Valid s0 →
      SameTerms b s0 (.transpose (.view (.rows r1) t)) (.view (.cols r1) (.transpose t))) ∧
    ((Tm.view (.cols r1) t).Sound s0 → (Tm.view (.cols r1) t).Valid s0 →
      SameTerms b s0 (.transpose (.view (.cols r1) t)) (.view (.rows r1) (.transpose t))) := by
  refine ⟨fun hS hV => ?_, fun hS hV => ?_, fun hS hV => ?_⟩
  · refine same b hs hS hV ⟨hS.1, hS.2.1.symm, ?_⟩ ⟨hV.1, hV.2.symm⟩
      (fun s _ => .of_eq (cross_transposed _ _ _))
    exact small_of_eq (d := .two) (cross_transposed (t.meaning s0) _ _) (small_transposed hS.2.2)
  · refine same b hs hS hV ⟨hS.1, hS.2.1, ?_⟩ ⟨hV.1, hV.2⟩ (fun s _ => .of_eq (cross_transposed _ _ _))
    exact small_of_eq (d := .two) (cross_transposed (t.meaning s0) _ _) (small_transposed hS.2.2)
  · refine same b hs hS hV ⟨hS.1, hS.2.1, ?_⟩ ⟨hV.1, hV.2⟩ (fun s _ => .of_eq (cross_transposed _ _ _))
    exact small_of_eq (d := .two) (cross_transposed (t.meaning s0) _ _) (small_transposed hS.2.2)

/-- C111: the transposed block is the block of the transposed matrix with the roles of rows and
columns exchanged. -/
theorem C111_transpose_block (b : Build) (hs : Store.Ok s0) {t : Tm α .two} {i1 j1 i2 j2 : Pos}
    {p q : Int} :
    ((Tm.view (.block i1 j1 i2 j2) t).Sound s0 → (Tm.view (.block i1 j1 i2 j2) t).Valid s0 →
      SameTerms b s0 (.transpose (.view (.block i1 j1 i2 j2) t))
        (.view (.block j1 i1 j2 i2) (.transpose t))) ∧
    ((Tm.view (.blockN i1 j1 p q) t).Sound s0 → (Tm.view (.blockN i1 j1 p q) t).Valid s0 →
      SameTerms b s0 (.transpose (.view (.blockN i1 j1 p q) t))
        (.view (.blockN j1 i1 q p) (.transpose t))) := by
  refine ⟨fun hS hV => ?_, fun hS hV => ?_⟩
  · obtain ⟨a1, a2, a3, a4⟩ : i1.Args ∧ j1.Args ∧ i2.Args ∧ j2.Args := hS.2.1
    obtain ⟨v1, v2, v3, v4, v5, v6⟩ := hV.2
    refine same b hs hS hV ⟨hS.1, ⟨a2, a1, a4, a3⟩, ?_⟩ ⟨hV.1, v2, v1, v4, v3, v6, v5⟩
      (fun s _ => .of_eq (sub_transposed _ _ _ _ _))
    exact small_of_eq (d := .two) (sub_transposed (t.meaning s0) _ _ _ _) (small_transposed hS.2.2)
  · obtain ⟨a1, a2, a3, a4⟩ : i1.Args ∧ j1.Args ∧ IsIndex p ∧ IsIndex q := hS.2.1
    obtain ⟨v1, v2, v3, v4, v5, v6, v7, v8⟩ := hV.2
    refine same b hs hS hV ⟨hS.1, ⟨a2, a1, a4, a3⟩, ?_⟩ ⟨hV.1, v2, v1, v4, v3, v6, v5, v8, v7⟩
      (fun s _ => .of_eq (sub_transposed _ _ _ _ _))
    exact small_of_eq (d := .two) (sub_transposed (t.meaning s0) _ _ _ _) (small_transposed hS.2.2)

example : SameTerms ⟨false, true, false⟩ Sample.store
    (.transpose (.view (.slice2 .reverse .even) Sample.A))
    (.view (.slice2 .even .reverse) (.transpose Sample.A)) ∧
    SameTerms ⟨false, true, false⟩ Sample.store
    (.transpose (.view (.blockN (.at 0) (.at 1) 2 2) Sample.A))
    (.view (.blockN (.at 1) (.at 0) 2 2) (.transpose Sample.A)) :=
  ⟨(C111_transpose_slices _ Sample.store_ok).1 (by decide) (by decide),
   (C111_transpose_block _ Sample.store_ok (i2 := .at 0) (j2 := .at 0)).2 (by decide) (by decide)⟩

/-- C111: the transpose of matrices side by side is their transposes on top of each other. -/
theorem C111_transpose_merge (b : Build) (hs : Store.Ok s0) {t u : Tm α .two} :
    ((Tm.mergeH t u).Sound s0 → (Tm.mergeH t u).Valid s0 →
      SameTerms b s0 (.transpose (.mergeH t u)) (.mergeV (.transpose t) (.transpose u))) ∧
    ((Tm.mergeV t u).Sound s0 → (Tm.mergeV t u).Valid s0 →
      SameTerms b s0 (.transpose (.mergeV t u)) (.mergeH (.transpose t) (.transpose u))) :=
  by
  constructor
  · intro hS hV
    have h3 : Small (d := .two) (Mat.beside (t.meaning s0) (u.meaning s0)) := hS.2.2
    have h4 := small_transposed h3
    have hS' : (Tm.mergeV (.transpose t) (.transpose u)).Sound s0 := ⟨hS.1, hS.2.1, h4⟩
    have hV' : (Tm.mergeV (.transpose t) (.transpose u)).Valid s0 := ⟨hV.1, hV.2.1, hV.2.2⟩
    exact same b hs (t := .transpose (.mergeH t u)) hS hV hS' hV' (fun s _ => .of_eq rfl)
  · intro hS hV
    have h3 : Small (d := .two) (Mat.above (t.meaning s0) (u.meaning s0)) := hS.2.2
    have h4 := small_transposed h3
    have hS' : (Tm.mergeH (.transpose t) (.transpose u)).Sound s0 := ⟨hS.1, hS.2.1, h4⟩
    have hV' : (Tm.mergeH (.transpose t) (.transpose u)).Valid s0 := ⟨hV.1, hV.2.1, hV.2.2⟩
    exact same b hs (t := .transpose (.mergeV t u)) hS hV hS' hV' (fun s _ => .of_eq rfl)

example : SameTerms ⟨false, true, false⟩ Sample.store (.transpose (.mergeH Sample.A (.const2D 2 1 7)))
    (.mergeV (.transpose Sample.A) (.transpose (.const2D 2 1 7))) :=
  (C111_transpose_merge _ Sample.store_ok).1 (by decide) (by decide)

/-- C111: a reduction of the columns of `A` is the reduction of the rows of `transpose(A)`, and the other
way round; `transpose` exchanges the two ways of broadcasting a vector. -/
theorem C111_transpose_reduce (b : Build) (hs : Store.Ok s0) (rw : Bool) (g : List (Res α) → Res α)
    {t : Tm α .two} (hS : t.Sound s0) (hV : t.Valid s0) :
    SameTerms b s0 (.reduce rw g (.transpose t)) (.reduce (!rw) g t) := by
  cases rw
  · exact same b hs hS hV hS hV (fun s _ => .of_eq rfl)
  · exact same b hs hS hV hS hV (fun s _ => .of_eq rfl)

theorem C111_transpose_bcast (b : Build) (hs : Store.Ok s0) (rw : Bool) {t : Tm α .one}
    (hS : (Tm.bcast rw t).Sound s0) (hV : t.Valid s0) :
    SameTerms b s0 (.transpose (.bcast rw t)) (.bcast (!rw) t) := by
  cases rw
  · exact same b hs hS hV ⟨hS.1, hS.2⟩ hV (fun s _ => .of_eq rfl)
  · exact same b hs hS hV ⟨hS.1, hS.2⟩ hV (fun s _ => .of_eq rfl)

example : SameTerms ⟨false, true, false⟩ Sample.store (.reduce true (fun l => l.headD .ub) (.transpose Sample.A))
    (.reduce false (fun l => l.headD .ub) Sample.A) ∧
    SameTerms ⟨false, true, false⟩ Sample.store (.transpose (.bcast true Sample.x)) (.bcast false Sample.x) :=
  ⟨C111_transpose_reduce _ Sample.store_ok true _ (by decide) (by decide),
   C111_transpose_bcast _ Sample.store_ok true (by decide) (by decide)⟩

/-! ### Slices of slices, rows of blocks -/

theorem upto_nat (n : Nat) : upto n = progression 0 1 n := by
  rw [upto_eq_progression, Int.toNat_natCast]

theorem upto_nil {n : Nat} (h : n ≠ 0) : upto n ≠ [] := by
  rw [upto_nat]
  intro e
  have := congrArg List.length e
  simp at this
  exact h this

theorem upto_getD {n i : Nat} (h : i < n) : (upto n).getD i 0 = i := by
  rw [upto_nat, progression, getD_range_map h]; omega

theorem mat_pick {β : Type} {M : Mat (Res β)} {i j : Nat} (hi : i < M.m) (hj : j < M.n) :
    M.pick i j = M.el i j := by
  unfold Mat.pick
  rw [if_pos (by omega)]; rfl

theorem small_extents {β : Type} {M : Mat (Res β)} (h : Small (d := .two) M) :
    (M.m : Int) < 2 ^ 63 - 1 ∧ (M.n : Int) < 2 ^ 63 - 1 := by
  have h1 : ((M.m * M.n : Nat) : Int) < 2 ^ 63 - 1 := h.1
  have h2 : M.m = 0 ↔ M.n = 0 := h.2
  by_cases hm : M.m = 0
  · have := h2.1 hm; omega
  · have hn : M.n ≠ 0 := fun e => hm (h2.2 e)
    have e1 : M.m * 1 ≤ M.m * M.n := Nat.mul_le_mul_left _ (by omega)
    have e2 : 1 * M.n ≤ M.m * M.n := Nat.mul_le_mul_right _ (by omega)
    omega

theorem cross_rows {β : Type} {M : Mat (Res β)} {rs cs : List Int} (hr : rs ≠ []) (hn : M.n ≠ 0)
    (hcs : ∀ x ∈ cs, InRange M.n x) :
    (Mat.cross M rs (upto M.n)).m = rs.length ∧ (Mat.cross M rs (upto M.n)).n = M.n ∧
    Eqv (d := .two) (Mat.cross (Mat.cross M rs (upto M.n)) (upto rs.length) cs) (Mat.cross M rs cs) := by
  have e0 : ¬ (rs = [] ∨ upto M.n = []) := fun h => h.elim hr (upto_nil hn)
  have hlen : (upto (M.n : Int)).length = M.n := by rw [upto_nat, progression_length]
  have hlen' : (upto (rs.length : Int)).length = rs.length := by rw [upto_nat, progression_length]
  have hr0 : rs.length ≠ 0 := fun e => hr (List.length_eq_zero_iff.1 e)
  have eN : Mat.cross M rs (upto M.n) =
      ⟨rs.length, M.n, fun i j => M.pick (rs.getD i 0) ((upto M.n).getD j 0)⟩ := by
    unfold Mat.cross; rw [if_neg e0, hlen]
  rw [eN]
  refine ⟨rfl, rfl, ?_⟩
  by_cases hc : cs = []
  · unfold Mat.cross
    rw [if_pos (.inr hc), if_pos (.inr hc)]
    exact ⟨rfl, rfl, fun i j hi => absurd hi (Nat.not_lt_zero i)⟩
  · unfold Mat.cross
    rw [if_neg (fun h => h.elim (upto_nil hr0) hc), if_neg (fun h => h.elim hr hc)]
    refine ⟨hlen', rfl, fun i j hi hj => ?_⟩
    change i < (upto (rs.length : Int)).length at hi
    change j < cs.length at hj
    rw [hlen'] at hi
    show Mat.pick _ ((upto (rs.length : Int)).getD i 0) (cs.getD j 0) = M.pick (rs.getD i 0) (cs.getD j 0)
    have hin := hcs _ (getD_mem (d := 0) hj)
    obtain ⟨c, hc'⟩ : ∃ c : Nat, cs.getD j 0 = c := ⟨(cs.getD j 0).toNat, by have := hin.1; omega⟩
    rw [hc'] at hin ⊢
    have hcn : c < M.n := by have := hin.2; omega
    rw [upto_getD hi, mat_pick (M := ⟨rs.length, M.n, _⟩) hi hcn]
    show M.pick (rs.getD i 0) ((upto M.n).getD c 0) = _
    rw [upto_getD hcn]

theorem sel_shape {β : Type} {M : Mat (Res β)} (hz : M.m = 0 ↔ M.n = 0) {rs : List Int}
    (hrs : ∀ x ∈ rs, InRange M.m x) (hr : rs ≠ []) : M.n ≠ 0 := by
  obtain ⟨x, l, rfl⟩ := List.exists_cons_of_ne_nil hr
  have := hrs x (List.mem_cons_self ..)
  intro h
  have := hz.2 h
  unfold InRange at *
  omega

/-- C111: when some row is selected, selecting rows and then columns is the two-dimensional slice. -/
theorem C111_rows_cols (b : Build) (hs : Store.Ok s0) {t : Tm α .two} {r1 r2 : SliceReq}
    (hS : (Tm.view (.slice2 r1 r2) t).Sound s0) (hV : (Tm.view (.slice2 r1 r2) t).Valid s0)
    (hS1 : (Tm.view (.rows r1) t).Sound s0) (hne : selection (t.meaning s0).dims.1 r1 ≠ []) :
    SameTerms b s0 (.view (.cols r2) (.view (.rows r1) t)) (.view (.slice2 r1 r2) t) := by
  have key : ∀ s, SameSizes s0 s →
      (Mat.cross (t.meaning s) (selection (Mat.m (t.meaning s)) r1) (upto (Mat.n (t.meaning s)))).m =
        (selection (Mat.m (t.meaning s0)) r1).length ∧
      (Mat.cross (t.meaning s) (selection (Mat.m (t.meaning s)) r1) (upto (Mat.n (t.meaning s)))).n =
        Mat.n (t.meaning s0) ∧
      Eqv ((Tm.view (.cols r2) (.view (.rows r1) t)).meaning s) ((Tm.view (.slice2 r1 r2) t).meaning s) := by
    intro s h
    have hd := dims_two.1 (t.meaning_dims h)
    have hks : Small (t.meaning s0) := (C43_reads b hs hS.1 hV.1).1
    have hk := small_extents (M := t.meaning s0) hks
    have h1 : ∀ x ∈ selection (Mat.m (t.meaning s0)) r1, InRange (Mat.m (t.meaning s0)) x :=
      selection_inRange hk.1 hS.2.1.1 hV.2.1
    have h2 : ∀ x ∈ selection (Mat.n (t.meaning s0)) r2, InRange (Mat.n (t.meaning s0)) x :=
      selection_inRange hk.2 hS.2.1.2 hV.2.2
    have hn := sel_shape (M := t.meaning s0) hks.2 h1 hne
    have hne' : selection (Mat.m (t.meaning s0)) r1 ≠ [] := hne
    rw [← hd.1] at hne'
    rw [← hd.2] at hn h2
    obtain ⟨e1, e2, e3⟩ := cross_rows (M := t.meaning s) hne' hn h2
    refine ⟨by rw [e1, hd.1], by rw [e2, hd.2], ?_⟩
    show Eqv (d := .two) (Mat.cross (Mat.cross (t.meaning s) _ _) (upto (Mat.m (Mat.cross (t.meaning s) _ _)))
      (selection (Mat.n (Mat.cross (t.meaning s) _ _)) r2)) _
    rw [e1, e2]
    exact e3
  have k0 := key s0 (SameSizes.refl s0)
  refine same b hs ⟨hS1, hS.2.1.2, ?_⟩ ⟨⟨hV.1, hV.2.1⟩, ?_⟩ hS hV (fun s h => (key s h).2.2)
  · exact small_congr k0.2.2.dims.symm hS.2.2
  · show r2.Valid ((Mat.cross (t.meaning s0) _ _).n : Int)
    rw [k0.2.1]; exact hV.2.2

example : SameTerms ⟨false, true, false⟩ Sample.store
    (.view (.cols .reverse) (.view (.rows (.vec [1, 0, 1])) Sample.A))
    (.view (.slice2 (.vec [1, 0, 1]) .reverse) Sample.A) :=
  C111_rows_cols _ Sample.store_ok (by decide) (by decide) (by decide) (by decide)

/-- C111: a block of a block is the block at the sum of the corners. -/
theorem C111_block_block (b : Build) (hs : Store.Ok s0) {t : Tm α .two} {i j i' j' p q p' q' : Int}
    (hS : (Tm.view (.blockN (.at i') (.at j') p' q') (.view (.blockN (.at i) (.at j) p q) t)).Sound s0)
    (hV : (Tm.view (.blockN (.at i') (.at j') p' q') (.view (.blockN (.at i) (.at j) p q) t)).Valid s0)
    (hp : 0 < p') (hq : 0 < q') :
    SameTerms b s0 (.view (.blockN (.at i') (.at j') p' q') (.view (.blockN (.at i) (.at j) p q) t))
      (.view (.blockN (.at (i + i')) (.at (j + j')) p' q') t) := by
  obtain ⟨_, _, (v1 : 0 ≤ i'), (v2 : 0 ≤ j'), _, _, v3, v4⟩ := hV.2
  obtain ⟨_, _, (w1 : 0 ≤ i), (w2 : 0 ≤ j), w3, w4, w5, w6⟩ := hV.1.2
  have v3 := v3 (by omega)
  have v4 := v4 (by omega)
  change i' + p' ≤ ((Mat.sub (t.meaning s0) i.toNat j.toNat p.toNat q.toNat).m : Int) at v3
  change j' + q' ≤ ((Mat.sub (t.meaning s0) i.toNat j.toNat p.toNat q.toNat).n : Int) at v4
  have hpq : ¬ (p.toNat = 0 ∨ q.toNat = 0) := by
    intro h
    unfold Mat.sub at v3
    rw [if_pos h] at v3
    simp only at v3
    omega
  unfold Mat.sub at v3 v4
  rw [if_neg hpq] at v3 v4
  simp only at v3 v4
  have w5 := w5 (by omega)
  have w6 := w6 (by omega)
  change i + p ≤ ((Mat.m (t.meaning s0) : Nat) : Int) at w5
  change j + q ≤ ((Mat.n (t.meaning s0) : Nat) : Int) at w6
  have e : ∀ s, Tm.meaning s (.view (.blockN (.at i') (.at j') p' q') (.view (.blockN (.at i) (.at j) p q) t)) =
      Tm.meaning s (.view (.blockN (.at (i + i')) (.at (j + j')) p' q') t) := by
    intro s
    show Mat.sub (Mat.sub (t.meaning s) i.toNat j.toNat p.toNat q.toNat) i'.toNat j'.toNat p'.toNat q'.toNat =
      Mat.sub (t.meaning s) (i + i').toNat (j + j').toNat p'.toNat q'.toNat
    unfold Mat.sub
    rw [if_neg hpq, if_neg (by omega), if_neg (by omega)]
    simp only [Mat.mk.injEq, true_and]
    funext a c
    congr 1 <;> omega
  have hk := small_extents (M := t.meaning s0) (C43_reads b hs hS.1.1 hV.1.1).1
  have a1 := hS.2.1
  refine same b hs hS hV ⟨hS.1.1, ⟨?_, ?_, a1.2.2.1, a1.2.2.2⟩, ?_⟩
    ⟨hV.1.1, trivial, trivial, ?_, ?_, by omega, by omega, fun _ => ?_, fun _ => ?_⟩ (fun s _ => .of_eq (e s))
  · show IsIndex (i + i')
    unfold IsIndex; omega
  · show IsIndex (j + j')
    unfold IsIndex; omega
  · exact small_of_eq (d := .two) (e s0) hS.2.2
  · show 0 ≤ i + i'; omega
  · show 0 ≤ j + j'; omega
  · show i + i' + p' ≤ ((Mat.m (t.meaning s0) : Nat) : Int); omega
  · show j + j' + q' ≤ ((Mat.n (t.meaning s0) : Nat) : Int); omega

example : SameTerms ⟨false, true, false⟩ Sample.store
    (.view (.blockN (.at 1) (.at 1) 1 1) (.view (.blockN (.at 0) (.at 1) 2 2) Sample.A))
    (.view (.blockN (.at (0 + 1)) (.at (1 + 1)) 1 1) Sample.A) :=
  C111_block_block _ Sample.store_ok (by decide) (by decide) (by decide) (by decide)

/-- C111: a row of a block is a slice of a row, and a column of a block a slice of a column. -/
theorem C111_block_lines (b : Build) (hs : Store.Ok s0) {t : Tm α .two} {i j p q k : Int} :
    ((Tm.view (.row (.at k)) (.view (.blockN (.at i) (.at j) p q) t)).Sound s0 →
      (Tm.view (.row (.at k)) (.view (.blockN (.at i) (.at j) p q) t)).Valid s0 →
      SameTerms b s0 (.view (.row (.at k)) (.view (.blockN (.at i) (.at j) p q) t))
        (.view (.slice (.seqN j q 1)) (.view (.row (.at (i + k))) t))) ∧
    ((Tm.view (.col (.at k)) (.view (.blockN (.at i) (.at j) p q) t)).Sound s0 →
      (Tm.view (.col (.at k)) (.view (.blockN (.at i) (.at j) p q) t)).Valid s0 →
      SameTerms b s0 (.view (.col (.at k)) (.view (.blockN (.at i) (.at j) p q) t))
        (.view (.slice (.seqN i p 1)) (.view (.col (.at (j + k))) t))) := by
  constructor
  · intro hS hV
    obtain ⟨v1, v2⟩ : InRange ((Mat.sub (t.meaning s0) i.toNat j.toNat p.toNat q.toNat).m : Int) k := hV.2
    obtain ⟨_, _, (w1 : 0 ≤ i), (w2 : 0 ≤ j), w3, w4, w5, w6⟩ := hV.1.2
    have hpq : ¬ (p.toNat = 0 ∨ q.toNat = 0) := by
      intro h
      unfold Mat.sub at v2
      rw [if_pos h] at v2
      simp only at v2
      omega
    unfold Mat.sub at v2
    rw [if_neg hpq] at v2
    simp only at v2
    have w5 := w5 (by omega)
    have w6 := w6 (by omega)
    change i + p ≤ ((Mat.m (t.meaning s0) : Nat) : Int) at w5
    change j + q ≤ ((Mat.n (t.meaning s0) : Nat) : Int) at w6
    have e : ∀ s, SameSizes s0 s → Tm.meaning s (.view (.row (.at k)) (.view (.blockN (.at i) (.at j) p q) t)) =
        Tm.meaning s (.view (.slice (.seqN j q 1)) (.view (.row (.at (i + k))) t)) := by
      intro s h
      have hd := dims_two.1 (t.meaning_dims h)
      show Mat.row (Mat.sub (t.meaning s) i.toNat j.toNat p.toNat q.toNat) k.toNat =
        (progression j 1 q.toNat).map (pick (Mat.row (t.meaning s) (i + k).toNat))
      unfold Mat.sub Mat.row progression
      rw [if_neg hpq, List.map_map]
      refine List.map_congr_left (fun a ha => ?_)
      have ha : a < q.toNat := List.mem_range.1 ha
      have e1 : j + (a : Int) * 1 = ((j.toNat + a : Nat) : Int) := by omega
      simp only [Function.comp, e1, pick_nat]
      rw [getD_range_map (by omega)]
      congr 1; omega
    have hk := small_extents (M := t.meaning s0) (C43_reads b hs hS.1.1 hV.1.1).1
    obtain ⟨_, a2, _, a4⟩ := hS.1.2.1
    have hl : (List.length ((Tm.view (.row (.at (i + k))) t).meaning s0)) = Mat.n (t.meaning s0) := by
      show (Mat.row (t.meaning s0) _).length = _
      unfold Mat.row
      simp
    refine same b hs hS hV ⟨⟨hS.1.1, ?_, ?_⟩, ⟨a2, a4, by decide⟩, ?_⟩ ⟨⟨hV.1.1, ?_⟩, w2, w4, ?_⟩
      (fun s h => .of_eq (e s h))
    · show IsIndex (i + k)
      unfold IsIndex; omega
    · show (List.length ((Tm.view (.row (.at (i + k))) t).meaning s0) : Int) < 2 ^ 63 - 1
      rw [hl]; exact hk.2
    · exact small_of_eq (d := .one) (e s0 (SameSizes.refl s0)) hS.2.2
    · show InRange ((Mat.m (t.meaning s0) : Nat) : Int) (i + k)
      unfold InRange; omega
    · intro a h0 h1
      show InRange (List.length ((Tm.view (.row (.at (i + k))) t).meaning s0) : Int) _
      rw [hl]; unfold InRange; omega
  · intro hS hV
    obtain ⟨v1, v2⟩ : InRange ((Mat.sub (t.meaning s0) i.toNat j.toNat p.toNat q.toNat).n : Int) k := hV.2
    obtain ⟨_, _, (w1 : 0 ≤ i), (w2 : 0 ≤ j), w3, w4, w5, w6⟩ := hV.1.2
    have hpq : ¬ (p.toNat = 0 ∨ q.toNat = 0) := by
      intro h
      unfold Mat.sub at v2
      rw [if_pos h] at v2
      simp only at v2
      omega
    unfold Mat.sub at v2
    rw [if_neg hpq] at v2
    simp only at v2
    have w5 := w5 (by omega)
    have w6 := w6 (by omega)
    change i + p ≤ ((Mat.m (t.meaning s0) : Nat) : Int) at w5
    change j + q ≤ ((Mat.n (t.meaning s0) : Nat) : Int) at w6
    have e : ∀ s, SameSizes s0 s → Tm.meaning s (.view (.col (.at k)) (.view (.blockN (.at i) (.at j) p q) t)) =
        Tm.meaning s (.view (.slice (.seqN i p 1)) (.view (.col (.at (j + k))) t)) := by
      intro s h
      have hd := dims_two.1 (t.meaning_dims h)
      show Mat.col (Mat.sub (t.meaning s) i.toNat j.toNat p.toNat q.toNat) k.toNat =
        (progression i 1 p.toNat).map (pick (Mat.col (t.meaning s) (j + k).toNat))
      unfold Mat.sub Mat.col progression
      rw [if_neg hpq, List.map_map]
      refine List.map_congr_left (fun a ha => ?_)
      have ha : a < p.toNat := List.mem_range.1 ha
      have e1 : i + (a : Int) * 1 = ((i.toNat + a : Nat) : Int) := by omega
      simp only [Function.comp, e1, pick_nat]
      rw [getD_range_map (by omega)]
      congr 1; omega
    have hk := small_extents (M := t.meaning s0) (C43_reads b hs hS.1.1 hV.1.1).1
    obtain ⟨a1, _, a3, _⟩ := hS.1.2.1
    have hl : (List.length ((Tm.view (.col (.at (j + k))) t).meaning s0)) = Mat.m (t.meaning s0) := by
      show (Mat.col (t.meaning s0) _).length = _
      unfold Mat.col
      simp
    refine same b hs hS hV ⟨⟨hS.1.1, ?_, ?_⟩, ⟨a1, a3, by decide⟩, ?_⟩ ⟨⟨hV.1.1, ?_⟩, w1, w3, ?_⟩
      (fun s h => .of_eq (e s h))
    · show IsIndex (j + k)
      unfold IsIndex; omega
    · show (List.length ((Tm.view (.col (.at (j + k))) t).meaning s0) : Int) < 2 ^ 63 - 1
      rw [hl]; exact hk.1
    · exact small_of_eq (d := .one) (e s0 (SameSizes.refl s0)) hS.2.2
    · show InRange ((Mat.n (t.meaning s0) : Nat) : Int) (j + k)
      unfold InRange; omega
    · intro a h0 h1
      show InRange (List.length ((Tm.view (.col (.at (j + k))) t).meaning s0) : Int) _
      rw [hl]; unfold InRange; omega

example : SameTerms ⟨false, true, false⟩ Sample.store
    (.view (.row (.at 1)) (.view (.blockN (.at 0) (.at 1) 2 2) Sample.A))
    (.view (.slice (.seqN 1 2 1)) (.view (.row (.at (0 + 1))) Sample.A)) :=
  (C111_block_lines _ Sample.store_ok).1 (by decide) (by decide)

/-! ### Parts of concatenations -/

theorem map_pick_append_left {β : Type} (l k : List (Res β)) :
    (progression 0 1 l.length).map (pick (l ++ k)) = l := by
  apply List.ext_getElem
  · simp
  · intro i h1 h2
    simp only [progression, List.getElem_map, List.getElem_range]
    have e : (0 : Int) + (i : Int) * 1 = i := by omega
    rw [e, pick_nat, getD_lt (by simp; omega), List.getElem_append_left]

theorem map_pick_append_right {β : Type} (l k : List (Res β)) :
    (progression l.length 1 k.length).map (pick (l ++ k)) = k := by
  apply List.ext_getElem
  · simp
  · intro i h1 h2
    simp only [progression, List.getElem_map, List.getElem_range]
    have e : (l.length : Int) + (i : Int) * 1 = ((l.length + i : Nat) : Int) := by omega
    rw [e, pick_nat, getD_lt (by simp; omega), List.getElem_append_right (by omega)]
    simp

theorem map_pick_reverse {β : Type} (l : List (Res β)) :
    (progression (l.length - 1) (-1) l.length).map (pick l) = l.reverse := by
  apply List.ext_getElem
  · simp
  · intro i h1 h2
    simp only [progression, List.getElem_map, List.getElem_range]
    have hi : i < l.length := by simpa using h2
    have e : (l.length : Int) - 1 + (i : Int) * (-1) = ((l.length - 1 - i : Nat) : Int) := by omega
    rw [e, pick_nat, getD_lt (by omega), List.getElem_reverse]

/-- C111: the first elements of a concatenation are its first operand, the last ones its second. -/
theorem C111_merge_parts (b : Build) (hs : Store.Ok s0) {t u : Tm α .one}
    (hS : (Tm.merge t u).Sound s0) (hV : (Tm.merge t u).Valid s0) :
    SameTerms b s0 (.view (.slice (.firstN ((t.meaning s0).dims.1 : Nat))) (.merge t u)) t ∧
    SameTerms b s0 (.view (.slice (.lastN ((u.meaning s0).dims.1 : Nat))) (.merge t u)) u := by
  have hsz : ((List.length (t.meaning s0) : Nat) + (List.length (u.meaning s0) : Nat) : Int) < 2 ^ 63 - 1 := hS.2.2
  have e : ∀ s, SameSizes s0 s →
      (Tm.view (.slice (.firstN ((t.meaning s0).dims.1 : Nat))) (.merge t u)).meaning s = t.meaning s ∧
      (Tm.view (.slice (.lastN ((u.meaning s0).dims.1 : Nat))) (.merge t u)).meaning s = u.meaning s := by
    intro s h
    have h1 : List.length (t.meaning s) = List.length (t.meaning s0) := dims_one.1 (t.meaning_dims h)
    have h2 : List.length (u.meaning s) = List.length (u.meaning s0) := dims_one.1 (u.meaning_dims h)
    have hl : (List.append (t.meaning s) (u.meaning s)).length =
        List.length (t.meaning s) + List.length (u.meaning s) := List.length_append
    constructor
    · show (selection (List.length (List.append (t.meaning s) (u.meaning s)) : Nat)
        (.firstN (List.length (t.meaning s0) : Nat))).map (pick (List.append (t.meaning s) (u.meaning s))) = t.meaning s
      rw [← h1, Idioms.sel_firstN (by omega)]
      exact map_pick_append_left _ _
    · show (selection (List.length (List.append (t.meaning s) (u.meaning s)) : Nat)
        (.lastN (List.length (u.meaning s0) : Nat))).map (pick (List.append (t.meaning s) (u.meaning s))) = u.meaning s
      rw [← h2, Idioms.sel_lastN (by omega), hl]
      have e3 : ((List.length (t.meaning s) + List.length (u.meaning s) : Nat) : Int) - (List.length (u.meaning s) : Nat)
        = (List.length (t.meaning s) : Nat) := by omega
      rw [e3]
      exact map_pick_append_right _ _
  have e0 := e s0 (SameSizes.refl s0)
  have hl : (Sem.dims (Tm.meaning s0 (.merge t u))).1 = (t.meaning s0).dims.1 + (u.meaning s0).dims.1 :=
    List.length_append (as := t.meaning s0) (bs := u.meaning s0)
  have k1 := (C43_reads b hs hS.1 hV.1).1
  have k2 := (C43_reads b hs hS.2.1 hV.2).1
  have d1 : (t.meaning s0).dims.1 = List.length (t.meaning s0) := rfl
  have d2 : (u.meaning s0).dims.1 = List.length (u.meaning s0) := rfl
  constructor
  · refine same b hs ⟨hS, ?_, ?_⟩ ⟨hV, ?_⟩ hS.1 hV.1 (fun s h => .of_eq (e s h).1)
    · show IsIndex _
      unfold IsIndex; omega
    · exact small_of_eq (d := .one) e0.1.symm k1
    · show (0 : Int) ≤ _ ∧ _ ≤ (((Sem.dims (Tm.meaning s0 (.merge t u))).1 : Nat) : Int)
      rw [hl]; omega
  · refine same b hs ⟨hS, ?_, ?_⟩ ⟨hV, ?_⟩ hS.2.1 hV.2 (fun s h => .of_eq (e s h).2)
    · show IsIndex _
      unfold IsIndex; omega
    · exact small_of_eq (d := .one) e0.2.symm k2
    · show (0 : Int) ≤ _ ∧ _ ≤ (((Sem.dims (Tm.meaning s0 (.merge t u))).1 : Nat) : Int)
      rw [hl]; omega

example : SameTerms ⟨false, true, false⟩ Sample.store
    (.view (.slice (.lastN ((Sample.y.meaning Sample.store).dims.1 : Nat))) (.merge Sample.x Sample.y)) Sample.y :=
  (C111_merge_parts _ Sample.store_ok (by decide) (by decide)).2

theorem reverse_meaning (v : Tm α .one) (s : Store α) :
    (Tm.view (.slice .reverse) v).meaning s = List.reverse (v.meaning s) := by
  show (selection (List.length (v.meaning s) : Nat) .reverse).map (pick (v.meaning s)) = _
  rw [Idioms.sel_reverse]
  exact map_pick_reverse _

theorem reverse_dims (v : Tm α .one) (s : Store α) :
    ((Tm.view (.slice .reverse) v).meaning s).dims = (v.meaning s).dims := by
  rw [reverse_meaning]
  exact dims_one.2 List.length_reverse

/-- C111: reversing a concatenation concatenates the reversed operands in the opposite order. -/
theorem C111_reverse_merge (b : Build) (hs : Store.Ok s0) {t u : Tm α .one}
    (hS : (Tm.merge t u).Sound s0) (hV : (Tm.merge t u).Valid s0) :
    SameTerms b s0 (.view (.slice .reverse) (.merge t u))
      (.merge (.view (.slice .reverse) u) (.view (.slice .reverse) t)) := by
  have hr : ∀ (v : Tm α .one) s, (Tm.view (.slice .reverse) v).meaning s = List.reverse (v.meaning s) :=
    reverse_meaning
  have hl : ∀ (v : Tm α .one), (Sem.dims ((Tm.view (.slice .reverse) v).meaning s0)).1 = (v.meaning s0).dims.1 :=
    fun v => congrArg Prod.fst (reverse_dims v s0)
  have k1 : Small (t.meaning s0) := (C43_reads b hs hS.1 hV.1).1
  have k2 : Small (u.meaning s0) := (C43_reads b hs hS.2.1 hV.2).1
  have k3 : Small ((Tm.merge t u).meaning s0) := (C43_reads b hs hS hV).1
  have hrs : ∀ (v : Tm α .one), Small (v.meaning s0) → Small ((Tm.view (.slice .reverse) v).meaning s0) := by
    intro v hv
    exact small_congr (reverse_dims v s0).symm hv
  have hS1 : (Tm.view (.slice .reverse) (.merge t u)).Sound s0 := ⟨hS, trivial, hrs (.merge t u) k3⟩
  have hV1 : (Tm.view (.slice .reverse) (.merge t u)).Valid s0 := ⟨hV, trivial⟩
  have hsz : ((Sem.dims ((Tm.view (.slice .reverse) u).meaning s0)).1 +
      (Sem.dims ((Tm.view (.slice .reverse) t).meaning s0)).1 : Int) < 2 ^ 63 - 1 := by
    rw [hl, hl]
    have := hS.2.2
    omega
  have hS2 : (Tm.merge (.view (.slice .reverse) u) (.view (.slice .reverse) t)).Sound s0 :=
    ⟨⟨hS.2.1, trivial, hrs u k2⟩, ⟨hS.1, trivial, hrs t k1⟩, hsz⟩
  have hV2 : (Tm.merge (.view (.slice .reverse) u) (.view (.slice .reverse) t)).Valid s0 :=
    ⟨⟨hV.2, trivial⟩, hV.1, trivial⟩
  refine same b hs hS1 hV1 hS2 hV2 (fun s _ => .of_eq ?_)
  · rw [hr]
    show List.reverse (List.append (t.meaning s) (u.meaning s)) =
      List.append ((Tm.view (.slice .reverse) u).meaning s) ((Tm.view (.slice .reverse) t).meaning s)
    rw [hr, hr]
    exact List.reverse_append

example : SameTerms ⟨false, true, false⟩ Sample.store (.view (.slice .reverse) (.merge Sample.x Sample.y))
    (.merge (.view (.slice .reverse) Sample.y) (.view (.slice .reverse) Sample.x)) :=
  C111_reverse_merge _ Sample.store_ok (by decide) (by decide)

/-- C111: `append` and `prepend` are concatenations with a constant of one element. -/
theorem C111_append_merge (b : Build) (hs : Store.Ok s0) {t : Tm α .one} (c : α)
    (hS : (Tm.append t c).Sound s0) (hV : t.Valid s0) :
    SameTerms b s0 (.append t c) (.merge t (.const1D 1 c)) ∧
    SameTerms b s0 (.prepend c t) (.merge (.const1D 1 c) t) := by
  have hc : (Tm.const1D 1 c : Tm α .one).Sound s0 := by show (1 : Int) < 2 ^ 63 - 1; decide
  have hcv : (Tm.const1D 1 c : Tm α .one).Valid s0 := by show (0 : Int) ≤ 1; decide
  have hsz : ((t.meaning s0).dims.1 + 1 : Int) < 2 ^ 63 - 1 := hS.2
  have hd : (Sem.dims ((Tm.const1D 1 c : Tm α .one).meaning s0)).1 = 1 := rfl
  have hS1 : (Tm.merge t (.const1D 1 c)).Sound s0 := ⟨hS.1, hc, by rw [hd]; exact hsz⟩
  have hS2 : (Tm.merge (.const1D 1 c) t).Sound s0 := ⟨hc, hS.1, by rw [hd]; omega⟩
  exact ⟨same b hs hS hV hS1 ⟨hV, hcv⟩ (fun s _ => .of_eq rfl),
    same b hs (t := .prepend c t) ⟨hS.1, hS.2⟩ hV hS2 ⟨hcv, hV⟩ (fun s _ => .of_eq rfl)⟩

theorem firstN_list {β : Type} {l : List (Res β)} {p : Nat} (h : p ≤ l.length) :
    (selection l.length (.firstN p)).map (pick l) = l.take p := by
  rw [Idioms.sel_firstN h]
  have := map_pick_append_left (l.take p) (l.drop p)
  rwa [List.take_append_drop, List.length_take, Nat.min_eq_left h] at this

theorem lastN_list {β : Type} {l : List (Res β)} {p q : Nat} (h : p + q = l.length) :
    (selection l.length (.lastN q)).map (pick l) = l.drop p := by
  rw [Idioms.sel_lastN (by omega)]
  have := map_pick_append_right (l.take p) (l.drop p)
  rw [List.take_append_drop, List.length_take, List.length_drop, Nat.min_eq_left (by omega)] at this
  rw [← this]
  congr 2 <;> omega

/-- C111: excluding a range of elements is concatenating the elements before it and those after it. -/
theorem C111_exclude_merge (b : Build) (hs : Store.Ok s0) {t : Tm α .one} {p c : Nat}
    (hS : (Tm.exclude t p c).Sound s0) (hV : (Tm.exclude t p c).Valid s0) :
    SameTerms b s0 (.exclude t p c)
      (.merge (.view (.slice (.firstN p)) t)
        (.view (.slice (.lastN (((t.meaning s0).dims.1 : Int) - p - c))) t)) := by
  obtain ⟨hv, _, hc, hpc⟩ := hV
  have hl0 : (t.meaning s0).dims.1 = List.length (t.meaning s0) := rfl
  rw [hl0] at hpc ⊢
  have hks : Small (t.meaning s0) := (C43_reads b hs hS.1 hv).1
  have hk : ((List.length (t.meaning s0) : Nat) : Int) < 2 ^ 63 - 1 := hks
  obtain ⟨q, hq⟩ : ∃ q : Nat, ((List.length (t.meaning s0) : Nat) : Int) - p - c = q :=
    ⟨List.length (t.meaning s0) - p - c, by omega⟩
  rw [hq]
  have e1 : ∀ s, SameSizes s0 s → (Tm.view (.slice (.firstN p)) t).meaning s = List.take p (t.meaning s) := by
    intro s h
    have hl : List.length (t.meaning s) = List.length (t.meaning s0) := dims_one.1 (t.meaning_dims h)
    show (selection (List.length (t.meaning s) : Nat) (.firstN p)).map (pick (t.meaning s)) = _
    exact firstN_list (by omega)
  have e2 : ∀ s, SameSizes s0 s → (Tm.view (.slice (.lastN q)) t).meaning s = List.drop (p + c) (t.meaning s) := by
    intro s h
    have hl : List.length (t.meaning s) = List.length (t.meaning s0) := dims_one.1 (t.meaning_dims h)
    show (selection (List.length (t.meaning s) : Nat) (.lastN q)).map (pick (t.meaning s)) = _
    exact lastN_list (by omega)
  have rf := SameSizes.refl s0
  have d1 : (Sem.dims ((Tm.view (.slice (.firstN p)) t).meaning s0)).1 = p := by
    rw [e1 s0 rf]
    exact List.length_take_of_le (by omega : p ≤ List.length (t.meaning s0))
  have d2 : (Sem.dims ((Tm.view (.slice (.lastN q)) t).meaning s0)).1 = q := by
    rw [e2 s0 rf]
    refine (List.length_drop (l := t.meaning s0) (i := p + c)).trans ?_
    omega
  have i1 : IsIndex (p : Int) := hS.2.1
  have i2 : IsIndex (q : Int) := by unfold IsIndex; omega
  have z1 : Small ((Tm.view (.slice (.firstN p)) t).meaning s0) := by
    show (((Sem.dims ((Tm.view (.slice (.firstN p)) t).meaning s0)).1 : Nat) : Int) < 2 ^ 63 - 1
    rw [d1]; omega
  have z2 : Small ((Tm.view (.slice (.lastN q)) t).meaning s0) := by
    show (((Sem.dims ((Tm.view (.slice (.lastN q)) t).meaning s0)).1 : Nat) : Int) < 2 ^ 63 - 1
    rw [d2]; omega
  have hSm : (Tm.merge (.view (.slice (.firstN p)) t) (.view (.slice (.lastN q)) t)).Sound s0 :=
    ⟨⟨hS.1, i1, z1⟩, ⟨hS.1, i2, z2⟩, by rw [d1, d2]; omega⟩
  have v1 : (Tm.view (.slice (.firstN p)) t).Valid s0 :=
    ⟨hv, Int.natCast_nonneg p, by rw [hl0]; omega⟩
  have v2 : (Tm.view (.slice (.lastN q)) t).Valid s0 :=
    ⟨hv, Int.natCast_nonneg q, by rw [hl0]; omega⟩
  refine same b hs hS ⟨hv, by omega, hc, by rw [hl0]; exact hpc⟩ hSm ⟨v1, v2⟩ (fun s h => .of_eq ?_)
  show removed (t.meaning s) (p : Int).toNat (c : Int).toNat =
    List.append ((Tm.view (.slice (.firstN p)) t).meaning s) ((Tm.view (.slice (.lastN q)) t).meaning s)
  rw [e1 s h, e2 s h]
  rfl

example : SameTerms ⟨false, true, false⟩ Sample.store (.exclude Sample.x ((1 : Nat) : Int) ((1 : Nat) : Int))
    (.merge (.view (.slice (.firstN ((1 : Nat) : Int))) Sample.x)
      (.view (.slice (.lastN (((Sample.x.meaning Sample.store).dims.1 : Int) - (1 : Nat) - (1 : Nat)))) Sample.x)) ∧
    SameTerms ⟨false, true, false⟩ Sample.store (.append Sample.x 9) (.merge Sample.x (.const1D 1 9)) :=
  ⟨C111_exclude_merge _ Sample.store_ok (by decide) (by decide),
   (C111_append_merge _ Sample.store_ok 9 (by decide) (by decide)).1⟩

/-! ### Reductions and products -/

theorem cross_row {β : Type} {M : Mat (Res β)} {rs : List Int} (hrs : ∀ x ∈ rs, InRange M.m x)
    (hr : rs ≠ []) (hn : M.n ≠ 0) {i : Nat} (hi : i < rs.length) :
    (Mat.cross M rs (upto M.n)).row i = M.row (rs.getD i 0).toNat := by
  have e0 : ¬ (rs = [] ∨ upto M.n = []) := fun h => h.elim hr (upto_nil hn)
  have hlen : (upto (M.n : Int)).length = M.n := by rw [upto_nat, progression_length]
  unfold Mat.cross Mat.row
  rw [if_neg e0, hlen]
  refine List.map_congr_left (fun j hj => ?_)
  have hj : j < M.n := List.mem_range.1 hj
  have hin := hrs _ (getD_mem (d := 0) hi)
  obtain ⟨c, hc⟩ : ∃ c : Nat, rs.getD i 0 = c := ⟨(rs.getD i 0).toNat, by have := hin.1; omega⟩
  show M.pick (rs.getD i 0) ((upto M.n).getD j 0) = _
  rw [hc] at hin ⊢
  rw [upto_getD hj, mat_pick (by have := hin.2; omega) hj, Int.toNat_natCast]

/-- Values computed from the rows: selecting the values is computing from the selected rows. -/
theorem slice_rows {β γ : Type} {M : Mat (Res β)} {rs : List Int} (hz : M.m = 0 ↔ M.n = 0)
    (hrs : ∀ x ∈ rs, InRange M.m x) (g : List (Res β) → Res γ) :
    rs.map (pick ((List.range M.m).map (fun i => g (M.row i)))) =
      (List.range (Mat.cross M rs (upto M.n)).m).map (fun i => g ((Mat.cross M rs (upto M.n)).row i)) := by
  by_cases hr : rs = []
  · subst hr
    unfold Mat.cross
    rw [if_pos (.inl rfl)]
    rfl
  · have hn := sel_shape hz hrs hr
    obtain ⟨e1, _, _⟩ := cross_rows (M := M) (cs := []) hr hn (fun x hx => absurd hx (List.not_mem_nil))
    rw [e1]
    apply List.ext_getElem
    · simp
    · intro i h1 h2
      have hi : i < rs.length := by simpa using h1
      rw [List.getElem_map, List.getElem_map, List.getElem_range, cross_row hrs hr hn hi, getD_lt hi]
      have hin := hrs _ (List.getElem_mem hi)
      obtain ⟨c, hc⟩ : ∃ c : Nat, rs[i] = c := ⟨(rs[i]).toNat, by have := hin.1; omega⟩
      rw [hc] at hin ⊢
      rw [pick_nat, getD_range_map (by have := hin.2; omega), Int.toNat_natCast]

/-- C111: slicing the reductions of the rows is reducing the selected rows. -/
theorem C111_slice_reduce (b : Build) (hs : Store.Ok s0) (g : List (Res α) → Res α) {t : Tm α .two}
    {r : SliceReq} (hS : (Tm.view (.rows r) t).Sound s0) (hV : (Tm.view (.rows r) t).Valid s0) :
    SameTerms b s0 (.view (.slice r) (.reduce true g t)) (.reduce true g (.view (.rows r) t)) := by
  have hks : Small (t.meaning s0) := (C43_reads b hs hS.1 hV.1).1
  have hk := small_extents (M := t.meaning s0) hks
  have hin := selection_inRange (n := Mat.m (t.meaning s0)) hk.1 hS.2.1 hV.2
  have hl : ∀ s, List.length ((Tm.reduce true g t).meaning s) = Mat.m (t.meaning s) := by
    intro s
    show ((List.range (Mat.m (t.meaning s))).map _).length = _
    simp
  have e : ∀ s, SameSizes s0 s → (Tm.view (.slice r) (.reduce true g t)).meaning s =
      (Tm.reduce true g (.view (.rows r) t)).meaning s := by
    intro s h
    have hd := dims_two.1 (t.meaning_dims h)
    show (selection (List.length ((Tm.reduce true g t).meaning s) : Nat) r).map _ = _
    rw [hl]
    refine slice_rows (M := t.meaning s) ?_ ?_ g
    · rw [hd.1, hd.2]; exact hks.2
    · rw [hd.1]; exact hin
  have hm : Small ((Tm.reduce true g (.view (.rows r) t)).meaning s0) := (C43_reads b hs
    (t := Tm.reduce true g (.view (.rows r) t)) hS hV).1
  have hV1 : (Tm.view (.slice r) (.reduce true g t)).Valid s0 := by
    refine ⟨hV.1, ?_⟩
    show r.Valid (List.length ((Tm.reduce true g t).meaning s0) : Nat)
    rw [hl]; exact hV.2
  have hS1 : (Tm.view (.slice r) (.reduce true g t)).Sound s0 :=
    ⟨hS.1, hS.2.1, small_of_eq (d := .one) (e s0 (SameSizes.refl s0)).symm hm⟩
  exact same b hs hS1 hV1 (u := Tm.reduce true g (.view (.rows r) t)) hS hV (fun s h => .of_eq (e s h))

example : SameTerms ⟨false, true, false⟩ Sample.store
    (.view (.slice .reverse) (.reduce true (fun l => l.headD .ub) Sample.A))
    (.reduce true (fun l => l.headD .ub) (.view (.rows .reverse) Sample.A)) :=
  C111_slice_reduce _ Sample.store_ok _ (by decide) (by decide)

/-- C111: when some row is selected, slicing `A x` is multiplying the selected rows by `x`. -/
theorem C111_slice_matvec (b : Build) (hs : Store.Ok s0) (ar : Arith α) {t : Tm α .two} {x : Tm α .one}
    {r : SliceReq} (hS : (Tm.view (.rows r) t).Sound s0) (hV : (Tm.view (.rows r) t).Valid s0)
    (hSx : x.Sound s0) (hVx : x.Valid s0) (hx : (t.meaning s0).dims.2 = (x.meaning s0).dims.1)
    (hne : selection (t.meaning s0).dims.1 r ≠ []) :
    SameTerms b s0 (.view (.slice r) (.matvec ar t x)) (.matvec ar (.view (.rows r) t) x) := by
  have hks : Small (t.meaning s0) := (C43_reads b hs hS.1 hV.1).1
  have hk := small_extents (M := t.meaning s0) hks
  have hin := selection_inRange (n := Mat.m (t.meaning s0)) hk.1 hS.2.1 hV.2
  have hl : ∀ s, List.length ((Tm.matvec ar t x).meaning s) = Mat.m (t.meaning s) := by
    intro s
    show ((List.range (Mat.m (t.meaning s))).map _).length = _
    simp
  have e : ∀ s, SameSizes s0 s → (Tm.view (.slice r) (.matvec ar t x)).meaning s =
      (Tm.matvec ar (.view (.rows r) t) x).meaning s := by
    intro s h
    have hd := dims_two.1 (t.meaning_dims h)
    show (selection (List.length ((Tm.matvec ar t x).meaning s) : Nat) r).map _ = _
    rw [hl]
    refine slice_rows (M := t.meaning s) ?_ ?_ (fun l => inner ar l (x.meaning s))
    · rw [hd.1, hd.2]; exact hks.2
    · rw [hd.1]; exact hin
  have hV2 : (Tm.matvec ar (.view (.rows r) t) x).Valid s0 := by
    refine ⟨hV, hVx, ?_⟩
    rw [← hx]
    exact (cross_rows (M := t.meaning s0) (cs := []) hne (sel_shape hks.2 hin hne)
      (fun x hx => absurd hx (List.not_mem_nil))).2.1
  have hS2 : (Tm.matvec ar (.view (.rows r) t) x).Sound s0 := ⟨hS, hSx⟩
  have hm : Small ((Tm.matvec ar (.view (.rows r) t) x).meaning s0) := (C43_reads b hs hS2 hV2).1
  have hV1 : (Tm.view (.slice r) (.matvec ar t x)).Valid s0 := by
    refine ⟨⟨hV.1, hVx, hx⟩, ?_⟩
    show r.Valid (List.length ((Tm.matvec ar t x).meaning s0) : Nat)
    rw [hl]; exact hV.2
  have hS1 : (Tm.view (.slice r) (.matvec ar t x)).Sound s0 :=
    ⟨⟨hS.1, hSx⟩, hS.2.1, small_of_eq (d := .one) (e s0 (SameSizes.refl s0)).symm hm⟩
  exact same b hs hS1 hV1 hS2 hV2 (fun s h => .of_eq (e s h))

example : SameTerms ⟨false, true, false⟩ Sample.store
    (.view (.slice (.vec [1])) (.matvec Sample.ints Sample.A Sample.x))
    (.matvec Sample.ints (.view (.rows (.vec [1])) Sample.A) Sample.x) :=
  C111_slice_matvec _ Sample.store_ok _ (by decide) (by decide) (by decide) (by decide) (by decide) (by decide)

/-- C111: the product of two matrices on top of each other with a vector is the concatenation of the
products. -/
theorem C111_matvec_merge (b : Build) (hs : Store.Ok s0) (ar : Arith α) {t u : Tm α .two} {x : Tm α .one}
    (hS : (Tm.matvec ar (.mergeV t u) x).Sound s0) (hVt : (Tm.matvec ar t x).Valid s0)
    (hVu : (Tm.matvec ar u x).Valid s0) :
    SameTerms b s0 (.matvec ar (.mergeV t u) x) (.merge (.matvec ar t x) (.matvec ar u x)) := by
  have hV1 : (Tm.matvec ar (.mergeV t u) x).Valid s0 := by
    refine ⟨⟨hVt.1, hVu.1, .inr (.inr (hVt.2.2.trans hVu.2.2.symm))⟩, hVt.2.1, ?_⟩
    show (if Mat.n (t.meaning s0) = 0 then Mat.n (u.meaning s0) else Mat.n (t.meaning s0)) = _
    split
    · exact hVu.2.2
    · exact hVt.2.2
  have hm := (C43_reads b hs hS hV1).1
  have e : ∀ s, SameSizes s0 s → (Tm.matvec ar (.mergeV t u) x).meaning s =
      (Tm.merge (.matvec ar t x) (.matvec ar u x)).meaning s := by
    intro s h
    have hd : Mat.n (t.meaning s) = Mat.n (u.meaning s) := by
      have h1 := (dims_two.1 (t.meaning_dims h)).2
      have h2 := (dims_two.1 (u.meaning_dims h)).2
      rw [h1, h2]; exact hVt.2.2.trans hVu.2.2.symm
    show (List.range (Mat.m (t.meaning s) + Mat.m (u.meaning s))).map
        (fun i => inner ar ((Mat.above (t.meaning s) (u.meaning s)).row i) (x.meaning s)) =
      List.append ((List.range (Mat.m (t.meaning s))).map (fun i => inner ar (Mat.row (t.meaning s) i) (x.meaning s)))
        ((List.range (Mat.m (u.meaning s))).map (fun i => inner ar (Mat.row (u.meaning s) i) (x.meaning s)))
    rw [List.range_add, List.map_append, List.map_map]
    have hrow1 : ∀ i, i < Mat.m (t.meaning s) → (Mat.above (t.meaning s) (u.meaning s)).row i =
        Mat.row (t.meaning s) i := by
      intro i hi
      show (List.range (if Mat.n (t.meaning s) = 0 then Mat.n (u.meaning s) else Mat.n (t.meaning s))).map
        (fun j => if i < Mat.m (t.meaning s) then _ else _) = _
      rw [← hd, ite_self]
      simp only [if_pos hi]
      rfl
    have hrow2 : ∀ i, (Mat.above (t.meaning s) (u.meaning s)).row (Mat.m (t.meaning s) + i) =
        Mat.row (u.meaning s) i := by
      intro i
      show (List.range (if Mat.n (t.meaning s) = 0 then Mat.n (u.meaning s) else Mat.n (t.meaning s))).map
        (fun j => if Mat.m (t.meaning s) + i < Mat.m (t.meaning s) then _ else _) = _
      rw [hd, ite_self]
      simp only [if_neg (show ¬ Mat.m (t.meaning s) + i < Mat.m (t.meaning s) by omega), Nat.add_sub_cancel_left]
      rfl
    exact congr (congrArg List.append
      (List.map_congr_left (fun i hi => by rw [hrow1 i (List.mem_range.1 hi)])))
      (List.map_congr_left (fun i hi => by simp only [Function.comp, hrow2]))
  have hl : ∀ v : Tm α .two, (Sem.dims ((Tm.matvec ar v x).meaning s0)).1 = Mat.m (v.meaning s0) := by
    intro v
    show ((List.range (Mat.m (v.meaning s0))).map _).length = _
    simp
  have hsz : ((Sem.dims ((Tm.matvec ar t x).meaning s0)).1 + (Sem.dims ((Tm.matvec ar u x).meaning s0)).1 : Int)
      < 2 ^ 63 - 1 := by
    rw [hl, hl]
    have := small_extents (M := Mat.above (t.meaning s0) (u.meaning s0)) hS.1.2.2
    have h3 : (Mat.above (t.meaning s0) (u.meaning s0)).m = Mat.m (t.meaning s0) + Mat.m (u.meaning s0) := rfl
    omega
  have hS2 : (Tm.merge (.matvec ar t x) (.matvec ar u x)).Sound s0 :=
    ⟨⟨hS.1.1, hS.2⟩, ⟨hS.1.2.1, hS.2⟩, hsz⟩
  have hV2 : (Tm.merge (.matvec ar t x) (.matvec ar u x)).Valid s0 := ⟨hVt, hVu⟩
  exact same b hs hS hV1 hS2 hV2 (fun s h => .of_eq (e s h))

example : SameTerms ⟨false, true, false⟩ Sample.store
    (.matvec Sample.ints (.mergeV Sample.A (.const2D 2 3 7)) Sample.x)
    (.merge (.matvec Sample.ints Sample.A Sample.x) (.matvec Sample.ints (.const2D 2 3 7) Sample.x)) :=
  C111_matvec_merge _ Sample.store_ok _ (by decide) (by decide) (by decide)

/-! ### Generators -/

/-- C111: every row of a row-wise broadcast is the vector, and every column of a column-wise one. -/
theorem C111_bcast_lines (b : Build) (hs : Store.Ok s0) {t : Tm α .one} {p : Pos} :
    ((Tm.view (.row p) (.bcast true t)).Sound s0 → (Tm.view (.row p) (.bcast true t)).Valid s0 →
      SameTerms b s0 (.view (.row p) (.bcast true t)) t) ∧
    ((Tm.view (.col p) (.bcast false t)).Sound s0 → (Tm.view (.col p) (.bcast false t)).Valid s0 →
      SameTerms b s0 (.view (.col p) (.bcast false t)) t) := by
  have e : ∀ l : List (Res α), (List.range l.length).map (fun j => l.getD j .ub) = l := by
    intro l
    apply List.ext_getElem
    · simp
    · intro i h1 h2
      rw [List.getElem_map, List.getElem_range, getD_lt h2]
  exact ⟨fun hS hV => same b hs hS hV hS.1.1 hV.1 (fun s _ => .of_eq (e (t.meaning s))),
    fun hS hV => same b hs hS hV hS.1.1 hV.1 (fun s _ => .of_eq (e (t.meaning s)))⟩

/-- C111: the identity matrix is symmetric, its diagonal is all ones and its `k`-th row and column are
the `k`-th unit vector. -/
theorem C111_identity (b : Build) (hs : Store.Ok s0) (ar : Arith α) {n k : Int}
    (hn : 0 ≤ n ∧ n * n < 2 ^ 63 - 1) (hk : InRange n k) :
    SameTerms b s0 (.transpose (.identity ar n)) (.identity ar n) ∧
    SameTerms b s0 (.view .diag (.identity ar n)) (.const1D n ar.one) ∧
    SameTerms b s0 (.view (.row (.at k)) (.identity ar n)) (.eUnit ar k n) ∧
    SameTerms b s0 (.view (.col (.at k)) (.identity ar n)) (.eUnit ar k n) := by
  obtain ⟨hk0, hk1⟩ := hk
  have h1 : n * 1 ≤ n * n := Int.mul_le_mul_of_nonneg_left (by omega) (by omega)
  have hS : (Tm.identity ar n).Sound s0 := hn.2
  have hV : (Tm.identity ar n).Valid s0 := hn.1
  have hl1 : ∀ (f : Nat → Res α), Small (d := .one) ((List.range n.toNat).map f) := by
    intro f
    show (((List.range n.toNat).map f).length : Int) < _
    rw [List.length_map, List.length_range]; omega
  refine ⟨same b hs hS hV hS hV (fun s _ => ⟨rfl, rfl, fun i j _ _ => ?_⟩), ?_, ?_, ?_⟩
  · show Res.ok (if j = i then ar.one else ar.zero) = Res.ok (if i = j then ar.one else ar.zero)
    by_cases h : i = j
    · subst h; rfl
    · rw [if_neg h, if_neg (fun h' => h h'.symm)]
  · have e : ∀ s : Store α, (Tm.view .diag (.identity ar n)).meaning s = (Tm.const1D n ar.one).meaning s := by
      intro s
      show Mat.diagonal _ 0 = List.replicate n.toNat (Res.ok ar.one)
      unfold Mat.diagonal
      rw [if_pos (by omega)]
      apply List.ext_getElem
      · simp [Tm.meaning]
      · intro i h1 h2
        rw [List.getElem_map, List.getElem_range, List.getElem_replicate]
        show Res.ok (if i = i + 0 then ar.one else ar.zero) = _
        rw [if_pos (show i = i + 0 from rfl)]
    have hS' : (Tm.const1D n ar.one : Tm α .one).Sound s0 := by show n < _; omega
    have hm := (C43_reads b hs hS' (show (Tm.const1D n ar.one : Tm α .one).Valid s0 from hn.1)).1
    refine same b hs ⟨hS, trivial, small_of_eq (d := .one) (e s0).symm hm⟩ ⟨hV, trivial⟩ hS' hn.1
      (fun s _ => .of_eq (e s))
  · have e : ∀ s : Store α, (Tm.view (.row (.at k)) (.identity ar n)).meaning s = (Tm.eUnit ar k n).meaning s := by
      intro s
      show (List.range n.toNat).map (fun j => Res.ok (if k.toNat = j then ar.one else ar.zero)) =
        (List.range n.toNat).map (fun i : Nat => Res.ok (if (i : Int) = k then ar.one else ar.zero))
      refine List.map_congr_left (fun j _ => ?_)
      by_cases h : (j : Int) = k
      · rw [if_pos h, if_pos (by omega)]
      · rw [if_neg h, if_neg (by omega)]
    refine same b hs ⟨hS, ?_, hl1 _⟩ ⟨hV, ?_⟩ (show n < _ by omega) ⟨hk0, hk1⟩ (fun s _ => .of_eq (e s))
    · show IsIndex k; unfold IsIndex; omega
    · show InRange (n.toNat : Nat) k; unfold InRange; omega
  · have e : ∀ s : Store α, (Tm.view (.col (.at k)) (.identity ar n)).meaning s = (Tm.eUnit ar k n).meaning s := by
      intro s
      show (List.range n.toNat).map (fun j => Res.ok (if j = k.toNat then ar.one else ar.zero)) =
        (List.range n.toNat).map (fun i : Nat => Res.ok (if (i : Int) = k then ar.one else ar.zero))
      refine List.map_congr_left (fun j _ => ?_)
      by_cases h : (j : Int) = k
      · rw [if_pos h, if_pos (by omega)]
      · rw [if_neg h, if_neg (by omega)]
    refine same b hs ⟨hS, ?_, hl1 _⟩ ⟨hV, ?_⟩ (show n < _ by omega) ⟨hk0, hk1⟩ (fun s _ => .of_eq (e s))
    · show IsIndex k; unfold IsIndex; omega
    · show InRange (n.toNat : Nat) k; unfold InRange; omega

example : SameTerms ⟨false, true, false⟩ Sample.store (.view (.row (.at 1)) (.bcast true Sample.x)) Sample.x ∧
    SameTerms ⟨false, true, false⟩ Sample.store (.view (.row (.at 2)) (.identity Sample.ints 5))
      (.eUnit Sample.ints 2 5) :=
  ⟨(C111_bcast_lines _ Sample.store_ok).1 (by decide) (by decide),
   (C111_identity _ Sample.store_ok _ (by decide) (by decide)).2.2.1⟩

end Spp.Props
