import Verif.Model.Expr
import Verif.Spec.Assign
import Verif.Spec.EProg

/- An object does not depend on arrays it does not mention, also when these change their sizes. -/

namespace Spp
open Spec

namespace Indep

variable {α β γ σ : Type} {P : β → Prop} {Q : γ → Prop} {s s' : σ}

/-- The computations are equal and what they give has the property. -/
def Both (P : β → Prop) (x y : Res β) : Prop := x = y ∧ ∀ c, x = .ok c → P c

theorem Both.bind {x y : Res β} {f g : β → Res γ} (h : Both P x y) (hf : ∀ c, P c → Both Q (f c) (g c)) :
    Both Q (x >>= f) (y >>= g) := by
  obtain ⟨rfl, h⟩ := h
  cases x with
  | ok c => exact hf c (h c rfl)
  | trap k => exact ⟨rfl, fun c e => by cases e⟩
  | ub => exact ⟨rfl, fun c e => by cases e⟩

theorem Both.rfl' (x : Res β) : Both (fun _ => True) x x := ⟨rfl, fun _ _ => trivial⟩

theorem Both.pure {c c' : β} (h : c = c') (hc : P c) : Both P (Pure.pure c) (Pure.pure c') := by
  subst h
  exact ⟨rfl, fun d e => by cases e; exact hc⟩

theorem Both.mono {R : β → Prop} {x y : Res β} (h : Both P x y) (hr : ∀ c, P c → R c) : Both R x y :=
  ⟨h.1, fun c e => hr c (h.2 c e)⟩

/-- The same first step. -/
theorem Both.step {x : Res β} {f g : β → Res γ} (hf : ∀ c, Both Q (f c) (g c)) : Both Q (x >>= f) (x >>= g) :=
  Both.bind (Both.rfl' x) fun c _ => hf c

/-- The object is the same in both states, and its elements have the property. -/
structure Agree (P : β → Prop) (s s' : σ) (a : Acc σ β) : Prop where
  rows : a.rows s = a.rows s'
  cols : a.cols s = a.cols s'
  size : a.size s = a.size s'
  un : ∀ i, Both P (a.un s i) (a.un s' i)
  un2 : ∀ i j, Both P (a.un2 s i j) (a.un2 s' i j)

theorem both_ub : Both P (.ub : Res β) .ub := ⟨rfl, fun _ e => by cases e⟩

theorem agree_oneD {n : σ → Int} {un : σ → Int → Res β} (h1 : n s = n s') (h2 : ∀ i, Both P (un s i) (un s' i)) :
    Agree P s s' (Acc.oneD n un) :=
  ⟨h1, rfl, by simp only [Acc.oneD, h1], h2, fun _ _ => both_ub⟩

theorem agree_twoD {b : Build} {m n : σ → Int} {un2 : σ → Int → Int → Res β} (h1 : m s = m s') (h2 : n s = n s')
    (h3 : ∀ i j, Both P (un2 s i j) (un2 s' i j)) : Agree P s s' (Acc.twoD b m n un2) :=
  ⟨h1, h2, by simp only [Acc.twoD, h1, h2], fun i => by
    simp only [Acc.twoD, h2]
    exact Both.step fun _ => h3 _ _, h3⟩

variable {a : Acc σ β}

theorem agree_slice (h : Agree P s s' a) (sl : Slice) : Agree P s s' (a.slice sl) :=
  agree_oneD rfl fun _ => Both.step fun _ => h.un _

theorem agree_slice2 (h : Agree P s s' a) (b : Build) (s1 s2 : Slice) : Agree P s s' (a.slice2 b s1 s2) :=
  agree_twoD rfl rfl fun _ _ => Both.step fun _ => Both.step fun _ => h.un2 _ _

theorem agree_proxy (h : Agree P s s' a) (m n : Int) : Agree P s s' (a.proxy m n) :=
  ⟨rfl, rfl, rfl, h.un, fun _ _ => Both.step fun _ => h.un _⟩

theorem both_empty (h : Agree P s s' a) : a.empty s = a.empty s' := by
  simp only [Acc.empty, h.size]

theorem both_mkSlice1 (h : Agree P s s' a) (b : Build) (r : SliceReq) :
    Both (Agree P s s') (View.mkSlice1 b a s r) (View.mkSlice1 b a s' r) := by
  simp only [View.mkSlice1, h.rows]
  exact Both.step fun _ => Both.pure rfl (agree_slice h _)

theorem both_mkSlice2 (h : Agree P s s' a) (b : Build) (r1 r2 : SliceReq) :
    Both (Agree P s s') (View.mkSlice2 b a s r1 r2) (View.mkSlice2 b a s' r1 r2) := by
  simp only [View.mkSlice2, h.rows, h.cols, both_empty h]
  exact Both.step fun _ => Both.step fun _ => Both.pure rfl (agree_slice2 h _ _ _)

theorem both_mkView1D (h : Agree P s s' a) (b : Build) :
    Both (Agree P s s') (View.mkView1D b a s) (View.mkView1D b a s') := by
  simp only [View.mkView1D, h.size]
  exact Both.step fun _ => Both.step fun _ => Both.step fun _ => Both.pure rfl (agree_slice h _)

theorem both_mkRow (h : Agree P s s' a) (b : Build) (p : Pos) :
    Both (Agree P s s') (View.mkRow b a s p) (View.mkRow b a s' p) := by
  simp only [View.mkRow, h.rows, h.cols]
  exact Both.step fun _ => Both.step fun _ => Both.step fun _ => Both.bind (both_mkView1D h b) fun _ hv =>
    Both.step fun _ => Both.step fun _ => both_mkSlice1 hv b _

theorem both_mkCol (h : Agree P s s' a) (b : Build) (p : Pos) :
    Both (Agree P s s') (View.mkCol b a s p) (View.mkCol b a s' p) := by
  simp only [View.mkCol, h.rows, h.cols]
  exact Both.step fun _ => Both.step fun _ => Both.step fun _ => Both.step fun _ => Both.step fun _ =>
    Both.bind (both_mkView1D h b) fun _ hv => both_mkSlice1 hv b _

theorem both_mkView (h : Agree P s s' a) (b : Build) {d d' : Dim} (v : View d d') :
    Both (Agree P s s') (v.mk b a s) (v.mk b a s') := by
  cases v with
  | slice r => exact both_mkSlice1 h b r
  | slice2 r1 r2 => exact both_mkSlice2 h b r1 r2
  | rows r => exact both_mkSlice2 h b r .all
  | cols r => exact both_mkSlice2 h b .all r
  | row p => exact both_mkRow h b p
  | col p => exact both_mkCol h b p
  | diag =>
    simp only [View.mk, View.mkDiag, h.rows, h.cols]
    exact Both.bind (both_mkView1D h b) fun _ hv => Both.step fun _ => both_mkSlice1 hv b _
  | diagK k =>
    simp only [View.mk, View.mkDiagK, h.rows, h.cols]
    refine Both.bind (both_mkView1D h b) fun _ hv => Both.step fun _ => ?_
    split
    · exact Both.step fun _ => Both.step fun _ => both_mkSlice1 hv b _
    · exact Both.step fun _ => Both.step fun _ => Both.step fun _ => Both.step fun _ => both_mkSlice1 hv b _
  | block i1 j1 i2 j2 =>
    simp only [View.mk, View.mkBlock, h.rows, h.cols]
    exact Both.step fun _ => Both.step fun _ => Both.step fun _ => Both.step fun _ => both_mkSlice2 h b _ _
  | blockN i1 j1 m n =>
    simp only [View.mk, View.mkBlockN, h.rows, h.cols]
    exact Both.step fun _ => Both.step fun _ => both_mkSlice2 h b _ _
  | view1D => exact both_mkView1D h b
  | view2D _ m n =>
    simp only [View.mk, View.mkView2D, h.size]
    exact Both.step fun _ => Both.step fun _ => Both.step fun _ => Both.step fun _ => Both.step fun _ =>
      Both.step fun _ => Both.step fun _ => Both.pure rfl (agree_slice2 (agree_proxy h m n) _ _ _)

end Indep

open Indep

variable {α : Type}

/-- Assignable objects refer to elements of their array only. -/
theorem Lv.build_indep (b : Build) {x : Dim × Nat} {s s' : Store α} (hs : ∀ y, y ≠ x → SameArray s s' y) {d : Dim}
    (l : Lv d) (hl : l.array ≠ x) :
    Both (Agree (fun c => c.array = l.array) s s') (l.build b s) (l.build b s') := by
  induction l with
  | arr1 id =>
    have e : s'.a1 id = s.a1 id := hs _ hl
    refine ⟨rfl, fun c hc => ?_⟩
    cases hc
    refine agree_oneD (by simp only [e]) fun i => ?_
    simp only [e]
    split
    · exact ⟨rfl, fun c hc => by cases hc; rfl⟩
    · exact both_ub
  | arr2 id =>
    have e : s'.a2 id = s.a2 id := hs _ hl
    have hat : ∀ i : Int, Both (fun c => c.array = (Dim.two, id))
        (if 0 ≤ i ∧ i < len (s.a2 id).data then Res.ok (Loc.two id i.toNat) else .ub)
        (if 0 ≤ i ∧ i < len (s.a2 id).data then Res.ok (Loc.two id i.toNat) else .ub) := by
      intro i
      split
      · exact ⟨rfl, fun c hc => by cases hc; rfl⟩
      · exact both_ub
    refine ⟨rfl, fun c hc => ?_⟩
    cases hc
    refine ⟨by simp only [Lv.acc2, e], by simp only [Lv.acc2, e], by simp only [Lv.acc2, e], fun i => ?_, fun i j => ?_⟩
    · simp only [Lv.acc2, e]; exact hat i
    · simp only [Lv.acc2, e]; exact Both.step fun _ => hat _
  | view v l ih =>
    exact Both.bind (ih hl) fun a ha => both_mkView ha b v

theorem read_indep {x : Dim × Nat} {s s' : Store α} (hs : ∀ y, y ≠ x → SameArray s s' y) {c : Loc}
    (hc : c.array ≠ x) : s.read c = s'.read c := by
  cases c with
  | one id k =>
    have e : s'.a1 id = s.a1 id := hs _ hc
    simp only [Store.read, e]
  | two id k =>
    have e : s'.a2 id = s.a2 id := hs _ hc
    simp only [Store.read, e]

/-- The object an expression makes is the same in both states. -/
abbrev Same (s s' : Store α) (a : Acc (Store α) α) : Prop := Agree (fun _ => True) s s' a

namespace Indep

variable {s s' : Store α} {a a1 a2 : Acc (Store α) α}

theorem both_mkConst1D (b : Build) (n : Int) (x : α) :
    Both (Same s s') (Tm.mkConst1D b n x) (Tm.mkConst1D b n x) :=
  Both.step fun _ => Both.step fun _ => Both.pure rfl (agree_oneD rfl fun _ => Both.rfl' _)

theorem both_mkConst2D (b : Build) (m n : Int) (x : α) :
    Both (Same s s') (Tm.mkConst2D b m n x) (Tm.mkConst2D b m n x) :=
  Both.step fun _ => Both.step fun _ => Both.step fun _ => Both.step fun _ => Both.step fun _ =>
    Both.pure rfl (agree_twoD rfl rfl fun _ _ => Both.rfl' _)

theorem both_mkConstLike (h : Same s s' a) (b : Build) (d : Dim) (x : α) :
    Both (Same s s') (Tm.mkConstLike b d a s x) (Tm.mkConstLike b d a s' x) := by
  cases d with
  | one => simp only [Tm.mkConstLike, h.rows]; exact both_mkConst1D b _ x
  | two => simp only [Tm.mkConstLike, h.rows, h.cols]; exact both_mkConst2D b _ _ x

theorem agree_binary (h1 : Same s s' a1) (h2 : Same s s' a2) (f : α → α → Res α) : Same s s' (Acc.binary f a1 a2) :=
  ⟨h1.rows, h1.cols, h1.size,
    fun i => Both.bind (h1.un i) fun _ _ => Both.bind (h2.un i) fun _ _ => Both.rfl' _,
    fun i j => Both.bind (h1.un2 i j) fun _ _ => Both.bind (h2.un2 i j) fun _ _ => Both.rfl' _⟩

theorem both_mkBinary (h1 : Same s s' a1) (h2 : Same s s' a2) (b : Build) (d : Dim) (f : α → α → Res α) :
    Both (Same s s') (Tm.mkBinary b d f a1 a2 s) (Tm.mkBinary b d f a1 a2 s') := by
  have e : Acc.sameSize d a1 a2 s = Acc.sameSize d a1 a2 s' := by
    cases d <;> simp only [Acc.sameSize, h1.rows, h2.rows, h1.cols, h2.cols]
  simp only [Tm.mkBinary, e]
  exact Both.step fun _ => Both.pure rfl (agree_binary h1 h2 f)

theorem both_mkSequence (b : Build) (ar : Arith α) (n : Int) (x y : α) :
    Both (Same s s') (Tm.mkSequence b ar n x y) (Tm.mkSequence b ar n x y) :=
  Both.step fun _ => Both.pure rfl (agree_oneD rfl fun _ => Both.rfl' _)

theorem both_mkGen1 (b : Build) (n : Int) {op : Store α → Int → Res α} (h : ∀ i, Both (fun _ => True) (op s i) (op s' i)) :
    Both (Same s s') (Tm.mkGen1 b n op) (Tm.mkGen1 b n op) :=
  Both.step fun _ => Both.pure rfl (agree_oneD rfl fun _ => Both.step fun _ => Both.step fun _ => h _)

theorem both_mkGen2 (b : Build) (m n : Int) {op : Store α → Int → Res α}
    (h : ∀ i, Both (fun _ => True) (op s i) (op s' i)) :
    Both (Same s s') (Tm.mkGen2 b m n op) (Tm.mkGen2 b m n op) :=
  Both.step fun _ => Both.step fun _ => Both.pure rfl (agree_twoD rfl rfl fun _ _ => Both.step fun _ => h _)

theorem both_mkExclude (h : Same s s' a) (b : Build) (pos count : Int) :
    Both (Same s s') (Tm.mkExclude b a s pos count) (Tm.mkExclude b a s' pos count) := by
  simp only [Tm.mkExclude, h.rows]
  refine Both.step fun _ => Both.step fun _ => Both.step fun _ => Both.step fun _ => both_mkGen1 b _ fun i => ?_
  simp only [Acc.excludeOp]
  split
  · exact h.un _
  · exact Both.step fun _ => h.un _

theorem both_foldN {γ : Type} (n : Nat) {f g : Nat → γ → Res γ} (h : ∀ i c, f i c = g i c) (c : γ) :
    foldN n f c = foldN n g c := by
  have : f = g := by funext i c; exact h i c
  rw [this]

theorem agree_reduce (h : Same s s' a) (b : Build) (rowwise : Bool) {op : Acc (Store α) α → Store α → Res α}
    (ho : ∀ r, Same s s' r → op r s = op r s') : Same s s' (Tm.reduceAcc b rowwise op a) := by
  refine agree_oneD ?_ fun i => ?_
  · cases rowwise
    · exact h.cols
    · exact h.rows
  · cases rowwise
    · exact Both.bind (both_mkCol h b _) fun r hr => by rw [ho r hr]; exact Both.rfl' _
    · exact Both.bind (both_mkRow h b _) fun r hr => by rw [ho r hr]; exact Both.rfl' _

end Indep

/-- An expression that does not mention an array makes the same object, with the same sizes and elements, whatever this
array contains and however long it is. -/
theorem Tm.build_indep (b : Build) {x : Dim × Nat} {s s' : Store α} (hs : ∀ y, y ≠ x → SameArray s s' y) {d : Dim}
    (t : Tm α d) : ¬ t.Mentions x → Both (Same s s') (t.build b s) (t.build b s') := by
  induction t with
  | lv l =>
    intro h
    refine Both.bind (l.build_indep b hs h) fun a ha => Both.pure rfl ?_
    exact ⟨ha.rows, ha.cols, ha.size,
      fun i => Both.bind (ha.un i) fun c hc => by
        show Both _ (s.read c) (s'.read c)
        rw [read_indep hs (by rw [hc]; exact h)]; exact Both.rfl' _,
      fun i j => Both.bind (ha.un2 i j) fun c hc => by
        show Both _ (s.read c) (s'.read c)
        rw [read_indep hs (by rw [hc]; exact h)]; exact Both.rfl' _⟩
  | view v t ih => exact fun h => Both.bind (ih h) fun a ha => both_mkView ha b v
  | unary f t ih =>
    exact fun h => Both.bind (ih h) fun a ha => Both.pure rfl
      ⟨ha.rows, ha.cols, ha.size, fun i => Both.bind (ha.un i) fun _ _ => Both.rfl' _,
        fun i j => Both.bind (ha.un2 i j) fun _ _ => Both.rfl' _⟩
  | binary f t1 t2 ih1 ih2 =>
    intro h
    simp only [Tm.Mentions, not_or] at h
    exact Both.bind (ih1 h.1) fun a1 h1 => Both.bind (ih2 h.2) fun a2 h2 => both_mkBinary h1 h2 b _ f
  | scalarL f x t ih =>
    exact fun h => Both.bind (ih h) fun a ha => Both.bind (both_mkConstLike ha b _ x) fun c hc =>
      both_mkBinary hc ha b _ f
  | scalarR f t x ih =>
    exact fun h => Both.bind (ih h) fun a ha => Both.bind (both_mkConstLike ha b _ x) fun c hc =>
      both_mkBinary ha hc b _ f
  | sequence ar n x y => exact fun _ => both_mkSequence b ar n x y
  | linspace ar n x y =>
    exact fun _ => Both.step fun _ => Both.step fun _ => Both.step fun _ => Both.step fun _ => Both.step fun _ =>
      both_mkSequence b ar n x _
  | eUnit ar k n => exact fun _ => Both.step fun _ => Both.step fun _ => both_mkGen1 b n fun _ => Both.rfl' _
  | const1D n x => exact fun _ => both_mkConst1D b n x
  | const2D m n x => exact fun _ => both_mkConst2D b m n x
  | identity ar n =>
    exact fun _ => Both.step fun _ => Both.step fun _ => Both.step fun _ =>
      Both.pure rfl (agree_twoD rfl rfl fun _ _ => Both.rfl' _)
  | merge t1 t2 ih1 ih2 =>
    intro h
    simp only [Tm.Mentions, not_or] at h
    refine Both.bind (ih1 h.1) fun a1 h1 => Both.bind (ih2 h.2) fun a2 h2 => ?_
    simp only [h1.rows, h2.rows]
    refine Both.step fun _ => both_mkGen1 b _ fun i => ?_
    simp only [Acc.mergeOp, h1.rows]
    split
    · exact h1.un _
    · exact Both.step fun _ => h2.un _
  | append t x ih =>
    refine fun h => Both.bind (ih h) fun a ha => ?_
    simp only [ha.rows]
    refine Both.step fun _ => both_mkGen1 b _ fun i => ?_
    simp only [Acc.appendOp, ha.rows]
    split
    · exact Both.rfl' _
    · exact ha.un _
  | prepend x t ih =>
    refine fun h => Both.bind (ih h) fun a ha => ?_
    simp only [ha.rows]
    refine Both.step fun _ => both_mkGen1 b _ fun i => ?_
    simp only [Acc.prependOp]
    split
    · exact Both.rfl' _
    · exact Both.step fun _ => ha.un _
  | exclude t p c ih => exact fun h => Both.bind (ih h) fun a ha => both_mkExclude ha b p c
  | excludeLast t k ih =>
    refine fun h => Both.bind (ih h) fun a ha => ?_
    simp only [ha.rows]
    exact Both.step fun _ => both_mkExclude ha b _ 1
  | reduce r g t ih =>
    refine fun h => Both.bind (ih h) fun a ha => Both.pure rfl (agree_reduce ha b r fun c hc => ?_)
    have e : Tm.elems c s = Tm.elems c s' := by
      simp only [Tm.elems, hc.rows]
      exact List.map_congr_left fun k _ => (hc.un _).1
    simp only [e]
  | matvec ar t x ih1 ih2 =>
    intro h
    simp only [Tm.Mentions, not_or] at h
    refine Both.bind (ih1 h.1) fun a1 h1 => Both.bind (ih2 h.2) fun a2 h2 => ?_
    simp only [h1.cols, h2.rows]
    refine Both.step fun _ => Both.pure rfl (agree_reduce h1 b true fun c hc => ?_)
    simp only [Tm.dotOp, Acc.sub, hc.rows, h2.rows]
    refine both_foldN _ (fun i acc => ?_) _
    rw [(hc.un _).1, (h2.un _).1]
  | bcast r t ih =>
    refine fun h => Both.bind (ih h) fun a ha => Both.pure rfl (agree_twoD ha.rows ha.rows fun i j => ?_)
    cases r
    · exact ha.un _
    · exact ha.un _
  | tensor ar t1 t2 ih1 ih2 =>
    intro h
    simp only [Tm.Mentions, not_or] at h
    exact Both.bind (ih1 h.1) fun a1 h1 => Both.bind (ih2 h.2) fun a2 h2 => Both.pure rfl
      (agree_twoD h1.rows h2.rows fun i j => Both.bind (h1.un _) fun _ _ => Both.bind (h2.un _) fun _ _ => Both.rfl' _)
  | transpose t ih =>
    refine fun h => Both.bind (ih h) fun a ha => ?_
    simp only [ha.rows, ha.cols]
    exact Both.step fun _ => Both.step fun _ => Both.pure rfl (agree_twoD rfl rfl fun i j => ha.un2 _ _)
  | mergeH t1 t2 ih1 ih2 =>
    intro h
    simp only [Tm.Mentions, not_or] at h
    refine Both.bind (ih1 h.1) fun a1 h1 => Both.bind (ih2 h.2) fun a2 h2 => ?_
    simp only [Tm.mkMergeH, both_empty h1, both_empty h2, h1.rows, h2.rows, h1.cols, h2.cols]
    have hop : ∀ i, Both (fun _ => True) (Acc.horizontalOp b a1 a2 s i) (Acc.horizontalOp b a1 a2 s' i) := by
      intro i
      simp only [Acc.horizontalOp, h1.cols, h2.cols]
      refine Both.step fun _ => Both.step fun _ => Both.step fun _ => Both.step fun _ => ?_
      split
      · exact Both.step fun _ => Both.step fun _ => h1.un _
      · exact Both.step fun _ => Both.step fun _ => h2.un _
    refine Both.step fun _ => Both.step fun _ => ?_
    split
    · exact Both.step fun _ => Both.step fun _ => both_mkGen2 b _ _ hop
    · exact Both.step fun _ => Both.step fun _ => both_mkGen2 b _ _ hop
  | mergeV t1 t2 ih1 ih2 =>
    intro h
    simp only [Tm.Mentions, not_or] at h
    refine Both.bind (ih1 h.1) fun a1 h1 => Both.bind (ih2 h.2) fun a2 h2 => ?_
    simp only [Tm.mkMergeV, both_empty h1, both_empty h2, h1.rows, h2.rows, h1.cols, h2.cols]
    have hop : ∀ i, Both (fun _ => True) (Acc.verticalOp a1 a2 s i) (Acc.verticalOp a1 a2 s' i) := by
      intro i
      simp only [Acc.verticalOp, h1.size]
      refine Both.step fun _ => ?_
      split
      · exact h1.un _
      · exact Both.step fun _ => h2.un _
    refine Both.step fun _ => Both.step fun _ => ?_
    split
    · exact Both.step fun _ => Both.step fun _ => both_mkGen2 b _ _ hop
    · exact Both.step fun _ => Both.step fun _ => both_mkGen2 b _ _ hop

end Spp
