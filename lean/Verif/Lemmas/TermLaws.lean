import Verif.Props.Expr
import Verif.Lemmas.Alias
import Verif.Lemmas.Nodes
import Verif.Lemmas.Idioms
import Verif.Spec.TermLaws

/- Views and element-wise operations commute. -/

set_option linter.unusedSectionVars false

namespace Spp
open Spec

namespace TermLaws

/-- The same list, or matrices of the same size with the same elements. -/
def Eqv {β : Type} : {d : Dim} → Sem β d → Sem β d → Prop
  | .one, l, k => (show List (Res β) from l) = k
  | .two, M, N => Mat.m M = Mat.m N ∧ Mat.n M = Mat.n N ∧
      ∀ i j, i < Mat.m M → j < Mat.n M → Mat.el M i j = Mat.el N i j

theorem Eqv.of_eq {β : Type} {d : Dim} {x y : Sem β d} (h : x = y) : Eqv x y := by
  subst h
  cases d with
  | one => exact rfl
  | two => exact ⟨rfl, rfl, fun _ _ _ _ => rfl⟩

theorem Eqv.dims {β : Type} {d : Dim} {x y : Sem β d} (h : Eqv x y) : x.dims = y.dims := by
  cases d with
  | one => exact congrArg (Sem.dims (d := .one)) h
  | two => exact dims_two.2 ⟨h.1, h.2.1⟩

theorem Eqv.den {σ β : Type} {d : Dim} {a : Acc σ β} {s : σ} {x y : Sem β d} (h : Eqv x y)
    (hd : Den d a s y) : Den d a s x := by
  cases d with
  | one =>
    change List (Res β) at x y
    have e : x = y := h
    rw [e]; exact hd
  | two =>
    change Mat (Res β) at x y
    obtain ⟨h1, h2, h3⟩ := h
    obtain ⟨d1, d2, d3, d4⟩ := hd
    refine ⟨by rw [d1, h1], by rw [d2, h2], by rw [d3, h1, h2], fun i j hi hj => ?_⟩
    have := d4 i j (by rw [← h1]; exact hi) (by rw [← h2]; exact hj)
    rw [h3 i j hi hj]
    exact ⟨this.1, by rw [h2]; exact this.2⟩

variable {α : Type} [Inhabited α]

/-- Two accepted expressions with the same meaning. -/
theorem same (b : Build) {s0 : Store α} (hs : Store.Ok s0) {d : Dim} {t u : Tm α d}
    (hS : t.Sound s0) (hV : t.Valid s0) (hS' : u.Sound s0) (hV' : u.Valid s0)
    (h : ∀ s, SameSizes s0 s → Eqv (t.meaning s) (u.meaning s)) : SameTerms b s0 t u := by
  obtain ⟨h1, h2, a, h3, h4⟩ := Props.C43_reads b hs hS hV
  obtain ⟨k1, k2, a', k3, k4⟩ := Props.C43_reads b hs hS' hV'
  exact ⟨fun s => t.meaning s, ⟨h1, h2, a, h3, h4⟩, h1, h2, a', k3, fun s e => (h s e).den (k4 s e)⟩

theorem pick_map {β γ : Type} (f : β → Res γ) (l : List (Res β)) (i : Int) :
    pick (l.map (fun x => x >>= f)) i = pick l i >>= f := by
  unfold pick
  split
  · by_cases hl : i.toNat < l.length
    · rw [getD_map_lt hl, getD_lt hl]
    · simp only [List.getD, List.getElem?_eq_none (by simpa using hl : (List.map _ l).length ≤ i.toNat),
        List.getElem?_eq_none (by omega : l.length ≤ i.toNat)]
      rfl
  · rfl

theorem getD_map_ub {β γ : Type} (f : β → Res γ) (l : List (Res β)) (i : Nat) :
    (l.map (fun x => x >>= f)).getD i .ub = l.getD i .ub >>= f := by
  have := pick_map f l i
  rwa [pick_nat, pick_nat] at this

theorem cross_map {β γ : Type} (f : β → Res γ) (M : Mat (Res β)) (rs cs : List Int) :
    Mat.cross (⟨M.m, M.n, fun i j => M.el i j >>= f⟩ : Mat (Res γ)) rs cs =
      ⟨(Mat.cross M rs cs).m, (Mat.cross M rs cs).n, fun i j => (Mat.cross M rs cs).el i j >>= f⟩ := by
  unfold Mat.cross
  split
  · rfl
  · simp only [Mat.mk.injEq, true_and]
    funext i j
    unfold Mat.pick
    split <;> rfl

theorem sub_map {β γ : Type} (f : β → Res γ) (M : Mat (Res β)) (r c p q : Nat) :
    Mat.sub (⟨M.m, M.n, fun i j => M.el i j >>= f⟩ : Mat (Res γ)) r c p q =
      ⟨(Mat.sub M r c p q).m, (Mat.sub M r c p q).n, fun i j => (Mat.sub M r c p q).el i j >>= f⟩ := by
  unfold Mat.sub
  split <;> rfl

theorem diagonal_map {β γ : Type} (f : β → Res γ) (M : Mat (Res β)) (k : Int) :
    Mat.diagonal (⟨M.m, M.n, fun i j => M.el i j >>= f⟩ : Mat (Res γ)) k =
      (Mat.diagonal M k).map (fun x => x >>= f) := by
  unfold Mat.diagonal
  split <;> simp [List.map_map, Function.comp_def]

/-- Selecting from the results is computing with what was selected. -/
theorem sel_map {β γ : Type} (f : β → Res γ) {d d' : Dim} (v : View d d') (x : Sem β d) :
    v.sel (x.map f) = (v.sel x).map f := by
  cases v with
  | slice r =>
    change List (Res β) at x
    show (selection ((x.map (fun y => y >>= f)).length) r).map (pick (x.map (fun y => y >>= f))) =
      ((selection x.length r).map (pick x)).map (fun y => y >>= f)
    rw [List.length_map, List.map_map]
    exact List.map_congr_left (fun i _ => pick_map f x i)
  | slice2 r1 r2 => exact cross_map f x _ _
  | rows r => exact cross_map f x _ _
  | cols r => exact cross_map f x _ _
  | row p =>
    show (List.range (Mat.n x)).map _ = ((List.range (Mat.n x)).map _).map _
    rw [List.map_map]; rfl
  | col p =>
    show (List.range (Mat.m x)).map _ = ((List.range (Mat.m x)).map _).map _
    rw [List.map_map]; rfl
  | diag => exact diagonal_map f x 0
  | diagK k => exact diagonal_map f x k
  | block i1 j1 i2 j2 => exact sub_map f x _ _ _ _
  | blockN i1 j1 m n => exact sub_map f x _ _ _ _
  | view1D => exact flat_map (d := .two) f x
  | view2D _ m n =>
    show Mat.laid (Sem.flat (x.map f)) m.toNat n.toNat = _
    rw [flat_map]
    show _ = Sem.map (d := .two) f (Mat.laid x.flat m.toNat n.toNat)
    unfold Mat.laid
    split
    · rfl
    · show Mat.mk _ _ _ = Mat.mk _ _ _
      simp only [Mat.mk.injEq, true_and]
      funext i j
      exact getD_map_ub f _ _

/-- The element operation of `zip`. -/
def both {β : Type} (f : β → β → Res β) (x y : Res β) : Res β := do let u ← x; let v ← y; f u v

theorem getD_zip_ub {β : Type} (f : β → β → Res β) {l k : List (Res β)} (h : l.length = k.length) (i : Nat) :
    (List.zipWith (both f) l k).getD i .ub = both f (l.getD i .ub) (k.getD i .ub) := by
  by_cases hl : i < l.length
  · rw [getD_zipWith hl (by omega), getD_lt hl, getD_lt (by omega)]
  · simp only [List.getD, List.getElem?_eq_none (by simp; omega : (List.zipWith (both f) l k).length ≤ i),
      List.getElem?_eq_none (by omega : l.length ≤ i)]
    rfl

theorem pick_zip {β : Type} (f : β → β → Res β) {l k : List (Res β)} (h : l.length = k.length) (i : Int) :
    pick (List.zipWith (both f) l k) i = both f (pick l i) (pick k i) := by
  unfold pick
  split
  · exact getD_zip_ub f h _
  · rfl

theorem zipWith_maps {γ δ : Type} {β : Type} (f : γ → δ → β) {ι : Type} (L : List ι) (p : ι → γ) (q : ι → δ) :
    List.zipWith f (L.map p) (L.map q) = L.map (fun i => f (p i) (q i)) := by
  rw [List.zipWith_map, List.zipWith_self]

theorem cross_zip {β : Type} (f : β → β → Res β) {M N : Mat (Res β)} (hm : M.m = N.m) (hn : M.n = N.n)
    (rs cs : List Int) :
    Mat.cross (⟨M.m, M.n, fun i j => both f (M.el i j) (N.el i j)⟩ : Mat (Res β)) rs cs =
      ⟨(Mat.cross M rs cs).m, (Mat.cross M rs cs).n,
        fun i j => both f ((Mat.cross M rs cs).el i j) ((Mat.cross N rs cs).el i j)⟩ := by
  unfold Mat.cross
  split
  · rfl
  · simp only [Mat.mk.injEq, true_and]
    funext i j
    unfold Mat.pick
    simp only [hm, hn]
    split <;> rfl

theorem sub_zip {β : Type} (f : β → β → Res β) (M N : Mat (Res β)) (r c p q : Nat) :
    Mat.sub (⟨M.m, M.n, fun i j => both f (M.el i j) (N.el i j)⟩ : Mat (Res β)) r c p q =
      ⟨(Mat.sub M r c p q).m, (Mat.sub M r c p q).n,
        fun i j => both f ((Mat.sub M r c p q).el i j) ((Mat.sub N r c p q).el i j)⟩ := by
  unfold Mat.sub
  split <;> rfl

theorem diagonal_zip {β : Type} (f : β → β → Res β) {M N : Mat (Res β)} (hm : M.m = N.m) (hn : M.n = N.n)
    (k : Int) :
    Mat.diagonal (⟨M.m, M.n, fun i j => both f (M.el i j) (N.el i j)⟩ : Mat (Res β)) k =
      List.zipWith (both f) (Mat.diagonal M k) (Mat.diagonal N k) := by
  unfold Mat.diagonal
  rw [← hm, ← hn]
  split <;> rw [zipWith_maps]

theorem sel_zip {β : Type} (f : β → β → Res β) {d d' : Dim} (v : View d d') {x y : Sem β d}
    (h : x.dims = y.dims) : v.sel (Sem.zip f x y) = Sem.zip f (v.sel x) (v.sel y) := by
  cases v with
  | slice r =>
    change List (Res β) at x y
    have hl : x.length = y.length := dims_one.1 h
    show (selection ((List.zipWith (both f) x y).length) r).map (pick (List.zipWith (both f) x y)) =
      List.zipWith (both f) ((selection x.length r).map (pick x)) ((selection y.length r).map (pick y))
    rw [← hl, zipWith_maps, List.length_zipWith, ← hl, Nat.min_self]
    exact List.map_congr_left (fun i _ => pick_zip f hl i)
  | slice2 r1 r2 =>
    obtain ⟨hm, hn⟩ := dims_two.1 h
    have := cross_zip f hm hn (selection (Mat.m x) r1) (selection (Mat.n x) r2)
    refine this.trans ?_
    show _ = Sem.zip (d := .two) f (Mat.cross x _ _) (Mat.cross y _ _)
    rw [← hm, ← hn]; rfl
  | rows r =>
    obtain ⟨hm, hn⟩ := dims_two.1 h
    have := cross_zip f hm hn (selection (Mat.m x) r) (upto (Mat.n x))
    refine this.trans ?_
    show _ = Sem.zip (d := .two) f (Mat.cross x _ _) (Mat.cross y _ _)
    rw [← hm, ← hn]; rfl
  | cols r =>
    obtain ⟨hm, hn⟩ := dims_two.1 h
    have := cross_zip f hm hn (upto (Mat.m x)) (selection (Mat.n x) r)
    refine this.trans ?_
    show _ = Sem.zip (d := .two) f (Mat.cross x _ _) (Mat.cross y _ _)
    rw [← hm, ← hn]; rfl
  | row p =>
    obtain ⟨hm, hn⟩ := dims_two.1 h
    show (List.range (Mat.n x)).map _ = List.zipWith (both f) ((List.range (Mat.n x)).map _)
      ((List.range (Mat.n y)).map _)
    rw [← hn, ← hm, zipWith_maps]; rfl
  | col p =>
    obtain ⟨hm, hn⟩ := dims_two.1 h
    show (List.range (Mat.m x)).map _ = List.zipWith (both f) ((List.range (Mat.m x)).map _)
      ((List.range (Mat.m y)).map _)
    rw [← hm, ← hn, zipWith_maps]; rfl
  | diag => exact diagonal_zip f (dims_two.1 h).1 (dims_two.1 h).2 0
  | diagK k => exact diagonal_zip f (dims_two.1 h).1 (dims_two.1 h).2 k
  | block i1 j1 i2 j2 =>
    obtain ⟨hm, hn⟩ := dims_two.1 h
    refine (sub_zip f x y _ _ _ _).trans ?_
    show _ = Sem.zip (d := .two) f (Mat.sub x _ _ _ _) (Mat.sub y _ _ _ _)
    rw [← hm, ← hn]; rfl
  | blockN i1 j1 m n =>
    obtain ⟨hm, hn⟩ := dims_two.1 h
    refine (sub_zip f x y _ _ _ _).trans ?_
    show _ = Sem.zip (d := .two) f (Mat.sub x _ _ _ _) (Mat.sub y _ _ _ _)
    rw [← hm, ← hn]; rfl
  | view1D => exact flat_zip (d := .two) f h
  | view2D _ m n =>
    have hl : x.flat.length = y.flat.length := by rw [flat_dims, flat_dims, h]
    show Mat.laid (Sem.flat (Sem.zip f x y)) m.toNat n.toNat = _
    rw [flat_zip f h]
    show _ = Sem.zip (d := .two) f (Mat.laid x.flat m.toNat n.toNat) (Mat.laid y.flat m.toNat n.toNat)
    unfold Mat.laid
    split
    · rfl
    · show Mat.mk _ _ _ = Mat.mk _ _ _
      simp only [Mat.mk.injEq, true_and]
      funext i j
      exact getD_zip_ub f hl _

end TermLaws

end Spp
