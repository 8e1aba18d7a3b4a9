import Verif.Lemmas.TermLaws
import Verif.Lemmas.NoUb

/- Operations on lists and matrices depend only on the elements inside them. -/

set_option linter.unusedSectionVars false

namespace Spp
open Spec

namespace TermLaws

theorem Eqv.refl {β : Type} {d : Dim} (x : Sem β d) : Eqv x x := Eqv.of_eq rfl

theorem Eqv.symm {β : Type} {d : Dim} {x y : Sem β d} (h : Eqv x y) : Eqv y x := by
  cases d with
  | one => exact Eq.symm h
  | two =>
    obtain ⟨h1, h2, h3⟩ := h
    exact ⟨h1.symm, h2.symm, fun i j hi hj => (h3 i j (by rw [h1]; exact hi) (by rw [h2]; exact hj)).symm⟩

theorem Eqv.trans {β : Type} {d : Dim} {x y z : Sem β d} (h : Eqv x y) (k : Eqv y z) : Eqv x z := by
  cases d with
  | one => exact Eq.trans h k
  | two =>
    obtain ⟨h1, h2, h3⟩ := h
    obtain ⟨k1, k2, k3⟩ := k
    exact ⟨h1.trans k1, h2.trans k2, fun i j hi hj =>
      (h3 i j hi hj).trans (k3 i j (by rw [← h1]; exact hi) (by rw [← h2]; exact hj))⟩

theorem Eqv.flat {β : Type} {d : Dim} {x y : Sem β d} (h : Eqv x y) : x.flat = y.flat := by
  cases d with
  | one => exact h
  | two =>
    change Mat (Res β) at x y
    obtain ⟨h1, h2, h3⟩ := h
    change Mat.flat x = Mat.flat y
    rw [flat_eq, flat_eq, ← h1, ← h2]
    refine List.map_congr_left (fun k hk => ?_)
    rw [List.mem_range] at hk
    obtain ⟨u, v⟩ := unflat_lt hk
    exact h3 _ _ u v

theorem Eqv.map {β γ : Type} {d : Dim} {x y : Sem β d} (h : Eqv x y) (f : β → Res γ) :
    Eqv (x.map f) (y.map f) := by
  cases d with
  | one => exact congrArg (Sem.map (d := .one) f) h
  | two =>
    obtain ⟨h1, h2, h3⟩ := h
    exact ⟨h1, h2, fun i j hi hj => congrArg (· >>= f) (h3 i j hi hj)⟩

theorem Eqv.map_of_all {β γ : Type} {P : Res β → Prop} {d : Dim} {x : Sem β d} {f g : β → Res γ}
    (h : Sem.All P x) (hfg : ∀ r, P r → (r >>= f) = (r >>= g)) : Eqv (x.map f) (x.map g) := by
  cases d with
  | one =>
    change List.map _ _ = List.map _ _
    exact List.map_congr_left (fun r hr => hfg r (h r hr))
  | two => exact ⟨rfl, rfl, fun i j hi hj => hfg _ (h i j hi hj)⟩

theorem Eqv.zip {β : Type} {d : Dim} {x y x' y' : Sem β d} (h : Eqv x x') (k : Eqv y y')
    (hd : x.dims = y.dims) (f : β → β → Res β) : Eqv (Sem.zip f x y) (Sem.zip f x' y') := by
  cases d with
  | one =>
    change List (Res β) at x y x' y'
    have e : x = x' := h
    have e' : y = y' := k
    rw [e, e']; exact Eqv.refl _
  | two =>
    obtain ⟨h1, h2, h3⟩ := h
    obtain ⟨k1, k2, k3⟩ := k
    obtain ⟨d1, d2⟩ := dims_two.1 hd
    refine ⟨h1, h2, fun i j hi hj => ?_⟩
    have e1 := h3 i j hi hj
    have e2 := k3 i j (by rw [← d1]; exact hi) (by rw [← d2]; exact hj)
    show (do let u ← Mat.el x i j; let v ← Mat.el y i j; f u v) =
      (do let u ← Mat.el x' i j; let v ← Mat.el y' i j; f u v)
    rw [e1, e2]

theorem Eqv.sel {β : Type} {d d' : Dim} (v : View d d') {x y : Sem β d} (h : Eqv x y) (ha : v.Args)
    (hv : v.Valid x.dims.1 x.dims.2) (hs : Small x) : Eqv (v.sel x) (v.sel y) := by
  cases d with
  | one =>
    change List (Res β) at x y
    have e : x = y := h
    subst e
    exact Eqv.refl _
  | two =>
    change Mat (Res β) at x y
    obtain ⟨m, n, el⟩ := x
    obtain ⟨m', n', el'⟩ := y
    obtain ⟨h1, h2, h3⟩ := h
    simp only at h1 h2 h3
    subst h1 h2
    let z : Mat (Res (Res β × Res β)) := ⟨m, n, fun i j => .ok (el i j, el' i j)⟩
    have e1 : (⟨m, n, el⟩ : Mat (Res β)) = Sem.map (d := .two) (fun p : Res β × Res β => p.1) z := rfl
    have e2 : (⟨m, n, el'⟩ : Mat (Res β)) = Sem.map (d := .two) (fun p : Res β × Res β => p.2) z := rfl
    have hz : Sem.All (d := .two) (fun r => ∃ p : Res β × Res β, r = .ok p ∧ p.1 = p.2) z :=
      fun i j hi hj => ⟨_, rfl, h3 i j hi hj⟩
    have key := v.sel_all (x := (z : Sem (Res β × Res β) .two)) ha hv hs hz
    rw [e1, e2]
    have s1 := sel_map (d := .two) (fun p : Res β × Res β => p.1) v z
    have s2 := sel_map (d := .two) (fun p : Res β × Res β => p.2) v z
    rw [s1, s2]
    refine Eqv.map_of_all key ?_
    rintro r ⟨p, rfl, hp⟩
    exact hp

theorem row_congr {β : Type} {M N : Mat (Res β)} (h : Eqv (d := .two) M N) {i : Nat} (hi : i < M.m) :
    M.row i = N.row i := by
  obtain ⟨h1, h2, h3⟩ := h
  unfold Mat.row
  rw [← h2]
  exact List.map_congr_left (fun j hj => h3 i j hi (List.mem_range.1 hj))

theorem col_congr {β : Type} {M N : Mat (Res β)} (h : Eqv (d := .two) M N) {j : Nat} (hj : j < M.n) :
    M.col j = N.col j := by
  obtain ⟨h1, h2, h3⟩ := h
  unfold Mat.col
  rw [← h1]
  exact List.map_congr_left (fun i hi => h3 i j (List.mem_range.1 hi) hj)

theorem Eqv.transposed {β : Type} {M N : Mat (Res β)} (h : Eqv (d := .two) M N) :
    Eqv (d := .two) M.transposed N.transposed :=
  ⟨h.2.1, h.1, fun i j hi hj => h.2.2 j i hj hi⟩

theorem Eqv.beside {β : Type} {M N M' N' : Mat (Res β)} (h : Eqv (d := .two) M M') (k : Eqv (d := .two) N N')
    (hM : M.m = 0 ↔ M.n = 0) (hN : N.m = 0 ↔ N.n = 0) (hd : M.m = 0 ∨ N.m = 0 ∨ M.m = N.m) :
    Eqv (d := .two) (M.beside N) (M'.beside N') := by
  obtain ⟨m, n, el⟩ := M
  obtain ⟨m', n', el'⟩ := M'
  obtain ⟨p, q, fl⟩ := N
  obtain ⟨p', q', fl'⟩ := N'
  obtain ⟨h1, h2, h3⟩ := h
  obtain ⟨k1, k2, k3⟩ := k
  simp only at h1 h2 h3 k1 k2 k3 hM hN hd
  subst h1 h2 k1 k2
  refine ⟨rfl, rfl, fun i j hi hj => ?_⟩
  simp only [Mat.beside] at hi hj ⊢
  split
  · next hjn =>
    refine h3 i j ?_ hjn
    split at hi <;> omega
  · next hjn =>
    refine k3 i _ ?_ (by omega)
    split at hi <;> omega

theorem Eqv.above {β : Type} {M N M' N' : Mat (Res β)} (h : Eqv (d := .two) M M') (k : Eqv (d := .two) N N')
    (hM : M.m = 0 ↔ M.n = 0) (hN : N.m = 0 ↔ N.n = 0) (hd : M.n = 0 ∨ N.n = 0 ∨ M.n = N.n) :
    Eqv (d := .two) (M.above N) (M'.above N') := by
  obtain ⟨m, n, el⟩ := M
  obtain ⟨m', n', el'⟩ := M'
  obtain ⟨p, q, fl⟩ := N
  obtain ⟨p', q', fl'⟩ := N'
  obtain ⟨h1, h2, h3⟩ := h
  obtain ⟨k1, k2, k3⟩ := k
  simp only at h1 h2 h3 k1 k2 k3 hM hN hd
  subst h1 h2 k1 k2
  refine ⟨rfl, rfl, fun i j hi hj => ?_⟩
  simp only [Mat.above] at hi hj ⊢
  split
  · next hin =>
    refine h3 i j hin ?_
    split at hj <;> omega
  · next hin =>
    refine k3 _ j (by omega) ?_
    split at hj <;> omega

variable {α : Type}

theorem Eqv.reduce {rw : Bool} (g : List (Res α) → Res α) {t u : Tm α .two} {s s' : Store α}
    (h : Eqv (t.meaning s) (u.meaning s')) :
    Eqv (Tm.meaning s (.reduce rw g t)) (Tm.meaning s' (.reduce rw g u)) := by
  generalize hx : t.meaning s = x at h
  generalize hy : u.meaning s' = y at h
  change Mat (Res α) at x y
  cases rw with
  | true =>
    show List.map _ _ = List.map _ _
    rw [hx, hy]
    show (List.range x.m).map (fun i => g (x.row i)) = (List.range y.m).map (fun i => g (y.row i))
    rw [← h.1]
    exact List.map_congr_left (fun i hi => by rw [row_congr h (List.mem_range.1 hi)])
  | false =>
    show List.map _ _ = List.map _ _
    rw [hx, hy]
    show (List.range x.n).map (fun i => g (x.col i)) = (List.range y.n).map (fun i => g (y.col i))
    rw [← h.2.1]
    exact List.map_congr_left (fun i hi => by rw [col_congr h (List.mem_range.1 hi)])

theorem Eqv.matvec (ar : Arith α) {t u : Tm α .two} {x y : Tm α .one} {s s' : Store α}
    (h : Eqv (t.meaning s) (u.meaning s')) (k : Eqv (x.meaning s) (y.meaning s')) :
    Eqv (Tm.meaning s (.matvec ar t x)) (Tm.meaning s' (.matvec ar u y)) := by
  generalize hx : t.meaning s = M at h
  generalize hy : u.meaning s' = N at h
  have k' : x.meaning s = y.meaning s' := k
  change Mat (Res α) at M N
  show List.map _ _ = List.map _ _
  rw [hx, hy]
  show (List.range M.m).map (fun i => inner ar (M.row i) (x.meaning s)) =
    (List.range N.m).map (fun i => inner ar (N.row i) (y.meaning s'))
  rw [← h.1]
  refine List.map_congr_left (fun i hi => ?_)
  rw [row_congr h (List.mem_range.1 hi)]
  exact congrArg (inner ar _) k'

end TermLaws

end Spp
