import Verif.Spec.FExpr
import Verif.Spec.Gives
import Verif.Lemmas.View
import Verif.Lemmas.PowProds
import Mathlib.Data.List.GetD

/-
Three evaluations of the same expression: rounded, exact and with magnitudes.  Everything that rearranges elements
preserves any relation between corresponding elements.
-/

namespace Spp.Lemmas

open Spec

variable {β γ δ : Type} {T : Res β → Res γ → Res δ → Prop}

/-- Lists of the same length with related elements. -/
def LR (T : Res β → Res γ → Res δ → Prop) (x : List (Res β)) (y : List (Res γ)) (z : List (Res δ)) : Prop :=
  x.length = y.length ∧ x.length = z.length ∧ ∀ i, T (x.getD i .ub) (y.getD i .ub) (z.getD i .ub)

/-- Matrices of the same shape with related elements. -/
def MR (T : Res β → Res γ → Res δ → Prop) (x : Mat (Res β)) (y : Mat (Res γ)) (z : Mat (Res δ)) : Prop :=
  (x.m = y.m ∧ x.m = z.m) ∧ (x.n = y.n ∧ x.n = z.n) ∧ ∀ i j, T (x.el i j) (y.el i j) (z.el i j)

/-- Values of expressions with related elements. -/
def SemR (T : Res β → Res γ → Res δ → Prop) : {d : Dim} → Sem β d → Sem γ d → Sem δ d → Prop
  | .one, x, y, z => LR T x y z
  | .two, x, y, z => MR T x y z

theorem SemR.mono {T' : Res β → Res γ → Res δ → Prop} (h : ∀ a b c, T a b c → T' a b c) {d : Dim} {x : Sem β d}
    {y : Sem γ d} {z : Sem δ d} (hx : SemR T x y z) : SemR T' x y z := by
  cases d with
  | one => exact ⟨hx.1, hx.2.1, fun i => h _ _ _ (hx.2.2 i)⟩
  | two => exact ⟨hx.1, hx.2.1, fun i j => h _ _ _ (hx.2.2 i j)⟩

theorem getD_map_ub {ι : Type} (f : ι → Res β) (l : List ι) (i : Nat) :
    (l.map f).getD i .ub = if h : i < l.length then f l[i] else .ub := by
  split
  · next h => simp [h]
  · next h => simp [h]

theorem LR.map {ι : Type} (h0 : T .ub .ub .ub) (l : List ι) {f : ι → Res β} {g : ι → Res γ} {h : ι → Res δ}
    (hi : ∀ i, T (f i) (g i) (h i)) : LR T (l.map f) (l.map g) (l.map h) := by
  refine ⟨by simp, by simp, fun i => ?_⟩
  rw [getD_map_ub, getD_map_ub, getD_map_ub]
  split
  · exact hi _
  · exact h0

theorem LR.append {x x' : List (Res β)} {y y' : List (Res γ)} {z z' : List (Res δ)}
    (h : LR T x y z) (h' : LR T x' y' z') : LR T (x ++ x') (y ++ y') (z ++ z') := by
  obtain ⟨a1, a2, a3⟩ := h
  obtain ⟨b1, b2, b3⟩ := h'
  refine ⟨by simp [a1, b1], by simp [a2, b2], fun i => ?_⟩
  by_cases hi : i < x.length
  · rw [List.getD_append _ _ _ _ hi, List.getD_append _ _ _ _ (a1 ▸ hi), List.getD_append _ _ _ _ (a2 ▸ hi)]
    exact a3 i
  · rw [List.getD_append_right _ _ _ _ (not_lt.1 hi), List.getD_append_right _ _ _ _ (a1 ▸ not_lt.1 hi),
      List.getD_append_right _ _ _ _ (a2 ▸ not_lt.1 hi), ← a1, ← a2]
    exact b3 _

theorem getD_take_ub (l : List (Res β)) (n i : Nat) :
    (l.take n).getD i .ub = if i < n then l.getD i .ub else .ub := by
  simp only [List.getD_eq_getElem?_getD, List.getElem?_take]
  split <;> rfl

theorem LR.take (h0 : T .ub .ub .ub) {x : List (Res β)} {y : List (Res γ)} {z : List (Res δ)} (h : LR T x y z)
    (n : Nat) : LR T (x.take n) (y.take n) (z.take n) := by
  refine ⟨by simp [h.1], by simp [h.2.1], fun i => ?_⟩
  rw [getD_take_ub, getD_take_ub, getD_take_ub]
  split
  · exact h.2.2 i
  · exact h0

theorem LR.drop {x : List (Res β)} {y : List (Res γ)} {z : List (Res δ)} (h : LR T x y z) (n : Nat) :
    LR T (x.drop n) (y.drop n) (z.drop n) := by
  refine ⟨by simp [h.1], by simp [h.2.1], fun i => ?_⟩
  simp only [List.getD_eq_getElem?_getD, List.getElem?_drop]
  have := h.2.2 (n + i)
  simpa only [List.getD_eq_getElem?_getD] using this

theorem LR.dropLast (h0 : T .ub .ub .ub) {x : List (Res β)} {y : List (Res γ)} {z : List (Res δ)} (h : LR T x y z) :
    LR T x.dropLast y.dropLast z.dropLast := by
  rw [List.dropLast_eq_take, List.dropLast_eq_take, List.dropLast_eq_take, ← h.1, ← h.2.1]
  exact LR.take h0 h _

theorem LR.single {a : Res β} {b : Res γ} {c : Res δ} (h0 : T .ub .ub .ub) (h : T a b c) : LR T [a] [b] [c] := by
  refine ⟨rfl, rfl, fun i => ?_⟩
  cases i with
  | zero => exact h
  | succ i => exact h0

theorem LR.pick (h0 : T .ub .ub .ub) {x : List (Res β)} {y : List (Res γ)} {z : List (Res δ)} (h : LR T x y z)
    (i : Int) : T (pick x i) (pick y i) (pick z i) := by
  unfold Spec.pick
  split
  · exact h.2.2 _
  · exact h0

theorem MR.pick (h0 : T .ub .ub .ub) {x : Mat (Res β)} {y : Mat (Res γ)} {z : Mat (Res δ)} (h : MR T x y z)
    (i j : Int) : T (x.pick i j) (y.pick i j) (z.pick i j) := by
  unfold Mat.pick
  rw [← h.1.1, ← h.1.2, ← h.2.1.1, ← h.2.1.2]
  split
  · exact h.2.2 _ _
  · exact h0

theorem MR.row (h0 : T .ub .ub .ub) {x : Mat (Res β)} {y : Mat (Res γ)} {z : Mat (Res δ)} (h : MR T x y z) (i : Nat) :
    LR T (x.row i) (y.row i) (z.row i) := by
  unfold Mat.row
  rw [← h.2.1.1, ← h.2.1.2]
  exact LR.map h0 _ fun j => h.2.2 i j

theorem MR.col (h0 : T .ub .ub .ub) {x : Mat (Res β)} {y : Mat (Res γ)} {z : Mat (Res δ)} (h : MR T x y z) (j : Nat) :
    LR T (x.col j) (y.col j) (z.col j) := by
  unfold Mat.col
  rw [← h.1.1, ← h.1.2]
  exact LR.map h0 _ fun i => h.2.2 i j

theorem MR.flat (h0 : T .ub .ub .ub) {x : Mat (Res β)} {y : Mat (Res γ)} {z : Mat (Res δ)} (h : MR T x y z) :
    LR T x.flat y.flat z.flat := by
  obtain ⟨⟨m1, m2⟩, ⟨n1, n2⟩, he⟩ := h
  refine ⟨by simp [m1, n1], by simp [m2, n2], fun i => ?_⟩
  by_cases hi : i < x.m * x.n
  · obtain ⟨u, v⟩ := unflat_lt hi
    have e1 := flat_getD (M := x) (d := Res.ub) u v
    have e2 := flat_getD (M := y) (d := Res.ub) (m1 ▸ u) (n1 ▸ v)
    have e3 := flat_getD (M := z) (d := Res.ub) (m2 ▸ u) (n2 ▸ v)
    rw [unflat] at e1
    rw [← n1, unflat] at e2
    rw [← n2, unflat] at e3
    rw [e1, e2, e3]
    exact he _ _
  · rw [List.getD_eq_default _ _ (by simpa using hi), List.getD_eq_default _ _ (by simpa [← m1, ← n1] using hi),
      List.getD_eq_default _ _ (by simpa [← m2, ← n2] using hi)]
    exact h0

theorem MR.cross (h0 : T .ub .ub .ub) {x : Mat (Res β)} {y : Mat (Res γ)} {z : Mat (Res δ)} (h : MR T x y z)
    (rs cs : List Int) : MR T (x.cross rs cs) (y.cross rs cs) (z.cross rs cs) := by
  unfold Mat.cross
  split
  · exact ⟨⟨rfl, rfl⟩, ⟨rfl, rfl⟩, h.2.2⟩
  · exact ⟨⟨rfl, rfl⟩, ⟨rfl, rfl⟩, fun i j => h.pick h0 _ _⟩

theorem MR.sub {x : Mat (Res β)} {y : Mat (Res γ)} {z : Mat (Res δ)} (h : MR T x y z)
    (r c p q : Nat) : MR T (x.sub r c p q) (y.sub r c p q) (z.sub r c p q) := by
  unfold Mat.sub
  split
  · exact ⟨⟨rfl, rfl⟩, ⟨rfl, rfl⟩, h.2.2⟩
  · exact ⟨⟨rfl, rfl⟩, ⟨rfl, rfl⟩, fun i j => h.2.2 _ _⟩

theorem MR.diagonal (h0 : T .ub .ub .ub) {x : Mat (Res β)} {y : Mat (Res γ)} {z : Mat (Res δ)} (h : MR T x y z)
    (k : Int) : LR T (x.diagonal k) (y.diagonal k) (z.diagonal k) := by
  unfold Mat.diagonal
  rw [← h.1.1, ← h.1.2, ← h.2.1.1, ← h.2.1.2]
  split
  · exact LR.map h0 _ fun i => h.2.2 _ _
  · exact LR.map h0 _ fun i => h.2.2 _ _

theorem LR.laid (h0 : T .ub .ub .ub) {x : List (Res β)} {y : List (Res γ)} {z : List (Res δ)} (h : LR T x y z)
    (m n : Nat) : MR T (Mat.laid x m n) (Mat.laid y m n) (Mat.laid z m n) := by
  unfold Mat.laid
  split
  · exact ⟨⟨rfl, rfl⟩, ⟨rfl, rfl⟩, fun _ _ => h0⟩
  · exact ⟨⟨rfl, rfl⟩, ⟨rfl, rfl⟩, fun i j => h.2.2 _⟩

/-- Views of related values are related. -/
theorem SemR.sel (h0 : T .ub .ub .ub) {d d' : Dim} (v : View d d') {x : Sem β d} {y : Sem γ d} {z : Sem δ d}
    (h : SemR T x y z) : SemR T (v.sel x) (v.sel y) (v.sel z) := by
  cases v with
  | slice r =>
    have h' : LR T x y z := h
    show LR T ((selection (List.length x) r).map (pick x)) ((selection (List.length y) r).map (pick y))
      ((selection (List.length z) r).map (pick z))
    rw [← h'.1, ← h'.2.1]
    exact LR.map h0 _ fun i => h'.pick h0 i
  | slice2 r1 r2 =>
    have h' : MR T x y z := h
    show MR T (Mat.cross x (selection x.m r1) (selection x.n r2)) (Mat.cross y (selection y.m r1) (selection y.n r2))
      (Mat.cross z (selection z.m r1) (selection z.n r2))
    rw [← h'.1.1, ← h'.1.2, ← h'.2.1.1, ← h'.2.1.2]
    exact h'.cross h0 _ _
  | rows r =>
    have h' : MR T x y z := h
    show MR T (Mat.cross x (selection x.m r) (upto x.n)) (Mat.cross y (selection y.m r) (upto y.n))
      (Mat.cross z (selection z.m r) (upto z.n))
    rw [← h'.1.1, ← h'.1.2, ← h'.2.1.1, ← h'.2.1.2]
    exact h'.cross h0 _ _
  | cols r =>
    have h' : MR T x y z := h
    show MR T (Mat.cross x (upto x.m) (selection x.n r)) (Mat.cross y (upto y.m) (selection y.n r))
      (Mat.cross z (upto z.m) (selection z.n r))
    rw [← h'.1.1, ← h'.1.2, ← h'.2.1.1, ← h'.2.1.2]
    exact h'.cross h0 _ _
  | row p =>
    have h' : MR T x y z := h
    show LR T (Mat.row x (target x.m p).toNat) (Mat.row y (target y.m p).toNat) (Mat.row z (target z.m p).toNat)
    rw [← h'.1.1, ← h'.1.2]
    exact h'.row h0 _
  | col p =>
    have h' : MR T x y z := h
    show LR T (Mat.col x (target x.n p).toNat) (Mat.col y (target y.n p).toNat) (Mat.col z (target z.n p).toNat)
    rw [← h'.2.1.1, ← h'.2.1.2]
    exact h'.col h0 _
  | diag => exact MR.diagonal h0 h 0
  | diagK k => exact MR.diagonal h0 h k
  | block i1 j1 i2 j2 =>
    have h' : MR T x y z := h
    show MR T (Mat.sub x _ _ _ _) (Mat.sub y _ _ _ _) (Mat.sub z _ _ _ _)
    rw [← h'.1.1, ← h'.1.2, ← h'.2.1.1, ← h'.2.1.2]
    exact h'.sub _ _ _ _
  | blockN i1 j1 m n =>
    have h' : MR T x y z := h
    show MR T (Mat.sub x _ _ _ _) (Mat.sub y _ _ _ _) (Mat.sub z _ _ _ _)
    rw [← h'.1.1, ← h'.1.2, ← h'.2.1.1, ← h'.2.1.2]
    exact h'.sub _ _ _ _
  | view1D => exact MR.flat h0 h
  | view2D d m n =>
    cases d with
    | one => exact LR.laid h0 h _ _
    | two => exact LR.laid h0 (MR.flat h0 h) _ _

theorem LR.mapR {β' γ' δ' : Type} {T' : Res β' → Res γ' → Res δ' → Prop} (h0 : T' .ub .ub .ub)
    {x : List (Res β)} {y : List (Res γ)} {z : List (Res δ)} (h : LR T x y z) {f : β → Res β'} {g : γ → Res γ'}
    {k : δ → Res δ'} (hT : ∀ a b c, T a b c → T' (a >>= f) (b >>= g) (c >>= k)) :
    LR T' (x.map fun r => r >>= f) (y.map fun r => r >>= g) (z.map fun r => r >>= k) := by
  refine ⟨by simpa using h.1, by simpa using h.2.1, fun i => ?_⟩
  rw [getD_map_ub, getD_map_ub, getD_map_ub]
  have hi := h.2.2 i
  by_cases hl : i < x.length
  · have hl1 : i < y.length := h.1 ▸ hl
    have hl2 : i < z.length := h.2.1 ▸ hl
    rw [dif_pos hl, dif_pos hl1, dif_pos hl2]
    rw [List.getD_eq_getElem _ _ hl, List.getD_eq_getElem _ _ hl1, List.getD_eq_getElem _ _ hl2] at hi
    exact hT _ _ _ hi
  · rw [dif_neg hl, dif_neg (h.1 ▸ hl), dif_neg (h.2.1 ▸ hl)]
    exact h0

/-- Operations on related elements. -/
theorem SemR.map {β' γ' δ' : Type} {T' : Res β' → Res γ' → Res δ' → Prop} (h0 : T' .ub .ub .ub) {d : Dim}
    {x : Sem β d} {y : Sem γ d} {z : Sem δ d} (h : SemR T x y z) {f : β → Res β'} {g : γ → Res γ'} {k : δ → Res δ'}
    (hT : ∀ a b c, T a b c → T' (a >>= f) (b >>= g) (c >>= k)) : SemR T' (x.map f) (y.map g) (z.map k) := by
  cases d with
  | one => exact LR.mapR h0 h hT
  | two => exact ⟨h.1, h.2.1, fun i j => hT _ _ _ (h.2.2 i j)⟩

theorem getD_zipWith_ub {β γ δ : Type} (f : Res β → Res γ → Res δ) (x : List (Res β)) (y : List (Res γ)) (i : Nat) :
    (List.zipWith f x y).getD i .ub =
      if i < x.length ∧ i < y.length then f (x.getD i .ub) (y.getD i .ub) else .ub := by
  split
  · next h =>
    rw [List.getD_eq_getElem _ _ (by rw [List.length_zipWith]; omega), List.getElem_zipWith,
      List.getD_eq_getElem _ _ h.1, List.getD_eq_getElem _ _ h.2]
  · next h => rw [List.getD_eq_default _ _ (by rw [List.length_zipWith]; omega)]

theorem LR.zipR {T1 T2 T' : Res β → Res γ → Res δ → Prop} (h0 : T' .ub .ub .ub)
    {x x' : List (Res β)} {y y' : List (Res γ)} {z z' : List (Res δ)} (h : LR T1 x y z) (h' : LR T2 x' y' z')
    {f : β → β → Res β} {g : γ → γ → Res γ} {k : δ → δ → Res δ}
    (hT : ∀ a b c a' b' c', T1 a b c → T2 a' b' c' → T' (do let u ← a; let v ← a'; f u v)
      (do let u ← b; let v ← b'; g u v) (do let u ← c; let v ← c'; k u v)) :
    LR T' (List.zipWith (fun x y => do let u ← x; let v ← y; f u v) x x')
      (List.zipWith (fun x y => do let u ← x; let v ← y; g u v) y y')
      (List.zipWith (fun x y => do let u ← x; let v ← y; k u v) z z') := by
  refine ⟨?_, ?_, fun i => ?_⟩
  · rw [List.length_zipWith, List.length_zipWith, h.1, h'.1]
  · rw [List.length_zipWith, List.length_zipWith, h.2.1, h'.2.1]
  · rw [getD_zipWith_ub, getD_zipWith_ub, getD_zipWith_ub, ← h.1, ← h.2.1, ← h'.1, ← h'.2.1]
    split
    · exact hT _ _ _ _ _ _ (h.2.2 i) (h'.2.2 i)
    · exact h0

/-- Binary operations on related elements. -/
theorem SemR.zip {T1 T2 T' : Res β → Res γ → Res δ → Prop} (h0 : T' .ub .ub .ub) {d : Dim}
    {x x' : Sem β d} {y y' : Sem γ d} {z z' : Sem δ d} (h : SemR T1 x y z) (h' : SemR T2 x' y' z')
    {f : β → β → Res β} {g : γ → γ → Res γ} {k : δ → δ → Res δ}
    (hT : ∀ a b c a' b' c', T1 a b c → T2 a' b' c' → T' (do let u ← a; let v ← a'; f u v)
      (do let u ← b; let v ← b'; g u v) (do let u ← c; let v ← c'; k u v)) :
    SemR T' (Sem.zip f x x') (Sem.zip g y y') (Sem.zip k z z') := by
  cases d with
  | one => exact LR.zipR h0 h h' hT
  | two => exact ⟨h.1, h.2.1, fun i j => hT _ _ _ _ _ _ (h.2.2 i j) (h'.2.2 i j)⟩

/-- An operation on the first two only. -/
theorem SemR.map2 {T' : Res β → Res γ → Res δ → Prop} (h0 : T' .ub .ub .ub) {d : Dim}
    {x : Sem β d} {y : Sem γ d} {z : Sem δ d} (h : SemR T x y z) {f : β → Res β} {g : γ → Res γ}
    (hT : ∀ a b c, T a b c → T' (a >>= f) (b >>= g) c) : SemR T' (x.map f) (y.map g) z := by
  have e : z.map (fun r => Res.ok r) = z := by
    have hb : ∀ r : Res δ, (r >>= fun r => Res.ok r) = r := fun r => by cases r <;> rfl
    cases d with
    | one =>
      show List.map (fun r : Res δ => r >>= fun r => Res.ok r) z = z
      simp only [hb]
      exact List.map_id' z
    | two =>
      show (⟨z.m, z.n, fun i j => z.el i j >>= fun r => Res.ok r⟩ : Mat (Res δ)) = z
      simp only [hb]
      rfl
  rw [← e]
  refine SemR.map h0 h fun a b c hc => ?_
  rw [show (c >>= fun r => Res.ok r) = c by cases c <;> rfl]
  exact hT a b c hc

/-! ### Rounded, exact and with magnitudes -/

/-- Three elements that are out of range, or a rounded number, the exact one and a magnitude. -/
def E3 (u : ℚ) (k : Nat) (a b c : Res ℚ) : Prop :=
  (a = .ub ∧ b = .ub ∧ c = .ub) ∨ ∃ v V M, a = .ok v ∧ b = .ok V ∧ c = .ok M ∧ Close u v V M k

theorem E3.ub {u : ℚ} {k : Nat} : E3 u k .ub .ub .ub := .inl ⟨rfl, rfl, rfl⟩

theorem E3.mono {u : ℚ} (hu : 0 < u) {k j : Nat} (hk : k ≤ j) (a b c : Res ℚ) (h : E3 u k a b c) : E3 u j a b c := by
  rcases h with h | ⟨v, V, M, h1, h2, h3, h4⟩
  · exact .inl h
  · exact .inr ⟨v, V, M, h1, h2, h3, h4.mono hu hk⟩

theorem E3.map {u : ℚ} {k j : Nat} {f g h : ℚ → Res ℚ}
    (hf : ∀ v V M, Close u v V M k → E3 u j (f v) (g V) (h M)) (a b c : Res ℚ) (hE : E3 u k a b c) :
    E3 u j (a >>= f) (b >>= g) (c >>= h) := by
  rcases hE with ⟨rfl, rfl, rfl⟩ | ⟨v, V, M, rfl, rfl, rfl, h4⟩
  · exact .ub
  · exact hf v V M h4

theorem E3.bin {u : ℚ} {k k' j : Nat} {f g h : ℚ → ℚ → Res ℚ}
    (hf : ∀ v V M v' V' M', Close u v V M k → Close u v' V' M' k' → E3 u j (f v v') (g V V') (h M M'))
    (a b c a' b' c' : Res ℚ) (hE : E3 u k a b c) (hE' : E3 u k' a' b' c') :
    E3 u j (do let x ← a; let y ← a'; f x y) (do let x ← b; let y ← b'; g x y) (do let x ← c; let y ← c'; h x y) := by
  rcases hE with ⟨rfl, rfl, rfl⟩ | ⟨v, V, M, rfl, rfl, rfl, h4⟩
  · exact .ub
  · rcases hE' with ⟨rfl, rfl, rfl⟩ | ⟨v', V', M', rfl, rfl, rfl, h4'⟩
    · exact .ub
    · exact hf _ _ _ _ _ _ h4 h4'

theorem _root_.Spp.Lemmas.Close.neg {u v V M : ℚ} {k : Nat} (h : Close u v V M k) : Close u (-v) (-V) M k := by
  refine ⟨?_, by rw [abs_neg]; exact h.2⟩
  rw [show -v - -V = -(v - V) by ring, abs_neg]
  exact h.1

theorem _root_.Spp.Lemmas.Close.absV {u v V M : ℚ} {k : Nat} (h : Close u v V M k) : Close u |v| |V| M k :=
  ⟨(abs_abs_sub_abs_le v V).trans h.1, by rw [abs_abs]; exact h.2⟩

theorem _root_.Spp.Lemmas.Close.divC {u v V M : ℚ} {k : Nat} (h : Close u v V M k) {c : ℚ} (hc : c ≠ 0) :
    Close u (v / c) (V / c) (M / |c|) k := by
  have hc' : 0 < |c| := abs_pos.2 hc
  constructor
  · rw [← sub_div, abs_div, ← mul_div_assoc]
    exact div_le_div_of_nonneg_right h.1 hc'.le
  · rw [abs_div]
    exact div_le_div_of_nonneg_right h.2 hc'.le

variable {G : ℚ → Prop} {u : ℚ} {rn : ℚ → ℚ} {pow pow' : ℚ → ℚ → ℚ} {sqrt sqrt' : ℚ → ℚ}

/-- One operation. -/
theorem op_rel (hf : FlX G u rn) (o : FOp) {k j : Nat} {v V M v' V' M' : ℚ} (h : Close u v V M k)
    (h' : Close u v' V' M' j) :
    E3 u (o.roundings k j) (o.op (rounded rn pow sqrt) v v') (o.op (rounded id pow' sqrt') V V')
      (o.mag.op (rounded id pow' sqrt') M M') := by
  cases o with
  | add =>
    exact .inr ⟨_, _, _, rfl, rfl, rfl, ((h.mono hf.pos (le_max_left _ _)).add (h'.mono hf.pos (le_max_right _ _))).round hf⟩
  | sub =>
    refine .inr ⟨_, _, _, rfl, rfl, rfl, ?_⟩
    have := ((h.mono hf.pos (le_max_left k j)).add (h'.neg.mono hf.pos (le_max_right k j))).round hf
    rw [← sub_eq_add_neg, ← sub_eq_add_neg] at this
    exact this
  | mul => exact .inr ⟨_, _, _, rfl, rfl, rfl, (h.mul hf.pos h').round hf⟩

/-! ### Leaves -/

/-- Three equal places, or none. -/
def L3 (a b c : Res Loc) : Prop := a = b ∧ a = c ∧ ∀ k, a ≠ .trap k

theorem cells_rel (s : Store ℚ) {d : Dim} (l : Lv d) : SemR L3 (l.cells s) (l.cells s) (l.cells (magnitudes s)) := by
  have h0 : L3 .ub .ub .ub := ⟨rfl, rfl, by simp⟩
  induction l with
  | arr1 id =>
    show LR L3 ((List.range (s.a1 id).length).map _) ((List.range (s.a1 id).length).map _)
      ((List.range ((s.a1 id).map _).length).map _)
    rw [List.length_map]
    exact LR.map h0 _ fun i => ⟨rfl, rfl, by simp⟩
  | arr2 id => exact ⟨⟨rfl, rfl⟩, ⟨rfl, rfl⟩, fun i j => ⟨rfl, rfl, fun k h => by cases h⟩⟩
  | view v l ih => exact SemR.sel h0 v ih

theorem rd_abs (l : List ℚ) (k : Nat) : E3 u 0 (rd l k) (rd l k) (rd (l.map fun x => |x|) k) := by
  by_cases hk : k < l.length
  · rw [rd_nat hk, rd_nat (by simpa using hk)]
    exact .inr ⟨_, _, _, rfl, rfl, by rw [List.getElem_map], Close.refl _⟩
  · have e : ∀ l : List ℚ, ¬ k < l.length → rd l k = .ub := by
      intro l hl
      unfold rd
      simp [not_lt.1 hl]
    rw [e _ hk, e _ (by simpa using hk)]
    exact .ub

theorem lv_rel (s : Store ℚ) {d : Dim} (l : Lv d) :
    SemR (E3 u 0) ((l.cells s).map s.read) ((l.cells s).map s.read)
      ((l.cells (magnitudes s)).map (magnitudes s).read) := by
  refine SemR.map .ub (cells_rel s l) ?_
  rintro a b c ⟨rfl, rfl, h⟩
  rcases a with c | k | _
  · cases c with
    | one id k => exact rd_abs _ _
    | two id k => exact rd_abs _ _
  · exact absurd rfl (h k)
  · exact .ub

/-! ### Inner products -/

theorem inner_rel (hf : FlX G u rn) {k j : Nat} {x y z x' y' z' : List (Res ℚ)} (h : LR (E3 u k) x y z)
    (h' : LR (E3 u j) x' y' z') :
    E3 u (k + j + 1 + x.length) (inner (rounded rn pow sqrt).toArith x x') (inner (rounded id pow' sqrt').toArith y y')
      (inner (rounded id pow' sqrt').toArith z z') := by
  have key : ∀ (n : Nat) (x y z x' y' z' : List (Res ℚ)) (a b c : Res ℚ) (i : Nat), x.length = n →
      LR (E3 u k) x y z → LR (E3 u j) x' y' z' → k + j + 1 ≤ i → E3 u i a b c →
      E3 u (i + n)
        ((List.zip x x').foldl (fun acc p => do
          let a ← acc; let u ← p.1; let v ← p.2; let q ← (rounded rn pow sqrt).mul u v; (rounded rn pow sqrt).add a q) a)
        ((List.zip y y').foldl (fun acc p => do
          let a ← acc; let u ← p.1; let v ← p.2; let q ← (rounded id pow' sqrt').mul u v;
          (rounded id pow' sqrt').add a q) b)
        ((List.zip z z').foldl (fun acc p => do
          let a ← acc; let u ← p.1; let v ← p.2; let q ← (rounded id pow' sqrt').mul u v;
          (rounded id pow' sqrt').add a q) c) := by
    intro n
    induction n with
    | zero =>
      intro x y z x' y' z' a b c i hn h h' hi hE
      obtain ⟨e1, e2, -⟩ := h
      rw [hn] at e1 e2
      rw [List.length_eq_zero_iff.1 hn, List.length_eq_zero_iff.1 e1.symm, List.length_eq_zero_iff.1 e2.symm]
      exact hE
    | succ n ih =>
      intro x y z x' y' z' a b c i hn h h' hi hE
      match x, y, z, x', y', z', hn, h, h' with
      | x :: xs, y :: ys, z :: zs, x' :: xs', y' :: ys', z' :: zs', hn, h, h' =>
        rw [List.zip_cons_cons, List.zip_cons_cons, List.zip_cons_cons, List.foldl_cons, List.foldl_cons,
          List.foldl_cons, show i + (n + 1) = (i + 1) + n by omega]
        refine ih xs ys zs xs' ys' zs' _ _ _ (i + 1) (by simpa using hn)
          ⟨by simpa using h.1, by simpa using h.2.1, fun i => by simpa using h.2.2 (i + 1)⟩
          ⟨by simpa using h'.1, by simpa using h'.2.1, fun i => by simpa using h'.2.2 (i + 1)⟩ (by omega) ?_
        have g1 : E3 u k x y z := by simpa using h.2.2 0
        have g2 : E3 u j x' y' z' := by simpa using h'.2.2 0
        rcases hE with ⟨rfl, rfl, rfl⟩ | ⟨v, V, M, rfl, rfl, rfl, h4⟩
        · exact .ub
        rcases g1 with ⟨rfl, rfl, rfl⟩ | ⟨v1, V1, M1, rfl, rfl, rfl, h5⟩
        · exact .ub
        rcases g2 with ⟨rfl, rfl, rfl⟩ | ⟨v2, V2, M2, rfl, rfl, rfl, h6⟩
        · exact .ub
        exact .inr ⟨_, _, _, rfl, rfl, rfl, (h4.add (((h5.mul hf.pos h6).round hf).mono hf.pos hi)).round hf⟩
      | x :: xs, y :: ys, z :: zs, [], [], [], hn, h, h' =>
        simp only [List.zip_nil_right, List.foldl_nil]
        exact hE.mono hf.pos (by omega)
      | x :: xs, [], _, _, _, _, hn, h, _ => exact absurd h.1 (by simp)
      | x :: xs, _, [], _, _, _, hn, h, _ => exact absurd h.2.1 (by simp)
      | _, _, _, [], _ :: _, _, hn, _, h' => exact absurd h'.1 (by simp)
      | _, _, _, [], _, _ :: _, hn, _, h' => exact absurd h'.2.1 (by simp)
      | _, _, _, _ :: _, [], _, hn, _, h' => exact absurd h'.1 (by simp)
      | _, _, _, _ :: _, _, [], hn, _, h' => exact absurd h'.2.1 (by simp)
  refine key x.length x y z x' y' z' _ _ _ _ rfl h h' le_rfl (.inr ⟨0, 0, 0, rfl, rfl, rfl, ?_⟩)
  exact ⟨by simp, by simp⟩

/-! ### Expressions -/

theorem expr_rel (hf : FlX G u rn) (s : Store ℚ) {d : Dim} (e : FTm d) (hd : e.Divides) :
    SemR (E3 u (e.roundings (rounded rn pow sqrt) s)) ((e.tm (rounded rn pow sqrt)).meaning s)
      ((e.tm (rounded id pow' sqrt')).meaning s) ((e.mag.tm (rounded id pow' sqrt')).meaning (magnitudes s)) := by
  have cst : ∀ c : ℚ, ∀ k, E3 u k (.ok c) (.ok c) (.ok |c|) := fun c k =>
    .inr ⟨c, c, |c|, rfl, rfl, rfl, (Close.refl c).mono hf.pos (Nat.zero_le _)⟩
  induction e with
  | lv l => exact lv_rel s l
  | view v e ih => exact SemR.sel .ub v (ih hd)
  | neg e ih =>
    refine SemR.map2 .ub (ih hd) fun a b c h => ?_
    rcases h with ⟨rfl, rfl, rfl⟩ | ⟨v, V, M, rfl, rfl, rfl, h4⟩
    · exact .ub
    · exact .inr ⟨_, _, _, rfl, rfl, rfl, h4.neg⟩
  | abs e ih =>
    refine SemR.map2 .ub (ih hd) fun a b c h => ?_
    rcases h with ⟨rfl, rfl, rfl⟩ | ⟨v, V, M, rfl, rfl, rfl, h4⟩
    · exact .ub
    · exact .inr ⟨_, _, _, abss_rounded v, abss_rounded V, rfl, h4.absV⟩
  | bin o e1 e2 ih1 ih2 => exact SemR.zip .ub (ih1 hd.1) (ih2 hd.2) (E3.bin fun v V M v' V' M' h h' => op_rel hf o h h')
  | left o c e ih =>
    refine SemR.map .ub (ih hd) (E3.map fun v V M h => ?_)
    refine E3.mono hf.pos ?_ _ _ _ (op_rel hf o (Close.refl c) h)
    cases o <;> simp [FOp.roundings, FTm.roundings]
  | right o e c ih =>
    refine SemR.map .ub (ih hd) (E3.map fun v V M h => ?_)
    refine E3.mono hf.pos ?_ _ _ _ (op_rel hf o h (Close.refl c))
    cases o <;> simp [FOp.roundings, FTm.roundings]
  | divided e c ih =>
    exact SemR.map .ub (ih hd.2) (E3.map fun v V M h => .inr ⟨_, _, _, rfl, rfl, rfl, (h.divC hd.1).round hf⟩)
  | const1D n c =>
    show LR _ (List.replicate n.toNat (Res.ok c)) (List.replicate n.toNat (Res.ok c)) (List.replicate n.toNat (Res.ok |c|))
    have e : ∀ c : ℚ, List.replicate n.toNat (Res.ok c) = (List.range n.toNat).map fun _ => Res.ok c := by
      intro c
      rw [List.map_const', List.length_range]
    rw [e, e]
    exact LR.map .ub _ fun _ => cst c _
  | const2D m n c => exact ⟨⟨rfl, rfl⟩, ⟨rfl, rfl⟩, fun _ _ => cst c _⟩
  | merge e1 e2 ih1 ih2 =>
    exact LR.append ((ih1 hd.1).mono (E3.mono hf.pos (le_max_left _ _))) ((ih2 hd.2).mono (E3.mono hf.pos (le_max_right _ _)))
  | append e c ih => exact LR.append (ih hd) (LR.single .ub (cst c _))
  | prepend c e ih => exact LR.append (LR.single .ub (cst c _)) (ih hd)
  | exclude e pos count ih => exact LR.append (LR.take .ub (ih hd) _) (LR.drop (ih hd) _)
  | excludeLast e k ih =>
    exact LR.dropLast .ub (ih hd)
  | matvec e x ih1 ih2 =>
    have h : MR _ _ _ _ := ih1 hd.1
    have h' : LR _ _ _ _ := ih2 hd.2
    show LR _ ((List.range (Mat.m ((e.tm _).meaning s))).map _) ((List.range (Mat.m ((e.tm _).meaning s))).map _)
      ((List.range (Mat.m ((e.mag.tm _).meaning (magnitudes s)))).map _)
    rw [← h.1.1, ← h.1.2]
    refine LR.map .ub _ fun i => ?_
    have := inner_rel (pow := pow) (sqrt := sqrt) (pow' := pow') (sqrt' := sqrt') hf (h.row .ub i) h'
    have el : (Mat.row ((e.tm (rounded rn pow sqrt)).meaning s) i).length =
        ((e.tm (rounded rn pow sqrt)).meaning s).dims.2 := by
      unfold Mat.row
      rw [List.length_map, List.length_range]; rfl
    rw [el] at this
    exact this
  | bcast r e ih =>
    have h : LR _ _ _ _ := ih hd
    cases r
    · exact ⟨⟨h.1, h.2.1⟩, ⟨h.1, h.2.1⟩, fun i j => h.2.2 i⟩
    · exact ⟨⟨h.1, h.2.1⟩, ⟨h.1, h.2.1⟩, fun i j => h.2.2 j⟩
  | tensor e1 e2 ih1 ih2 =>
    have h : LR _ _ _ _ := ih1 hd.1
    have h' : LR _ _ _ _ := ih2 hd.2
    exact ⟨⟨h.1, h.2.1⟩, ⟨h'.1, h'.2.1⟩, fun i j =>
      E3.bin (fun v V M v' V' M' h h' => op_rel hf .mul h h') _ _ _ _ _ _ (h.2.2 i) (h'.2.2 j)⟩
  | transpose e ih =>
    have h : MR _ _ _ _ := ih hd
    exact ⟨h.2.1, h.1, fun i j => h.2.2 j i⟩
  | mergeH e1 e2 ih1 ih2 =>
    have h : MR _ _ _ _ := (ih1 hd.1).mono (E3.mono hf.pos (le_max_left _ (e2.roundings (rounded rn pow sqrt) s)))
    have h' : MR _ _ _ _ := (ih2 hd.2).mono (E3.mono hf.pos (le_max_right (e1.roundings (rounded rn pow sqrt) s) _))
    show MR _ (Mat.beside _ _) (Mat.beside _ _) (Mat.beside _ _)
    unfold Mat.beside
    rw [← h.1.1, ← h.1.2, ← h'.1.1, ← h'.1.2, ← h.2.1.1, ← h.2.1.2, ← h'.2.1.1, ← h'.2.1.2]
    refine ⟨⟨rfl, rfl⟩, ⟨rfl, rfl⟩, fun i j => ?_⟩
    dsimp only
    split
    · exact h.2.2 _ _
    · exact h'.2.2 _ _
  | mergeV e1 e2 ih1 ih2 =>
    have h : MR _ _ _ _ := (ih1 hd.1).mono (E3.mono hf.pos (le_max_left _ (e2.roundings (rounded rn pow sqrt) s)))
    have h' : MR _ _ _ _ := (ih2 hd.2).mono (E3.mono hf.pos (le_max_right (e1.roundings (rounded rn pow sqrt) s) _))
    show MR _ (Mat.above _ _) (Mat.above _ _) (Mat.above _ _)
    unfold Mat.above
    rw [← h.1.1, ← h.1.2, ← h'.1.1, ← h'.1.2, ← h.2.1.1, ← h.2.1.2, ← h'.2.1.1, ← h'.2.1.2]
    refine ⟨⟨rfl, rfl⟩, ⟨rfl, rfl⟩, fun i j => ?_⟩
    dsimp only
    split
    · exact h.2.2 _ _
    · exact h'.2.2 _ _

end Spp.Lemmas
