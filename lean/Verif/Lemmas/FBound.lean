import Verif.Spec.FBound
import Verif.Spec.Table
import Verif.Lemmas.FExpr
import Verif.Props.IeeeMore
import Verif.Props.Underflow

/-
The computed elements of an expression in IEEE arithmetic, the exact ones and their bounds.
-/

namespace Spp.Lemmas

open Spec FVal Props

variable {p : Nat} {emin : Int} {F : Fmt} {Q : Prop} {pow : ℚ → ℚ → ℚ} {sqrt : ℚ → ℚ}

/-! ### Finite results -/

theorem round_back (hF : IsFmt p emin F) {s : Bool} {m v : ℚ} (hv : v = m ∨ v = -m) (h : |F.rn v| ≤ F.top) :
    (FVal.round F s m).isFinite = true := by
  have : F.rn m ≤ F.top := by
    rcases hv with rfl | rfl
    · exact (le_abs_self _).trans h
    · rw [hF.odd, abs_neg] at h
      exact (le_abs_self _).trans h
  unfold FVal.round
  rw [if_neg (not_lt.2 this)]
  rfl

theorem add_back (hF : IsFmt p emin F) {x y : FVal} (hx : x.isFinite = true) (hy : y.isFinite = true)
    (h : |F.rn (x.val + y.val)| ≤ F.top) : (add F x y).isFinite = true := by
  rcases x with _ | s | ⟨s, m⟩
  · simp [isFinite] at hx
  · simp [isFinite] at hx
  rcases y with _ | t | ⟨t, n⟩
  · simp [isFinite] at hy
  · simp [isFinite] at hy
  simp only [add]
  split
  · rfl
  · refine round_back hF ?_ h
    rcases abs_choice (val (fin s m) + val (fin t n)) with e | e
    · exact .inl e.symm
    · exact .inr (by rw [e, neg_neg])

theorem mul_back (hF : IsFmt p emin F) {x y : FVal} (hx : x.isFinite = true) (hy : y.isFinite = true)
    (h : |F.rn (x.val * y.val)| ≤ F.top) : (mul F x y).isFinite = true := by
  rcases x with _ | s | ⟨s, m⟩
  · simp [isFinite] at hx
  · simp [isFinite] at hx
  rcases y with _ | t | ⟨t, n⟩
  · simp [isFinite] at hy
  · simp [isFinite] at hy
  refine round_back hF ?_ h
  cases s <;> cases t <;> simp [val]

theorem div_back (hF : IsFmt p emin F) {x y : FVal} (hx : x.isFinite = true) (hy : y.isFinite = true)
    (h0 : y.val ≠ 0) (h : |F.rn (x.val / y.val)| ≤ F.top) : (div F x y).isFinite = true := by
  rcases x with _ | s | ⟨s, m⟩
  · simp [isFinite] at hx
  · simp [isFinite] at hx
  rcases y with _ | t | ⟨t, n⟩
  · simp [isFinite] at hy
  · simp [isFinite] at hy
  have hn : n ≠ 0 := by rintro rfl; cases t <;> simp [val] at h0
  simp only [div]
  rw [if_neg hn]
  refine round_back hF ?_ h
  cases s <;> cases t <;> simp [val, div_neg, neg_div]

/-! ### One element -/

/-- The computed element `v`, the exact one and its bounds.  `Q` says that the input is finite. -/
def Within (emin : Int) (F : Fmt) (Q : Prop) (v : FVal) (V : ℚ) (B : Bound) : Prop :=
  |V| ≤ B.size ∧ 0 ≤ B.err ∧ (v.isFinite = true → Mult emin v.val ∧ |v.val - V| ≤ B.err) ∧
  (Q → B.peak ≤ F.top → v.isFinite = true)

/-- Three elements that are out of range, or a computed number, the exact one and its bounds. -/
def B3 (emin : Int) (F : Fmt) (Q : Prop) (a : Res FVal) (b : Res ℚ) (c : Res Bound) : Prop :=
  (a = .ub ∧ b = .ub ∧ c = .ub) ∨ ∃ v V B, a = .ok v ∧ b = .ok V ∧ c = .ok B ∧ Within emin F Q v V B

theorem B3.ub : B3 emin F Q .ub .ub .ub := .inl ⟨rfl, rfl, rfl⟩

theorem B3.map {f : FVal → Res FVal} {g : ℚ → Res ℚ} {h : Bound → Res Bound}
    (hf : ∀ v V B, Within emin F Q v V B → B3 emin F Q (f v) (g V) (h B)) (a : Res FVal) (b : Res ℚ) (c : Res Bound)
    (hE : B3 emin F Q a b c) : B3 emin F Q (a >>= f) (b >>= g) (c >>= h) := by
  rcases hE with ⟨rfl, rfl, rfl⟩ | ⟨v, V, M, rfl, rfl, rfl, h4⟩
  · exact .ub
  · exact hf v V M h4

theorem B3.bin {f : FVal → FVal → Res FVal} {g : ℚ → ℚ → Res ℚ} {h : Bound → Bound → Res Bound}
    (hf : ∀ v V B v' V' B', Within emin F Q v V B → Within emin F Q v' V' B' → B3 emin F Q (f v v') (g V V') (h B B'))
    (a : Res FVal) (b : Res ℚ) (c : Res Bound) (a' : Res FVal) (b' : Res ℚ) (c' : Res Bound)
    (hE : B3 emin F Q a b c) (hE' : B3 emin F Q a' b' c') :
    B3 emin F Q (do let x ← a; let y ← a'; f x y) (do let x ← b; let y ← b'; g x y) (do let x ← c; let y ← c'; h x y) := by
  rcases hE with ⟨rfl, rfl, rfl⟩ | ⟨v, V, M, rfl, rfl, rfl, h4⟩
  · exact .ub
  · rcases hE' with ⟨rfl, rfl, rfl⟩ | ⟨v', V', M', rfl, rfl, rfl, h4'⟩
    · exact .ub
    · exact hf _ _ _ _ _ _ h4 h4'

/-- One rounded operation with the exact result `x` of its operands, which are finite if `P`. -/
theorem Within.round (hF : IsFmt p emin F) {w : FVal} {P : Prop} {x X S E K η : ℚ} (hη : 0 ≤ η) (hX : |X| ≤ S) (hE : 0 ≤ E)
    (hw : w.isFinite = true → P ∧ w.val = F.rn x) (hP : P → |x - X| ≤ E ∧ |F.rn x - x| ≤ unit p * |x| + η)
    (hb : Q → P → |F.rn x| ≤ F.top → w.isFinite = true) (hK : Q → K ≤ F.top → P) :
    Within emin F Q w X (Bound.rounded p η S E K) := by
  have hu : 0 ≤ unit p := (inv_pos.2 (by positivity)).le
  have hS : 0 ≤ S := (abs_nonneg X).trans hX
  have key : P → |F.rn x - X| ≤ E + unit p * (S + E) + η := by
    intro h
    obtain ⟨h1, h2⟩ := hP h
    have h3 : |x| ≤ S + E := by
      have := abs_add_le (x - X) X
      rw [sub_add_cancel] at this
      linarith
    have h4 := abs_add_le (F.rn x - x) (x - X)
    rw [sub_add_sub_cancel] at h4
    have h5 := mul_le_mul_of_nonneg_left h3 hu
    linarith
  refine ⟨hX, ?_, fun h => ?_, fun hQ h => ?_⟩
  · show 0 ≤ E + unit p * (S + E) + η
    have := mul_nonneg hu (add_nonneg hS hE)
    linarith
  · obtain ⟨h1, h2⟩ := hw h
    rw [h2]
    exact ⟨rep_mult (hF.near.rep x), key h1⟩
  · obtain ⟨h1, h2⟩ := max_le_iff.1 h
    have h3 := hK hQ h1
    refine hb hQ h3 ?_
    have h4 := abs_add_le (F.rn x - X) X
    rw [sub_add_cancel] at h4
    have := key h3
    linarith

theorem Within.neg {v : FVal} {V : ℚ} {B : Bound} (h : Within emin F Q v V B) : Within emin F Q (FVal.neg v) (-V) B := by
  obtain ⟨h1, h2, h3, h4⟩ := h
  refine ⟨by rwa [abs_neg], h2, fun hf => ?_, fun hQ hB => by rw [neg_finite]; exact h4 hQ hB⟩
  rw [neg_finite] at hf
  rw [val_neg, show -v.val - -V = -(v.val - V) by ring, abs_neg]
  exact ⟨(h3 hf).1.neg, (h3 hf).2⟩

theorem Within.abs {v : FVal} {V : ℚ} {B : Bound} (h : Within emin F Q v V B) : Within emin F Q (absV v) |V| B := by
  obtain ⟨h1, h2, h3, h4⟩ := h
  refine ⟨by rwa [abs_abs], h2, fun hf => ?_, fun hQ hB => by rw [absV_finite]; exact h4 hQ hB⟩
  rw [absV_finite] at hf
  rw [val_absV]
  refine ⟨?_, (abs_abs_sub_abs_le _ _).trans (h3 hf).2⟩
  rcases abs_choice v.val with e | e <;> rw [e]
  · exact (h3 hf).1
  · exact (h3 hf).1.neg

theorem Within.add (hp : 1 ≤ p) (hF : IsFmt p emin F) {v v' : FVal} {V V' : ℚ} {B B' : Bound} (h : Within emin F Q v V B)
    (h' : Within emin F Q v' V' B') : Within emin F Q (FVal.add F v v') (V + V') (Bound.add p B B') := by
  obtain ⟨h1, h2, h3, h4⟩ := h
  obtain ⟨k1, k2, k3, k4⟩ := h'
  refine Within.round hF (P := v.isFinite = true ∧ v'.isFinite = true) (x := v.val + v'.val) le_rfl
    ((abs_add_le _ _).trans (add_le_add h1 k1)) (add_nonneg h2 k2) (fun hf => ⟨add_finite hf, val_add hF hf⟩) ?_
    (fun _ hP hb => add_back hF hP.1 hP.2 hb)
    (fun hQ hK => ⟨h4 hQ ((le_max_left _ _).trans hK), k4 hQ ((le_max_right _ _).trans hK)⟩)
  rintro ⟨f1, f2⟩
  constructor
  · rw [show v.val + v'.val - (V + V') = (v.val - V) + (v'.val - V') by ring]
    exact (abs_add_le _ _).trans (add_le_add (h3 f1).2 (k3 f2).2)
  · rw [abs_sub_comm, add_zero]
    exact rel_err hp hF.near ((h3 f1).1.add (k3 f2).1)

theorem Within.sub (hp : 1 ≤ p) (hF : IsFmt p emin F) {v v' : FVal} {V V' : ℚ} {B B' : Bound} (h : Within emin F Q v V B)
    (h' : Within emin F Q v' V' B') : Within emin F Q (FVal.sub F v v') (V - V') (Bound.add p B B') := by
  rw [sub_eq_add_neg]
  exact h.add hp hF h'.neg

theorem Within.mul (hp : 1 ≤ p) (hF : IsFmt p emin F) {v v' : FVal} {V V' : ℚ} {B B' : Bound} (h : Within emin F Q v V B)
    (h' : Within emin F Q v' V' B') : Within emin F Q (FVal.mul F v v') (V * V') (Bound.mul p emin B B') := by
  obtain ⟨h1, h2, h3, h4⟩ := h
  obtain ⟨k1, k2, k3, k4⟩ := h'
  have s1 := (abs_nonneg V).trans h1
  have s2 := (abs_nonneg V').trans k1
  refine Within.round hF (P := v.isFinite = true ∧ v'.isFinite = true) (x := v.val * v'.val) (by positivity)
    (by rw [abs_mul]; exact mul_le_mul h1 k1 (abs_nonneg _) s1) (by positivity)
    (fun hf => ⟨mul_finite hf, val_mul hF hf⟩) ?_
    (fun _ hP hb => mul_back hF hP.1 hP.2 hb)
    (fun hQ hK => ⟨h4 hQ ((le_max_left _ _).trans hK), k4 hQ ((le_max_right _ _).trans hK)⟩)
  rintro ⟨f1, f2⟩
  refine ⟨?_, under_abs hp hF.near _⟩
  rw [show v.val * v'.val - V * V' = (v.val - V) * V' + V * (v'.val - V') + (v.val - V) * (v'.val - V') by ring]
  refine (abs_add_le _ _).trans (add_le_add ((abs_add_le _ _).trans (add_le_add ?_ ?_)) ?_)
  · rw [abs_mul]; exact mul_le_mul (h3 f1).2 k1 (abs_nonneg _) h2
  · rw [abs_mul]; exact mul_le_mul h1 (k3 f2).2 (abs_nonneg _) s1
  · rw [abs_mul]; exact mul_le_mul (h3 f1).2 (k3 f2).2 (abs_nonneg _) h2

theorem literal_val (c : ℚ) : (literal c).val = c := by
  unfold literal
  rcases lt_or_ge c 0 with h | h
  · rw [show decide (c < 0) = true from decide_eq_true h, abs_of_neg h]; simp [val]
  · rw [show decide (c < 0) = false from decide_eq_false (not_lt.2 h), abs_of_nonneg h]; rfl

theorem Within.literal {c : ℚ} (hc : Rep p emin c) : Within emin F Q (literal c) c (Bound.exact c) := by
  refine ⟨le_rfl, le_rfl, fun _ => ?_, fun _ _ => rfl⟩
  rw [literal_val, sub_self, abs_zero]
  exact ⟨rep_mult hc, le_rfl⟩

theorem Within.div (hp : 1 ≤ p) (hF : IsFmt p emin F) {v : FVal} {V : ℚ} {B : Bound} (h : Within emin F Q v V B) {c : ℚ}
    (hc : Q → c ≠ 0) : Within emin F Q (FVal.div F v (Spec.literal c)) (V / c) (Bound.div p emin B (Bound.exact c)) := by
  obtain ⟨h1, h2, h3, h4⟩ := h
  have hl : (Spec.literal c).isFinite = true := rfl
  refine Within.round hF (P := v.isFinite = true) (x := v.val / c) (by positivity)
    (by rw [abs_div]; exact div_le_div_of_nonneg_right h1 (abs_nonneg c)) (div_nonneg h2 (abs_nonneg c))
    (fun hf => ⟨div_fin_finite hf hl, by rw [val_div hF hf hl, literal_val]⟩) ?_
    (fun hQ hP hb => div_back hF hP hl (by rw [literal_val]; exact hc hQ) (by rwa [literal_val]))
    (fun hQ hK => h4 hQ ((le_max_left _ _).trans hK))
  intro f
  refine ⟨?_, under_abs hp hF.near _⟩
  rw [← sub_div, abs_div]
  exact div_le_div_of_nonneg_right (h3 f).2 (abs_nonneg c)

theorem bop_rel (hp : 1 ≤ p) (hF : IsFmt p emin F) (o : FOp) {v v' : FVal} {V V' : ℚ} {B B' : Bound}
    (h : Within emin F Q v V B) (h' : Within emin F Q v' V' B') :
    B3 emin F Q (o.run F.scalar v v') (o.run (rounded id pow sqrt) V V') (o.run (Bound.scalar p emin) B B') := by
  cases o with
  | add => exact .inr ⟨_, _, _, rfl, rfl, rfl, h.add hp hF h'⟩
  | sub => exact .inr ⟨_, _, _, rfl, rfl, rfl, h.sub hp hF h'⟩
  | mul => exact .inr ⟨_, _, _, rfl, rfl, rfl, h.mul hp hF h'⟩

/-! ### Leaves -/

theorem cells_each {α β γ : Type} (s : Store α) (f : α → β) (g : α → γ) {d : Dim} (l : Lv d) :
    SemR L3 (l.cells s) (l.cells (Store.each f s)) (l.cells (Store.each g s)) := by
  have h0 : L3 .ub .ub .ub := ⟨rfl, rfl, by simp⟩
  induction l with
  | arr1 id =>
    show LR L3 ((List.range (s.a1 id).length).map _) ((List.range ((s.a1 id).map _).length).map _)
      ((List.range ((s.a1 id).map _).length).map _)
    rw [List.length_map, List.length_map]
    exact LR.map h0 _ fun i => ⟨rfl, rfl, by simp⟩
  | arr2 id => exact ⟨⟨rfl, rfl⟩, ⟨rfl, rfl⟩, fun i j => ⟨rfl, rfl, fun k h => by cases h⟩⟩
  | view v l ih => exact SemR.sel h0 v ih

/-- The elements are values of the format, and finite if `Q`. -/
def Inputs (p : Nat) (emin : Int) (F : Fmt) (Q : Prop) (l : List FVal) : Prop :=
  ∀ x ∈ l, Held p emin F x ∧ (Q → x.isFinite = true)

theorem held_mult {x : FVal} (h : Held p emin F x) : Mult emin x.val := by
  rcases x with _ | s | ⟨s, m⟩
  · exact Mult.zero _
  · exact Mult.zero _
  · cases s
    · exact rep_mult h.2.2
    · exact (rep_mult h.2.2).neg

theorem rd_each {l : List FVal} (h : Inputs p emin F Q l) (k : Nat) :
    B3 emin F Q (rd l k) (rd (l.map FVal.val) k) (rd (l.map fun x => Bound.exact x.val) k) := by
  by_cases hk : k < l.length
  · rw [rd_nat hk, rd_nat (by simpa using hk), rd_nat (by simpa using hk)]
    refine .inr ⟨_, _, _, rfl, by rw [List.getElem_map], by rw [List.getElem_map], le_rfl, le_rfl, fun _ => ?_,
      fun hQ _ => (h _ (List.getElem_mem hk)).2 hQ⟩
    rw [sub_self, abs_zero]
    exact ⟨held_mult (h _ (List.getElem_mem hk)).1, le_rfl⟩
  · have e : ∀ {α : Type} (l : List α), ¬ k < l.length → rd l k = .ub := by
      intro α l hl
      unfold rd
      simp [not_lt.1 hl]
    rw [e _ hk, e _ (by simpa using hk), e _ (by simpa using hk)]
    exact .ub

theorem lv_each {s : Store FVal} (h1 : ∀ id, Inputs p emin F Q (s.a1 id)) (h2 : ∀ id, Inputs p emin F Q (s.a2 id).data)
    {d : Dim} (l : Lv d) :
    SemR (B3 emin F Q) ((l.cells s).map s.read) ((l.cells (numbersOf s)).map (numbersOf s).read)
      ((l.cells (inputs s)).map (inputs s).read) := by
  refine SemR.map .ub (cells_each s _ _ l) ?_
  rintro a b c ⟨rfl, rfl, h⟩
  rcases a with c | k | _
  · cases c with
    | one id k => exact rd_each (h1 id) _
    | two id k => exact rd_each (h2 id) _
  · exact absurd rfl (h k)
  · exact .ub

/-! ### Inner products -/

theorem binner_rel (hp : 1 ≤ p) (hF : IsFmt p emin F) {x x' : List (Res FVal)} {y y' : List (Res ℚ)}
    {z z' : List (Res Bound)} (h : LR (B3 emin F Q) x y z) (h' : LR (B3 emin F Q) x' y' z') :
    B3 emin F Q (inner F.scalar.toArith x x') (inner (rounded id pow sqrt).toArith y y')
      (inner (Bound.scalar p emin).toArith z z') := by
  have key : ∀ (n : Nat) (x : List (Res FVal)) (y : List (Res ℚ)) (z : List (Res Bound)) (x' : List (Res FVal))
      (y' : List (Res ℚ)) (z' : List (Res Bound)) (a : Res FVal) (b : Res ℚ) (c : Res Bound), x.length = n →
      LR (B3 emin F Q) x y z → LR (B3 emin F Q) x' y' z' → B3 emin F Q a b c →
      B3 emin F Q
        ((List.zip x x').foldl (fun acc p => do
          let a ← acc; let u ← p.1; let v ← p.2; let q ← F.scalar.mul u v; F.scalar.add a q) a)
        ((List.zip y y').foldl (fun acc p => do
          let a ← acc; let u ← p.1; let v ← p.2; let q ← (rounded id pow sqrt).mul u v;
          (rounded id pow sqrt).add a q) b)
        ((List.zip z z').foldl (fun acc q => do
          let a ← acc; let u ← q.1; let v ← q.2; let q ← (Bound.scalar p emin).mul u v;
          (Bound.scalar p emin).add a q) c) := by
    intro n
    induction n with
    | zero =>
      intro x y z x' y' z' a b c hn h h' hE
      obtain ⟨e1, e2, -⟩ := h
      rw [hn] at e1 e2
      rw [List.length_eq_zero_iff.1 hn, List.length_eq_zero_iff.1 e1.symm, List.length_eq_zero_iff.1 e2.symm]
      exact hE
    | succ n ih =>
      intro x y z x' y' z' a b c hn h h' hE
      match x, y, z, x', y', z', hn, h, h' with
      | x :: xs, y :: ys, z :: zs, x' :: xs', y' :: ys', z' :: zs', hn, h, h' =>
        rw [List.zip_cons_cons, List.zip_cons_cons, List.zip_cons_cons, List.foldl_cons, List.foldl_cons,
          List.foldl_cons]
        refine ih xs ys zs xs' ys' zs' _ _ _ (by simpa using hn)
          ⟨by simpa using h.1, by simpa using h.2.1, fun i => by simpa using h.2.2 (i + 1)⟩
          ⟨by simpa using h'.1, by simpa using h'.2.1, fun i => by simpa using h'.2.2 (i + 1)⟩ ?_
        have g1 : B3 emin F Q x y z := by simpa using h.2.2 0
        have g2 : B3 emin F Q x' y' z' := by simpa using h'.2.2 0
        rcases hE with ⟨rfl, rfl, rfl⟩ | ⟨v, V, M, rfl, rfl, rfl, h4⟩
        · exact .ub
        rcases g1 with ⟨rfl, rfl, rfl⟩ | ⟨v1, V1, M1, rfl, rfl, rfl, h5⟩
        · exact .ub
        rcases g2 with ⟨rfl, rfl, rfl⟩ | ⟨v2, V2, M2, rfl, rfl, rfl, h6⟩
        · exact .ub
        exact .inr ⟨_, _, _, rfl, rfl, rfl, h4.add hp hF (h5.mul hp hF h6)⟩
      | x :: xs, y :: ys, z :: zs, [], [], [], hn, h, h' =>
        simp only [List.zip_nil_right, List.foldl_nil]
        exact hE
      | x :: xs, [], _, _, _, _, hn, h, _ => exact absurd h.1 (by simp)
      | x :: xs, _, [], _, _, _, hn, h, _ => exact absurd h.2.1 (by simp)
      | _, _, _, [], _ :: _, _, hn, _, h' => exact absurd h'.1 (by simp)
      | _, _, _, [], _, _ :: _, hn, _, h' => exact absurd h'.2.1 (by simp)
      | _, _, _, _ :: _, [], _, hn, _, h' => exact absurd h'.1 (by simp)
      | _, _, _, _ :: _, _, [], hn, _, h' => exact absurd h'.2.1 (by simp)
  refine key x.length x y z x' y' z' _ _ _ rfl h h' (.inr ⟨.fin false 0, 0, Bound.exact 0, rfl, rfl, rfl, ?_⟩)
  refine ⟨le_rfl, le_rfl, fun _ => ⟨Mult.zero _, ?_⟩, fun _ _ => rfl⟩
  simp [val, Bound.exact]

/-! ### Expressions -/

theorem bound_rel (hp : 1 ≤ p) (hF : IsFmt p emin F) {s : Store FVal} (h1 : ∀ id, Inputs p emin F Q (s.a1 id))
    (h2 : ∀ id, Inputs p emin F Q (s.a2 id).data) {d : Dim} (e : FTm d) (hl : e.Literals (Rep p emin))
    (hd : Q → e.Divides) :
    SemR (B3 emin F Q) ((e.text F.scalar literal).meaning s) ((e.text (rounded id pow sqrt) id).meaning (numbersOf s))
      ((e.text (Bound.scalar p emin) Bound.exact).meaning (inputs s)) := by
  have cst : ∀ c : ℚ, Rep p emin c → B3 emin F Q (.ok (literal c)) (.ok c) (.ok (Bound.exact c)) := fun c hc =>
    .inr ⟨_, _, _, rfl, rfl, rfl, Within.literal hc⟩
  induction e with
  | lv l => exact lv_each h1 h2 l
  | view v e ih => exact SemR.sel .ub v (ih hl hd)
  | neg e ih =>
    exact SemR.map .ub (ih hl hd) (B3.map fun v V B h => .inr ⟨_, _, _, rfl, rfl, rfl, h.neg⟩)
  | abs e ih =>
    exact SemR.map .ub (ih hl hd) (B3.map fun v V B h => .inr ⟨_, _, _, abss_ieee v, abss_rounded V, rfl, h.abs⟩)
  | bin o e1 e2 ih1 ih2 =>
    exact SemR.zip .ub (ih1 hl.1 fun h => (hd h).1) (ih2 hl.2 fun h => (hd h).2)
      (B3.bin fun v V M v' V' M' h h' => bop_rel hp hF o h h')
  | left o c e ih =>
    exact SemR.map .ub (ih hl.2 hd) (B3.map fun v V M h => bop_rel hp hF o (Within.literal hl.1) h)
  | right o e c ih =>
    exact SemR.map .ub (ih hl.2 hd) (B3.map fun v V M h => bop_rel hp hF o h (Within.literal hl.1))
  | divided e c ih =>
    exact SemR.map .ub (ih hl.2 fun h => (hd h).2) (B3.map fun v V M h =>
      .inr ⟨_, _, _, rfl, rfl, rfl, h.div hp hF fun h => (hd h).1⟩)
  | const1D n c =>
    show LR _ (List.replicate n.toNat (Res.ok (literal c))) (List.replicate n.toNat (Res.ok c))
      (List.replicate n.toNat (Res.ok (Bound.exact c)))
    have e : ∀ {α : Type} (c : α), List.replicate n.toNat (Res.ok c) = (List.range n.toNat).map fun _ => Res.ok c := by
      intro α c
      rw [List.map_const', List.length_range]
    rw [e, e, e]
    exact LR.map .ub _ fun _ => cst c hl
  | const2D m n c => exact ⟨⟨rfl, rfl⟩, ⟨rfl, rfl⟩, fun _ _ => cst c hl⟩
  | merge e1 e2 ih1 ih2 => exact LR.append (ih1 hl.1 fun h => (hd h).1) (ih2 hl.2 fun h => (hd h).2)
  | append e c ih => exact LR.append (ih hl.2 hd) (LR.single .ub (cst c hl.1))
  | prepend c e ih => exact LR.append (LR.single .ub (cst c hl.1)) (ih hl.2 hd)
  | exclude e pos count ih => exact LR.append (LR.take .ub (ih hl hd) _) (LR.drop (ih hl hd) _)
  | excludeLast e k ih => exact LR.dropLast .ub (ih hl hd)
  | matvec e x ih1 ih2 =>
    have h : MR _ _ _ _ := ih1 hl.1 fun h => (hd h).1
    have h' : LR _ _ _ _ := ih2 hl.2 fun h => (hd h).2
    show LR _ ((List.range (Mat.m ((e.text _ _).meaning s))).map _)
      ((List.range (Mat.m ((e.text _ _).meaning (numbersOf s)))).map _)
      ((List.range (Mat.m ((e.text _ _).meaning (inputs s)))).map _)
    rw [← h.1.1, ← h.1.2]
    exact LR.map .ub _ fun i => binner_rel hp hF (h.row .ub i) h'
  | bcast r e ih =>
    have h : LR _ _ _ _ := ih hl hd
    cases r
    · exact ⟨⟨h.1, h.2.1⟩, ⟨h.1, h.2.1⟩, fun i j => h.2.2 i⟩
    · exact ⟨⟨h.1, h.2.1⟩, ⟨h.1, h.2.1⟩, fun i j => h.2.2 j⟩
  | tensor e1 e2 ih1 ih2 =>
    have h : LR _ _ _ _ := ih1 hl.1 fun h => (hd h).1
    have h' : LR _ _ _ _ := ih2 hl.2 fun h => (hd h).2
    exact ⟨⟨h.1, h.2.1⟩, ⟨h'.1, h'.2.1⟩, fun i j =>
      B3.bin (fun v V M v' V' M' h h' => bop_rel hp hF .mul h h') _ _ _ _ _ _ (h.2.2 i) (h'.2.2 j)⟩
  | transpose e ih =>
    have h : MR _ _ _ _ := ih hl hd
    exact ⟨h.2.1, h.1, fun i j => h.2.2 j i⟩
  | mergeH e1 e2 ih1 ih2 =>
    have h : MR _ _ _ _ := ih1 hl.1 fun h => (hd h).1
    have h' : MR _ _ _ _ := ih2 hl.2 fun h => (hd h).2
    show MR _ (Mat.beside _ _) (Mat.beside _ _) (Mat.beside _ _)
    unfold Mat.beside
    rw [← h.1.1, ← h.1.2, ← h'.1.1, ← h'.1.2, ← h.2.1.1, ← h.2.1.2, ← h'.2.1.1, ← h'.2.1.2]
    refine ⟨⟨rfl, rfl⟩, ⟨rfl, rfl⟩, fun i j => ?_⟩
    dsimp only
    split
    · exact h.2.2 _ _
    · exact h'.2.2 _ _
  | mergeV e1 e2 ih1 ih2 =>
    have h : MR _ _ _ _ := ih1 hl.1 fun h => (hd h).1
    have h' : MR _ _ _ _ := ih2 hl.2 fun h => (hd h).2
    show MR _ (Mat.above _ _) (Mat.above _ _) (Mat.above _ _)
    unfold Mat.above
    rw [← h.1.1, ← h.1.2, ← h'.1.1, ← h'.1.2, ← h.2.1.1, ← h.2.1.2, ← h'.2.1.1, ← h'.2.1.2]
    refine ⟨⟨rfl, rfl⟩, ⟨rfl, rfl⟩, fun i j => ?_⟩
    dsimp only
    split
    · exact h.2.2 _ _
    · exact h'.2.2 _ _

end Spp.Lemmas
