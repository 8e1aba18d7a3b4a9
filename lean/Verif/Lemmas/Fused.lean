import Verif.Spec.Fused
import Verif.Lemmas.FBound

/- Formulas of elements, what they evaluate to in three arithmetics, and what may be computed for them. -/

namespace Spp.Lemmas

open Spec FVal Props

variable {p : Nat} {emin : Int} {F : Fmt} {Q : Prop} {pow : ℚ → ℚ → ℚ} {sqrt : ℚ → ℚ}

/-! ### One formula -/

/-- The value without contraction. -/
def plain (F : Fmt) : Formula → FVal
  | .elem x => x
  | .num c => literal c
  | .neg a => FVal.neg (plain F a)
  | .abs a => absV (plain F a)
  | .add a b => FVal.add F (plain F a) (plain F b)
  | .sub a b => FVal.sub F (plain F a) (plain F b)
  | .mul a b => FVal.mul F (plain F a) (plain F b)
  | .div a c => FVal.div F (plain F a) (literal c)

/-- The exact value. -/
def exactly : Formula → ℚ
  | .elem x => x.val
  | .num c => c
  | .neg a => -exactly a
  | .abs a => |exactly a|
  | .add a b => exactly a + exactly b
  | .sub a b => exactly a - exactly b
  | .mul a b => exactly a * exactly b
  | .div a c => exactly a / c

/-- The bounds. -/
def bounds (p : Nat) (emin : Int) : Formula → Bound
  | .elem x => Bound.exact x.val
  | .num c => Bound.exact c
  | .neg a => bounds p emin a
  | .abs a => bounds p emin a
  | .add a b => Bound.add p (bounds p emin a) (bounds p emin b)
  | .sub a b => Bound.add p (bounds p emin a) (bounds p emin b)
  | .mul a b => Bound.mul p emin (bounds p emin a) (bounds p emin b)
  | .div a c => Bound.div p emin (bounds p emin a) (Bound.exact c)

/-- Elements and numbers of the format; finite elements and no zero divisors if `Q`. -/
def Good (p : Nat) (emin : Int) (F : Fmt) (Q : Prop) : Formula → Prop
  | .elem x => Held p emin F x ∧ (Q → x.isFinite = true)
  | .num c => Rep p emin c
  | .neg a => Good p emin F Q a
  | .abs a => Good p emin F Q a
  | .add a b => Good p emin F Q a ∧ Good p emin F Q b
  | .sub a b => Good p emin F Q a ∧ Good p emin F Q b
  | .mul a b => Good p emin F Q a ∧ Good p emin F Q b
  | .div a c => Good p emin F Q a ∧ (Q → c ≠ 0)

theorem computes_plain (t : Formula) : t.Computes F (plain F t) := by
  induction t with
  | elem x => simp [Formula.Computes, plain]
  | num c => simp [Formula.Computes, plain]
  | neg a ih => rw [Formula.Computes]; exact ⟨_, ih, rfl⟩
  | abs a ih => rw [Formula.Computes]; exact ⟨_, ih, abss_ieee _⟩
  | add a b ih1 ih2 => rw [Formula.Computes]; exact .inl ⟨_, _, ih1, ih2, rfl⟩
  | sub a b ih1 ih2 => rw [Formula.Computes]; exact .inl ⟨_, _, ih1, ih2, rfl⟩
  | mul a b ih1 ih2 => rw [Formula.Computes]; exact ⟨_, _, ih1, ih2, rfl⟩
  | div a c ih => rw [Formula.Computes]; exact ⟨_, ih, rfl⟩

/-- The factors of a product, the exact product and the bounds of the rounded product. -/
def ProdWithin (p : Nat) (emin : Int) (F : Fmt) (Q : Prop) (x y : FVal) (V : ℚ) (B : Bound) : Prop :=
  ∃ S E K, B = Bound.rounded p (2 ^ emin / 2) S E K ∧ |V| ≤ S ∧ 0 ≤ E ∧
    (x.isFinite = true → y.isFinite = true → |x.val * y.val - V| ≤ E) ∧
    (Q → K ≤ F.top → x.isFinite = true ∧ y.isFinite = true)

theorem ProdWithin.neg {x y : FVal} {V : ℚ} {B : Bound} (h : ProdWithin p emin F Q x y V B) :
    ProdWithin p emin F Q (FVal.neg x) y (-V) B := by
  obtain ⟨S, E, K, h1, h2, h3, h4, h5⟩ := h
  refine ⟨S, E, K, h1, by rwa [abs_neg], h3, fun hx hy => ?_, fun hQ hK => by rw [neg_finite]; exact h5 hQ hK⟩
  rw [neg_finite] at hx
  rw [val_neg, show -x.val * y.val - -V = -(x.val * y.val - V) by ring, abs_neg]
  exact h4 hx hy

theorem Within.product {v v' : FVal} {V V' : ℚ} {B B' : Bound} (h : Within emin F Q v V B)
    (h' : Within emin F Q v' V' B') : ProdWithin p emin F Q v v' (V * V') (Bound.mul p emin B B') := by
  obtain ⟨h1, h2, h3, h4⟩ := h
  obtain ⟨k1, k2, k3, k4⟩ := h'
  have s1 := (abs_nonneg V).trans h1
  have s2 := (abs_nonneg V').trans k1
  refine ⟨_, _, _, rfl, by rw [abs_mul]; exact mul_le_mul h1 k1 (abs_nonneg _) s1, by positivity, fun f1 f2 => ?_,
    fun hQ hK => ⟨h4 hQ ((le_max_left _ _).trans hK), k4 hQ ((le_max_right _ _).trans hK)⟩⟩
  rw [show v.val * v'.val - V * V' = (v.val - V) * V' + V * (v'.val - V') + (v.val - V) * (v'.val - V') by ring]
  refine (abs_add_le _ _).trans (add_le_add ((abs_add_le _ _).trans (add_le_add ?_ ?_)) ?_)
  · rw [abs_mul]; exact mul_le_mul (h3 f1).2 k1 (abs_nonneg _) h2
  · rw [abs_mul]; exact mul_le_mul h1 (k3 f2).2 (abs_nonneg _) s1
  · rw [abs_mul]; exact mul_le_mul (h3 f1).2 (k3 f2).2 (abs_nonneg _) h2

theorem exactMul_back {x y : FVal} (hx : x.isFinite = true) (hy : y.isFinite = true) :
    (exactMul x y).isFinite = true := by
  rcases x with _ | s | ⟨s, m⟩
  · simp [isFinite] at hx
  · simp [isFinite] at hx
  rcases y with _ | t | ⟨t, n⟩
  · simp [isFinite] at hy
  · simp [isFinite] at hy
  rfl

theorem fma_back (hF : IsFmt p emin F) {x y z : FVal} (hx : x.isFinite = true) (hy : y.isFinite = true)
    (hz : z.isFinite = true) (h : |F.rn (x.val * y.val + z.val)| ≤ F.top) : (fma F x y z).isFinite = true := by
  have h1 := exactMul_back hx hy
  refine add_back hF h1 hz ?_
  rwa [val_exactMul h1]

/-- One rounding fewer keeps the bounds. -/
theorem ProdWithin.fused (hp : 1 ≤ p) (hF : IsFmt p emin F) {x y z : FVal} {V V' : ℚ} {B B' : Bound}
    (h : ProdWithin p emin F Q x y V B) (h' : Within emin F Q z V' B') :
    Within emin F Q (fma F x y z) (V + V') (Bound.add p B B') := by
  obtain ⟨S, E, K, rfl, h2, h3, h4, h5⟩ := h
  obtain ⟨k1, k2, k3, k4⟩ := h'
  have hu : 0 ≤ unit p := (inv_pos.2 (by positivity)).le
  have hη : (0 : ℚ) ≤ 2 ^ emin / 2 := by positivity
  have hS : 0 ≤ S := (abs_nonneg V).trans h2
  have hS' : 0 ≤ B'.size := (abs_nonneg V').trans k1
  have hE := mul_nonneg hu (add_nonneg hS h3)
  let e := E + unit p * (S + E) + 2 ^ emin / 2
  have he : E + 2 ^ emin / 2 ≤ e := by show _ ≤ E + unit p * (S + E) + 2 ^ emin / 2; linarith
  have hV : |V + V'| ≤ S + B'.size := (abs_add_le _ _).trans (add_le_add h2 k1)
  have key : x.isFinite = true ∧ y.isFinite = true ∧ z.isFinite = true →
      |F.rn (x.val * y.val + z.val) - (V + V')| ≤ e + B'.err + unit p * (S + B'.size + (e + B'.err)) + 0 := by
    rintro ⟨f1, f2, f3⟩
    have g1 := h4 f1 f2
    have g2 := (k3 f3).2
    have g3 : |x.val * y.val + z.val - (V + V')| ≤ E + B'.err := by
      rw [show x.val * y.val + z.val - (V + V') = (x.val * y.val - V) + (z.val - V') by ring]
      exact (abs_add_le _ _).trans (add_le_add g1 g2)
    have g4 : |x.val * y.val + z.val| ≤ S + B'.size + (e + B'.err) := by
      have := abs_add_le (x.val * y.val + z.val - (V + V')) (V + V')
      rw [sub_add_cancel] at this
      linarith
    have g5 := under_abs hp hF.near (x.val * y.val + z.val)
    have g6 := abs_add_le (F.rn (x.val * y.val + z.val) - (x.val * y.val + z.val)) (x.val * y.val + z.val - (V + V'))
    rw [sub_add_sub_cancel] at g6
    have g7 := mul_le_mul_of_nonneg_left g4 hu
    linarith
  refine ⟨hV, ?_, fun hf => ?_, fun hQ hK => ?_⟩
  · show 0 ≤ e + B'.err + unit p * (S + B'.size + (e + B'.err)) + 0
    have : 0 ≤ e := by linarith
    positivity
  · rw [val_fma hF hf]
    exact ⟨rep_mult (hF.near.rep _), key (fma_finite hf)⟩
  · obtain ⟨m1, m2⟩ := max_le_iff.1 hK
    obtain ⟨m3, m4⟩ := max_le_iff.1 m1
    obtain ⟨f1, f2⟩ := h5 hQ ((le_max_left _ _).trans m3)
    have f3 := k4 hQ m4
    refine fma_back hF f1 f2 f3 ?_
    have g1 := key ⟨f1, f2, f3⟩
    have g2 := abs_add_le (F.rn (x.val * y.val + z.val) - (V + V')) (V + V')
    rw [sub_add_cancel] at g2
    have m5 : S + B'.size + (e + B'.err + unit p * (S + B'.size + (e + B'.err)) + 0) ≤ F.top := m2
    linarith

theorem Bound.add_comm (p : Nat) (B B' : Bound) : Bound.add p B B' = Bound.add p B' B := by
  unfold Bound.add
  rw [_root_.add_comm B.size, _root_.add_comm B.err, max_comm B.peak]

/-- Whatever is computed for a formula is within its bounds. -/
theorem computes_within (hp : 1 ≤ p) (hF : IsFmt p emin F) (t : Formula) (ht : Good p emin F Q t) :
    (∀ v, t.Computes F v → Within emin F Q v (exactly t) (bounds p emin t)) ∧
    ∀ x y, t.Product F x y → ProdWithin p emin F Q x y (exactly t) (bounds p emin t) := by
  induction t with
  | elem x =>
    refine ⟨fun v hv => ?_, fun x y h => by simp [Formula.Product] at h⟩
    rw [Formula.Computes] at hv
    subst hv
    refine ⟨le_rfl, le_rfl, fun _ => ⟨held_mult ht.1, ?_⟩, fun hQ _ => ht.2 hQ⟩
    simp [exactly, bounds, Bound.exact]
  | num c =>
    refine ⟨fun v hv => ?_, fun x y h => by simp [Formula.Product] at h⟩
    rw [Formula.Computes] at hv
    subst hv
    exact Within.literal ht
  | neg a ih =>
    obtain ⟨i1, i2⟩ := ih ht
    refine ⟨fun v hv => ?_, fun x y h => ?_⟩
    · rw [Formula.Computes] at hv
      obtain ⟨x, hx, rfl⟩ := hv
      exact (i1 x hx).neg
    · rw [Formula.Product] at h
      obtain ⟨x', hx, rfl⟩ := h
      exact (i2 x' y hx).neg
  | abs a ih =>
    obtain ⟨i1, i2⟩ := ih ht
    refine ⟨fun v hv => ?_, fun x y h => by simp [Formula.Product] at h⟩
    rw [Formula.Computes] at hv
    obtain ⟨x, hx, h⟩ := hv
    rw [abss_ieee] at h
    cases h
    exact (i1 x hx).abs
  | add a b ih1 ih2 =>
    obtain ⟨i1, i2⟩ := ih1 ht.1
    obtain ⟨j1, j2⟩ := ih2 ht.2
    refine ⟨fun v hv => ?_, fun x y h => by simp [Formula.Product] at h⟩
    rw [Formula.Computes] at hv
    rcases hv with ⟨x, y, hx, hy, rfl⟩ | ⟨x, y, z, hx, hz, rfl⟩ | ⟨x, y, z, hx, hz, rfl⟩
    · exact (i1 x hx).add hp hF (j1 y hy)
    · exact (i2 x y hx).fused hp hF (j1 z hz)
    · have := (j2 x y hx).fused hp hF (i1 z hz)
      rw [add_comm, Bound.add_comm] at this
      exact this
  | sub a b ih1 ih2 =>
    obtain ⟨i1, i2⟩ := ih1 ht.1
    obtain ⟨j1, j2⟩ := ih2 ht.2
    refine ⟨fun v hv => ?_, fun x y h => by simp [Formula.Product] at h⟩
    rw [Formula.Computes] at hv
    rcases hv with ⟨x, y, hx, hy, rfl⟩ | ⟨x, y, z, hx, hz, rfl⟩ | ⟨x, y, z, hx, hz, rfl⟩
    · exact (i1 x hx).sub hp hF (j1 y hy)
    · have := (i2 x y hx).fused hp hF (j1 z hz).neg
      rw [← sub_eq_add_neg] at this
      exact this
    · have := (j2 x y hx).neg.fused hp hF (i1 z hz)
      rw [add_comm, Bound.add_comm, ← sub_eq_add_neg] at this
      exact this
  | mul a b ih1 ih2 =>
    obtain ⟨i1, i2⟩ := ih1 ht.1
    obtain ⟨j1, j2⟩ := ih2 ht.2
    refine ⟨fun v hv => ?_, fun x y h => ?_⟩
    · rw [Formula.Computes] at hv
      obtain ⟨x, y, hx, hy, rfl⟩ := hv
      exact (i1 x hx).mul hp hF (j1 y hy)
    · rw [Formula.Product] at h
      exact (i1 x h.1).product (j1 y h.2)
  | div a c ih =>
    obtain ⟨i1, i2⟩ := ih ht.1
    refine ⟨fun v hv => ?_, fun x y h => by simp [Formula.Product] at h⟩
    rw [Formula.Computes] at hv
    obtain ⟨x, hx, rfl⟩ := hv
    exact (i1 x hx).div hp hF ht.2

/-! ### The formulas of an expression -/

/-- An arithmetic in which formulas are evaluated by `h`. -/
structure Hom {β : Type} (sc : FScalar β) (lit : ℚ → β) (h : Formula → β) : Prop where
  zero : sc.zero = h (.elem (.fin false 0))
  num : ∀ c, h (.num c) = lit c
  neg : ∀ a, sc.neg (h a) = .ok (h (.neg a))
  abs : ∀ a, sc.abss (h a) = .ok (h (.abs a))
  add : ∀ a b, sc.add (h a) (h b) = .ok (h (.add a b))
  sub : ∀ a b, sc.sub (h a) (h b) = .ok (h (.sub a b))
  mul : ∀ a b, sc.mul (h a) (h b) = .ok (h (.mul a b))
  div : ∀ a c, sc.div (h a) (lit c) = .ok (h (.div a c))

theorem plain_hom : Hom F.scalar literal (plain F) :=
  ⟨rfl, fun _ => rfl, fun _ => rfl, fun _ => abss_ieee _, fun _ _ => rfl, fun _ _ => rfl, fun _ _ => rfl, fun _ _ => rfl⟩

theorem exactly_hom : Hom (rounded id pow sqrt) id exactly :=
  ⟨rfl, fun _ => rfl, fun _ => rfl, fun _ => abss_rounded _, fun _ _ => rfl, fun _ _ => rfl, fun _ _ => rfl, fun _ _ => rfl⟩

theorem bounds_hom : Hom (Bound.scalar p emin) Bound.exact (bounds p emin) :=
  ⟨rfl, fun _ => rfl, fun _ => rfl, fun _ => rfl, fun _ _ => rfl, fun _ _ => rfl, fun _ _ => rfl, fun _ _ => rfl⟩

section

variable {β γ : Type} {sc : FScalar β} {lit : ℚ → β} {h : Formula → β} {sc' : FScalar γ} {lit' : ℚ → γ} {h' : Formula → γ}

/-- Three elements that are out of range, or a formula and its values. -/
def H3 (P : Formula → Prop) (h : Formula → β) (h' : Formula → γ) (a : Res Formula) (b : Res β) (c : Res γ) : Prop :=
  (a = .ub ∧ b = .ub ∧ c = .ub) ∨ ∃ t, a = .ok t ∧ b = .ok (h t) ∧ c = .ok (h' t) ∧ P t

variable {P : Formula → Prop}

theorem H3.ub : H3 P h h' .ub .ub .ub := .inl ⟨rfl, rfl, rfl⟩

theorem H3.map {f : Formula → Res Formula} {g : β → Res β} {k : γ → Res γ}
    (hf : ∀ t, P t → H3 P h h' (f t) (g (h t)) (k (h' t))) (a : Res Formula) (b : Res β) (c : Res γ)
    (hE : H3 P h h' a b c) : H3 P h h' (a >>= f) (b >>= g) (c >>= k) := by
  rcases hE with ⟨rfl, rfl, rfl⟩ | ⟨t, rfl, rfl, rfl, h4⟩
  · exact .ub
  · exact hf t h4

theorem H3.bin {f : Formula → Formula → Res Formula} {g : β → β → Res β} {k : γ → γ → Res γ}
    (hf : ∀ t t', P t → P t' → H3 P h h' (f t t') (g (h t) (h t')) (k (h' t) (h' t')))
    (a : Res Formula) (b : Res β) (c : Res γ) (a' : Res Formula) (b' : Res β) (c' : Res γ)
    (hE : H3 P h h' a b c) (hE' : H3 P h h' a' b' c') :
    H3 P h h' (do let x ← a; let y ← a'; f x y) (do let x ← b; let y ← b'; g x y) (do let x ← c; let y ← c'; k x y) := by
  rcases hE with ⟨rfl, rfl, rfl⟩ | ⟨t, rfl, rfl, rfl, h4⟩
  · exact .ub
  · rcases hE' with ⟨rfl, rfl, rfl⟩ | ⟨t', rfl, rfl, rfl, h4'⟩
    · exact .ub
    · exact hf _ _ h4 h4'

theorem hop_rel (H : Hom sc lit h) (H' : Hom sc' lit' h') (o : FOp) {t t' : Formula} (g : Good p emin F Q t)
    (g' : Good p emin F Q t') :
    H3 (Good p emin F Q) h h' (o.formula t t') (o.run sc (h t) (h t')) (o.run sc' (h' t) (h' t')) := by
  cases o with
  | add => exact .inr ⟨_, rfl, H.add _ _, H'.add _ _, g, g'⟩
  | sub => exact .inr ⟨_, rfl, H.sub _ _, H'.sub _ _, g, g'⟩
  | mul => exact .inr ⟨_, rfl, H.mul _ _, H'.mul _ _, g, g'⟩

theorem rd_hom {l : List FVal} (hl : Inputs p emin F Q l) (k : Nat) :
    H3 (Good p emin F Q) h h' (rd (l.map Formula.elem) k) (rd (l.map fun x => h (.elem x)) k)
      (rd (l.map fun x => h' (.elem x)) k) := by
  by_cases hk : k < l.length
  · rw [rd_nat (by simpa using hk), rd_nat (by simpa using hk), rd_nat (by simpa using hk)]
    exact .inr ⟨.elem l[k], by rw [List.getElem_map], by rw [List.getElem_map], by rw [List.getElem_map],
      hl _ (List.getElem_mem hk)⟩
  · have e : ∀ {α : Type} (l : List α), ¬ k < l.length → rd l k = .ub := by
      intro α l hl
      unfold rd
      simp [not_lt.1 hl]
    rw [e _ (by simpa using hk), e _ (by simpa using hk), e _ (by simpa using hk)]
    exact .ub

theorem cells_each3 {α α' β γ : Type} (s : Store α) (k : α → α') (f : α → β) (g : α → γ) {d : Dim} (l : Lv d) :
    SemR L3 (l.cells (Store.each k s)) (l.cells (Store.each f s)) (l.cells (Store.each g s)) := by
  have h0 : L3 .ub .ub .ub := ⟨rfl, rfl, by simp⟩
  induction l with
  | arr1 id =>
    show LR L3 ((List.range ((s.a1 id).map _).length).map _) ((List.range ((s.a1 id).map _).length).map _)
      ((List.range ((s.a1 id).map _).length).map _)
    rw [List.length_map, List.length_map, List.length_map]
    exact LR.map h0 _ fun i => ⟨rfl, rfl, by simp⟩
  | arr2 id => exact ⟨⟨rfl, rfl⟩, ⟨rfl, rfl⟩, fun i j => ⟨rfl, rfl, fun k h => by cases h⟩⟩
  | view v l ih => exact SemR.sel h0 v ih

theorem lv_hom {s : Store FVal} (h1 : ∀ id, Inputs p emin F Q (s.a1 id)) (h2 : ∀ id, Inputs p emin F Q (s.a2 id).data)
    {d : Dim} (l : Lv d) :
    SemR (H3 (Good p emin F Q) h h') ((l.cells (symbols s)).map (symbols s).read)
      ((l.cells (Store.each (fun x => h (.elem x)) s)).map (Store.each (fun x => h (.elem x)) s).read)
      ((l.cells (Store.each (fun x => h' (.elem x)) s)).map (Store.each (fun x => h' (.elem x)) s).read) := by
  refine SemR.map .ub (cells_each3 s _ _ _ l) ?_
  rintro a b c ⟨rfl, rfl, h⟩
  rcases a with c | k | _
  · cases c with
    | one id k => exact rd_hom (h1 id) _
    | two id k => exact rd_hom (h2 id) _
  · exact absurd rfl (h k)
  · exact .ub

theorem hinner_rel (H : Hom sc lit h) (H' : Hom sc' lit' h') {x x' : List (Res Formula)} {y y' : List (Res β)}
    {z z' : List (Res γ)} (hx : LR (H3 (Good p emin F Q) h h') x y z) (hx' : LR (H3 (Good p emin F Q) h h') x' y' z')
    (g0 : Good p emin F Q (.elem (.fin false 0))) :
    H3 (Good p emin F Q) h h' (inner Formula.arith x x') (inner sc.toArith y y') (inner sc'.toArith z z') := by
  have key : ∀ (n : Nat) (x : List (Res Formula)) (y : List (Res β)) (z : List (Res γ)) (x' : List (Res Formula))
      (y' : List (Res β)) (z' : List (Res γ)) (a : Res Formula) (b : Res β) (c : Res γ), x.length = n →
      LR (H3 (Good p emin F Q) h h') x y z → LR (H3 (Good p emin F Q) h h') x' y' z' →
      H3 (Good p emin F Q) h h' a b c →
      H3 (Good p emin F Q) h h'
        ((List.zip x x').foldl (fun acc p => do
          let a ← acc; let u ← p.1; let v ← p.2; let q ← Formula.arith.mul u v; Formula.arith.add a q) a)
        ((List.zip y y').foldl (fun acc p => do
          let a ← acc; let u ← p.1; let v ← p.2; let q ← sc.mul u v; sc.add a q) b)
        ((List.zip z z').foldl (fun acc p => do
          let a ← acc; let u ← p.1; let v ← p.2; let q ← sc'.mul u v; sc'.add a q) c) := by
    intro n
    induction n with
    | zero =>
      intro x y z x' y' z' a b c hn h h' hE
      obtain ⟨e1, e2, -⟩ := h
      rw [hn] at e1 e2
      rw [List.length_eq_zero_iff.1 hn, List.length_eq_zero_iff.1 e1.symm, List.length_eq_zero_iff.1 e2.symm]
      exact hE
    | succ n ih =>
      intro x y z x' y' z' a b c hn k k' hE
      match x, y, z, x', y', z', hn, k, k' with
      | x :: xs, y :: ys, z :: zs, x' :: xs', y' :: ys', z' :: zs', hn, k, k' =>
        rw [List.zip_cons_cons, List.zip_cons_cons, List.zip_cons_cons, List.foldl_cons, List.foldl_cons,
          List.foldl_cons]
        refine ih xs ys zs xs' ys' zs' _ _ _ (by simpa using hn)
          ⟨by simpa using k.1, by simpa using k.2.1, fun i => by simpa using k.2.2 (i + 1)⟩
          ⟨by simpa using k'.1, by simpa using k'.2.1, fun i => by simpa using k'.2.2 (i + 1)⟩ ?_
        have g1 : H3 (Good p emin F Q) h h' x y z := by simpa using k.2.2 0
        have g2 : H3 (Good p emin F Q) h h' x' y' z' := by simpa using k'.2.2 0
        rcases hE with ⟨rfl, rfl, rfl⟩ | ⟨t, rfl, rfl, rfl, h4⟩
        · exact .ub
        rcases g1 with ⟨rfl, rfl, rfl⟩ | ⟨t1, rfl, rfl, rfl, h5⟩
        · exact .ub
        rcases g2 with ⟨rfl, rfl, rfl⟩ | ⟨t2, rfl, rfl, rfl, h6⟩
        · exact .ub
        refine .inr ⟨.add t (.mul t1 t2), rfl, ?_, ?_, h4, h5, h6⟩
        · show (sc.mul (h t1) (h t2) >>= fun q => sc.add (h t) q) = _
          rw [H.mul]; exact H.add _ _
        · show (sc'.mul (h' t1) (h' t2) >>= fun q => sc'.add (h' t) q) = _
          rw [H'.mul]; exact H'.add _ _
      | x :: xs, y :: ys, z :: zs, [], [], [], hn, h, h' =>
        simp only [List.zip_nil_right, List.foldl_nil]
        exact hE
      | x :: xs, [], _, _, _, _, hn, h, _ => exact absurd h.1 (by simp)
      | x :: xs, _, [], _, _, _, hn, h, _ => exact absurd h.2.1 (by simp)
      | _, _, _, [], _ :: _, _, hn, _, h' => exact absurd h'.1 (by simp)
      | _, _, _, [], _, _ :: _, hn, _, h' => exact absurd h'.2.1 (by simp)
      | _, _, _, _ :: _, [], _, hn, _, h' => exact absurd h'.1 (by simp)
      | _, _, _, _ :: _, _, [], hn, _, h' => exact absurd h'.2.1 (by simp)
  exact key x.length x y z x' y' z' _ _ _ rfl hx hx' (.inr ⟨.elem (.fin false 0), rfl, congrArg Res.ok H.zero,
    congrArg Res.ok H'.zero, g0⟩)

theorem hom_rel (H : Hom sc lit h) (H' : Hom sc' lit' h') (g0 : Good p emin F Q (.elem (.fin false 0))) {s : Store FVal}
    (h1 : ∀ id, Inputs p emin F Q (s.a1 id)) (h2 : ∀ id, Inputs p emin F Q (s.a2 id).data) {d : Dim} (e : FTm d)
    (hl : e.Literals (Rep p emin)) (hd : Q → e.Divides) :
    SemR (H3 (Good p emin F Q) h h') (e.formulas.meaning (symbols s))
      ((e.text sc lit).meaning (Store.each (fun x => h (.elem x)) s))
      ((e.text sc' lit').meaning (Store.each (fun x => h' (.elem x)) s)) := by
  have cst : ∀ c : ℚ, Rep p emin c → H3 (Good p emin F Q) h h' (.ok (.num c)) (.ok (lit c)) (.ok (lit' c)) := fun c hc =>
    .inr ⟨.num c, rfl, congrArg Res.ok (H.num c).symm, congrArg Res.ok (H'.num c).symm, hc⟩
  induction e with
  | lv l => exact lv_hom h1 h2 l
  | view v e ih => exact SemR.sel .ub v (ih hl hd)
  | neg e ih => exact SemR.map .ub (ih hl hd) (H3.map fun t g => .inr ⟨_, rfl, H.neg t, H'.neg t, g⟩)
  | abs e ih => exact SemR.map .ub (ih hl hd) (H3.map fun t g => .inr ⟨_, rfl, H.abs t, H'.abs t, g⟩)
  | bin o e1 e2 ih1 ih2 =>
    exact SemR.zip .ub (ih1 hl.1 fun h => (hd h).1) (ih2 hl.2 fun h => (hd h).2)
      (H3.bin fun t t' g g' => hop_rel H H' o g g')
  | left o c e ih =>
    refine SemR.map .ub (ih hl.2 hd) (H3.map fun t g => ?_)
    rw [← H.num c, ← H'.num c]
    exact hop_rel H H' o (t := .num c) hl.1 g
  | right o e c ih =>
    refine SemR.map .ub (ih hl.2 hd) (H3.map fun t g => ?_)
    rw [← H.num c, ← H'.num c]
    exact hop_rel H H' o (t' := .num c) g hl.1
  | divided e c ih =>
    exact SemR.map .ub (ih hl.2 fun h => (hd h).2) (H3.map fun t g =>
      .inr ⟨_, rfl, H.div t c, H'.div t c, g, fun h => (hd h).1⟩)
  | const1D n c =>
    show LR _ (List.replicate n.toNat (Res.ok (Formula.num c))) (List.replicate n.toNat (Res.ok (lit c)))
      (List.replicate n.toNat (Res.ok (lit' c)))
    have e : ∀ {α : Type} (c : α), List.replicate n.toNat (Res.ok c) = (List.range n.toNat).map fun _ => Res.ok c := by
      intro α c
      rw [List.map_const', List.length_range]
    rw [e, e, e]
    exact LR.map .ub _ fun _ => cst c hl
  | const2D m n c => exact ⟨⟨rfl, rfl⟩, ⟨rfl, rfl⟩, fun _ _ => cst c hl⟩
  | merge e1 e2 ih1 ih2 => exact LR.append (ih1 hl.1 fun h => (hd h).1) (ih2 hl.2 fun h => (hd h).2)
  | append e c ih => exact LR.append (ih hl.2 hd) (LR.single .ub (cst c hl.1))
  | prepend c e ih => exact LR.append (LR.single .ub (cst c hl.1)) (ih hl.2 hd)
  | exclude e pos count ih => exact LR.append (LR.take .ub (ih hl hd) _) (LR.drop (ih hl hd) _)
  | excludeLast e k ih => exact LR.dropLast .ub (ih hl hd)
  | matvec e x ih1 ih2 =>
    have k : MR _ _ _ _ := ih1 hl.1 fun h => (hd h).1
    have k' : LR _ _ _ _ := ih2 hl.2 fun h => (hd h).2
    show LR _ ((List.range (Mat.m (e.formulas.meaning (symbols s)))).map _)
      ((List.range (Mat.m ((e.text _ _).meaning (Store.each _ s)))).map _)
      ((List.range (Mat.m ((e.text _ _).meaning (Store.each _ s)))).map _)
    rw [← k.1.1, ← k.1.2]
    exact LR.map .ub _ fun i => hinner_rel H H' (k.row .ub i) k' g0
  | bcast r e ih =>
    have k : LR _ _ _ _ := ih hl hd
    cases r
    · exact ⟨⟨k.1, k.2.1⟩, ⟨k.1, k.2.1⟩, fun i j => k.2.2 i⟩
    · exact ⟨⟨k.1, k.2.1⟩, ⟨k.1, k.2.1⟩, fun i j => k.2.2 j⟩
  | tensor e1 e2 ih1 ih2 =>
    have k : LR _ _ _ _ := ih1 hl.1 fun h => (hd h).1
    have k' : LR _ _ _ _ := ih2 hl.2 fun h => (hd h).2
    exact ⟨⟨k.1, k.2.1⟩, ⟨k'.1, k'.2.1⟩, fun i j =>
      H3.bin (fun t t' g g' => hop_rel H H' .mul g g') _ _ _ _ _ _ (k.2.2 i) (k'.2.2 j)⟩
  | transpose e ih =>
    have k : MR _ _ _ _ := ih hl hd
    exact ⟨k.2.1, k.1, fun i j => k.2.2 j i⟩
  | mergeH e1 e2 ih1 ih2 =>
    have k : MR _ _ _ _ := ih1 hl.1 fun h => (hd h).1
    have k' : MR _ _ _ _ := ih2 hl.2 fun h => (hd h).2
    show MR _ (Mat.beside _ _) (Mat.beside _ _) (Mat.beside _ _)
    unfold Mat.beside
    rw [← k.1.1, ← k.1.2, ← k'.1.1, ← k'.1.2, ← k.2.1.1, ← k.2.1.2, ← k'.2.1.1, ← k'.2.1.2]
    refine ⟨⟨rfl, rfl⟩, ⟨rfl, rfl⟩, fun i j => ?_⟩
    dsimp only
    split
    · exact k.2.2 _ _
    · exact k'.2.2 _ _
  | mergeV e1 e2 ih1 ih2 =>
    have k : MR _ _ _ _ := ih1 hl.1 fun h => (hd h).1
    have k' : MR _ _ _ _ := ih2 hl.2 fun h => (hd h).2
    show MR _ (Mat.above _ _) (Mat.above _ _) (Mat.above _ _)
    unfold Mat.above
    rw [← k.1.1, ← k.1.2, ← k'.1.1, ← k'.1.2, ← k.2.1.1, ← k.2.1.2, ← k'.2.1.1, ← k'.2.1.2]
    refine ⟨⟨rfl, rfl⟩, ⟨rfl, rfl⟩, fun i j => ?_⟩
    dsimp only
    split
    · exact k.2.2 _ _
    · exact k'.2.2 _ _

end

end Spp.Lemmas
