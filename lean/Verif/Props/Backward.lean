import Verif.Spec.Backward
import Verif.Props.Order
import Verif.Props.Algebra
import Verif.Spec.Decide

/-
C120: sums, inner products, means and matrix-vector products are backward stable.
-/

set_option linter.unusedSectionVars false

namespace Spp.Props

open Spp.Spec Spp.Lemmas Spp.Order Spp.Algebra

variable {σ : Type} {s : σ} {d : Dim} {p : Nat} {emin : Int} {rn : ℚ → ℚ} {pow : ℚ → ℚ → ℚ}
  {sqrt : ℚ → ℚ} {G : ℚ → Prop} {u g : ℚ}

theorem factor_bound {ε θ u g : ℚ} (hε : |ε| ≤ u) (hθ : |θ| ≤ g) : |(1 + ε) * (1 + θ) - 1| ≤ (1 + u) * (1 + g) - 1 := by
  have e : (1 + ε) * (1 + θ) - 1 = ε + θ + ε * θ := by ring
  rw [e]
  have h1 := abs_add_le (ε + θ) (ε * θ)
  have h2 := abs_add_le ε θ
  have h3 : |ε * θ| ≤ u * g := by
    rw [abs_mul]
    exact mul_le_mul hε hθ (abs_nonneg _) ((abs_nonneg _).trans hε)
  nlinarith

/-- A relative error as a factor. -/
theorem factor {x u : ℚ} (hu : 0 ≤ u) (h : |x - rn x| ≤ u * |x|) : ∃ ε, |ε| ≤ u ∧ rn x = x * (1 + ε) := by
  by_cases hx : x = 0
  · subst hx
    rw [abs_zero, mul_zero] at h
    have h0 : rn 0 = 0 := by
      have := abs_nonpos_iff.1 h
      linarith
    exact ⟨0, by simpa using hu, by rw [h0]; ring⟩
  · refine ⟨(rn x - x) / x, ?_, by field_simp; ring⟩
    rw [abs_div, abs_sub_comm, div_le_iff₀ (abs_pos.2 hx)]
    exact h

theorem back_fold (hu : 0 ≤ u) (hr : ∀ x y, G x → G y → ∃ ε, |ε| ≤ u ∧ rn (x + y) = (x + y) * (1 + ε))
    (hG : ∀ z, G (rn z)) (l : List ℚ) :
    ∀ {z : ℚ}, G z → (∀ x ∈ l, G x) → ∃ θ, ∃ δs : List ℚ, δs.length = l.length ∧ |θ| ≤ (1 + u) ^ l.length - 1 ∧
      (∀ δ ∈ δs, |δ| ≤ (1 + u) ^ l.length - 1) ∧
      l.foldl (fun a y => rn (a + y)) z = z * (1 + θ) + (List.zipWith (fun t δ => t * (1 + δ)) l δs).sum := by
  induction l with
  | nil => exact fun _ _ => ⟨0, [], rfl, by simp, by simp, by simp⟩
  | cons y l ih =>
    intro z hz hl
    obtain ⟨ε, h1, h2⟩ := hr z y hz (hl y (List.mem_cons_self ..))
    obtain ⟨θ, δs, e1, e2, e3, e4⟩ := ih (hG (z + y)) (fun x hx => hl x (List.mem_cons_of_mem _ hx))
    have hb := factor_bound h1 e2
    have hpow : (1 + u) * (1 + ((1 + u) ^ l.length - 1)) - 1 = (1 + u) ^ (y :: l).length - 1 := by
      rw [List.length_cons, pow_succ]; ring
    rw [hpow] at hb
    have hle : (1 + u) ^ l.length - 1 ≤ (1 + u) ^ (y :: l).length - 1 :=
      sub_le_sub_right (pow_le_pow_right₀ (by linarith) (by simp)) 1
    refine ⟨(1 + ε) * (1 + θ) - 1, ((1 + ε) * (1 + θ) - 1) :: δs, by simp [e1], hb, ?_, ?_⟩
    · intro δ hδ
      rcases List.mem_cons.1 hδ with rfl | hδ
      exacts [hb, (e3 δ hδ).trans hle]
    · rw [List.foldl_cons, e4, h2, List.zipWith_cons_cons, List.sum_cons]
      ring

/-- The sum of a list that is not empty. -/
theorem back_sum (hu : 0 ≤ u) (hr : ∀ x y, G x → G y → ∃ ε, |ε| ≤ u ∧ rn (x + y) = (x + y) * (1 + ε))
    (hG : ∀ z, G (rn z)) {x : ℚ} {xs : List ℚ} (hl : ∀ y ∈ x :: xs, G y) :
    Perturbed ((1 + u) ^ xs.length - 1) (x :: xs) (xs.foldl (fun a y => rn (a + y)) x) := by
  obtain ⟨θ, δs, e1, e2, e3, e4⟩ := back_fold hu hr hG xs (hl x (List.mem_cons_self ..))
    (fun y hy => hl y (List.mem_cons_of_mem _ hy))
  refine ⟨θ :: δs, by simp [e1], ?_, by rw [e4, List.zipWith_cons_cons, List.sum_cons]⟩
  intro δ hδ
  rcases List.mem_cons.1 hδ with rfl | hδ
  exacts [e2, e3 δ hδ]

/-- Terms that are themselves rounded. -/
theorem Perturbed.round (hr : ∀ x, ∃ ε, |ε| ≤ u ∧ rn x = x * (1 + ε)) {l : List ℚ} {v : ℚ}
    (h : Perturbed g (l.map rn) v) : Perturbed ((1 + u) * (1 + g) - 1) l v := by
  obtain ⟨δs, e1, e2, rfl⟩ := h
  induction l generalizing δs with
  | nil => exact ⟨[], rfl, by simp, by simp⟩
  | cons x l ih =>
    cases δs with
    | nil => simp at e1
    | cons δ δs =>
      obtain ⟨ε, h1, h2⟩ := hr x
      obtain ⟨ηs, f1, f2, f3⟩ := ih δs (by simpa using e1) (fun η hη => e2 η (List.mem_cons_of_mem _ hη))
      refine ⟨((1 + ε) * (1 + δ) - 1) :: ηs, by simp [f1], ?_, ?_⟩
      · intro η hη
        rcases List.mem_cons.1 hη with rfl | hη
        exacts [factor_bound h1 (e2 δ (List.mem_cons_self ..)), f2 η hη]
      · rw [List.map_cons, List.zipWith_cons_cons, List.zipWith_cons_cons, List.sum_cons, List.sum_cons, f3, h2]
        ring

/-- A backward error is a forward error relative to the sum of the magnitudes. -/
theorem Perturbed.forward {l : List ℚ} {v : ℚ} (h : Perturbed g l v) : |v - l.sum| ≤ g * (l.map abs).sum := by
  obtain ⟨δs, e1, e2, rfl⟩ := h
  induction l generalizing δs with
  | nil => simp
  | cons x l ih =>
    cases δs with
    | nil => simp at e1
    | cons δ δs =>
      have h1 := ih δs (by simpa using e1) (fun η hη => e2 η (List.mem_cons_of_mem _ hη))
      rw [List.zipWith_cons_cons, List.sum_cons, List.sum_cons, List.map_cons, List.sum_cons]
      have e : x * (1 + δ) + (List.zipWith (fun t δ => t * (1 + δ)) l δs).sum - (x + l.sum) =
          x * δ + ((List.zipWith (fun t δ => t * (1 + δ)) l δs).sum - l.sum) := by ring
      rw [e, mul_add]
      refine (abs_add_le _ _).trans (add_le_add ?_ h1)
      rw [abs_mul, mul_comm]
      exact mul_le_mul_of_nonneg_right (e2 δ (List.mem_cons_self ..)) (abs_nonneg x)

theorem unit_nonneg (p : Nat) : 0 ≤ unit p := by unfold unit; positivity

theorem factorX (hp : 1 ≤ p) (h : NearestX p rn) (x : ℚ) : ∃ ε, |ε| ≤ unit p ∧ rn x = x * (1 + ε) :=
  factor (unit_nonneg p) (rel_errX hp h x)

theorem back_sumX (hp : 1 ≤ p) (h : NearestX p rn) (x : ℚ) (xs : List ℚ) :
    Perturbed ((1 + unit p) ^ xs.length - 1) (x :: xs) (xs.foldl (fun a y => rn (a + y)) x) :=
  back_sum (G := fun _ => True) (unit_nonneg p) (fun _ _ _ _ => factorX hp h _) (fun _ => trivial) (fun _ _ => trivial)

/-- C120: the computed `sum` of `n` floating-point numbers is the exact sum of numbers that differ from them by at most
`n - 1` roundings each, with gradual underflow and for numbers of every size. -/
theorem C120_sum (hp : 1 ≤ p) (h : Nearest p emin rn) {a : Acc σ ℚ} {l : List ℚ} (ha : Elems d a s l)
    (hl : ∀ x ∈ l, Rep p emin x) (hne : l ≠ []) (dflt : ℚ) :
    ∃ v, Ops.sum (rounded rn pow sqrt).toScalar.toArith a s dflt = .ok v ∧
      Perturbed ((1 + unit p) ^ (l.length - 1) - 1) l v := by
  cases l with
  | nil => exact absurd rfl hne
  | cons x xs =>
    refine ⟨_, sum_fold ha dflt, back_sum (G := Rep p emin) (unit_nonneg p) (fun y z hy hz => ?_) h.rep hl⟩
    exact factor (unit_nonneg p) (rel_err hp h ((rep_mult hy).add (rep_mult hz)))

/-- C120: the same without a least exponent, for all elements. -/
theorem C120_sum_any (hp : 1 ≤ p) (h : NearestX p rn) {a : Acc σ ℚ} {l : List ℚ} (ha : Elems d a s l)
    (hne : l ≠ []) (dflt : ℚ) :
    ∃ v, Ops.sum (rounded rn pow sqrt).toScalar.toArith a s dflt = .ok v ∧
      Perturbed ((1 + unit p) ^ (l.length - 1) - 1) l v := by
  cases l with
  | nil => exact absurd rfl hne
  | cons x xs => exact ⟨_, sum_fold ha dflt, back_sumX hp h x xs⟩

theorem back_dot (hp : 1 ≤ p) (h : NearestX p rn) {x y : ℚ} {xs ys : List ℚ} (hl : xs.length = ys.length) :
    Perturbed ((1 + unit p) ^ (xs.length + 1) - 1) (List.zipWith (· * ·) (x :: xs) (y :: ys))
      ((List.zipWith (fun a b => rn (a * b)) xs ys).foldl (fun a y => rn (a + y)) (rn (x * y))) := by
  have e : List.zipWith (fun a b => rn (a * b)) (x :: xs) (y :: ys) = (List.zipWith (· * ·) (x :: xs) (y :: ys)).map rn := by
    rw [List.map_zipWith]
  have h1 := back_sumX hp h (rn (x * y)) (List.zipWith (fun a b => rn (a * b)) xs ys)
  rw [← List.zipWith_cons_cons (f := fun a b => rn (a * b)), e, List.length_zipWith, ← hl, Nat.min_self] at h1
  have h2 := Perturbed.round (factorX hp h) h1
  have e2 : (1 + unit p) * (1 + ((1 + unit p) ^ xs.length - 1)) - 1 = (1 + unit p) ^ (xs.length + 1) - 1 := by
    rw [pow_succ]; ring
  rwa [e2] at h2

/-- C120: the computed `dot_prod` of `n` pairs is the exact sum of the products, each changed by at most `n` roundings:
the exact inner product of one operand with a slightly different other operand. -/
theorem C120_dot (hp : 1 ≤ p) (h : NearestX p rn) (b : Build) {a1 a2 : Acc σ ℚ} {sh : Nat × Nat} {xs ys : List ℚ}
    (h1 : Shaped d a1 s sh xs) (h2 : Shaped d a2 s sh ys) (hne : xs ≠ []) (dflt : ℚ) :
    ∃ v, Ops.dotProd b d (rounded rn pow sqrt).toScalar.toArith a1 a2 s dflt = .ok v ∧
      Perturbed ((1 + unit p) ^ xs.length - 1) (List.zipWith (· * ·) xs ys) v := by
  have hl : xs.length = ys.length := (Shaped.len h1).trans (Shaped.len h2).symm
  cases xs with
  | nil => exact absurd rfl hne
  | cons x xs => cases ys with
    | nil => simp at hl
    | cons y ys => exact ⟨_, dot_fold b h1 h2 dflt, back_dot hp h (by simpa using hl)⟩

/-- C120: the computed `mean` of `n` numbers is the exact mean of numbers that differ from them by at most `n` roundings
each. -/
theorem C120_mean (hp : 2 ≤ p) (h : NearestX p rn) {a : Acc σ ℚ} {l : List ℚ} (ha : Elems d a s l) (hne : l ≠ [])
    (hn : l.length ≤ 2 ^ p) (dflt : ℚ) :
    ∃ v, Ops.mean (rounded rn pow sqrt).toScalar.toArith a s dflt = .ok v ∧
      Perturbed ((1 + unit p) ^ l.length - 1) (l.map (· / (l.length : ℚ))) v := by
  obtain ⟨v, e1, δs, e2, e3, e4⟩ := C120_sum_any (pow := pow) (sqrt := sqrt) (by omega) h ha hne 0
  refine ⟨_, mean_value ha hne e1 dflt, ?_⟩
  rw [round_count h hn hp]
  obtain ⟨ε, h1, h2⟩ := factorX (by omega) h (v / l.length)
  have hpos : 0 < l.length := List.length_pos_iff.2 hne
  have hpw : (1 + unit p) * (1 + ((1 + unit p) ^ (l.length - 1) - 1)) - 1 = (1 + unit p) ^ l.length - 1 := by
    have : (1 + unit p) ^ l.length = (1 + unit p) * (1 + unit p) ^ (l.length - 1) := by
      rw [← pow_succ', Nat.sub_add_cancel hpos]
    rw [this]; ring
  refine ⟨δs.map (fun δ => (1 + ε) * (1 + δ) - 1), by simpa using e2, ?_, ?_⟩
  · intro δ hδ
    obtain ⟨η, hη, rfl⟩ := List.mem_map.1 hδ
    rw [← hpw]
    exact factor_bound h1 (e3 η hη)
  · rw [h2, e4]
    generalize (l.length : ℚ) = n
    clear e4 h2 e1 hpw hpos hn hne ha e3
    induction l generalizing δs with
    | nil => simp
    | cons x l ih =>
      cases δs with
      | nil => simp
      | cons δ δs =>
        have := ih δs (by simpa using e2)
        simp only [List.map_cons, List.zipWith_cons_cons, List.sum_cons] at this ⊢
        rw [← this]
        ring

/-! ### Matrix-vector products -/

section matvec

variable {α : Type} [Inhabited α] {b : Build} {ar : Arith α} {s : Store α}

theorem vec_meaning (hs : Store.Ok s) {t : Tm α .one} (ht : Accepted s t) {l : List α} (h : VecIs b s t l) :
    t.meaning s = l.map Res.ok := by
  obtain ⟨a, h1, h2⟩ := den b hs ht
  obtain ⟨a', h3, h4, h5⟩ := h
  rw [h1] at h3
  cases h3
  have hlen : List.length (t.meaning s) = l.length := by
    have := h2.1
    omega
  refine List.ext_getElem (by rw [List.length_map]; exact hlen) fun j hj _ => ?_
  have e1 := h2.2.2 j hj
  rw [h5 j (by omega), getD_lt hj] at e1
  rw [List.getElem_map]
  exact e1.symm

theorem row_meaning (hs : Store.Ok s) {t : Tm α .two} (ht : Accepted s t) {k : Nat} {r : List α}
    (h : RowIs b s t k r) :
    k < Mat.m (t.meaning s) ∧ Mat.n (t.meaning s) = r.length ∧ Mat.row (t.meaning s) k = r.map Res.ok := by
  obtain ⟨a, h1, h2⟩ := den b hs ht
  obtain ⟨a', h3, h4, h5, h6⟩ := h
  rw [h1] at h3
  cases h3
  have hm : k < Mat.m (t.meaning s) := by
    have := h2.1
    omega
  have hn : Mat.n (t.meaning s) = r.length := by
    have := h2.2.1
    omega
  refine ⟨hm, hn, List.ext_getElem (by simp [Mat.row, hn]) fun j hj hj' => ?_⟩
  have hj : j < r.length := by simpa using hj'
  have e1 := (h2.2.2.2 k j hm (by omega)).1
  rw [h6 j hj] at e1
  simp only [Mat.row, List.getElem_map, List.getElem_range]
  exact e1.symm

theorem inner_fold {xs ys : List α} {mul : α → α → α}
    (hm : ∀ q ∈ List.zip xs ys, ar.mul q.1 q.2 = .ok (mul q.1 q.2)) :
    inner ar (xs.map Res.ok) (ys.map Res.ok) =
      (List.zipWith mul xs ys).foldlM (fun acc y => ar.add acc y) ar.zero := by
  unfold inner
  rw [List.zip_map]
  generalize ar.zero = z
  have key : ∀ (ps : List (α × α)) (r : Res α), (∀ q ∈ ps, ar.mul q.1 q.2 = .ok (mul q.1 q.2)) →
      (ps.map (Prod.map Res.ok Res.ok)).foldl (fun acc (p : Res α × Res α) => do
        let a ← acc
        let u ← p.1
        let v ← p.2
        let q ← ar.mul u v
        ar.add a q) r = (r >>= fun z => (ps.map fun q => mul q.1 q.2).foldlM (fun acc y => ar.add acc y) z) := by
    intro ps
    induction ps with
    | nil => intro r _; cases r <;> rfl
    | cons q ps ih =>
      intro r hq
      rw [List.map_cons, List.foldl_cons, ih _ (fun w hw => hq w (List.mem_cons_of_mem _ hw))]
      cases r with
      | ok z =>
        simp only [Res.ok_bind, Prod.map, hq q (List.mem_cons_self ..), List.map_cons, List.foldlM_cons]
      | trap k => rfl
      | ub => rfl
  rw [key _ _ hm, Res.ok_bind, List.zip, List.map_zipWith]

/-- The value of an element of a matrix-vector product. -/
theorem matvec_elem (hs : Store.Ok s) {A : Tm α .two} {x : Tm α .one} (hA : Accepted s (.matvec ar A x)) {k : Nat}
    {r y : List α} (hr : RowIs b s A k r) (hy : VecIs b s x y) {mul : α → α → α}
    (hm : ∀ q ∈ List.zip r y, ar.mul q.1 q.2 = .ok (mul q.1 q.2)) :
    r.length = y.length ∧ ∃ a, (Tm.matvec ar A x).build b s = .ok a ∧ (k : Int) < a.rows s ∧
      a.un s k = (List.zipWith mul r y).foldlM (fun acc y => ar.add acc y) ar.zero := by
  obtain ⟨a, h1, h2⟩ := den b hs hA
  obtain ⟨r1, r2, r3⟩ := row_meaning hs ⟨hA.1.1, hA.2.1⟩ hr
  have v1 := vec_meaning hs ⟨hA.1.2, hA.2.2.1⟩ hy
  have hlen : List.length ((Tm.matvec ar A x).meaning s) = Mat.m (A.meaning s) := by
    show ((List.range _).map _).length = _
    simp
  have hxl : Mat.n (A.meaning s) = List.length (x.meaning s) := hA.2.2.2
  refine ⟨?_, a, h1, ?_, ?_⟩
  · rw [v1, List.length_map] at hxl
    omega
  · have := h2.1
    omega
  · rw [← inner_fold hm, ← r3, ← v1]
    refine (h2.2.2 k (by omega)).trans ?_
    exact getD_range_map (f := fun i => inner ar (Mat.row (A.meaning s) i) (x.meaning s)) r1

/-- C120: element `k` of `matvec_prod(A, x)` is `dot_prod(A.row(k), x)`, in every arithmetic in which adding zero to a
product does not change it - although the two are computed by different loops. -/
theorem C120_matvec_is_dot (hs : Store.Ok s) {A : Tm α .two} {x : Tm α .one} (hA : Accepted s (.matvec ar A x))
    {k : Nat} {r y : List α} (hr : RowIs b s A k r) (hy : VecIs b s x y) {mul : α → α → α}
    (hm : ∀ q ∈ List.zip r y, ar.mul q.1 q.2 = .ok (mul q.1 q.2) ∧
      ar.add ar.zero (mul q.1 q.2) = .ok (mul q.1 q.2)) :
    ∃ a a1 a2, (Tm.matvec ar A x).build b s = .ok a ∧ (Tm.view (.row (.at k)) A).build b s = .ok a1 ∧
      x.build b s = .ok a2 ∧ a.un s k = Ops.dotProd b .one ar a1 a2 s ar.zero := by
  obtain ⟨hl, a, e1, e2, e3⟩ := matvec_elem hs hA hr hy (fun q hq => (hm q hq).1)
  obtain ⟨r1, r2, r3⟩ := row_meaning hs ⟨hA.1.1, hA.2.1⟩ hr
  have v1 := vec_meaning hs ⟨hA.1.2, hA.2.2.1⟩ hy
  have hsm : Small (d := .two) (A.meaning s) := (C43_reads b hs hA.1.1 hA.2.1).1
  obtain ⟨s1, s2⟩ := two_of_m hsm
  have htn : (target (Mat.m (A.meaning s)) (.at (k : Int))).toNat = k := by simp [target]
  have hrow : (Tm.view (.row (.at k)) A).meaning s = r.map Res.ok := by
    show Mat.row (A.meaning s) (target (Mat.m (A.meaning s)) (.at (k : Int))).toNat = _
    rw [htn, r3]
  have hacc : Accepted s (Tm.view (.row (.at k)) A) := by
    refine ⟨⟨hA.1.1, ?_, ?_⟩, hA.2.1, ?_⟩
    · show IsIndex (k : Int)
      constructor <;> omega
    · show (List.length ((Tm.view (.row (.at k)) A).meaning s) : Int) < 2 ^ 63 - 1
      rw [hrow, List.length_map]
      omega
    · show InRange (Mat.m (A.meaning s)) (k : Int)
      constructor <;> omega
  obtain ⟨a1, b1, b2⟩ := den b hs hacc
  obtain ⟨a2, c1, c2⟩ := den b hs (⟨hA.1.2, hA.2.2.1⟩ : Accepted s x)
  have sh1 : Shaped .one a1 s (r.length, 1) r := by
    refine ⟨_, b2, ?_, hrow⟩
    show (List.length ((Tm.view (.row (.at k)) A).meaning s), 1) = _
    rw [hrow, List.length_map]
  have sh2 : Shaped .one a2 s (r.length, 1) y := by
    refine ⟨_, c2, ?_, v1⟩
    show (List.length (x.meaning s), 1) = _
    rw [v1, List.length_map, hl]
  refine ⟨a, a1, a2, e1, b1, c1, ?_⟩
  rw [e3]
  obtain ⟨d1, d2⟩ := C52_dot b sh1 sh2 ar (mul := mul) (fun q hq => (hm q hq).1) ar.zero
  cases r with
  | nil => rw [d1 rfl]; rfl
  | cons p ps =>
    cases y with
    | nil => simp at hl
    | cons q qs =>
      rw [d2 _ _ rfl, List.zipWith_cons_cons, List.foldlM_cons]
      rw [(hm (p, q) (by simp)).2]
      rfl

end matvec

/-- C120: every element of the computed `matvec_prod(A, x)` is the exact inner product of `x` with a row that differs
from the row of `A` by at most `n` roundings in each place: the computed product is `(A + E)x` with `|E| ≤ γ|A|`
elementwise.  The forward error follows. -/
theorem C120_matvec (hp : 1 ≤ p) (h : NearestX p rn) {b : Build} {s : Store ℚ} (hs : Store.Ok s) {A : Tm ℚ .two}
    {x : Tm ℚ .one} (hA : Accepted s (.matvec (rounded rn pow sqrt).toScalar.toArith A x)) {k : Nat} {r y : List ℚ}
    (hr : RowIs b s A k r) (hy : VecIs b s x y) :
    ∃ v, ElemIs b s (.matvec (rounded rn pow sqrt).toScalar.toArith A x) k v ∧
      (∃ r' : List ℚ, List.Forall₂ (fun e e' => |e' - e| ≤ ((1 + unit p) ^ r.length - 1) * |e|) r r' ∧
        v = (List.zipWith (· * ·) r' y).sum) ∧
      |v - (List.zipWith (· * ·) r y).sum| ≤
        ((1 + unit p) ^ r.length - 1) * ((List.zipWith (· * ·) r y).map abs).sum := by
  obtain ⟨hl, a, e1, e2, e3⟩ := matvec_elem (mul := fun x y => rn (x * y)) hs hA hr hy (fun _ _ => rfl)
  have hfold := foldlM_pure (f := fun acc y => (rounded rn pow sqrt).toScalar.toArith.add acc y)
    (g := fun a y => rn (a + y)) (List.zipWith (fun x y => rn (x * y)) r y) (rounded rn pow sqrt).toScalar.toArith.zero
    (fun _ _ _ => rfl)
  have key : Perturbed ((1 + unit p) ^ r.length - 1) (List.zipWith (· * ·) r y)
      ((List.zipWith (fun x y => rn (x * y)) r y).foldl (fun a y => rn (a + y)) 0) := by
    cases r with
    | nil => exact ⟨[], by simp, by simp, by simp⟩
    | cons e es => cases y with
      | nil => simp at hl
      | cons f fs =>
        have := back_dot hp h (x := e) (y := f) (xs := es) (ys := fs) (by simpa using hl)
        rw [List.zipWith_cons_cons (f := fun x y => rn (x * y)), List.foldl_cons, zero_add, (monoX h).fix (h.rep _)]
        exact this
  refine ⟨_, ⟨a, e1, e2, e3.trans hfold⟩, ?_, Perturbed.forward key⟩
  obtain ⟨δs, k0, k2, k3⟩ := key
  have k1 : δs.length = r.length := by rw [k0, List.length_zipWith, ← hl, Nat.min_self]
  clear k0
  refine ⟨List.zipWith (fun e δ => e * (1 + δ)) r δs, ?_, ?_⟩
  · generalize (1 + unit p) ^ r.length - 1 = g at *
    clear k3 hfold e3 hr hl
    induction r generalizing δs with
    | nil => simp
    | cons e r ih =>
      cases δs with
      | nil => simp at k1
      | cons δ δs =>
        refine .cons ?_ (ih δs (by simpa using k1) (fun η hη => k2 η (List.mem_cons_of_mem _ hη)))
        rw [show e * (1 + δ) - e = δ * e by ring, abs_mul]
        exact mul_le_mul_of_nonneg_right (k2 δ (List.mem_cons_self ..)) (abs_nonneg e)
  · refine k3.trans (congrArg List.sum ?_)
    clear k3 hfold e3 hr hy k2
    induction r generalizing δs y with
    | nil => simp
    | cons e r ih =>
      cases δs with
      | nil => simp at k1
      | cons δ δs =>
        cases y with
        | nil => simp at hl
        | cons f y =>
          simp only [List.zipWith_cons_cons]
          rw [ih (by simpa using hl) δs (by simpa using k1)]
          congr 1
          ring

/-! ### Cases that meet the hypotheses -/

section
open Spp.Sample

/-- `x = (1, 1/2)` and `A = [[1, 2], [3, 4]]`. -/
def ratMat : Store ℚ where
  a1 := fun id => if id = 0 then [1, 1 / 2] else []
  a2 := fun id => if id = 0 then ⟨2, 2, [1, 2, 3, 4]⟩ else ⟨0, 0, []⟩

theorem ratMat_ok : Store.Ok ratMat := by
  constructor
  · intro id
    show (((if id = 0 then [1, 1 / 2] else [] : List ℚ)).length : Int) < 2 ^ 63 - 1
    split <;> decide
  · intro id
    simp only [ratMat]
    by_cases h0 : id = 0
    · rw [if_pos h0]; exact ⟨⟨by decide, by decide, by simp [len], by decide⟩, by simp⟩
    · rw [if_neg h0]; exact ⟨⟨by decide, by decide, by simp [len], by decide⟩, by simp⟩

/-- Double precision, second row: the product is within two roundings of 5. -/
example : ∃ rn, NearestX 53 rn ∧ ∃ v,
    ElemIs ⟨false, true, false⟩ ratMat
      (.matvec (rounded rn (fun x _ => x) id).toScalar.toArith (.lv (.arr2 0)) (.lv (.arr1 0))) 1 v ∧
    |v - 5| ≤ ((1 + unit 53) ^ 2 - 1) * 5 := by
  obtain ⟨rn, h⟩ := exists_nearestX (p := 53) (by norm_num)
  have hrow : RowIs ⟨false, true, false⟩ ratMat (.lv (.arr2 0)) 1 [3, 4] := by
    refine ⟨_, rfl, by decide, rfl, fun j hj => ?_⟩
    have : j = 0 ∨ j = 1 := by simp at hj; omega
    rcases this with rfl | rfl <;> rfl
  have hvec : VecIs ⟨false, true, false⟩ ratMat (.lv (.arr1 0)) [1, 1 / 2] := by
    refine ⟨_, rfl, rfl, fun j hj => ?_⟩
    have : j = 0 ∨ j = 1 := by simp at hj; omega
    rcases this with rfl | rfl <;> rfl
  obtain ⟨v, h1, -, h2⟩ := C120_matvec (pow := fun x _ => x) (sqrt := id) (by norm_num) h ratMat_ok
    (A := .lv (.arr2 0)) (x := .lv (.arr1 0))
    ⟨⟨trivial, trivial⟩, trivial, trivial, rfl⟩ hrow hvec
  refine ⟨rn, h, v, h1, ?_⟩
  norm_num at h2 ⊢
  exact h2

/-- In integers: row 1 of the sample matrix. -/
example : ∃ a a1 a2, (Tm.matvec ints A y).build ⟨false, true, false⟩ store = .ok a ∧
    (Tm.view (.row (.at 1)) A).build ⟨false, true, false⟩ store = .ok a1 ∧
    y.build ⟨false, true, false⟩ store = .ok a2 ∧
    a.un store 1 = Ops.dotProd ⟨false, true, false⟩ .one ints a1 a2 store ints.zero := by
  refine C120_matvec_is_dot (k := 1) (r := [4, 5, 6]) (y := [4, 5, 6]) (mul := (· * ·)) store_ok
    ⟨by decide, by decide⟩ ⟨_, rfl, by decide, rfl, fun j hj => ?_⟩ ⟨_, rfl, rfl, fun j hj => ?_⟩ (by decide)
  all_goals
    have : j = 0 ∨ j = 1 ∨ j = 2 := by simp at hj; omega
    rcases this with rfl | rfl | rfl <;> rfl

/-- Three numbers in single precision: their computed sum is the exact sum of numbers within two roundings of them. -/
example : ∃ rn, Nearest 24 (-149) rn ∧
    ∃ v, Ops.sum (rounded rn (fun x _ => x) id).toScalar.toArith (lit [1, -2, 3]) () 0 = .ok v ∧
      Perturbed ((1 + unit 24) ^ 2 - 1) [1, -2, 3] v := by
  obtain ⟨rn, h⟩ := exists_nearest (p := 24) (by norm_num) (-149)
  refine ⟨rn, h, C120_sum (by norm_num) h (Shaped.elems (lit_shaped () _)) ?_ (by simp) 0⟩
  intro x hx
  simp only [List.mem_cons, List.not_mem_nil, or_false] at hx
  rcases hx with rfl | rfl | rfl
  exacts [⟨1, 0, by norm_num, by norm_num, by norm_num⟩, ⟨-2, 0, by norm_num, by norm_num, by norm_num⟩,
    ⟨3, 0, by norm_num, by norm_num, by norm_num⟩]

/-- Inner products and means. -/
example : ∃ rn, NearestX 24 rn ∧
    (∃ v, Ops.dotProd ⟨false, true, false⟩ .one (rounded rn (fun x _ => x) id).toScalar.toArith (lit [1, -2]) (lit [3, 4]) () 0 = .ok v ∧
      Perturbed ((1 + unit 24) ^ 2 - 1) [1 * 3, -2 * 4] v) ∧
    ∃ v, Ops.mean (rounded rn (fun x _ => x) id).toScalar.toArith (lit [1, -2, 3]) () 0 = .ok v ∧
      Perturbed ((1 + unit 24) ^ 3 - 1) [1 / 3, -2 / 3, 3 / 3] v := by
  obtain ⟨rn, h⟩ := exists_nearestX (p := 24) (by norm_num)
  exact ⟨rn, h, C120_dot (by norm_num) h _ (lit_shaped () [(1 : ℚ), -2]) (lit_shaped () [(3 : ℚ), 4]) (by simp) 0,
    C120_mean (by norm_num) h (Shaped.elems (lit_shaped () [(1 : ℚ), -2, 3])) (by simp) (by norm_num) 0⟩

end

end Spp.Props
