import Verif.Props.Fused
import Verif.Props.Underflow

/-
C141: contraction in inner products and polynomials.
-/

namespace Spp.Props

open Spec Lemmas FVal

variable {σ τ : Type} {d d' : Dim} {s : σ} {t : τ} {p : Nat} {emin : Int} {F : Fmt}

/-! ### Sums of products -/

theorem unit_pos' (p : Nat) : 0 ≤ unit p := (inv_pos.2 (by positivity)).le

theorem one_le_growth (p k : Nat) : 1 ≤ (1 + unit p) ^ k := one_le_pow₀ (by linarith [unit_pos' p])

/-- The bounds of a running sum. -/
theorem sum_bound (ps : List Bound) (hps : ∀ q ∈ ps, 0 ≤ q.size ∧ 0 ≤ q.err) {B : Bound} (h0 : 0 ≤ B.size ∧ 0 ≤ B.err) :
    (ps.foldl (Bound.add p) B).size = B.size + (ps.map Bound.size).sum ∧
    (ps.foldl (Bound.add p) B).size + (ps.foldl (Bound.add p) B).err ≤
      (1 + unit p) ^ ps.length * (B.size + B.err + (ps.map fun q => q.size + q.err).sum) ∧
    ∀ T, B.peak ≤ T → (∀ q ∈ ps, q.peak ≤ T) →
      (1 + unit p) ^ ps.length * (B.size + B.err + (ps.map fun q => q.size + q.err).sum) ≤ T →
      (ps.foldl (Bound.add p) B).peak ≤ T := by
  induction ps generalizing B with
  | nil => exact ⟨by simp, by simp, fun T h _ _ => h⟩
  | cons q ps ih =>
    have hu := unit_pos' p
    obtain ⟨q1, q2⟩ := hps q List.mem_cons_self
    have hr : ∀ q ∈ ps, 0 ≤ q.size ∧ 0 ≤ q.err := fun r hr => hps r (List.mem_cons_of_mem _ hr)
    have e1 : (Bound.add p B q).size = B.size + q.size := rfl
    have e2 : (Bound.add p B q).err = B.err + q.err + unit p * (B.size + q.size + (B.err + q.err)) + 0 := rfl
    have e3 : (Bound.add p B q).peak = max (max B.peak q.peak) ((Bound.add p B q).size + (Bound.add p B q).err) := rfl
    have hG : (Bound.add p B q).size + (Bound.add p B q).err = (1 + unit p) * (B.size + B.err + (q.size + q.err)) := by
      rw [e1, e2]; ring
    have h0' : 0 ≤ (Bound.add p B q).size ∧ 0 ≤ (Bound.add p B q).err := by
      obtain ⟨a1, a2⟩ := h0
      rw [e1, e2]
      exact ⟨by positivity, by positivity⟩
    obtain ⟨i1, i2, i3⟩ := ih hr h0'
    have hs : 0 ≤ (ps.map fun q => q.size + q.err).sum := List.sum_nonneg fun y hy => by
      obtain ⟨r, hr', rfl⟩ := List.mem_map.1 hy
      exact add_nonneg (hr r hr').1 (hr r hr').2
    have hk := one_le_growth p ps.length
    have step : (1 + unit p) ^ ps.length * ((Bound.add p B q).size + (Bound.add p B q).err +
        (ps.map fun q => q.size + q.err).sum) ≤
        (1 + unit p) ^ (q :: ps).length * (B.size + B.err + ((q :: ps).map fun q => q.size + q.err).sum) := by
      rw [hG, List.length_cons, pow_succ, mul_assoc, List.map_cons, List.sum_cons]
      refine mul_le_mul_of_nonneg_left ?_ (by linarith)
      have := mul_nonneg hu hs
      linarith
    simp only [List.foldl_cons]
    refine ⟨?_, i2.trans step, fun T hB hq hT => i3 T ?_ (fun r hr => hq r (List.mem_cons_of_mem _ hr)) (step.trans hT)⟩
    · rw [i1, e1, List.map_cons, List.sum_cons, add_assoc]
    · rw [e3]
      refine max_le (max_le hB (hq q List.mem_cons_self)) ?_
      refine le_trans ?_ (step.trans hT)
      have hn : 0 ≤ (Bound.add p B q).size + (Bound.add p B q).err := add_nonneg h0'.1 h0'.2
      nlinarith

theorem foldl_sum_hom {α : Type} (f : Formula → α) (g : α → α → α) (hf : ∀ a b, f (.add a b) = g (f a) (f b))
    (ts : List Formula) (t0 : Formula) : f (ts.foldl .add t0) = (ts.map f).foldl g (f t0) := by
  induction ts generalizing t0 with
  | nil => rfl
  | cons a ts ih => simp only [List.foldl_cons, List.map_cons]; rw [ih, hf]

theorem good_sum {Q : Prop} (ts : List Formula) (h : ∀ a ∈ ts, Good p emin F Q a) {t0 : Formula} (h0 : Good p emin F Q t0) :
    Good p emin F Q (ts.foldl .add t0) := by
  induction ts generalizing t0 with
  | nil => exact h0
  | cons a ts ih => exact ih (fun b hb => h b (List.mem_cons_of_mem _ hb)) ⟨h0, h a List.mem_cons_self⟩

/-- The product of two elements. -/
def times (x y : FVal) : Formula := .mul (.elem x) (.elem y)

theorem times_bound (x y : FVal) : (bounds p emin (times x y)).size = |x.val * y.val| ∧
    (bounds p emin (times x y)).size + (bounds p emin (times x y)).err = (1 + unit p) * |x.val * y.val| + 2 ^ emin / 2 ∧
    (bounds p emin (times x y)).peak = max (max |x.val| |y.val|)
      ((bounds p emin (times x y)).size + (bounds p emin (times x y)).err) := by
  refine ⟨by rw [abs_mul]; rfl, ?_, rfl⟩
  show |x.val| * |y.val| + (0 * |y.val| + |x.val| * 0 + 0 * 0 + unit p * (|x.val| * |y.val| +
    (0 * |y.val| + |x.val| * 0 + 0 * 0)) + 2 ^ emin / 2) = _
  rw [abs_mul]
  ring

theorem held_top {x : FVal} (h : Held p emin F x) (hf : x.isFinite = true) : |x.val| ≤ F.top := by
  rcases x with _ | s | ⟨s, m⟩
  · simp [isFinite] at hf
  · simp [isFinite] at hf
  · have : |(fin s m).val| = m := by
      cases s
      · exact abs_of_nonneg h.1
      · show |-m| = m
        rw [abs_neg]; exact abs_of_nonneg h.1
    rw [this]; exact h.2.1

/-- C141: `dot_prod`.  The function, run on formulas instead of numbers, says what may be computed.  Whichever products are
fused into the running sum, the result satisfies the bound of C137 if it is finite; and if the elements are finite and the
sum of the magnitudes of the products is not too large, nothing overflows. -/
theorem C141_dot (hp : 1 ≤ p) (hF : IsFmt p emin F) (b : Build) {a1 a2 : Acc σ FVal} {sh sh' : Nat × Nat}
    {l1 l2 : List FVal} (h1 : Shaped d a1 s sh l1) (h2 : Shaped d a2 s sh l2)
    {f1 f2 : Acc τ Formula} (h1' : Shaped d' f1 t sh' (l1.map .elem)) (h2' : Shaped d' f2 t sh' (l2.map .elem))
    (hh1 : ∀ x ∈ l1, Held p emin F x) (hh2 : ∀ x ∈ l2, Held p emin F x) (hne : l1 ≠ []) (dflt : FVal) (dflt' : Formula) :
    let products := List.zipWith (· * ·) (l1.map val) (l2.map val)
    ∃ v φ, Ops.dotProd b d F.scalar.toArith a1 a2 s dflt = .ok v ∧ Ops.dotProd b d' Formula.arith f1 f2 t dflt' = .ok φ ∧
      φ.Computes F v ∧
      (∀ w, φ.Computes F w → w.isFinite = true →
        |w.val - products.sum| ≤ ((1 + unit p) ^ l1.length - 1) * (products.map abs).sum +
          (1 + unit p) ^ (l1.length - 1) * (l1.length * (2 ^ emin / 2))) ∧
      ((∀ x ∈ l1 ++ l2, x.isFinite = true) →
        (1 + unit p) ^ l1.length * (products.map abs).sum +
          (1 + unit p) ^ (l1.length - 1) * (l1.length * (2 ^ emin / 2)) ≤ F.top →
        ∀ w, φ.Computes F w → w.isFinite = true) := by
  intro products
  have hl : l1.length = l2.length := (Shaped.len h1).trans (Shaped.len h2).symm
  cases l1 with
  | nil => exact absurd rfl hne
  | cons x xs => cases l2 with
    | nil => simp at hl
    | cons y ys =>
      have hl' : xs.length = ys.length := by simpa using hl
      let φs := List.zipWith times xs ys
      let φ := φs.foldl .add (times x y)
      have ef : Ops.dotProd b d' Formula.arith f1 f2 t dflt' = .ok φ := by
        have e : List.zipWith Formula.mul ((x :: xs).map Formula.elem) ((y :: ys).map Formula.elem) = times x y :: φs := by
          simp only [List.map_cons, List.zipWith_cons_cons, List.zipWith_map]
          rfl
        rw [(C52_dot b h1' h2' Formula.arith (mul := Formula.mul) (fun _ _ => rfl) dflt').2 _ _ e]
        exact foldlM_pure (g := Formula.add) _ _ fun _ _ _ => rfl
      have ev : Ops.dotProd b d F.scalar.toArith a1 a2 s dflt = .ok (plain F φ) := by
        rw [(C52_dot b h1 h2 F.scalar.toArith (mul := FVal.mul F) (fun _ _ => rfl) dflt).2 _ _ List.zipWith_cons_cons,
          foldl_sum_hom (plain F) (FVal.add F) (fun _ _ => rfl), List.map_zipWith]
        exact foldlM_pure (g := FVal.add F) _ _ fun _ _ _ => rfl
      have eV : exactly φ = products.sum := by
        show exactly φ = (List.zipWith (· * ·) ((x :: xs).map val) ((y :: ys).map val)).sum
        rw [foldl_sum_hom exactly (· + ·) (fun _ _ => rfl), List.map_zipWith]
        simp only [List.map_cons, List.zipWith_cons_cons, List.sum_cons, List.zipWith_map]
        rw [foldl_add]
        rfl
      have eB : bounds p emin φ = (φs.map (bounds p emin)).foldl (Bound.add p) (bounds p emin (times x y)) :=
        foldl_sum_hom (bounds p emin) (Bound.add p) (fun _ _ => rfl) _ _
      have hmem : ∀ a ∈ φs, ∃ x' ∈ xs, ∃ y' ∈ ys, a = times x' y' := by
        intro a ha
        obtain ⟨i, hi, rfl⟩ := List.mem_iff_getElem.1 ha
        rw [List.length_zipWith] at hi
        exact ⟨_, List.getElem_mem (by omega), _, List.getElem_mem (by omega), List.getElem_zipWith ..⟩
      have hu := unit_pos' p
      have nn : ∀ x y : FVal, 0 ≤ (bounds p emin (times x y)).size ∧ 0 ≤ (bounds p emin (times x y)).err := by
        intro x y
        obtain ⟨b1, b2, -⟩ := times_bound (p := p) (emin := emin) x y
        have b3 : (bounds p emin (times x y)).err = unit p * |x.val * y.val| + 2 ^ emin / 2 := by rw [b1] at b2; linarith
        rw [b1, b3]
        exact ⟨by positivity, by positivity⟩
      obtain ⟨k1, k2, k3⟩ := sum_bound (p := p) (φs.map (bounds p emin)) (fun q hq => by
        obtain ⟨a, ha, rfl⟩ := List.mem_map.1 hq
        obtain ⟨x', -, y', -, rfl⟩ := hmem a ha
        exact nn x' y') (nn x y)
      rw [← eB] at k1 k2 k3
      have hlen : (φs.map (bounds p emin)).length = xs.length := by
        rw [List.length_map, List.length_zipWith]; omega
      -- the sums in closed form
      have s1 : ((φs.map (bounds p emin)).map Bound.size).sum =
          ((List.zipWith (· * ·) (xs.map val) (ys.map val)).map abs).sum := by
        rw [List.map_map, List.zipWith_map, List.map_zipWith, List.map_zipWith]
        congr 1
        congr 1
        funext x y
        exact (times_bound x y).1
      have s2 : ((φs.map (bounds p emin)).map fun q => q.size + q.err).sum =
          (1 + unit p) * ((List.zipWith (· * ·) (xs.map val) (ys.map val)).map abs).sum + xs.length * (2 ^ emin / 2) := by
        clear k1 k2 k3 eB hmem eV ev ef hlen s1
        show (((List.zipWith times xs ys).map (bounds p emin)).map fun q => q.size + q.err).sum = _
        clear φ φs products hl h1 h2 h1' h2' hh1 hh2
        induction xs generalizing ys with
        | nil => simp
        | cons x' xs ih => cases ys with
          | nil => simp at hl'
          | cons y' ys =>
            simp only [List.zipWith_cons_cons, List.map_cons, List.sum_cons, List.length_cons]
            rw [ih (by simp) ys (by simpa using hl'), (times_bound x' y').2.1]
            push_cast
            ring
      obtain ⟨t1, t2, t3⟩ := times_bound (p := p) (emin := emin) x y
      have sp : (products.map abs).sum = |x.val * y.val| + ((List.zipWith (· * ·) (xs.map val) (ys.map val)).map abs).sum := by
        show ((List.zipWith (· * ·) ((x :: xs).map val) ((y :: ys).map val)).map abs).sum = _
        simp only [List.map_cons, List.zipWith_cons_cons, List.sum_cons]
      rw [hlen, t2, s2] at k2 k3
      rw [t1, s1, ← sp] at k1
      have total : (1 + unit p) ^ xs.length * ((1 + unit p) * |x.val * y.val| + 2 ^ emin / 2 +
          ((1 + unit p) * ((List.zipWith (· * ·) (xs.map val) (ys.map val)).map abs).sum + xs.length * (2 ^ emin / 2))) =
          (1 + unit p) ^ (x :: xs).length * (products.map abs).sum +
          (1 + unit p) ^ ((x :: xs).length - 1) * ((x :: xs).length * (2 ^ emin / 2)) := by
        rw [sp, List.length_cons, Nat.add_sub_cancel, pow_succ]
        push_cast
        ring
      rw [total] at k2 k3
      have good : ∀ Q : Prop, (Q → ∀ z ∈ (x :: xs) ++ (y :: ys), z.isFinite = true) → Good p emin F Q φ := by
        intro Q hQ
        have one : ∀ x' ∈ x :: xs, ∀ y' ∈ y :: ys, Good p emin F Q (times x' y') := fun x' hx y' hy =>
          ⟨⟨hh1 x' hx, fun q => hQ q x' (List.mem_append_left _ hx)⟩,
            ⟨hh2 y' hy, fun q => hQ q y' (List.mem_append_right _ hy)⟩⟩
        refine good_sum _ (fun a ha => ?_) (one x List.mem_cons_self y List.mem_cons_self)
        obtain ⟨x', hx, y', hy, rfl⟩ := hmem a ha
        exact one x' (List.mem_cons_of_mem _ hx) y' (List.mem_cons_of_mem _ hy)
      refine ⟨plain F φ, φ, ev, ef, computes_plain φ, fun w hw hf => ?_, fun hfin hT w hw => ?_⟩
      · have := ((computes_within (Q := False) hp hF φ (good False False.elim)).1 w hw).2.2.1 hf
        rw [eV] at this
        refine this.2.trans ?_
        rw [k1] at k2
        linarith
      · refine ((computes_within (Q := True) hp hF φ (good True fun _ => hfin)).1 w hw).2.2.2 trivial ?_
        have each : ∀ x' ∈ x :: xs, ∀ y' ∈ y :: ys,
            |x'.val * y'.val| ≤ (products.map abs).sum → (bounds p emin (times x' y')).peak ≤ F.top := by
          intro x' hx y' hy hle
          obtain ⟨-, g2, g3⟩ := times_bound (p := p) (emin := emin) x' y'
          rw [g3, g2]
          refine max_le (max_le (held_top (hh1 x' hx) (hfin x' (List.mem_append_left _ hx)))
            (held_top (hh2 y' hy) (hfin y' (List.mem_append_right _ hy)))) (le_trans ?_ hT)
          have hn : 0 ≤ (products.map abs).sum := (abs_nonneg _).trans hle
          have o1 := one_le_growth p xs.length
          rw [List.length_cons, Nat.add_sub_cancel, pow_succ]
          have hη : (0 : ℚ) ≤ 2 ^ emin / 2 := by positivity
          push_cast
          have i1 : (1 + unit p) * |x'.val * y'.val| ≤ (1 + unit p) ^ xs.length * (1 + unit p) * (products.map abs).sum := by
            refine mul_le_mul ?_ hle (abs_nonneg _) (by positivity)
            nlinarith
          have i2 : (2 : ℚ) ^ emin / 2 ≤ (1 + unit p) ^ xs.length * ((xs.length + 1) * (2 ^ emin / 2)) := by
            have : (2 : ℚ) ^ emin / 2 ≤ (xs.length + 1) * (2 ^ emin / 2) := by
              have := mul_nonneg (Nat.cast_nonneg (α := ℚ) xs.length) hη
              linarith
            refine this.trans ?_
            exact le_mul_of_one_le_left (by positivity) o1
          linarith
        have nonneg : ∀ z ∈ (List.zipWith (· * ·) (xs.map val) (ys.map val)).map abs, 0 ≤ z := fun z hz => by
          obtain ⟨r, -, rfl⟩ := List.mem_map.1 hz
          exact abs_nonneg r
        refine k3 F.top (each x List.mem_cons_self y List.mem_cons_self ?_) (fun q hq => ?_) hT
        · rw [sp]
          have := List.sum_nonneg nonneg
          linarith
        · obtain ⟨a, ha, rfl⟩ := List.mem_map.1 hq
          obtain ⟨i, hi, rfl⟩ := List.mem_iff_getElem.1 ha
          have hi' := hi
          rw [List.length_zipWith] at hi'
          rw [List.getElem_zipWith]
          refine each _ (List.mem_cons_of_mem _ (List.getElem_mem _)) _ (List.mem_cons_of_mem _ (List.getElem_mem _)) ?_
          have hm : |(xs[i]'(by omega)).val * (ys[i]'(by omega)).val| ∈
              (List.zipWith (· * ·) (xs.map val) (ys.map val)).map abs := by
            refine List.mem_map.2 ⟨_, ?_, rfl⟩
            refine List.mem_iff_getElem.2 ⟨i, by simpa using hi', ?_⟩
            simp
          have := List.single_le_sum nonneg _ hm
          rw [sp]
          linarith [abs_nonneg (x.val * y.val)]

/-! ### Horner's rule -/

/-- One step of Horner's rule. -/
def hornerStep (x : FVal) (c acc : Formula) : Formula := .add c (.mul acc (.elem x))

theorem horner_bounds (x : FVal) (m : List FVal) (z : FVal) :
    let φ := m.foldr (fun c acc => hornerStep x (.elem c) acc) (.elem z)
    plain F φ = m.foldr (fun c acc => FVal.add F c (FVal.mul F acc x)) z ∧
    exactly φ = (m.map val).foldr (fun c acc => c + acc * x.val) z.val ∧
    (bounds p emin φ).size = (m.map val).foldr (fun c acc => |c| + acc * |x.val|) |z.val| ∧
    0 ≤ (bounds p emin φ).size ∧ 0 ≤ (bounds p emin φ).err ∧
    (bounds p emin φ).size + (bounds p emin φ).err ≤ (1 + unit p) ^ (2 * m.length) *
      ((m.map val).foldr (fun c acc => |c| + acc * |x.val|) |z.val| +
        2 ^ emin / 2 * ∑ i ∈ Finset.range m.length, |x.val| ^ i) := by
  induction m with
  | nil =>
    refine ⟨rfl, rfl, rfl, abs_nonneg z.val, le_rfl, ?_⟩
    show |z.val| + 0 ≤ (1 + unit p) ^ 0 * (|z.val| + 2 ^ emin / 2 * ∑ i ∈ Finset.range 0, |x.val| ^ i)
    simp
  | cons c m ih =>
    obtain ⟨i1, i2, i3, i4, i5, i6⟩ := ih
    simp only [List.foldr_cons, List.map_cons, List.length_cons]
    have hu := unit_pos' p
    have hη : (0 : ℚ) ≤ 2 ^ emin / 2 := by positivity
    generalize m.foldr (fun c acc => hornerStep x (.elem c) acc) (.elem z) = φ at *
    have hS : ∑ i ∈ Finset.range (m.length + 1), |x.val| ^ i = 1 + (∑ i ∈ Finset.range m.length, |x.val| ^ i) * |x.val| := by
      rw [Finset.sum_range_succ', Finset.sum_mul, pow_zero, add_comm]
      simp only [pow_succ]
    have e1 : (bounds p emin (hornerStep x (.elem c) φ)).size = |c.val| + (bounds p emin φ).size * |x.val| := rfl
    have e2 : (bounds p emin (hornerStep x (.elem c) φ)).size + (bounds p emin (hornerStep x (.elem c) φ)).err =
        (1 + unit p) * (|c.val| + ((1 + unit p) * (((bounds p emin φ).size + (bounds p emin φ).err) * |x.val|) +
          2 ^ emin / 2)) := by
      show |c.val| + (bounds p emin φ).size * |x.val| + (0 + ((bounds p emin φ).err * |x.val| + (bounds p emin φ).size * 0 +
        (bounds p emin φ).err * 0 + unit p * ((bounds p emin φ).size * |x.val| + ((bounds p emin φ).err * |x.val| +
        (bounds p emin φ).size * 0 + (bounds p emin φ).err * 0)) + 2 ^ emin / 2) + unit p * (|c.val| + (bounds p emin φ).size *
        |x.val| + (0 + ((bounds p emin φ).err * |x.val| + (bounds p emin φ).size * 0 +
        (bounds p emin φ).err * 0 + unit p * ((bounds p emin φ).size * |x.val| + ((bounds p emin φ).err * |x.val| +
        (bounds p emin φ).size * 0 + (bounds p emin φ).err * 0)) + 2 ^ emin / 2))) + 0) = _
      ring
    have h1 : 0 ≤ (bounds p emin (hornerStep x (.elem c) φ)).size := by rw [e1]; positivity
    have h2 : 0 ≤ (bounds p emin (hornerStep x (.elem c) φ)).err := by
      rw [e1] at e2
      have : (bounds p emin (hornerStep x (.elem c) φ)).err = (1 + unit p) * (|c.val| + ((1 + unit p) *
        (((bounds p emin φ).size + (bounds p emin φ).err) * |x.val|) + 2 ^ emin / 2)) -
        (|c.val| + (bounds p emin φ).size * |x.val|) := by linarith
      rw [this, show (1 + unit p) * (|c.val| + ((1 + unit p) *
        (((bounds p emin φ).size + (bounds p emin φ).err) * |x.val|) + 2 ^ emin / 2)) -
        (|c.val| + (bounds p emin φ).size * |x.val|) = unit p * |c.val| + (1 + unit p) * (2 ^ emin / 2) +
        (2 * unit p + unit p * unit p) * ((bounds p emin φ).size * |x.val|) +
        (1 + unit p) * (1 + unit p) * ((bounds p emin φ).err * |x.val|) by ring]
      positivity
    refine ⟨by show FVal.add F c (FVal.mul F (plain F φ) x) = _; rw [i1],
      by show c.val + exactly φ * x.val = _; rw [i2], by rw [e1, i3], h1, h2, ?_⟩
    rw [e2, hS]
    rw [← i3] at i6 ⊢
    generalize (bounds p emin φ).size = A at *
    generalize (bounds p emin φ).err = E at *
    generalize ∑ i ∈ Finset.range m.length, |x.val| ^ i = S at *
    have hx := abs_nonneg x.val
    have hc := abs_nonneg c.val
    generalize |x.val| = X at *
    generalize |c.val| = C at *
    have j1 := mul_le_mul_of_nonneg_right i6 hx
    have hg := one_le_growth p (2 * m.length)
    have hg2 := one_le_growth p (2 * m.length + 1)
    have j2 : C + 2 ^ emin / 2 ≤ (1 + unit p) ^ (2 * m.length + 1) * (C + 2 ^ emin / 2) :=
      le_mul_of_one_le_left (by positivity) hg2
    have j3 := mul_le_mul_of_nonneg_left j1 (show 0 ≤ 1 + unit p by linarith)
    have j4 : C + ((1 + unit p) * ((A + E) * X) + 2 ^ emin / 2) ≤
        (1 + unit p) ^ (2 * m.length + 1) * (C + A * X + 2 ^ emin / 2 * (1 + S * X)) := by
      rw [pow_succ] at j2 ⊢
      linarith
    have j5 := mul_le_mul_of_nonneg_left j4 (show 0 ≤ 1 + unit p by linarith)
    rw [show 2 * (m.length + 1) = 2 * m.length + 1 + 1 by ring, pow_succ _ (2 * m.length + 1)]
    linarith

/-- C141: `polynomial`.  Whichever products are fused with the sums of Horner's rule, the result satisfies the bound of
C137 if it is finite. -/
theorem C141_polynomial (hp : 1 ≤ p) (hF : IsFmt p emin F) (b : Build) {a : Acc σ FVal} {l : List FVal}
    (h : Elems .one a s l) {f : Acc τ Formula} (h' : Elems .one f t (l.map .elem))
    (hsmall : (l.length : Int) < 2 ^ 63 - 1) (hh : ∀ c ∈ l, Held p emin F c) (hne : l ≠ []) {x : FVal}
    (hx : Held p emin F x) (dflt : FVal) (dflt' : Formula) :
    ∃ v φ, Ops.polynomial b F.scalar.toArith a x s dflt = .ok v ∧
      Ops.polynomial b Formula.arith f (.elem x) t dflt' = .ok φ ∧ φ.Computes F v ∧
      ∀ w, φ.Computes F w → w.isFinite = true →
        |w.val - ∑ i ∈ Finset.range l.length, (l.map val).getD i 0 * x.val ^ i| ≤
          ((1 + unit p) ^ (2 * (l.length - 1)) - 1) *
            ∑ i ∈ Finset.range l.length, |(l.map val).getD i 0| * |x.val| ^ i +
          (1 + unit p) ^ (2 * (l.length - 1)) * (2 ^ emin / 2 * ∑ i ∈ Finset.range (l.length - 1), |x.val| ^ i) := by
  have hne' : l.map Formula.elem ≠ [] := by simpa using hne
  obtain ⟨k1, k2, k3, -, -, k6⟩ := horner_bounds (F := F) (p := p) (emin := emin) x l.dropLast (l.getLast hne)
  have ef : Ops.polynomial b Formula.arith f (.elem x) t dflt' =
      .ok (l.dropLast.foldr (fun c acc => hornerStep x (.elem c) acc) (.elem (l.getLast hne))) := by
    rw [polynomial_eq b _ h' (by simpa using hsmall) hne' _ dflt']
    refine (foldlM_pure (g := fun acc c => hornerStep x c acc) _ _ fun _ _ _ => rfl).trans ?_
    rw [List.getLast_map, ← List.map_dropLast, List.foldl_reverse, List.foldr_map]
  have ev := (polynomial_eq b F.scalar.toArith h hsmall hne x dflt).trans
    (foldlM_pure (g := fun acc c => FVal.add F c (FVal.mul F acc x)) _ _ fun _ _ _ => rfl)
  rw [List.foldl_reverse, ← k1] at ev
  have good : ∀ (m : List FVal) (z : FVal), (∀ c ∈ m, Held p emin F c) → Held p emin F z →
      Good p emin F False (m.foldr (fun c acc => hornerStep x (.elem c) acc) (.elem z)) := by
    intro m z hm hz
    induction m with
    | nil => exact ⟨hz, False.elim⟩
    | cons c m ih =>
      exact ⟨⟨hm c List.mem_cons_self, False.elim⟩, ih fun y hy => hm y (List.mem_cons_of_mem _ hy), ⟨hx, False.elim⟩⟩
  have hg := good l.dropLast (l.getLast hne) (fun c hc => hh c (List.dropLast_subset l hc)) (hh _ (List.getLast_mem hne))
  generalize l.dropLast.foldr (fun c acc => hornerStep x (.elem c) acc) (.elem (l.getLast hne)) = φ at *
  refine ⟨_, φ, ev, ef, computes_plain φ, fun w hw hf => ?_⟩
  have hW := (((computes_within hp hF φ hg).1 w hw).2.2.1 hf).2
  have hm : l.map val ≠ [] := by simpa using hne
  have e1 := horner_foldl (l.map val) hm x.val
  have e2 := horner_foldl ((l.map val).map abs) (by simpa using hne) |x.val|
  rw [List.getLast_map, ← List.map_dropLast, ← List.map_reverse, List.foldl_map] at e2
  rw [List.foldl_reverse] at e1 e2
  rw [List.getLast_map, ← List.map_dropLast] at e1 e2
  rw [List.length_map] at e1
  rw [List.length_map, List.length_map] at e2
  rw [e1] at k2
  rw [e2] at k3 k6
  have e3 : ∑ i ∈ Finset.range l.length, ((l.map val).map abs).getD i 0 * |x.val| ^ i =
      ∑ i ∈ Finset.range l.length, |(l.map val).getD i 0| * |x.val| ^ i := by
    refine Finset.sum_congr rfl fun i hi => ?_
    congr 1
    rw [Finset.mem_range] at hi
    rw [List.getD_eq_getElem _ _ (by simpa using hi), List.getD_eq_getElem _ _ (by simpa using hi), List.getElem_map]
  rw [e3] at k3 k6
  rw [List.length_dropLast] at k6
  rw [k2] at hW
  refine hW.trans ?_
  rw [k3] at k6
  linarith

/-! ### Cases that meet the hypotheses -/

/-- In the format with two binary digits and least exponent -4, `dot_prod((3/2, 1), (3/2, -2))` may be computed with
the first product fused; the polynomial `1 + 3/2 x` at `3/2` too. -/
example : ∃ F, IsFmt 2 (-4) F ∧
    (∃ φ, Ops.dotProd ⟨false, true, false⟩ .one Formula.arith
        (Sample.lit [.elem (.fin false (3 / 2)), .elem (.fin false 1)])
        (Sample.lit [.elem (.fin false (3 / 2)), .elem (.fin true 2)]) () (.num 0) = .ok φ ∧
      φ.Computes F (FVal.fma F (.fin false (3 / 2)) (.fin false (3 / 2)) (FVal.mul F (.fin false 1) (.fin true 2))) ∧
      ∀ w, φ.Computes F w → w.isFinite = true ∧ |w.val - 1 / 4| ≤ 5 / 2) ∧
    ∃ φ, Ops.polynomial ⟨false, true, false⟩ Formula.arith
        (Sample.lit [.elem (.fin false 1), .elem (.fin false (3 / 2))]) (.elem (.fin false (3 / 2))) () (.num 0) = .ok φ ∧
      φ.Computes F (FVal.fma F (.fin false (3 / 2)) (.fin false (3 / 2)) (.fin false 1)) ∧
      ∀ w, φ.Computes F w → w.isFinite = true → |w.val - 13 / 4| ≤ 2 := by
  obtain ⟨rn0, h0⟩ := exists_nearest (p := 2) (by norm_num) (-4)
  obtain ⟨rn, h, ho⟩ := exists_odd h0
  let F : Fmt := ⟨rn, 12, id, fun x _ => x⟩
  have hF : IsFmt 2 (-4) F := ⟨h, ho, ⟨3, 2, by norm_num, by norm_num, by norm_num [F]⟩, by norm_num [F]⟩
  have g1 : ∀ s, Held 2 (-4) F (.fin s (3 / 2)) := fun s =>
    ⟨by norm_num, by norm_num [F], 3, -1, by norm_num, by norm_num, by norm_num⟩
  have g2 : ∀ s, Held 2 (-4) F (.fin s 1) := fun s =>
    ⟨by norm_num, by norm_num [F], 1, 0, by norm_num, by norm_num, by norm_num⟩
  have g3 : ∀ s, Held 2 (-4) F (.fin s 2) := fun s =>
    ⟨by norm_num, by norm_num [F], 1, 1, by norm_num, by norm_num, by norm_num⟩
  have hu : unit 2 = 1 / 4 := by norm_num [unit]
  refine ⟨F, hF, ?_, ?_⟩
  · obtain ⟨v, φ, -, k2, -, k4, k5⟩ := C141_dot (by norm_num) hF ⟨false, true, false⟩
      (Sample.lit_shaped () [.fin false (3 / 2), .fin false 1]) (Sample.lit_shaped () [.fin false (3 / 2), .fin true 2])
      (Sample.lit_shaped () [Formula.elem (.fin false (3 / 2)), Formula.elem (.fin false 1)])
      (Sample.lit_shaped () [Formula.elem (.fin false (3 / 2)), Formula.elem (.fin true 2)])
      (by rintro x (_ | ⟨_, _ | ⟨_, h⟩⟩); exacts [g1 _, g2 _, by cases h])
      (by rintro x (_ | ⟨_, _ | ⟨_, h⟩⟩); exacts [g1 _, g3 _, by cases h]) (by simp) (.fin false 0) (.num 0)
    refine ⟨φ, k2, ?_, fun w hw => ?_⟩
    · cases (show Res.ok (Formula.add (times (.fin false (3 / 2)) (.fin false (3 / 2))) (times (.fin false 1) (.fin true 2))) =
        Res.ok φ from k2)
      simp only [Formula.Computes, Formula.Product, times]
      exact .inr (.inl ⟨_, _, _, ⟨rfl, rfl⟩, ⟨_, _, rfl, rfl, rfl⟩, rfl⟩)
    · have hf := k5 (by rintro x (_ | ⟨_, _ | ⟨_, _ | ⟨_, _ | ⟨_, h⟩⟩⟩⟩) <;> first | rfl | cases h)
        (by rw [hu]; norm_num [val, F]) w hw
      refine ⟨hf, ?_⟩
      have := k4 w hw hf
      rw [hu] at this
      norm_num [val] at this
      refine this.trans ?_
      norm_num
  · obtain ⟨v, φ, -, k2, -, k4⟩ := C141_polynomial (by norm_num) hF ⟨false, true, false⟩
      (Shaped.elems (Sample.lit_shaped () [.fin false 1, .fin false (3 / 2)]))
      (Shaped.elems (Sample.lit_shaped () [Formula.elem (.fin false 1), Formula.elem (.fin false (3 / 2))])) (by norm_num)
      (by rintro x (_ | ⟨_, _ | ⟨_, h⟩⟩); exacts [g2 _, g1 _, by cases h]) (by simp) (g1 false) (.fin false 0) (.num 0)
    refine ⟨φ, k2, ?_, fun w hw hf => ?_⟩
    · cases (show Res.ok (hornerStep (.fin false (3 / 2)) (.elem (.fin false 1)) (.elem (.fin false (3 / 2)))) =
        Res.ok φ from k2)
      simp only [Formula.Computes, Formula.Product, hornerStep]
      exact .inr (.inr ⟨_, _, _, ⟨rfl, rfl⟩, rfl, rfl⟩)
    · have := k4 w hw hf
      rw [hu] at this
      norm_num [val, Finset.sum_range_succ] at this
      refine this.trans ?_
      norm_num

end Spp.Props
