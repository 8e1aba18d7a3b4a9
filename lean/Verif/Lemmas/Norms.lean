import Verif.Spec.Norms
import Verif.Lemmas.Algebra
import Verif.Props.Poly
import Mathlib.Analysis.MeanInequalities
import Mathlib.Analysis.MeanInequalitiesPow

/-
The norms of the library as functions of the list of elements, and inequalities between them.
-/

namespace Spp.Norms
open Spec Finset Algebra

/-- The number a norm returns for the elements `l`. -/
def IsValue (l : List ℝ) (v : ℝ) : Norm → Prop
  | .inf => (l = [] ∧ v = 0) ∨ (∃ x ∈ l, v = |x|) ∧ ∀ x ∈ l, |x| ≤ v
  | .one => v = ∑ i ∈ range l.length, |l.getD i 0|
  | .two => v = Real.sqrt (∑ i ∈ range l.length, (l.getD i 0) ^ 2)
  | .lp p => v = (∑ i ∈ range l.length, |l.getD i 0| ^ (p : ℝ)) ^ (1 / (p : ℝ))

theorem list_sum (l : List ℝ) (f : ℝ → ℝ) : (l.map f).sum = ∑ i ∈ range l.length, f (l.getD i 0) := by
  induction l using List.reverseRecOn with
  | nil => simp
  | append_singleton l x ih =>
    rw [List.map_append, List.sum_append, ih, List.length_append, List.length_singleton, sum_range_succ]
    congr 1
    · refine sum_congr rfl (fun i hi => ?_)
      have hi : i < l.length := by simpa using hi
      rw [getD_lt hi, getD_lt (by simp; omega), List.getElem_append_left hi]
    · simp [List.getD]

theorem exponent_pos {p : Nat} (hp : 0 < p) : (1 : ℝ) / (p : ℝ) ≠ 0 := by
  have : (0 : ℝ) < p := by exact_mod_cast hp
  positivity

theorem call_value (n : Norm) (hn : n.Ok) (b : Build) {d : Dim} {a : Acc (Store ℝ) ℝ} {s : Store ℝ}
    {sh : Nat × Nat} {l : List ℝ} (h : Shaped d a s sh l) : ∃ v, n.call b d a s = .ok v ∧ IsValue l v n := by
  have he := Props.Shaped.elems h
  by_cases hl : l = []
  · subst hl
    cases n with
    | inf => exact ⟨0, (Props.C56_empty b reals he 0 (p := 1) (by decide)).1, .inl ⟨rfl, rfl⟩⟩
    | one => exact ⟨0, (Props.C56_empty b reals he 0 (p := 1) (by decide)).2.1, by simp [IsValue]⟩
    | two => exact ⟨0, (Props.C56_empty b reals he 0 (p := 1) (by decide)).2.2.2.1, by simp [IsValue]⟩
    | lp p =>
      refine ⟨0, (Props.C56_empty b reals he 0 (p := (p : Int)) (by exact_mod_cast hn)).2.2.2.2.2.1, ?_⟩
      show (0 : ℝ) = _
      simp only [List.length_nil, range_zero, sum_empty]
      rw [Real.zero_rpow (exponent_pos hn)]
  · cases n with
    | inf =>
      obtain ⟨v, h1, h2, h3, _⟩ := Props.C56_norm_inf (pow := fun x y : ℝ => x ^ y) (sqrt := Real.sqrt) he hl 0
      exact ⟨v, h1, .inr ⟨h2, h3⟩⟩
    | one =>
      exact ⟨_, (Props.C56_norm1 (pow := fun x y : ℝ => x ^ y) (sqrt := Real.sqrt) he hl 0).1, list_sum l _⟩
    | two =>
      exact ⟨_, (Props.C56_norm2 (pow := fun x y : ℝ => x ^ y) (sqrt := Real.sqrt) b h hl 0).1,
        by rw [list_sum]; rfl⟩
    | lp p =>
      refine ⟨_, (Props.C56_norm_lp (pow := fun x y : ℝ => x ^ y) (sqrt := Real.sqrt) b
        (fun x n => Real.rpow_natCast x n) he hl hn 0).1, ?_⟩
      rw [list_sum]
      show _ = _
      simp only [Real.rpow_natCast]

/-- Scaled norms divide by the norm of the vector of ones. -/
noncomputable def scaledBy (v : ℝ) (k : Nat) : Norm → ℝ
  | .inf => v
  | .one => v / k
  | .two => v / Real.sqrt k
  | .lp p => v / (k : ℝ) ^ (1 / (p : ℝ))

theorem scaled_value (n : Norm) (hn : n.Ok) (b : Build) {d : Dim} {a : Acc (Store ℝ) ℝ} {s : Store ℝ}
    {sh : Nat × Nat} {l : List ℝ} (h : Shaped d a s sh l) (hl : l ≠ []) : ∃ v, IsValue l v n ∧
      n.callScaled b d a s = .ok (scaledBy v l.length n) := by
  have he := Props.Shaped.elems h
  cases n with
  | inf =>
    obtain ⟨v, h1, h2, h3, _⟩ := Props.C56_norm_inf (pow := fun x y : ℝ => x ^ y) (sqrt := Real.sqrt) he hl 0
    exact ⟨v, .inr ⟨h2, h3⟩, h1⟩
  | one =>
    exact ⟨_, list_sum l _, (Props.C56_norm1 (pow := fun x y : ℝ => x ^ y) (sqrt := Real.sqrt) he hl 0).2.1⟩
  | two =>
    exact ⟨_, by rw [IsValue, ← list_sum l (fun x => x ^ 2)],
      (Props.C56_norm2 (pow := fun x y : ℝ => x ^ y) (sqrt := Real.sqrt) b h hl 0).2⟩
  | lp p =>
    refine ⟨_, ?_, (Props.C56_norm_lp (pow := fun x y : ℝ => x ^ y) (sqrt := Real.sqrt) b
        (fun x n => Real.rpow_natCast x n) he hl hn 0).2⟩
    rw [list_sum]
    show _ = _
    simp only [Real.rpow_natCast]

/-! ### Properties of the values -/

theorem value_unique {n : Norm} {l : List ℝ} {v w : ℝ} (hv : IsValue l v n) (hw : IsValue l w n) : v = w := by
  cases n with
  | inf =>
    rcases hv with ⟨h1, h2⟩ | ⟨⟨x, h1, h2⟩, h3⟩
    · rcases hw with ⟨_, h4⟩ | ⟨⟨y, h4, _⟩, _⟩
      · rw [h2, h4]
      · rw [h1] at h4; simp at h4
    · rcases hw with ⟨h4, _⟩ | ⟨⟨y, h4, h5⟩, h6⟩
      · rw [h4] at h1; simp at h1
      · apply le_antisymm
        · rw [h2]; exact h6 x h1
        · rw [h5]; exact h3 y h4
  | one => exact Eq.trans hv (Eq.symm hw)
  | two => exact Eq.trans hv (Eq.symm hw)
  | lp p => exact Eq.trans hv (Eq.symm hw)

theorem two_eq_lp {l : List ℝ} {v : ℝ} : IsValue l v .two ↔ IsValue l v (.lp 2) := by
  show v = _ ↔ v = _
  have : (∑ i ∈ range l.length, |l.getD i 0| ^ ((2 : Nat) : ℝ)) ^ (1 / ((2 : Nat) : ℝ)) =
      Real.sqrt (∑ i ∈ range l.length, (l.getD i 0) ^ 2) := by
    rw [Real.sqrt_eq_rpow]
    congr 1
    · refine sum_congr rfl (fun i _ => ?_)
      rw [Real.rpow_natCast, sq_abs]
  rw [this]

theorem one_eq_lp {l : List ℝ} {v : ℝ} : IsValue l v .one ↔ IsValue l v (.lp 1) := by
  show v = _ ↔ v = _
  simp

theorem mem_getD {l : List ℝ} {x : ℝ} (h : x ∈ l) : ∃ i < l.length, l.getD i 0 = x := by
  obtain ⟨i, hi, rfl⟩ := List.mem_iff_getElem.1 h
  exact ⟨i, hi, getD_lt hi⟩

theorem lp_nonneg {p : Nat} {l : List ℝ} {v : ℝ} (hv : IsValue l v (.lp p)) : 0 ≤ v := by
  rw [show v = _ from hv]
  exact Real.rpow_nonneg (sum_nonneg fun i _ => Real.rpow_nonneg (abs_nonneg _) _) _

theorem nonneg {n : Norm} {l : List ℝ} {v : ℝ} (hv : IsValue l v n) : 0 ≤ v := by
  cases n with
  | inf =>
    rcases hv with ⟨_, h⟩ | ⟨⟨x, _, h⟩, _⟩
    · exact h.ge
    · rw [h]; exact abs_nonneg x
  | one => exact lp_nonneg (one_eq_lp.1 hv)
  | two => exact lp_nonneg (two_eq_lp.1 hv)
  | lp p => exact lp_nonneg hv

theorem lp_zero {p : Nat} (hp : 0 < p) {l : List ℝ} {v : ℝ} (hv : IsValue l v (.lp p)) :
    v = 0 ↔ ∀ x ∈ l, x = 0 := by
  have hp' : (p : ℝ) ≠ 0 := by exact_mod_cast hp.ne'
  have h0 : ∀ i ∈ range l.length, 0 ≤ |l.getD i 0| ^ (p : ℝ) := fun i _ => Real.rpow_nonneg (abs_nonneg _) _
  rw [show v = _ from hv, Real.rpow_eq_zero (sum_nonneg h0) (exponent_pos hp), sum_eq_zero_iff_of_nonneg h0]
  constructor
  · intro h x hx
    obtain ⟨i, hi, rfl⟩ := mem_getD hx
    have := h i (mem_range.2 hi)
    rwa [Real.rpow_eq_zero (abs_nonneg _) hp', abs_eq_zero] at this
  · intro h i hi
    rw [getD_lt (mem_range.1 hi), h _ (List.getElem_mem _), abs_zero, Real.zero_rpow hp']

theorem zero_iff {n : Norm} (hn : n.Ok) {l : List ℝ} {v : ℝ} (hv : IsValue l v n) :
    v = 0 ↔ ∀ x ∈ l, x = 0 := by
  cases n with
  | inf =>
    rcases hv with ⟨h1, h2⟩ | ⟨⟨x, h1, h2⟩, h3⟩
    · subst h1; simp [h2]
    · constructor
      · intro h y hy
        have := h3 y hy
        rw [h] at this
        exact abs_eq_zero.1 (le_antisymm this (abs_nonneg y))
      · intro h
        rw [h2, h x h1, abs_zero]
  | one => exact lp_zero one_pos (one_eq_lp.1 hv)
  | two => exact lp_zero two_pos (two_eq_lp.1 hv)
  | lp p => exact lp_zero hn hv

theorem getD_map_mul (c : ℝ) (l : List ℝ) (i : Nat) : (l.map (fun x => c * x)).getD i 0 = c * l.getD i 0 := by
  by_cases h : i < l.length
  · rw [getD_lt (by simpa using h), getD_lt h, List.getElem_map]
  · simp [List.getD, List.getElem?_eq_none (by omega : l.length ≤ i)]

theorem lp_scale {p : Nat} (hp : 0 < p) {l : List ℝ} {v : ℝ} (c : ℝ) (hv : IsValue l v (.lp p)) :
    IsValue (l.map (fun x => c * x)) (|c| * v) (.lp p) := by
  have hp' : (p : ℝ) ≠ 0 := by exact_mod_cast hp.ne'
  show _ = _
  rw [show v = _ from hv, List.length_map]
  simp only [getD_map_mul, abs_mul]
  rw [sum_congr rfl (fun i _ => Real.mul_rpow (abs_nonneg c) (abs_nonneg _)), ← mul_sum, Real.mul_rpow,
    ← Real.rpow_mul (abs_nonneg c), mul_one_div_cancel hp', Real.rpow_one]
  · exact Real.rpow_nonneg (abs_nonneg c) _
  · exact sum_nonneg fun i _ => Real.rpow_nonneg (abs_nonneg _) _

theorem scale {n : Norm} (hn : n.Ok) {l : List ℝ} {v : ℝ} (c : ℝ) (hv : IsValue l v n) :
    IsValue (l.map (fun x => c * x)) (|c| * v) n := by
  cases n with
  | inf =>
    rcases hv with ⟨h1, h2⟩ | ⟨⟨x, h1, h2⟩, h3⟩
    · subst h1 h2; exact .inl ⟨rfl, mul_zero _⟩
    · refine .inr ⟨⟨c * x, List.mem_map_of_mem h1, by rw [h2, abs_mul]⟩, fun y hy => ?_⟩
      obtain ⟨z, hz, rfl⟩ := List.mem_map.1 hy
      rw [abs_mul]
      exact mul_le_mul_of_nonneg_left (h3 z hz) (abs_nonneg c)
  | one => exact one_eq_lp.2 (lp_scale one_pos c (one_eq_lp.1 hv))
  | two => exact two_eq_lp.2 (lp_scale two_pos c (two_eq_lp.1 hv))
  | lp p => exact lp_scale hn c hv

theorem getD_zip_add {l k : List ℝ} (h : l.length = k.length) (i : Nat) :
    (List.zipWith (· + ·) l k).getD i 0 = l.getD i 0 + k.getD i 0 := by
  by_cases hi : i < l.length
  · rw [getD_zipWith hi (by omega), getD_lt hi, getD_lt (by omega)]
  · simp [List.getD, List.getElem?_eq_none (by omega : l.length ≤ i),
      List.getElem?_eq_none (by omega : k.length ≤ i),
      List.getElem?_eq_none (by simp; omega : (List.zipWith (· + ·) l k).length ≤ i)]

theorem lp_triangle {p : Nat} (hp : 0 < p) {l k : List ℝ} (hl : l.length = k.length) {v w u : ℝ}
    (hv : IsValue l v (.lp p)) (hw : IsValue k w (.lp p))
    (hu : IsValue (List.zipWith (· + ·) l k) u (.lp p)) : u ≤ v + w := by
  rw [show v = _ from hv, show w = _ from hw, show u = _ from hu, List.length_zipWith, ← hl, Nat.min_self]
  simp only [getD_zip_add hl]
  exact Real.Lp_add_le _ _ _ (by exact_mod_cast hp)

theorem triangle {n : Norm} (hn : n.Ok) {l k : List ℝ} (hl : l.length = k.length) {v w u : ℝ}
    (hv : IsValue l v n) (hw : IsValue k w n) (hu : IsValue (List.zipWith (· + ·) l k) u n) : u ≤ v + w := by
  cases n with
  | inf =>
    have h0 := nonneg (n := .inf) hv
    have h1 := nonneg (n := .inf) hw
    rcases hu with ⟨_, h2⟩ | ⟨⟨x, h2, h3⟩, _⟩
    · rw [h2]; linarith
    · obtain ⟨i, hi, rfl⟩ := List.mem_iff_getElem.1 h2
      have hi' : i < l.length ∧ i < k.length := by simpa using hi
      rw [h3, List.getElem_zipWith]
      have b1 : |l[i]| ≤ v := by
        rcases hv with ⟨e, _⟩ | ⟨_, h⟩
        · rw [e] at hi'; simp at hi'
        · exact h _ (List.getElem_mem _)
      have b2 : |k[i]| ≤ w := by
        rcases hw with ⟨e, _⟩ | ⟨_, h⟩
        · rw [e] at hi'; simp at hi'
        · exact h _ (List.getElem_mem _)
      exact (abs_add_le _ _).trans (add_le_add b1 b2)
  | one => exact lp_triangle one_pos hl (one_eq_lp.1 hv) (one_eq_lp.1 hw) (one_eq_lp.1 hu)
  | two => exact lp_triangle two_pos hl (two_eq_lp.1 hv) (two_eq_lp.1 hw) (two_eq_lp.1 hu)
  | lp p => exact lp_triangle hn hl hv hw hu

theorem perm {n : Norm} {l k : List ℝ} (h : l.Perm k) {v : ℝ} (hv : IsValue l v n) : IsValue k v n := by
  cases n with
  | inf =>
    rcases hv with ⟨h1, h2⟩ | ⟨⟨x, h1, h2⟩, h3⟩
    · subst h1; exact .inl ⟨(List.nil_perm.1 h), h2⟩
    · exact .inr ⟨⟨x, h.mem_iff.1 h1, h2⟩, fun y hy => h3 y (h.mem_iff.2 hy)⟩
  | one =>
    show v = _
    rw [show v = _ from hv, ← list_sum l (fun x => |x|), ← list_sum k (fun x => |x|)]
    exact (h.map _).sum_eq
  | two =>
    show v = _
    rw [show v = _ from hv, ← list_sum l (fun x => x ^ 2), ← list_sum k (fun x => x ^ 2), (h.map _).sum_eq]
  | lp p =>
    show v = _
    rw [show v = _ from hv, ← list_sum l (fun x => |x| ^ (p : ℝ)), ← list_sum k (fun x => |x| ^ (p : ℝ)),
      (h.map _).sum_eq]

/-! ### Comparisons -/

theorem inf_le_lp {p : Nat} (hp : 0 < p) {l : List ℝ} {v w : ℝ} (hv : IsValue l v .inf)
    (hw : IsValue l w (.lp p)) : v ≤ w := by
  have hp' : (p : ℝ) ≠ 0 := by exact_mod_cast hp.ne'
  rcases hv with ⟨_, h2⟩ | ⟨⟨x, h1, h2⟩, _⟩
  · rw [h2]; exact lp_nonneg hw
  · obtain ⟨i, hi, rfl⟩ := mem_getD h1
    rw [h2, show w = _ from hw]
    have : |l.getD i 0| ^ (p : ℝ) ≤ ∑ i ∈ range l.length, |l.getD i 0| ^ (p : ℝ) :=
      single_le_sum (f := fun i => |l.getD i 0| ^ (p : ℝ)) (fun i _ => Real.rpow_nonneg (abs_nonneg _) _)
        (mem_range.2 hi)
    calc |l.getD i 0| = (|l.getD i 0| ^ (p : ℝ)) ^ (1 / (p : ℝ)) := by
          rw [← Real.rpow_mul (abs_nonneg _), mul_one_div_cancel hp', Real.rpow_one]
      _ ≤ _ := Real.rpow_le_rpow (Real.rpow_nonneg (abs_nonneg _) _) this (by positivity)

theorem add_rpow_le {x y p : ℝ} (hx : 0 ≤ x) (hy : 0 ≤ y) (hp : 1 ≤ p) : x ^ p + y ^ p ≤ (x + y) ^ p := by
  lift x to NNReal using hx
  lift y to NNReal using hy
  exact_mod_cast NNReal.add_rpow_le_rpow_add x y hp

theorem lp_le_one {p : Nat} (hp : 0 < p) {l : List ℝ} {v w : ℝ} (hv : IsValue l v (.lp p))
    (hw : IsValue l w .one) : v ≤ w := by
  have hp0 : (0 : ℝ) < p := by exact_mod_cast hp
  have hp' : (p : ℝ) ≠ 0 := hp0.ne'
  have hw0 : 0 ≤ w := nonneg hw
  have key : ∀ m, ∑ i ∈ range m, |l.getD i 0| ^ (p : ℝ) ≤ (∑ i ∈ range m, |l.getD i 0|) ^ (p : ℝ) := by
    intro m
    induction m with
    | zero => simp [Real.zero_rpow hp']
    | succ m ih =>
      rw [sum_range_succ, sum_range_succ]
      refine (add_le_add_left ih _).trans ?_
      exact add_rpow_le (sum_nonneg fun _ _ => abs_nonneg _) (abs_nonneg _) (by exact_mod_cast hp)
  rw [show v = _ from hv]
  have := Real.rpow_le_rpow (sum_nonneg fun _ _ => Real.rpow_nonneg (abs_nonneg _) _) (key l.length)
    (show (0 : ℝ) ≤ 1 / p by positivity)
  refine this.trans (le_of_eq ?_)
  rw [← show w = _ from hw, ← Real.rpow_mul hw0, mul_one_div_cancel hp', Real.rpow_one]

theorem lp_le_inf {p : Nat} (hp : 0 < p) {l : List ℝ} {v w : ℝ} (hv : IsValue l v (.lp p))
    (hw : IsValue l w .inf) : v ≤ (l.length : ℝ) ^ (1 / (p : ℝ)) * w := by
  have hp0 : (0 : ℝ) < p := by exact_mod_cast hp
  have hp' : (p : ℝ) ≠ 0 := hp0.ne'
  have hw0 : 0 ≤ w := nonneg hw
  have key : ∑ i ∈ range l.length, |l.getD i 0| ^ (p : ℝ) ≤ l.length * w ^ (p : ℝ) := by
    have : ∀ i ∈ range l.length, |l.getD i 0| ^ (p : ℝ) ≤ w ^ (p : ℝ) := by
      intro i hi
      refine Real.rpow_le_rpow (abs_nonneg _) ?_ hp0.le
      rcases hw with ⟨e, _⟩ | ⟨_, h⟩
      · rw [e] at hi; simp at hi
      · rw [getD_lt (mem_range.1 hi)]; exact h _ (List.getElem_mem _)
    simpa using sum_le_sum this
  rw [show v = _ from hv]
  have := Real.rpow_le_rpow (sum_nonneg fun _ _ => Real.rpow_nonneg (abs_nonneg _) _) key
    (show (0 : ℝ) ≤ 1 / p by positivity)
  refine this.trans (le_of_eq ?_)
  rw [Real.mul_rpow (Nat.cast_nonneg _) (Real.rpow_nonneg hw0 _), ← Real.rpow_mul hw0, mul_one_div_cancel hp',
    Real.rpow_one]

theorem lp_monotone {p : Nat} {l k : List ℝ} (h : List.Forall₂ (fun x y => |x| ≤ |y|) l k) {v w : ℝ}
    (hv : IsValue l v (.lp p)) (hw : IsValue k w (.lp p)) : v ≤ w := by
  rw [show v = _ from hv, show w = _ from hw, ← list_sum l (fun x => |x| ^ (p : ℝ)),
    ← list_sum k (fun x => |x| ^ (p : ℝ))]
  have h0 : ∀ l : List ℝ, 0 ≤ (l.map (fun x => |x| ^ (p : ℝ))).sum := by
    intro l
    refine List.sum_nonneg fun y hy => ?_
    obtain ⟨x, _, rfl⟩ := List.mem_map.1 hy
    exact Real.rpow_nonneg (abs_nonneg _) _
  refine Real.rpow_le_rpow (h0 l) ?_ (by positivity)
  clear hv hw
  induction h with
  | nil => simp
  | cons hx _ ih =>
    rw [List.map_cons, List.map_cons, List.sum_cons, List.sum_cons]
    exact add_le_add (Real.rpow_le_rpow (abs_nonneg _) hx (Nat.cast_nonneg p)) ih

theorem inf_monotone {l k : List ℝ} (h : List.Forall₂ (fun x y => |x| ≤ |y|) l k) {v w : ℝ}
    (hv : IsValue l v .inf) (hw : IsValue k w .inf) : v ≤ w := by
  rcases hv with ⟨_, h2⟩ | ⟨⟨x, h1, h2⟩, h0⟩
  · rw [h2]; exact nonneg hw
  · rw [h2]
    have key : ∀ x ∈ l, ∃ y ∈ k, |x| ≤ |y| := by
      clear hw h1 h2 h0
      induction h with
      | nil => simp
      | cons hx _ ih =>
        intro z hz
        rcases List.mem_cons.1 hz with rfl | hz
        · exact ⟨_, List.mem_cons_self, hx⟩
        · obtain ⟨y, h1, h2⟩ := ih z hz
          exact ⟨y, List.mem_cons_of_mem _ h1, h2⟩
    obtain ⟨y, h3, h4⟩ := key x h1
    rcases hw with ⟨e, _⟩ | ⟨_, h5⟩
    · rw [e] at h3; simp at h3
    · exact h4.trans (h5 y h3)

theorem monotone {n : Norm} (_ : n.Ok) {l k : List ℝ} (h : List.Forall₂ (fun x y => |x| ≤ |y|) l k) {v w : ℝ}
    (hv : IsValue l v n) (hw : IsValue k w n) : v ≤ w := by
  cases n with
  | inf => exact inf_monotone h hv hw
  | one => exact lp_monotone h (one_eq_lp.1 hv) (one_eq_lp.1 hw)
  | two => exact lp_monotone h (two_eq_lp.1 hv) (two_eq_lp.1 hw)
  | lp p => exact lp_monotone h hv hw

theorem inf_append {l k : List ℝ} {v w : ℝ} (hv : IsValue l v .inf) (hw : IsValue k w .inf) :
    IsValue (l ++ k) (max v w) .inf := by
  have v0 : 0 ≤ v := nonneg hv
  have w0 : 0 ≤ w := nonneg hw
  have bv : ∀ x ∈ l, |x| ≤ v := by
    rcases hv with ⟨e, _⟩ | ⟨_, h⟩
    · rw [e]; simp
    · exact h
  have bw : ∀ x ∈ k, |x| ≤ w := by
    rcases hw with ⟨e, _⟩ | ⟨_, h⟩
    · rw [e]; simp
    · exact h
  by_cases hemp : l ++ k = []
  · rw [List.append_eq_nil_iff] at hemp
    obtain ⟨rfl, rfl⟩ := hemp
    rcases hv with ⟨_, e1⟩ | ⟨⟨x, h, _⟩, _⟩
    · rcases hw with ⟨_, e2⟩ | ⟨⟨x, h, _⟩, _⟩
      · exact .inl ⟨rfl, by rw [e1, e2, max_self]⟩
      · simp at h
    · simp at h
  · refine .inr ⟨?_, ?_⟩
    · rcases hv with ⟨e, e1⟩ | ⟨⟨x, h, hx⟩, _⟩
      · rcases hw with ⟨e', _⟩ | ⟨⟨x, h, hx⟩, _⟩
        · rw [e, e'] at hemp; simp at hemp
        · exact ⟨x, List.mem_append_right _ h, by rw [e1, max_eq_right w0, hx]⟩
      · rcases le_total w v with hle | hle
        · exact ⟨x, List.mem_append_left _ h, by rw [max_eq_left hle, hx]⟩
        · rcases hw with ⟨_, e2⟩ | ⟨⟨y, h', hy⟩, _⟩
          · exact ⟨x, List.mem_append_left _ h, by rw [e2, max_eq_left v0, hx]⟩
          · exact ⟨y, List.mem_append_right _ h', by rw [max_eq_right hle, hy]⟩
    · intro x hx
      rcases List.mem_append.1 hx with h | h
      · exact (bv x h).trans (le_max_left _ _)
      · exact (bw x h).trans (le_max_right _ _)

theorem lp_pow {p : Nat} (hp : 0 < p) {l : List ℝ} {v : ℝ} (hv : IsValue l v (.lp p)) :
    v ^ p = (l.map (fun x => |x| ^ p)).sum := by
  have hp' : (p : ℝ) ≠ 0 := by exact_mod_cast hp.ne'
  rw [show v = _ from hv, ← Real.rpow_natCast _ p, ← Real.rpow_mul
    (sum_nonneg fun _ _ => Real.rpow_nonneg (abs_nonneg _) _), one_div_mul_cancel hp', Real.rpow_one, list_sum]
  exact sum_congr rfl (fun i _ => Real.rpow_natCast _ _)

theorem lp_const {p : Nat} (hp : 0 < p) {l : List ℝ} {c v : ℝ} (hc : ∀ x ∈ l, x = c)
    (hv : IsValue l v (.lp p)) : v = (l.length : ℝ) ^ (1 / (p : ℝ)) * |c| := by
  have hp' : (p : ℝ) ≠ 0 := by exact_mod_cast hp.ne'
  have e : ∑ i ∈ range l.length, |l.getD i 0| ^ (p : ℝ) = l.length * |c| ^ (p : ℝ) := by
    rw [sum_congr rfl (fun i hi => by
      rw [getD_lt (mem_range.1 hi), hc _ (List.getElem_mem _)])]
    simp
  rw [show v = _ from hv, e, Real.mul_rpow (Nat.cast_nonneg _) (Real.rpow_nonneg (abs_nonneg c) _),
    ← Real.rpow_mul (abs_nonneg c), mul_one_div_cancel hp', Real.rpow_one]

theorem scaled_const {n : Norm} (hn : n.Ok) {l : List ℝ} (hne : l ≠ []) {c v : ℝ} (hc : ∀ x ∈ l, x = c)
    (hv : IsValue l v n) : (scaledBy v l.length n) = |c| := by
  have hpos : (0 : ℝ) < l.length := by exact_mod_cast List.length_pos_iff.2 hne
  cases n with
  | inf =>
    rcases hv with ⟨e, _⟩ | ⟨⟨x, h1, h2⟩, _⟩
    · exact absurd e hne
    · show v = _
      rw [h2, hc x h1]
  | one =>
    show v / _ = _
    rw [lp_const one_pos hc (one_eq_lp.1 hv)]
    simp [hpos.ne']
  | two =>
    show v / _ = _
    rw [lp_const two_pos hc (two_eq_lp.1 hv), Real.sqrt_eq_rpow]
    rw [show (((2 : Nat) : ℝ)) = 2 by norm_num]
    exact mul_div_cancel_left₀ _ (Real.rpow_pos_of_pos hpos _).ne'
  | lp p =>
    show v / _ = _
    rw [lp_const hn hc hv]
    exact mul_div_cancel_left₀ _ (Real.rpow_pos_of_pos hpos _).ne'

/-! ### Rearrangements -/

theorem of_perm {L : List (Res ℝ)} {l : List ℝ} (h : L.Perm (l.map Res.ok)) : ∃ k, L = k.map Res.ok ∧ l.Perm k := by
  have g : ∀ x ∈ L, ∃ y, x = Res.ok y := by
    intro x hx
    obtain ⟨y, _, rfl⟩ := List.mem_map.1 (h.mem_iff.1 hx)
    exact ⟨y, rfl⟩
  refine ⟨L.map (Algebra.val id), ?_, ?_⟩
  · rw [List.map_map]
    conv_lhs => rw [← List.map_id L]
    refine List.map_congr_left fun x hx => ?_
    obtain ⟨y, rfl⟩ := g x hx
    rfl
  · have := (h.map (Algebra.val id)).symm
    rw [List.map_map] at this
    refine List.Perm.trans (List.Perm.of_eq ?_) this
    conv_lhs => rw [← List.map_id l]
    rfl

theorem transposed_values {M : Mat (Res ℝ)} {l : List ℝ} (h : M.flat = l.map Res.ok) :
    ∃ k, M.transposed.flat = k.map Res.ok ∧ l.Perm k := by
  have g := (flat_good (M := M)).1 (by
    rw [h]; intro x hx; obtain ⟨y, _, rfl⟩ := List.mem_map.1 hx; exact ⟨y, rfl⟩)
  have g' := (flat_good (M := M.transposed)).2 (fun i hi j hj => g j hj i hi)
  have e : M.transposed.flat = (M.transposed.flat.map (Algebra.val id)).map Res.ok := by
    rw [List.map_map]
    conv_lhs => rw [← List.map_id M.transposed.flat]
    refine List.map_congr_left fun x hx => ?_
    obtain ⟨y, rfl⟩ := g' x hx
    rfl
  refine ⟨_, e, List.perm_iff_count.2 fun c => ?_⟩
  set k := M.transposed.flat.map (Algebra.val id)
  have key : ∀ l : List ℝ, (l.count c : ℤ) = S (fun x : ℝ => if x = c then (1 : ℤ) else 0) (l.map Res.ok) := by
    intro l
    induction l with
    | nil => rfl
    | cons x l ih =>
      rw [List.map_cons, show S (fun x : ℝ => if x = c then (1 : ℤ) else 0) (Res.ok x :: l.map Res.ok) =
        (if x = c then (1 : ℤ) else 0) + S (fun x : ℝ => if x = c then (1 : ℤ) else 0) (l.map Res.ok) from
        List.sum_cons, ← ih, List.count_cons]
      by_cases hx : x = c
      · simp [hx, add_comm]
      · simp [hx]
  have := key l
  rw [← h, ← S_transposed, e, ← key] at this
  exact_mod_cast this

end Spp.Norms
