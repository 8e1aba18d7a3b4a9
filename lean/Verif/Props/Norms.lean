import Verif.Lemmas.Norms
import Verif.Props.Algebra

/-
The norms of the library are norms (C115), over exact real numbers.
-/

set_option linter.unusedSectionVars false

namespace Spp.Props
open Spec Finset

variable {b : Build} {s : Store ℝ} {d : Dim} {n : Norm}

theorem norm_core (hn : n.Ok) (hs : Store.Ok s) {t : Tm ℝ d} (ht : Accepted s t) {l : List ℝ} (hl : Values s t l) :
    ∃ v, NormIs n b s t v ∧ Norms.IsValue l v n := by
  obtain ⟨a, h1, h2, _⟩ := elems_of_expression b hs ht.1 ht.2 hl
  obtain ⟨v, h3, h4⟩ := Norms.call_value n hn b h2
  exact ⟨v, ⟨a, h1, h3⟩, h4⟩

theorem norm_unique {t : Tm ℝ d} {v w : ℝ} (hv : NormIs n b s t v) (hw : NormIs n b s t w) : v = w := by
  obtain ⟨a, h1, h2⟩ := hv
  obtain ⟨a', h3, h4⟩ := hw
  rw [h1] at h3; cases h3
  rw [h2] at h4; cases h4
  rfl

theorem norm_value (hn : n.Ok) (hs : Store.Ok s) {t : Tm ℝ d} (ht : Accepted s t) {l : List ℝ} (hl : Values s t l)
    {v : ℝ} (hv : NormIs n b s t v) : Norms.IsValue l v n := by
  obtain ⟨w, h1, h2⟩ := norm_core (b := b) hn hs ht hl
  rw [norm_unique hv h1]
  exact h2

theorem norm_of (hn : n.Ok) (hs : Store.Ok s) {t : Tm ℝ d} (ht : Accepted s t) {l : List ℝ} (hl : Values s t l)
    {v : ℝ} (hv : Norms.IsValue l v n) : NormIs n b s t v := by
  obtain ⟨w, h1, h2⟩ := norm_core (b := b) hn hs ht hl
  rw [Norms.value_unique hv h2]
  exact h1

/-! ### The elements of composite objects -/

theorem values_zip {f : ℝ → ℝ → Res ℝ} {g : ℝ → ℝ → ℝ} (hf : ∀ x y, f x y = .ok (g x y)) {t u : Tm ℝ d}
    (hd : (t.meaning s).dims = (u.meaning s).dims) {l k : List ℝ} (hl : Values s t l) (hk : Values s u k) :
    Values s (.binary f t u) (List.zipWith g l k) := by
  have e : ((Tm.binary f t u).meaning s).flat = _ := flat_zip f hd
  show _ = _
  rw [e, show (t.meaning s).flat = _ from hl, show (u.meaning s).flat = _ from hk]
  clear e hl hk
  induction l generalizing k with
  | nil => rfl
  | cons x l ih =>
    cases k with
    | nil => rfl
    | cons y k => simp [ih, hf]

theorem values_map {f : ℝ → Res ℝ} {g : ℝ → ℝ} (hf : ∀ x, f x = .ok (g x)) {t u : Tm ℝ d}
    (hu : u.meaning s = (t.meaning s).map f) {l : List ℝ} (hl : Values s t l) : Values s u (l.map g) := by
  show _ = _
  rw [hu, flat_map, show (t.meaning s).flat = _ from hl]
  simp [hf]

theorem values_len {t u : Tm ℝ d} (hd : (t.meaning s).dims = (u.meaning s).dims) {l k : List ℝ}
    (hl : Values s t l) (hk : Values s u k) : l.length = k.length := by
  have := flat_len_eq hd
  rw [show (t.meaning s).flat = _ from hl, show (u.meaning s).flat = _ from hk] at this
  simpa using this

/-! ### Norms -/

/-- C115: every norm of an object whose elements can be read returns exactly one number. -/
theorem C115_returns (hn : n.Ok) (hs : Store.Ok s) {t : Tm ℝ d} (ht : Accepted s t) {l : List ℝ}
    (hl : Values s t l) : ∃! v, NormIs n b s t v := by
  obtain ⟨v, h1, _⟩ := norm_core (b := b) hn hs ht hl
  exact ⟨v, h1, fun w hw => norm_unique hw h1⟩

/-- C115: a norm is never negative, and zero exactly when every element is zero. -/
theorem C115_definite (hn : n.Ok) (hs : Store.Ok s) {t : Tm ℝ d} (ht : Accepted s t) {l : List ℝ}
    (hl : Values s t l) {v : ℝ} (hv : NormIs n b s t v) : 0 ≤ v ∧ (v = 0 ↔ ∀ x ∈ l, x = 0) := by
  have := norm_value hn hs ht hl hv
  exact ⟨Norms.nonneg this, Norms.zero_iff hn this⟩

/-- C115: `norm(c * A)` and `norm(A * c)` are `|c| * norm(A)`, and `norm(-A)` is `norm(A)`. -/
theorem C115_scale (hn : n.Ok) (hs : Store.Ok s) {t : Tm ℝ d} (ht : Accepted s t) {l : List ℝ}
    (hl : Values s t l) {v : ℝ} (hv : NormIs n b s t v) (c : ℝ) :
    NormIs n b s (.scalarL reals.mul c t) (|c| * v) ∧ NormIs n b s (.scalarR reals.mul t c) (|c| * v) ∧
    NormIs n b s (.unary reals.neg t) v := by
  have h := norm_value hn hs ht hl hv
  refine ⟨?_, ?_, ?_⟩
  · exact norm_of hn hs (t := .scalarL reals.mul c t) ht (values_map (g := fun x => c * x) (fun x => rfl) rfl hl)
      (Norms.scale hn c h)
  · exact norm_of hn hs (t := .scalarR reals.mul t c) ht
      (values_map (f := fun y => reals.mul y c) (g := fun x => c * x)
        (fun x => by show Res.ok (x * c) = _; rw [mul_comm]) rfl hl) (Norms.scale hn c h)
  · have := Norms.scale hn (-1) h
    rw [abs_neg, abs_one, one_mul] at this
    exact norm_of hn hs (t := .unary reals.neg t) ht
      (values_map (f := reals.neg) (g := fun x => -1 * x)
        (fun x => by show Res.ok (-x) = _; rw [neg_one_mul]) rfl hl) this

/-- C115: the triangle inequality, `norm(A + B) <= norm(A) + norm(B)`. -/
theorem C115_triangle (hn : n.Ok) (hs : Store.Ok s) {t u : Tm ℝ d} (ht : Accepted s t) (hu : Accepted s u)
    (hd : (t.meaning s).dims = (u.meaning s).dims) {l k : List ℝ} (hl : Values s t l) (hk : Values s u k) {v w : ℝ}
    (hv : NormIs n b s t v) (hw : NormIs n b s u w) :
    ∃ z, NormIs n b s (.binary reals.add t u) z ∧ z ≤ v + w := by
  have hb : Accepted s (.binary reals.add t u) := ⟨⟨ht.1, hu.1⟩, ht.2, hu.2, hd⟩
  obtain ⟨z, h1, h2⟩ := norm_core (b := b) hn hs hb (values_zip (g := (· + ·)) (fun _ _ => rfl) hd hl hk)
  exact ⟨z, h1, Norms.triangle hn (values_len hd hl hk) (norm_value hn hs ht hl hv) (norm_value hn hs hu hk hw) h2⟩

/-- C115: `norm(A - B)` is a distance: symmetric, zero only for objects with equal elements, at most
`norm(A) + norm(B)`, at least the difference of the norms. -/
theorem C115_distance (hn : n.Ok) (hs : Store.Ok s) {t u : Tm ℝ d} (ht : Accepted s t) (hu : Accepted s u)
    (hd : (t.meaning s).dims = (u.meaning s).dims) {l k : List ℝ} (hl : Values s t l) (hk : Values s u k) {v w : ℝ}
    (hv : NormIs n b s t v) (hw : NormIs n b s u w) :
    ∃ z, NormIs n b s (.binary reals.sub t u) z ∧ NormIs n b s (.binary reals.sub u t) z ∧
      (z = 0 ↔ l = k) ∧ z ≤ v + w ∧ |v - w| ≤ z := by
  have hlen := values_len hd hl hk
  have hb : Accepted s (.binary reals.sub t u) := ⟨⟨ht.1, hu.1⟩, ht.2, hu.2, hd⟩
  have hb' : Accepted s (.binary reals.sub u t) := ⟨⟨hu.1, ht.1⟩, hu.2, ht.2, hd.symm⟩
  have V := values_zip (f := reals.sub) (g := (· - ·)) (fun _ _ => rfl) hd hl hk
  have V' := values_zip (f := reals.sub) (g := (· - ·)) (fun _ _ => rfl) hd.symm hk hl
  obtain ⟨z, h1, h2⟩ := norm_core (b := b) hn hs hb V
  have hV := norm_value hn hs ht hl hv
  have hW := norm_value hn hs hu hk hw
  have hz' := Norms.scale hn (-1) h2
  rw [abs_neg, abs_one, one_mul] at hz'
  have e' : (List.zipWith (· - ·) l k).map (fun x => -1 * x) = List.zipWith (· - ·) k l := by
    clear V V' hl hk h1 h2 hV hW hz'
    induction l generalizing k with
    | nil => cases k <;> simp at hlen ⊢
    | cons x l ih =>
      cases k with
      | nil => simp at hlen
      | cons y k =>
        simp only [List.length_cons, Nat.add_right_cancel_iff] at hlen
        simp only [List.zipWith_cons_cons, List.map_cons, ih hlen]
        congr 1
        ring
  rw [e'] at hz'
  have e1 : List.zipWith (· + ·) (List.zipWith (· - ·) l k) k = l := by
    clear V V' hl hk h1 h2 hV hW hz' e'
    induction l generalizing k with
    | nil => simp
    | cons x l ih =>
      cases k with
      | nil => simp at hlen
      | cons y k =>
        simp only [List.length_cons, Nat.add_right_cancel_iff] at hlen
        simp [ih hlen]
  have e2 : List.zipWith (· + ·) (List.zipWith (· - ·) k l) l = k := by
    clear V V' hl hk h1 h2 hV hW hz' e' e1
    induction l generalizing k with
    | nil => cases k <;> simp at hlen ⊢
    | cons x l ih =>
      cases k with
      | nil => simp at hlen
      | cons y k =>
        simp only [List.length_cons, Nat.add_right_cancel_iff] at hlen
        simp [ih hlen]
  have e3 : List.zipWith (· + ·) l (k.map (fun x => -1 * x)) = List.zipWith (· - ·) l k := by
    rw [List.zipWith_map_right]
    congr 1
    funext x y
    ring
  refine ⟨z, h1, norm_of hn hs hb' V' hz', ?_, ?_, ?_⟩
  · rw [Norms.zero_iff hn h2]
    clear V V' hl hk h1 h2 hV hW hz' e' e1 e2 e3
    induction l generalizing k with
    | nil => cases k <;> simp at hlen ⊢
    | cons x l ih =>
      cases k with
      | nil => simp at hlen
      | cons y k =>
        simp only [List.length_cons, Nat.add_right_cancel_iff] at hlen
        simp [ih hlen, sub_eq_zero]
  · have hneg := Norms.scale hn (-1) hW
    rw [abs_neg, abs_one, one_mul] at hneg
    exact Norms.triangle hn (by simpa using hlen) hV hneg (e3.symm ▸ h2)
  · rw [abs_le]
    have t1 := Norms.triangle hn (by simp [hlen]) h2 hW (e1.symm ▸ hV)
    have t2 := Norms.triangle hn (by simp [hlen]) hz' hV (e2.symm ▸ hW)
    constructor <;> linarith

/-! ### Inner products -/

/-- C115: the Cauchy-Schwarz inequality, `|dot_prod(A, B)| <= norm2(A) * norm2(B)`, and its counterpart
`|dot_prod(A, B)| <= norm1(A) * norm_inf(B)`; and `dot_prod(A, A)` is the square of `norm2(A)`. -/
theorem C115_dot (hs : Store.Ok s) {t u : Tm ℝ d} (ht : Accepted s t) (hu : Accepted s u)
    (hd : (t.meaning s).dims = (u.meaning s).dims) {l k : List ℝ} (hl : Values s t l) (hk : Values s u k)
    {z : ℝ} (hz : DotIs b reals.toArith s t u z) :
    (∀ v w, NormIs .two b s t v → NormIs .two b s u w → |z| ≤ v * w) ∧
    (∀ v w, NormIs .one b s t v → NormIs .inf b s u w → |z| ≤ v * w) ∧
    ∀ v q, NormIs .two b s t v → DotIs b reals.toArith s t t q → q = v ^ 2 := by
  have hlen := values_len hd hl hk
  have key : ∀ {t u : Tm ℝ d}, Accepted s t → Accepted s u → (t.meaning s).dims = (u.meaning s).dims →
      ∀ {l k : List ℝ}, Values s t l → Values s u k → ∀ {z : ℝ}, DotIs b reals.toArith s t u z →
      z = ∑ i ∈ range l.length, l.getD i 0 * k.getD i 0 := by
    intro t u ht hu hd l k hl hk z hz
    have hlen := values_len hd hl hk
    obtain ⟨_, _, e⟩ := dot_tm (C114_exact ℝ (fun x y => x ^ y) Real.sqrt) hs ht hu hd hz
    refine e.trans ?_
    rw [show (t.meaning s).flat = _ from hl, show (u.meaning s).flat = _ from hk, List.length_map]
    refine sum_congr rfl (fun i hi => ?_)
    have hi : i < l.length := mem_range.1 hi
    rw [getD_lt (by simpa using hi), getD_lt (by simpa using (by omega : i < k.length)), List.getElem_map,
      List.getElem_map, getD_lt hi, getD_lt (by omega)]
    rfl
  have e := key ht hu hd hl hk hz
  refine ⟨fun v w hv hw => ?_, fun v w hv hw => ?_, fun v q hv hq => ?_⟩
  · have h1 := norm_value (n := .two) trivial hs ht hl hv
    have h2 := norm_value (n := .two) trivial hs hu hk hw
    have c := sum_mul_sq_le_sq_mul_sq (range l.length) (fun i => l.getD i 0) (fun i => k.getD i 0)
    rw [show v = _ from h1, show w = _ from h2, ← hlen, ← Real.sqrt_mul (sum_nonneg fun _ _ => sq_nonneg _)]
    refine Real.le_sqrt_of_sq_le ?_
    rw [sq_abs, e]
    exact c
  · have h1 := norm_value (n := .one) trivial hs ht hl hv
    have h2 := norm_value (n := .inf) trivial hs hu hk hw
    rw [e, show v = _ from h1, sum_mul]
    refine (abs_sum_le_sum_abs _ _).trans (sum_le_sum fun i hi => ?_)
    have hi : i < l.length := mem_range.1 hi
    rw [abs_mul]
    refine mul_le_mul_of_nonneg_left ?_ (abs_nonneg _)
    rcases h2 with ⟨e0, _⟩ | ⟨_, h⟩
    · rw [e0] at hlen; simp only [List.length_nil] at hlen; omega
    · rw [getD_lt (by omega : i < k.length)]; exact h _ (List.getElem_mem _)
  · have h1 := norm_value (n := .two) trivial hs ht hl hv
    rw [key ht ht rfl hl hl hq, show v = _ from h1, Real.sq_sqrt (sum_nonneg fun _ _ => sq_nonneg _)]
    exact sum_congr rfl (fun i _ => by ring)

/-! ### Comparison of norms -/

/-- C115: `norm_inf(A) <= norm_lp(A, p) <= norm1(A)` and `norm_lp(A, p) <= size^(1/p) * norm_inf(A)`;
`norm_lp(A, 1)` is `norm1(A)` and `norm_lp(A, 2)` is `norm2(A)`. -/
theorem C115_compare (hs : Store.Ok s) {t : Tm ℝ d} (ht : Accepted s t) {l : List ℝ} (hl : Values s t l) {p : Nat}
    (hp : 0 < p) {v x w : ℝ} (hv : NormIs (.lp p) b s t v) (hx : NormIs .one b s t x) (hw : NormIs .inf b s t w) :
    w ≤ v ∧ v ≤ x ∧ v ≤ (l.length : ℝ) ^ (1 / (p : ℝ)) * w ∧
    NormIs (.lp 1) b s t x ∧ ∀ y, NormIs (.lp 2) b s t y ↔ NormIs .two b s t y := by
  have h1 := norm_value (n := .lp p) hp hs ht hl hv
  have h2 := norm_value (n := .one) trivial hs ht hl hx
  have h3 := norm_value (n := .inf) trivial hs ht hl hw
  refine ⟨Norms.inf_le_lp hp h3 h1, Norms.lp_le_one hp h1 h2, Norms.lp_le_inf hp h1 h3,
    norm_of (n := .lp 1) one_pos hs ht hl (Norms.one_eq_lp.1 h2), fun y => ⟨fun h => ?_, fun h => ?_⟩⟩
  · exact norm_of (n := .two) trivial hs ht hl (Norms.two_eq_lp.2 (norm_value (n := .lp 2) two_pos hs ht hl h))
  · exact norm_of (n := .lp 2) two_pos hs ht hl (Norms.two_eq_lp.1 (norm_value (n := .two) trivial hs ht hl h))

/-- C115: `norm1(A) <= sqrt(size) * norm2(A)`. -/
theorem C115_one_two (hs : Store.Ok s) {t : Tm ℝ d} (ht : Accepted s t) {l : List ℝ} (hl : Values s t l) {v x : ℝ}
    (hv : NormIs .two b s t v) (hx : NormIs .one b s t x) : x ≤ Real.sqrt l.length * v := by
  have h1 := norm_value (n := .two) trivial hs ht hl hv
  have h2 := norm_value (n := .one) trivial hs ht hl hx
  rw [show v = _ from h1, ← Real.sqrt_mul (Nat.cast_nonneg _)]
  refine Real.le_sqrt_of_sq_le ?_
  rw [show x = _ from h2]
  have c := sum_mul_sq_le_sq_mul_sq (range l.length) (fun _ => (1 : ℝ)) (fun i => |l.getD i 0|)
  simpa using c

/-- C115: elements that are smaller in magnitude have a smaller norm. -/
theorem C115_monotone (hn : n.Ok) (hs : Store.Ok s) {t u : Tm ℝ d} (ht : Accepted s t) (hu : Accepted s u)
    {l k : List ℝ} (hl : Values s t l) (hk : Values s u k) (hle : List.Forall₂ (fun x y => |x| ≤ |y|) l k)
    {v w : ℝ} (hv : NormIs n b s t v) (hw : NormIs n b s u w) : v ≤ w :=
  Norms.monotone hn hle (norm_value hn hs ht hl hv) (norm_value hn hs hu hk hw)

/-! ### Rearranged and composite objects -/

/-- C115: a norm does not change when the elements are rearranged, -/
theorem C115_rearranged (hn : n.Ok) (hs : Store.Ok s) {d' : Dim} {t : Tm ℝ d} {u : Tm ℝ d'} (ht : Accepted s t)
    (hu : Accepted s u) {l k : List ℝ} (hl : Values s t l) (hk : Values s u k) (h : l.Perm k) {v : ℝ}
    (hv : NormIs n b s t v) : NormIs n b s u v :=
  norm_of hn hs hu hk (Norms.perm h (norm_value hn hs ht hl hv))

/-- C115: as by transposition, -/
theorem C115_transposed (hn : n.Ok) (hs : Store.Ok s) {t : Tm ℝ .two} (ht : Accepted s t) {l : List ℝ}
    (hl : Values s t l) {v : ℝ} (hv : NormIs n b s t v) : NormIs n b s (.transpose t) v := by
  obtain ⟨k, h1, h2⟩ := Norms.transposed_values (M := t.meaning s) hl
  exact C115_rearranged hn hs ht (u := .transpose t) ht hl h1 h2 hv

/-- C115: or by a slice that selects every element once. -/
theorem C115_permuted (hn : n.Ok) (hs : Store.Ok s) {t : Tm ℝ .one} {r : SliceReq}
    (ht : Accepted s (.view (.slice r) t))
    (hr : (selection ((t.meaning s).dims.1 : Nat) r).Perm (upto ((t.meaning s).dims.1 : Nat))) {l : List ℝ}
    (hl : Values s t l) {v : ℝ} (hv : NormIs n b s t v) : NormIs n b s (.view (.slice r) t) v := by
  have h := Algebra.S_picks (l := t.meaning s) hr
  obtain ⟨k, h1, h2⟩ := Norms.of_perm (h.trans (List.Perm.of_eq hl))
  exact C115_rearranged hn hs ⟨ht.1.1, ht.2.1⟩ ht hl h1 h2 hv

/-- C115: the norms of `merge(A, B)` from those of `A` and `B`: the maximum for `norm_inf`, the sum for
`norm1`, and for `norm_lp` the `p`-th powers add up. -/
theorem C115_merge (hs : Store.Ok s) {t u : Tm ℝ .one} (ht : Accepted s t) (hu : Accepted s u)
    (hm : Accepted s (.merge t u)) {l k : List ℝ} (hl : Values s t l) (hk : Values s u k) {v w : ℝ} :
    (NormIs .inf b s t v → NormIs .inf b s u w → NormIs .inf b s (.merge t u) (max v w)) ∧
    (NormIs .one b s t v → NormIs .one b s u w → NormIs .one b s (.merge t u) (v + w)) ∧
    ∀ p : Nat, 0 < p → NormIs (.lp p) b s t v → NormIs (.lp p) b s u w →
      ∃ z, NormIs (.lp p) b s (.merge t u) z ∧ z ^ p = v ^ p + w ^ p := by
  have V : Values s (.merge t u) (l ++ k) := by
    refine Eq.trans ?_ (List.map_append).symm
    exact congrArg₂ (fun x y : List (Res ℝ) => x ++ y) hl hk
  refine ⟨fun h1 h2 => ?_, fun h1 h2 => ?_, fun p hp h1 h2 => ?_⟩
  · exact norm_of (n := .inf) trivial hs hm V (Norms.inf_append (norm_value (n := .inf) trivial hs ht hl h1)
      (norm_value (n := .inf) trivial hs hu hk h2))
  · refine norm_of (n := .one) trivial hs hm V ?_
    have e1 : v = _ := norm_value (n := .one) trivial hs ht hl h1
    have e2 : w = _ := norm_value (n := .one) trivial hs hu hk h2
    show _ = _
    rw [e1, e2, ← Norms.list_sum l (fun x => |x|), ← Norms.list_sum k (fun x => |x|),
      ← Norms.list_sum (l ++ k) (fun x => |x|), List.map_append, List.sum_append]
  · obtain ⟨z, h3, h4⟩ := norm_core (b := b) (n := .lp p) hp hs hm V
    refine ⟨z, h3, ?_⟩
    rw [Norms.lp_pow hp h4, Norms.lp_pow hp (norm_value (n := .lp p) hp hs ht hl h1),
      Norms.lp_pow hp (norm_value (n := .lp p) hp hs hu hk h2), List.map_append, List.sum_append]

/-! ### Scaled norms -/

/-- C115: scaled norms are averages: `norm1_scaled(A) <= norm2_scaled(A) <= norm_inf(A)`,
`norm_lp_scaled(A, p) <= norm_inf(A)`, and all of them are `|c|` for an object whose elements are all
`c`. -/
theorem C115_scaled (hs : Store.Ok s) {t : Tm ℝ d} (ht : Accepted s t) {l : List ℝ} (hl : Values s t l)
    (hne : l ≠ []) :
    (∃ x v w, ScaledIs .one b s t x ∧ ScaledIs .two b s t v ∧ NormIs .inf b s t w ∧ x ≤ v ∧ v ≤ w) ∧
    (∀ p : Nat, 0 < p → ∃ v w, ScaledIs (.lp p) b s t v ∧ NormIs .inf b s t w ∧ v ≤ w) ∧
    ∀ c, (∀ x ∈ l, x = c) → ∀ n : Norm, n.Ok → ScaledIs n b s t |c| := by
  obtain ⟨a, h1, h2, _⟩ := elems_of_expression b hs ht.1 ht.2 hl
  have hpos : (0 : ℝ) < l.length := by exact_mod_cast List.length_pos_iff.2 hne
  have hroot : ∀ p : Nat, 0 < (l.length : ℝ) ^ (1 / (p : ℝ)) := fun p => Real.rpow_pos_of_pos hpos _
  obtain ⟨w, hw, hW⟩ := norm_core (b := b) (n := .inf) trivial hs ht hl
  refine ⟨?_, ?_, ?_⟩
  · obtain ⟨x, e1, e2⟩ := Norms.scaled_value .one trivial b h2 hne
    obtain ⟨v, e3, e4⟩ := Norms.scaled_value .two trivial b h2 hne
    have hsq : 0 < Real.sqrt l.length := Real.sqrt_pos.2 hpos
    refine ⟨_, _, w, ⟨a, h1, e2⟩, ⟨a, h1, e4⟩, hw, ?_, ?_⟩
    · have c := C115_one_two (b := b) hs ht hl (norm_of (n := .two) trivial hs ht hl e3)
        (norm_of (n := .one) trivial hs ht hl e1)
      show x / (l.length : ℝ) ≤ v / Real.sqrt l.length
      rw [div_le_div_iff₀ hpos hsq]
      calc x * Real.sqrt l.length ≤ Real.sqrt l.length * v * Real.sqrt l.length :=
            mul_le_mul_of_nonneg_right c hsq.le
        _ = v * (Real.sqrt l.length * Real.sqrt l.length) := by ring
        _ = v * l.length := by rw [Real.mul_self_sqrt hpos.le]
    · have := Norms.lp_le_inf two_pos (Norms.two_eq_lp.1 e3) hW
      show v / Real.sqrt l.length ≤ w
      rw [div_le_iff₀ hsq, mul_comm, Real.sqrt_eq_rpow]
      exact_mod_cast this
  · intro p hp
    obtain ⟨v, e3, e4⟩ := Norms.scaled_value (.lp p) hp b h2 hne
    refine ⟨_, w, ⟨a, h1, e4⟩, hw, ?_⟩
    show v / (l.length : ℝ) ^ (1 / (p : ℝ)) ≤ w
    rw [div_le_iff₀ (hroot p), mul_comm]
    exact Norms.lp_le_inf hp e3 hW
  · intro c hc n hn
    obtain ⟨v, e3, e4⟩ := Norms.scaled_value n hn b h2 hne
    refine ⟨a, h1, e4.trans (congrArg Res.ok ?_)⟩
    exact Norms.scaled_const hn hne hc e3

/-! ### Examples -/

section
open Norms

/-- The arrays `[3, -4]` and `[1, 2]`. -/
noncomputable def realStore : Store ℝ where
  a1 := fun id => if id = 0 then [3, -4] else if id = 1 then [1, 2] else []
  a2 := fun id => if id = 0 then ⟨2, 2, [1, 2, 3, 4]⟩ else ⟨0, 0, []⟩

theorem realStore_ok : Store.Ok realStore := by
  constructor
  · intro id
    simp only [realStore]
    by_cases h0 : id = 0
    · simp [h0]
    · by_cases h1 : id = 1 <;> simp [h0, h1]
  · intro id
    simp only [realStore]
    by_cases h0 : id = 0
    · rw [if_pos h0]; exact ⟨⟨by decide, by decide, by simp [len], by decide⟩, by simp⟩
    · rw [if_neg h0]; exact ⟨⟨by decide, by decide, by simp [len], by decide⟩, by simp⟩

/-- `[3, -4]` -/
def p34 : Tm ℝ .one := .lv (.arr1 0)
/-- `[1, 2]` -/
def p12 : Tm ℝ .one := .lv (.arr1 1)

theorem p34_ok : Accepted realStore p34 ∧ Values realStore p34 [3, -4] := ⟨⟨trivial, trivial⟩, rfl⟩
theorem p12_ok : Accepted realStore p12 ∧ Values realStore p12 [1, 2] := ⟨⟨trivial, trivial⟩, rfl⟩

-- the norms of `[3, -4]` are 4, 7 and 5
example : NormIs .inf ⟨false, true, false⟩ realStore p34 4 ∧ NormIs .one ⟨false, true, false⟩ realStore p34 7 ∧
    NormIs .two ⟨false, true, false⟩ realStore p34 5 := by
  refine ⟨norm_of (n := .inf) trivial realStore_ok p34_ok.1 p34_ok.2 (.inr ⟨⟨-4, by simp, by norm_num⟩, ?_⟩),
    norm_of (n := .one) trivial realStore_ok p34_ok.1 p34_ok.2 ?_,
    norm_of (n := .two) trivial realStore_ok p34_ok.1 p34_ok.2 ?_⟩
  · intro x hx
    simp at hx
    rcases hx with rfl | rfl <;> norm_num [abs_le]
  · show (7 : ℝ) = _
    simp [sum_range_succ]
    norm_num
  · show (5 : ℝ) = _
    simp [sum_range_succ]
    rw [show (3 : ℝ) ^ 2 + 4 ^ 2 = 5 ^ 2 by norm_num]
    exact (Real.sqrt_sq (by norm_num)).symm

-- all hypotheses of the theorems above are met by `[3, -4]` and `[1, 2]`
example : ∃ v w z, NormIs (.lp 3) ⟨false, true, false⟩ realStore p34 v ∧
    NormIs (.lp 3) ⟨false, true, false⟩ realStore p12 w ∧
    NormIs (.lp 3) ⟨false, true, false⟩ realStore (.binary reals.add p34 p12) z ∧ z ≤ v + w := by
  have h3 : Norm.Ok (.lp 3) := by show 0 < 3; decide
  obtain ⟨v, hv, _⟩ := C115_returns (b := ⟨false, true, false⟩) h3 realStore_ok p34_ok.1 p34_ok.2
  obtain ⟨w, hw, _⟩ := C115_returns (b := ⟨false, true, false⟩) h3 realStore_ok p12_ok.1 p12_ok.2
  obtain ⟨z, hz, h⟩ := C115_triangle h3 realStore_ok p34_ok.1 p12_ok.1 rfl p34_ok.2 p12_ok.2 hv hw
  exact ⟨v, w, z, hv, hw, hz, h⟩

example : Accepted realStore (.view (.slice .reverse) p34) ∧ Accepted realStore (.merge p34 p12) ∧
    (selection 2 .reverse).Perm (upto 2) :=
  ⟨⟨by decide, by decide⟩, ⟨by decide, by decide⟩, by decide⟩

end

end Spp.Props
