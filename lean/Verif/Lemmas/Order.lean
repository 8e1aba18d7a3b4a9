import Verif.Spec.Order
import Verif.Lemmas.Float
import Mathlib.Data.Rat.Cast.Order

/-
Lemmas for C119: rounding respects order, and the root of a rounded square.
-/

namespace Spp.Order

open Spp.Spec Spp.Lemmas

variable {p : Nat} {emin : Int} {rn sqrt : ℚ → ℚ}

/-- What the theorems use of a rounding. -/
structure Mono (G : ℚ → Prop) (rn : ℚ → ℚ) : Prop where
  mono : ∀ {x y}, x ≤ y → rn x ≤ rn y
  fix : ∀ {x}, G x → rn x = x
  rep : ∀ x, G (rn x)
  zero : G 0
  neg : ∀ {x}, G x → G (-x)

/-- A nearest element of any set: monotone whatever is done with ties. -/
theorem nearest_mono {G : ℚ → Prop} (hr : ∀ x, G (rn x)) (hn : ∀ x y, G y → |x - rn x| ≤ |x - y|) {x y : ℚ}
    (hxy : x ≤ y) : rn x ≤ rn y := by
  rcases eq_or_lt_of_le hxy with rfl | hlt
  · exact le_refl _
  by_contra hc
  rw [not_le] at hc
  have a := hn x _ (hr y)
  have c := hn y _ (hr x)
  rcases abs_cases (x - rn x) with ⟨h1, _⟩ | ⟨h1, _⟩ <;> rcases abs_cases (x - rn y) with ⟨h2, _⟩ | ⟨h2, _⟩ <;>
    rcases abs_cases (y - rn y) with ⟨h3, _⟩ | ⟨h3, _⟩ <;> rcases abs_cases (y - rn x) with ⟨h4, _⟩ | ⟨h4, _⟩ <;>
    linarith

theorem nearest_fix {G : ℚ → Prop} (hn : ∀ x y, G y → |x - rn x| ≤ |x - y|) {x : ℚ} (hx : G x) : rn x = x := by
  have := hn x x hx
  rw [sub_self, abs_zero] at this
  have := abs_nonpos_iff.1 this
  linarith

theorem mono (h : Nearest p emin rn) : Mono (Rep p emin) rn :=
  ⟨nearest_mono h.rep h.near, nearest_fix h.near, h.rep, rep_zero, rep_neg⟩

theorem repX_neg {x : ℚ} (h : RepX p x) : RepX p (-x) := by
  obtain ⟨m, e, h1, rfl⟩ := h
  exact ⟨-m, e, by rwa [abs_neg], by push_cast; ring⟩

theorem repX_zero : RepX p 0 := ⟨0, 0, by simp, by simp⟩

theorem monoX (h : NearestX p rn) : Mono (RepX p) rn :=
  ⟨nearest_mono h.rep h.near, nearest_fix h.near, h.rep, repX_zero, repX_neg⟩

variable {G : ℚ → Prop}

theorem Mono.nonneg (h : Mono G rn) {x : ℚ} (hx : 0 ≤ x) : 0 ≤ rn x := by
  have := h.mono hx
  rwa [h.fix h.zero] at this

theorem Mono.le (h : Mono G rn) {x y : ℚ} (hy : G y) (hxy : x ≤ y) : rn x ≤ y := by
  have := h.mono hxy
  rwa [h.fix hy] at this

theorem Mono.ge (h : Mono G rn) {x y : ℚ} (hy : G y) (hxy : y ≤ x) : y ≤ rn x := by
  have := h.mono hxy
  rwa [h.fix hy] at this

theorem Mono.abs (h : Mono G rn) {x : ℚ} (hx : G x) : G |x| := by
  rcases abs_choice x with e | e <;> rw [e]
  exacts [hx, h.neg hx]

/-- Running sums: larger terms, larger sum. -/
theorem fold_mono (h : Mono G rn) {l l' : List ℚ} (hl : List.Forall₂ (· ≤ ·) l l') :
    ∀ {z z' : ℚ}, z ≤ z' → l.foldl (fun a y => rn (a + y)) z ≤ l'.foldl (fun a y => rn (a + y)) z' := by
  induction hl with
  | nil => exact id
  | cons hxy _ ih => exact fun hz => ih (h.mono (add_le_add hz hxy))

theorem fold_rep (h : Mono G rn) (l : List ℚ) {z : ℚ} (hz : G z) : G (l.foldl (fun a y => rn (a + y)) z) := by
  induction l generalizing z with
  | nil => exact hz
  | cons x l ih => exact ih (h.rep _)

theorem fold_grows (h : Mono G rn) {l : List ℚ} (hl : ∀ x ∈ l, 0 ≤ x) {z : ℚ} (hz : G z) :
    z ≤ l.foldl (fun a y => rn (a + y)) z := by
  induction l generalizing z with
  | nil => exact le_refl _
  | cons x l ih =>
    have hx := hl x (List.mem_cons_self ..)
    exact (h.ge hz (by linarith)).trans (ih (fun y hy => hl y (List.mem_cons_of_mem _ hy)) (h.rep _))

theorem fold_covers (h : Mono G rn) {l : List ℚ} (hl : ∀ x ∈ l, 0 ≤ x ∧ G x) {z : ℚ} (hz : 0 ≤ z) :
    ∀ x ∈ l, x ≤ l.foldl (fun a y => rn (a + y)) z := by
  induction l generalizing z with
  | nil => simp
  | cons x l ih =>
    have hx := hl x (List.mem_cons_self ..)
    intro y hy
    rcases List.mem_cons.1 hy with rfl | hy
    · exact (h.ge hx.2 (by linarith)).trans
        (fold_grows h (fun w hw => (hl w (List.mem_cons_of_mem _ hw)).1) (h.rep _))
    · exact ih (fun w hw => hl w (List.mem_cons_of_mem _ hw)) (h.nonneg (by linarith)) y hy

/-! ### Neighbours of a number of the format -/

theorem two_pos (e : Int) : (0 : ℚ) < 2 ^ e := zpow_pos (by norm_num) e

/-- Between two neighbours there is no number of the format. -/
theorem isolated {m e : Int} (h1 : (2 : Int) ^ p < 2 * m) {r : ℚ} (hr : RepX p r)
    (hd : |r - m * 2 ^ e| < 2 ^ e) : r = m * 2 ^ e := by
  obtain ⟨k, f, hk, rfl⟩ := hr
  have he := two_pos e
  have hfe : e ≤ f := by
    by_contra hc
    have hlt : f ≤ e - 1 := by omega
    have a : (2 : ℚ) ^ f ≤ 2 ^ e / 2 := by
      have := zpow_le_zpow_right₀ (show (1 : ℚ) ≤ 2 by norm_num) hlt
      rwa [zpow_sub_one₀ (by norm_num), ← div_eq_mul_inv] at this
    have b : (k : ℚ) * 2 ^ f ≤ (2 ^ p - 1) * (2 ^ e / 2) := by
      have hk' : (k : ℚ) ≤ 2 ^ p - 1 := by
        have : k ≤ 2 ^ p - 1 := by have := (abs_lt.1 hk).2; omega
        exact_mod_cast this
      have hp1 : (1 : ℚ) ≤ 2 ^ p := one_le_pow₀ (by norm_num)
      calc (k : ℚ) * 2 ^ f ≤ (2 ^ p - 1) * 2 ^ f := mul_le_mul_of_nonneg_right hk' (two_pos f).le
        _ ≤ _ := mul_le_mul_of_nonneg_left a (by linarith)
    have c : ((2 : ℚ) ^ p + 1) ≤ 2 * m := by
      have : (2 : Int) ^ p + 1 ≤ 2 * m := by omega
      exact_mod_cast this
    have d := (abs_lt.1 hd).1
    nlinarith
  obtain ⟨n, rfl⟩ : ∃ n : Nat, f = e + n := ⟨(f - e).toNat, by omega⟩
  rw [zpow_add₀ (by norm_num), zpow_natCast] at hd ⊢
  have e1 : (k : ℚ) * (2 ^ e * 2 ^ n) - m * 2 ^ e = ((k * 2 ^ n - m : Int) : ℚ) * 2 ^ e := by push_cast; ring
  rw [e1, abs_mul, abs_of_pos he] at hd
  have : |((k * 2 ^ n - m : Int) : ℚ)| < 1 := by
    by_contra hc
    rw [not_lt] at hc
    nlinarith
  have hz : k * 2 ^ n - m = 0 := by
    have : |k * 2 ^ n - m| < 1 := by exact_mod_cast this
    exact Int.abs_lt_one_iff.1 this
  rw [← sub_eq_zero, e1, hz]
  simp

/-- A number closer to one number of the format than to its neighbours is rounded to it. -/
theorem round_to (h : NearestX p rn) {m e : Int} (h1 : (2 : Int) ^ p < 2 * m) (h2 : m < 2 ^ p) {x : ℚ}
    (hd : |x - m * 2 ^ e| < 2 ^ e / 2) : rn x = m * 2 ^ e := by
  refine isolated h1 (h.rep x) ?_
  have hm : |m| < 2 ^ p := by
    have : (0 : Int) < 2 ^ p := by positivity
    rw [abs_of_pos (by omega)]
    exact h2
  have a := h.near x (m * 2 ^ e) ⟨m, e, hm, rfl⟩
  have b : |rn x - m * 2 ^ e| ≤ |x - rn x| + |x - m * 2 ^ e| := by
    rw [abs_sub_comm x (rn x)]
    exact abs_sub_le _ _ _
  linarith

/-- Every number of the format but zero has exactly `p` digits. -/
theorem normal (hp : 1 ≤ p) {x : ℚ} (hx : RepX p x) (h0 : 0 < x) :
    ∃ m e : Int, (2 : Int) ^ p ≤ 2 * m ∧ m < 2 ^ p ∧ x = m * 2 ^ e := by
  obtain ⟨m, e, h1, rfl⟩ := hx
  have hm : 0 < m := by
    have := pos_of_mul_pos_left h0 (two_pos e).le
    exact_mod_cast this
  rw [abs_of_pos hm] at h1
  have key : ∀ n : Nat, ∀ (m e : Int), 0 < m → m < 2 ^ p → (2 : Int) ^ p ≤ 2 * m * 2 ^ n →
      ∃ m' e' : Int, (2 : Int) ^ p ≤ 2 * m' ∧ m' < 2 ^ p ∧ (m : ℚ) * 2 ^ e = m' * 2 ^ e' := by
    intro n
    induction n with
    | zero => exact fun m e h0 h1 h2 => ⟨m, e, by simpa using h2, h1, rfl⟩
    | succ n ih =>
      intro m e h0 h1 h2
      by_cases hc : (2 : Int) ^ p ≤ 2 * m
      · exact ⟨m, e, hc, h1, rfl⟩
      · obtain ⟨m', e', a, b, c⟩ := ih (2 * m) (e - 1) (by omega) (by omega) (by rw [pow_succ] at h2; linarith)
        refine ⟨m', e', a, b, ?_⟩
        rw [← c, zpow_sub_one₀ (by norm_num)]
        push_cast
        ring
  refine key p m e hm h1 ?_
  have : (0 : Int) < 2 ^ p := by positivity
  nlinarith

theorem sqrt_mono (hq : NearestSqrt p sqrt) {x y : ℚ} (hx : 0 ≤ x) (hxy : x ≤ y) : sqrt x ≤ sqrt y := by
  by_contra hc
  rw [not_le] at hc
  have hc' : (sqrt y : ℝ) < sqrt x := by exact_mod_cast hc
  have hs : √(x : ℝ) ≤ √(y : ℝ) := Real.sqrt_le_sqrt (by exact_mod_cast hxy)
  rcases eq_or_lt_of_le hxy with rfl | hlt
  · exact lt_irrefl _ hc
  have hs : √(x : ℝ) < √(y : ℝ) := Real.sqrt_lt_sqrt (by exact_mod_cast hx) (by exact_mod_cast hlt)
  have a := hq.near x hx _ (hq.rep y (hx.trans hxy))
  have c := hq.near y (hx.trans hxy) _ (hq.rep x hx)
  rcases abs_cases (√(x : ℝ) - sqrt x) with ⟨h1, _⟩ | ⟨h1, _⟩ <;>
    rcases abs_cases (√(x : ℝ) - sqrt y) with ⟨h2, _⟩ | ⟨h2, _⟩ <;>
    rcases abs_cases (√(y : ℝ) - sqrt y) with ⟨h3, _⟩ | ⟨h3, _⟩ <;>
    rcases abs_cases (√(y : ℝ) - sqrt x) with ⟨h4, _⟩ | ⟨h4, _⟩ <;>
    linarith

theorem sqrt_exact (hq : NearestSqrt p sqrt) {x : ℚ} (hx : RepX p x) (h0 : 0 ≤ x) : sqrt (x * x) = x := by
  have := hq.near (x * x) (mul_self_nonneg x) x hx
  rw [Rat.cast_mul, Real.sqrt_mul_self (by exact_mod_cast h0), sub_self, abs_zero] at this
  have := abs_nonpos_iff.1 this
  have : (x : ℝ) = sqrt (x * x) := by linarith
  exact_mod_cast this.symm

/-- The root of the rounded square of a number of the format is the number. -/
theorem sqrt_square_pos (hp : 1 ≤ p) (h : NearestX p rn) (hq : NearestSqrt p sqrt) {x : ℚ} (hx : RepX p x)
    (h0 : 0 < x) : sqrt (rn (x * x)) = x := by
  obtain ⟨m, e, h1, h2, hxe⟩ := normal hp hx h0
  rcases eq_or_lt_of_le h1 with heq | hlt
  · -- a power of two: the square is exact
    have : rn (x * x) = x * x := by
      obtain ⟨q, rfl⟩ : ∃ q, p = q + 1 := ⟨p - 1, by omega⟩
      have hm : m = 2 ^ q := by rw [pow_succ] at heq; omega
      refine (monoX h).fix ⟨1, q + q + (e + e), ?_, ?_⟩
      · rw [abs_one, pow_succ]
        have : (0 : Int) < 2 ^ q := by positivity
        omega
      · rw [hxe, hm, zpow_add₀ (by norm_num), zpow_add₀ (by norm_num), zpow_add₀ (by norm_num), zpow_natCast]
        push_cast
        ring
    rw [this, sqrt_exact hq hx h0.le]
  · have hy0 : 0 ≤ rn (x * x) := (monoX h).nonneg (mul_self_nonneg x)
    have he := two_pos e
    have hu0 : (0 : ℚ) < unit p := inv_pos.2 (by positivity)
    have hu1 : unit p * 2 ^ p = 1 := inv_mul_cancel₀ (by positivity)
    have herr := rel_errX hp h (x * x)
    rw [abs_of_nonneg (mul_self_nonneg x)] at herr
    have hm : (m : ℚ) + 1 ≤ 2 ^ p := by exact_mod_cast h2
    have hxm : unit p * x ≤ (1 - unit p) * 2 ^ e := by
      rw [hxe]
      have : unit p * m ≤ 1 - unit p := by nlinarith
      nlinarith
    refine (isolated hlt (hq.rep _ hy0) ?_).trans hxe.symm
    rw [← hxe]
    -- over the reals
    have key : |√((rn (x * x) : ℚ) : ℝ) - x| < ((2 ^ e / 2 : ℚ) : ℝ) := by
      set y : ℝ := ((rn (x * x) : ℚ) : ℝ) with hy
      set r : ℝ := √y with hr
      have hxr : (0 : ℝ) < x := by exact_mod_cast h0
      have hyr : 0 ≤ y := by rw [hy]; exact_mod_cast hy0
      have hrr : r * r = y := Real.mul_self_sqrt hyr
      have hr0 : 0 ≤ r := Real.sqrt_nonneg _
      have hu0r : (0 : ℝ) < (unit p : ℚ) := by exact_mod_cast hu0
      have hu1r : ((unit p : ℚ) : ℝ) ≤ 1 := by
        have : unit p ≤ 1 := inv_le_one_of_one_le₀ (one_le_pow₀ (by norm_num))
        exact_mod_cast this
      have her : |(x : ℝ) * x - y| ≤ (unit p : ℚ) * ((x : ℝ) * x) := by
        have := (Rat.cast_le (K := ℝ)).2 herr
        push_cast at this
        exact this
      have hxmr : ((unit p : ℚ) : ℝ) * x ≤ (1 - (unit p : ℚ)) * ((2 ^ e : ℚ) : ℝ) := by
        have := (Rat.cast_le (K := ℝ)).2 hxm
        push_cast at this ⊢
        exact this
      have her2 : (0 : ℝ) < ((2 ^ e : ℚ) : ℝ) := by exact_mod_cast he
      have hhalf : ((2 ^ e / 2 : ℚ) : ℝ) = ((2 ^ e : ℚ) : ℝ) / 2 := by push_cast; ring
      rw [hhalf]
      generalize ((2 ^ e : ℚ) : ℝ) = g at *
      generalize ((unit p : ℚ) : ℝ) = u at *
      generalize (x : ℝ) = X at *
      have hlow : X * (1 - u) ≤ r := by
        by_contra hc
        rw [not_le] at hc
        have := (abs_le.1 her).2
        have h1 : r * r < (X * (1 - u)) * (X * (1 - u)) := mul_self_lt_mul_self hr0 hc
        rw [hrr] at h1
        have : X * X * (1 - u) ≤ X * X * ((1 - u) * (1 - u)) := by nlinarith
        have hXX : 0 < X * X := by positivity
        have h3 : (1 - u) ≤ (1 - u) * (1 - u) := le_of_mul_le_mul_left this hXX
        have hu' : u = 1 ∨ u < 1 := (eq_or_lt_of_le hu1r)
        rcases hu' with rfl | hu'
        · simp at hc; linarith
        · nlinarith
      have hprod : |r - X| * (r + X) ≤ u * (X * X) := by
        have e1 : |r - X| * (r + X) = |X * X - y| := by
          rw [← hrr, abs_sub_comm (X * X), show r * r - X * X = (r - X) * (r + X) by ring, abs_mul,
            abs_of_nonneg (by linarith : 0 ≤ r + X)]
        rw [e1]; exact her
      by_contra hc
      rw [not_lt] at hc
      have a1 : g / 2 * (X * (2 - u)) ≤ |r - X| * (r + X) :=
        mul_le_mul hc (by nlinarith) (by nlinarith) (abs_nonneg _)
      have a2 : u * (X * X) ≤ (1 - u) * g * X := by nlinarith
      nlinarith [mul_pos (mul_pos her2 hxr) hu0r]
    have a := hq.near _ hy0 x hx
    have b : |(sqrt (rn (x * x)) : ℝ) - x| ≤
        |√((rn (x * x) : ℚ) : ℝ) - sqrt (rn (x * x))| + |√((rn (x * x) : ℚ) : ℝ) - x| := by
      rw [abs_sub_comm (√((rn (x * x) : ℚ) : ℝ)) (sqrt (rn (x * x)) : ℝ)]
      exact abs_sub_le _ _ _
    have c : |(sqrt (rn (x * x)) : ℝ) - x| < ((2 ^ e : ℚ) : ℝ) := by
      push_cast at key ⊢
      linarith
    exact_mod_cast c

theorem sqrt_square (hp : 1 ≤ p) (h : NearestX p rn) (hq : NearestSqrt p sqrt) {x : ℚ} (hx : RepX p x) :
    sqrt (rn (x * x)) = |x| := by
  rcases lt_trichotomy x 0 with hn | rfl | hpos
  · rw [abs_of_neg hn, ← neg_mul_neg]
    exact sqrt_square_pos hp h hq (repX_neg hx) (by linarith)
  · rw [mul_zero, (monoX h).fix repX_zero, abs_zero]
    have := sqrt_exact hq repX_zero le_rfl
    rwa [mul_zero] at this
  · rw [abs_of_pos hpos]
    exact sqrt_square_pos hp h hq hx hpos

/-- A correctly rounded square root exists. -/
theorem exists_nearestSqrt (hp : 1 ≤ p) : ∃ sqrt, NearestSqrt p sqrt := by
  have key : ∀ t : ℝ, 0 ≤ t → ∃ y : ℚ, RepX p y ∧ ∀ z : ℚ, RepX p z → |t - y| ≤ |t - z| := by
    intro t ht
    rcases eq_or_lt_of_le ht with rfl | hpos
    · exact ⟨0, repX_zero, fun z _ => by simp⟩
    obtain ⟨n, hn1, hn2⟩ := exists_mem_Ico_zpow hpos (show (1 : ℝ) < 2 by norm_num)
    obtain ⟨q, rfl⟩ : ∃ q, p = q + 1 := ⟨p - 1, by omega⟩
    -- the unit in the last place of `t`
    obtain ⟨e, rfl⟩ : ∃ e, n = q + e := ⟨n - q, by omega⟩
    have hg : (0 : ℝ) < 2 ^ e := zpow_pos (by norm_num) e
    rw [zpow_add₀ (by norm_num), zpow_natCast] at hn1
    rw [add_assoc, add_comm e 1, ← add_assoc, zpow_add₀ (by norm_num), zpow_add_one₀ (by norm_num), zpow_natCast] at hn2
    set k := round (t / 2 ^ e) with hk
    have hlo : (2 : Int) ^ q ≤ k := by
      have h1 : (2 : ℝ) ^ q ≤ t / 2 ^ e := by rwa [le_div_iff₀ hg]
      have h2 := sub_half_lt_round (t / (2 : ℝ) ^ e)
      rw [← hk] at h2
      have h3 : ((2 ^ q : Int) : ℝ) - 1 < (k : Int) := by push_cast; linarith
      have : (2 ^ q : Int) - 1 < k := by exact_mod_cast h3
      omega
    have hhi : k ≤ 2 ^ (q + 1) := by
      have h1 : t / 2 ^ e < (2 : ℝ) ^ (q + 1) := by rw [div_lt_iff₀ hg, pow_succ]; exact hn2
      have h2 := round_le_add_half (t / (2 : ℝ) ^ e)
      rw [← hk] at h2
      have h3 : (k : ℝ) < ((2 ^ (q + 1) : Int) : ℝ) + 1 := by push_cast; linarith
      have : k < (2 ^ (q + 1) : Int) + 1 := by exact_mod_cast h3
      omega
    have h2q : (0 : Int) < 2 ^ q := by positivity
    refine ⟨k * 2 ^ e, ?_, ?_⟩
    · rcases eq_or_lt_of_le hhi with he | hlt
      · refine ⟨2 ^ q, e + 1, ?_, ?_⟩
        · rw [abs_of_pos h2q, pow_succ]; omega
        · rw [he, zpow_add_one₀ (by norm_num)]; push_cast; ring
      · exact ⟨k, e, by rwa [abs_of_pos (by omega)], rfl⟩
    · rintro z ⟨j, f, hj, rfl⟩
      have hkt : |t - ((k * 2 ^ e : ℚ) : ℝ)| = |t / 2 ^ e - k| * 2 ^ e := by
        rw [← abs_of_pos hg, ← abs_mul, abs_of_pos hg, sub_mul, div_mul_cancel₀ _ hg.ne']
        push_cast
        rfl
      by_cases hef : e ≤ f
      · obtain ⟨i, rfl⟩ : ∃ i : Nat, f = e + i := ⟨(f - e).toNat, by omega⟩
        have hjt : |t - ((j * 2 ^ (e + (i : Int)) : ℚ) : ℝ)| = |t / 2 ^ e - ((j * 2 ^ i : Int) : ℝ)| * 2 ^ e := by
          rw [← abs_of_pos hg, ← abs_mul, abs_of_pos hg, sub_mul, div_mul_cancel₀ _ hg.ne', zpow_add₀ (by norm_num), zpow_natCast]
          push_cast
          congr 2
          ring
        rw [hkt, hjt]
        exact mul_le_mul_of_nonneg_right (round_le _ _) hg.le
      · have hf : (2 : ℝ) ^ f ≤ 2 ^ e / 2 := by
          have := zpow_le_zpow_right₀ (show (1 : ℝ) ≤ 2 by norm_num) (show f ≤ e - 1 by omega)
          rwa [zpow_sub_one₀ (by norm_num), ← div_eq_mul_inv] at this
        have hf0 : (0 : ℝ) < 2 ^ f := zpow_pos (by norm_num) f
        have hj' : (j : ℝ) ≤ 2 * 2 ^ q - 1 := by
          have : j ≤ 2 * 2 ^ q - 1 := by
            have := (abs_lt.1 hj).2
            rw [pow_succ] at this
            omega
          exact_mod_cast this
        have h1q : (1 : ℝ) ≤ 2 ^ q := one_le_pow₀ (by norm_num)
        have hz : (j : ℝ) * 2 ^ f ≤ (2 * 2 ^ q - 1) * (2 ^ e / 2) :=
          (mul_le_mul_of_nonneg_right hj' hf0.le).trans (mul_le_mul_of_nonneg_left hf (by linarith))
        have h1 : |t / 2 ^ e - k| * 2 ^ e ≤ 1 / 2 * 2 ^ e := mul_le_mul_of_nonneg_right (abs_sub_round _) hg.le
        have h2 : 1 / 2 * 2 ^ e ≤ t - ((j * 2 ^ f : ℚ) : ℝ) := by
          push_cast
          nlinarith
        rw [hkt]
        exact h1.trans (h2.trans (le_abs_self _))
  choose! f hf1 hf2 using fun (x : ℚ) => key (√(x : ℝ)) (Real.sqrt_nonneg _)
  exact ⟨f, fun x _ => hf1 x, fun x _ => hf2 x⟩

end Spp.Order
