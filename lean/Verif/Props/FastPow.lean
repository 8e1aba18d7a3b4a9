import Verif.Props.FloatOps
import Verif.Lemmas.PowProds

/-
C97: `fast_pows_int`, `squares` and `cubes` on floating-point numbers.
-/

set_option linter.unusedSectionVars false

namespace Spp.Props
open Spec FVal Lemmas

variable {p : Nat} {emin : Int} {F : Fmt} {rn : ℚ → ℚ} {pow : ℚ → ℚ → ℚ} {sqrt : ℚ → ℚ}

/-- What holds for products of powers, holds for the power computed by the loop. -/
theorem fastPowsLoop_inv {α : Type} {mul : α → α → Res α} {P : α → Nat → Prop} {N : Nat}
    (hm : ∀ a b i j, P a i → P b j → i + j ≤ N → ∃ c, mul a b = .ok c ∧ P c (i + j)) (n : Nat) {res x : α}
    {i j : Nat} (h1 : P res i) (h2 : P x j) (hN : i + j * n ≤ N) :
    ∃ r, fastPowsLoop mul res x n = .ok r ∧ P r (i + j * n) := by
  induction n using Nat.strong_induction_on generalizing res x i j with
  | _ n ih =>
    rw [fastPowsLoop_step]
    have hdm := Nat.div_add_mod n 2
    obtain ⟨r1, e1, k1⟩ : ∃ r, (if n % 2 = 1 then mul res x else .ok res) = .ok r ∧ P r (i + j * (n % 2)) := by
      by_cases h : n % 2 = 1
      · rw [if_pos h, h, Nat.mul_one]
        refine hm _ _ _ _ h1 h2 (le_trans ?_ hN)
        have : j * 1 ≤ j * n := Nat.mul_le_mul_left _ (by omega)
        omega
      · rw [if_neg h, show n % 2 = 0 by omega]
        exact ⟨res, rfl, h1⟩
    have hb : ∀ f : α → Res α, (Res.ok r1).bind f = f r1 := fun _ => rfl
    rw [e1, hb]
    by_cases h0 : n / 2 = 0
    · rw [if_pos h0]
      exact ⟨r1, rfl, by rwa [show n % 2 = n by omega] at k1⟩
    · rw [if_neg h0]
      have q : i + j * (n % 2) + (j + j) * (n / 2) = i + j * n := by
        conv_rhs => rw [← hdm]
        ring
      obtain ⟨x', e2, k2⟩ := hm x x j j h2 h2 (by
        have : (j + j) * 1 ≤ (j + j) * (n / 2) := Nat.mul_le_mul_left _ (by omega)
        omega)
      rw [e2]
      obtain ⟨r, e3, k3⟩ := ih (n / 2) (by omega) k1 k2 (by omega)
      exact ⟨r, e3, by rwa [q] at k3⟩

theorem abss_long {n : Int} (hn : Fits IntTy.long n) (hm : n ≠ -9223372036854775808) :
    abss IntTy.long n = .ok |n| := by
  refine (C08_abss hn).1 (.inl ?_)
  simpa [IntTy.lo, IntTy.long] using hm

/-- The power for a nonnegative exponent is what the loop computes. -/
theorem fastPowsInt_nonneg {α : Type} (mul div : α → α → Res α) (one x : α) {n : Nat}
    (hn : Fits IntTy.long n) : fastPowsInt mul div one x n = fastPowsLoop mul one x n := by
  unfold fastPowsInt
  rw [abss_long hn (by omega), Res.ok_bind]
  have : (|(n : Int)|).toNat = n := by simp
  rw [this]
  cases fastPowsLoop mul one x n with
  | ok r => simp
  | trap k => rfl
  | ub => rfl

/-- The power for a negative exponent is one divided by what the loop computes. -/
theorem fastPowsInt_neg {α : Type} (mul div : α → α → Res α) (one x : α) {n : Nat}
    (hn : Fits IntTy.long n) (h0 : 0 < n) :
    fastPowsInt mul div one x (-(n : Int)) = (fastPowsLoop mul one x n).bind (div one) := by
  unfold fastPowsInt
  have hb := hn.1 rfl
  have hf : Fits IntTy.long (-(n : Int)) := ⟨fun _ => ⟨by
    have := hb.2; simp only [IntTy.long] at *; omega, by have := hb.2; simp only [IntTy.long] at *; omega⟩,
    fun h => (nomatch h)⟩
  have hm : -(n : Int) ≠ -9223372036854775808 := by
    have := hb.2; simp only [IntTy.long] at this; omega
  rw [abss_long hf hm, Res.ok_bind]
  have : (|(-(n : Int))|).toNat = n := by rw [abs_neg]; simp
  rw [this]
  cases fastPowsLoop mul one x n with
  | ok r =>
    simp only [Res.ok_bind]
    rw [if_neg (by omega)]; rfl
  | trap k => rfl
  | ub => rfl

/-! ### Rounding errors -/

/-- `a` approximates `x^i` up to `i - 1` roundings. -/
def PowErr (u x a : ℚ) (i : Nat) : Prop := |a - x ^ i| ≤ ((1 + u) ^ (i - 1) - 1) * |x ^ i|

theorem mul_round_err {u : ℚ} (hu : 0 < u) {a b A B v : ℚ} {k l : Nat} (h1 : |a - A| ≤ ((1 + u) ^ k - 1) * |A|)
    (h2 : |b - B| ≤ ((1 + u) ^ l - 1) * |B|) (hv : |a * b - v| ≤ u * |a * b|) :
    |v - A * B| ≤ ((1 + u) ^ (k + l + 1) - 1) * |A * B| := by
  have p1 : 1 ≤ (1 + u) ^ k := one_le_pow₀ (by linarith)
  have p2 : 1 ≤ (1 + u) ^ l := one_le_pow₀ (by linarith)
  have ha : |a| ≤ (1 + u) ^ k * |A| := by
    have := abs_sub_abs_le_abs_sub a A
    linarith
  have hb : |b| ≤ (1 + u) ^ l * |B| := by
    have := abs_sub_abs_le_abs_sub b B
    linarith
  have hab : |a * b| ≤ (1 + u) ^ k * (1 + u) ^ l * |A * B| := by
    rw [abs_mul, abs_mul]
    calc |a| * |b| ≤ ((1 + u) ^ k * |A|) * ((1 + u) ^ l * |B|) :=
          mul_le_mul ha hb (abs_nonneg _) (by positivity)
      _ = _ := by ring
  have e1 : |a * b - A * B| ≤ ((1 + u) ^ k * (1 + u) ^ l - 1) * |A * B| := by
    have : a * b - A * B = (a - A) * b + A * (b - B) := by ring
    rw [this]
    calc |(a - A) * b + A * (b - B)| ≤ |(a - A) * b| + |A * (b - B)| := abs_add_le _ _
      _ = |a - A| * |b| + |A| * |b - B| := by rw [abs_mul, abs_mul]
      _ ≤ (((1 + u) ^ k - 1) * |A|) * ((1 + u) ^ l * |B|) + |A| * (((1 + u) ^ l - 1) * |B|) := by
          refine add_le_add (mul_le_mul h1 hb (abs_nonneg _) ?_) (mul_le_mul_of_nonneg_left h2 (abs_nonneg _))
          exact mul_nonneg (by linarith) (abs_nonneg _)
      _ = _ := by rw [abs_mul]; ring
  have hv' : |v - a * b| ≤ u * |a * b| := by rwa [abs_sub_comm]
  calc |v - A * B| ≤ |v - a * b| + |a * b - A * B| := abs_sub_le _ _ _
    _ ≤ u * ((1 + u) ^ k * (1 + u) ^ l * |A * B|) + ((1 + u) ^ k * (1 + u) ^ l - 1) * |A * B| :=
        add_le_add (hv'.trans (mul_le_mul_of_nonneg_left hab hu.le)) e1
    _ = _ := by ring

theorem unit_pos (p : Nat) : 0 < unit p := by unfold unit; positivity

/-- C97: for an exponent `n >= 1`, if nothing overflows or underflows, the relative error of `fast_pows_int(x, n)` is
that of `n - 1` roundings; `fast_pows_int(x, 0)` is 1. -/
theorem C97_error (hp : 2 ≤ p) (h : NearestX p rn) {x : ℚ} (hx : RepX p x) {n : Nat} (hn : Fits IntTy.long n) :
    ∃ r, fastPowsInt (rounded rn pow sqrt).mul (rounded rn pow sqrt).div 1 x n = .ok r ∧
      |r - x ^ n| ≤ ((1 + unit p) ^ (n - 1) - 1) * |x ^ n| := by
  have hu := unit_pos p
  rw [fastPowsInt_nonneg _ _ _ _ hn]
  have hm : ∀ a b i j, (RepX p a ∧ PowErr (unit p) x a i ∧ (i = 0 → a = 1)) →
      (RepX p b ∧ PowErr (unit p) x b j ∧ (j = 0 → b = 1)) → i + j ≤ n →
      ∃ c, (rounded rn pow sqrt).mul a b = .ok c ∧
        (RepX p c ∧ PowErr (unit p) x c (i + j) ∧ (i + j = 0 → c = 1)) := by
    rintro a b i j ⟨ga, ea, za⟩ ⟨gb, eb, zb⟩ -
    refine ⟨rn (a * b), rfl, h.rep _, ?_, ?_⟩
    · rcases Nat.eq_zero_or_pos i with rfl | hi
      · rw [za rfl, one_mul, Nat.zero_add]
        rwa [(flX_nearestX hp h).fix _ gb]
      · rcases Nat.eq_zero_or_pos j with rfl | hj
        · rw [zb rfl, mul_one, Nat.add_zero]
          rwa [(flX_nearestX hp h).fix _ ga]
        · unfold PowErr at *
          rw [pow_add, show i + j - 1 = (i - 1) + (j - 1) + 1 by omega]
          exact mul_round_err hu ea eb (rel_errX (by omega) h _)
    · intro h0
      rw [za (by omega), zb (by omega), one_mul]
      exact (flX_nearestX hp h).fix _ (flX_nearestX hp h).one
  obtain ⟨r, e, -, k, -⟩ := fastPowsLoop_inv (mul := (rounded rn pow sqrt).mul)
    (P := fun a i => RepX p a ∧ PowErr (unit p) x a i ∧ (i = 0 → a = 1)) (N := n) hm n
    (res := 1) (x := x) (i := 0) (j := 1)
    ⟨(flX_nearestX hp h).one, by simp [PowErr], fun _ => rfl⟩ ⟨hx, by simp [PowErr], fun h => (nomatch h)⟩ (by omega)
  refine ⟨r, e, ?_⟩
  simpa [PowErr] using k

/-- C97: the same for negative exponents, with the division at the end; the error of the power has to be less
than one. -/
theorem C97_error_negative (hp : 2 ≤ p) (h : NearestX p rn) {x : ℚ} (hx : RepX p x) (hx0 : x ≠ 0) {n : Nat}
    (hn : Fits IntTy.long n) (h0 : 0 < n) (hs : (1 + unit p) ^ (n - 1) < 2) :
    ∃ r, fastPowsInt (rounded rn pow sqrt).mul (rounded rn pow sqrt).div 1 x (-(n : Int)) = .ok r ∧
      |r - 1 / x ^ n| ≤ ((1 + unit p) / (2 - (1 + unit p) ^ (n - 1)) - 1) * |1 / x ^ n| := by
  obtain ⟨q, e, k⟩ := C97_error (pow := pow) (sqrt := sqrt) hp h hx hn
  rw [fastPowsInt_nonneg _ _ _ _ hn] at e
  rw [fastPowsInt_neg _ _ _ _ hn h0, e]
  refine ⟨rn (1 / q), rfl, ?_⟩
  have hu := unit_pos p
  have hr := rel_errX (by omega) h (1 / q)
  generalize unit p = u at *
  obtain ⟨E, hE⟩ : ∃ E, E = (1 + u) ^ (n - 1) - 1 := ⟨_, rfl⟩
  have E0 : 0 ≤ E := by
    have : 1 ≤ (1 + u) ^ (n - 1) := one_le_pow₀ (by linarith)
    linarith
  rw [← hE] at k
  have h1E : 0 < 1 - E := by linarith
  rw [show 2 - (1 + u) ^ (n - 1) = 1 - E by rw [hE]; ring]
  have hX : 0 < |x ^ n| := abs_pos.2 (pow_ne_zero _ hx0)
  generalize x ^ n = X at *
  have hq : (1 - E) * |X| ≤ |q| := by
    have := abs_sub_abs_le_abs_sub X q
    rw [abs_sub_comm X q] at this
    linarith
  have hq0 : 0 < |q| := lt_of_lt_of_le (mul_pos h1E hX) hq
  have hinv : |1 / q| ≤ 1 / (1 - E) * |1 / X| := by
    rw [abs_div, abs_div, abs_one, one_div_mul_one_div]
    exact one_div_le_one_div_of_le (mul_pos h1E hX) hq
  have he : |1 / q - 1 / X| ≤ E * |1 / q| := by
    have q0 : q ≠ 0 := abs_pos.1 hq0
    have X0 : X ≠ 0 := abs_pos.1 hX
    have : 1 / q - 1 / X = -((q - X) / X) * (1 / q) := by field_simp; ring
    rw [this, abs_mul, abs_neg, abs_div]
    refine mul_le_mul_of_nonneg_right ?_ (abs_nonneg _)
    rw [div_le_iff₀ hX]
    exact k
  calc |rn (1 / q) - 1 / X| ≤ |rn (1 / q) - 1 / q| + |1 / q - 1 / X| := abs_sub_le _ _ _
    _ ≤ u * |1 / q| + E * |1 / q| := by
        rw [abs_sub_comm]
        exact add_le_add hr he
    _ = (u + E) * |1 / q| := by ring
    _ ≤ (u + E) * (1 / (1 - E) * |1 / X|) := mul_le_mul_of_nonneg_left hinv (by linarith)
    _ = ((1 + u) / (1 - E) - 1) * |1 / X| := by
        field_simp
        ring

/-- C97: if all powers of `x` up to `x^n` are floating-point numbers, `fast_pows_int(x, n)` is exact. -/
theorem C97_exact (h : Nearest p emin rn) {x : ℚ} {n : Nat} (hx : ∀ i ≤ n, Rep p emin (x ^ i))
    (hn : Fits IntTy.long n) :
    fastPowsInt (rounded rn pow sqrt).mul (rounded rn pow sqrt).div 1 x n = .ok (x ^ n) := by
  rw [fastPowsInt_nonneg _ _ _ _ hn]
  obtain ⟨r, e, k⟩ := fastPowsLoop_inv (mul := (rounded rn pow sqrt).mul) (P := fun a i => a = x ^ i) (N := n)
    (by
      rintro a b i j rfl rfl hij
      refine ⟨rn (x ^ i * x ^ j), rfl, ?_⟩
      rw [← pow_add]
      exact rn_rep h (hx _ hij)) n (res := 1) (x := x) (i := 0) (j := 1) (by simp) (by simp) (by omega)
  rw [e, k]
  simp

/-- C97: in particular for integers with `|x|^n <= 2^p`. -/
theorem C97_exact_integers (hp : 1 ≤ p) (he : emin ≤ 0) (h : Nearest p emin rn) {x : Int} {n : Nat}
    (hx : |x| ^ n ≤ 2 ^ p) (hn : Fits IntTy.long n) :
    fastPowsInt (rounded rn pow sqrt).mul (rounded rn pow sqrt).div 1 (x : ℚ) n = .ok ((x ^ n : Int) : ℚ) := by
  rw [C97_exact h (fun i hi => ?_) hn]
  · push_cast; rfl
  · rw [← Int.cast_pow]
    refine rep_int hp he ?_
    rw [abs_pow]
    rcases eq_or_ne x 0 with rfl | h0
    · rcases Nat.eq_zero_or_pos i with rfl | hi'
      · simpa using one_le_pow₀ (by norm_num : (1 : Int) ≤ 2)
      · simp only [abs_zero]
        rw [zero_pow (by omega)]; positivity
    · have : 1 ≤ |x| := Int.one_le_abs h0
      exact (pow_le_pow_right₀ this hi).trans hx

/-- C97: `squares(x)` has one rounding and `cubes(x)` two. -/
theorem C97_squares_cubes (hp : 1 ≤ p) (h : NearestX p rn) (x : ℚ) :
    ∃ q c, squares (rounded rn pow sqrt).mul x = .ok q ∧ cubes (rounded rn pow sqrt).mul x = .ok c ∧ q = rn (x ^ 2) ∧
      |c - x ^ 3| ≤ ((1 + unit p) ^ 2 - 1) * |x ^ 3| := by
  refine ⟨rn (x * x), rn (rn (x * x) * x), rfl, rfl, by rw [pow_two], ?_⟩
  have := mul_round_err (unit_pos p) (a := rn (x * x)) (b := x) (A := x * x) (B := x) (k := 1) (l := 0)
    (v := rn (rn (x * x) * x)) (by
      rw [abs_sub_comm, pow_one, show 1 + unit p - 1 = unit p by ring]
      exact rel_errX hp h _) (by simp) (rel_errX hp h _)
  rw [show x ^ 3 = x * x * x by ring]
  exact this

/-- C97: `squares` and `cubes` of integers are exact; for signed types they are undefined exactly if the result
cannot be represented, for unsigned types they wrap around. -/
theorem C97_integer_squares_cubes {t : IntTy} (hb : 2 ≤ t.bits) {x : Int} (hx : Fits t x) :
    (t.signed = true → (Fits t (x ^ 2) → squares (SInt.mul t) x = .ok (x ^ 2)) ∧
      (¬ Fits t (x ^ 2) → squares (SInt.mul t) x = .ub) ∧
      (Fits t (x ^ 3) → cubes (SInt.mul t) x = .ok (x ^ 3)) ∧
      (¬ Fits t (x ^ 3) → cubes (SInt.mul t) x = .ub)) ∧
    (t.signed = false → ∃ q c, squares (SInt.mul t) x = .ok q ∧ cubes (SInt.mul t) x = .ok c ∧ Fits t q ∧
      Fits t c ∧ SameMod t q (x ^ 2) ∧ SameMod t c (x ^ 3)) := by
  constructor
  · intro hs
    have hmul : ∀ a b : Int, (Fits t (a * b) → SInt.mul t a b = .ok (a * b)) ∧
        (¬ Fits t (a * b) → SInt.mul t a b = .ub) :=
      fun a b => ⟨fun h => arith_of_fits h, fun h => arith_ub_iff.2 ⟨hs, h⟩⟩
    have h3 : Fits t (x * x * x) → Fits t (x * x) := by
      intro h
      have b := h.1 hs
      have bx := hx.1 hs
      refine ⟨fun _ => ⟨by nlinarith [mul_self_nonneg x], ?_⟩, fun h => (nomatch hs.symm.trans h)⟩
      rcases lt_trichotomy x 0 with g | g | g
      · rcases eq_or_ne x (-1) with rfl | g'
        · have : (2 : Int) ^ 1 ≤ 2 ^ (t.bits - 1) := pow_le_pow_right₀ (by norm_num) (by omega)
          omega
        · have : x ≤ -2 := by omega
          nlinarith [mul_self_nonneg x]
      · subst g; simp
      · nlinarith [mul_self_nonneg x]
    rw [show x ^ 2 = x * x by ring, show x ^ 3 = x * x * x by ring]
    refine ⟨(hmul x x).1, (hmul x x).2, fun h => ?_, fun h => ?_⟩
    · unfold cubes
      rw [(hmul x x).1 (h3 h), Res.ok_bind]
      exact (hmul _ _).1 h
    · unfold cubes
      by_cases g : Fits t (x * x)
      · rw [(hmul x x).1 g, Res.ok_bind]
        exact (hmul _ _).2 h
      · rw [(hmul x x).2 g]; rfl
  · intro hs
    have hmul : ∀ a b : Int, ∃ r, SInt.mul t a b = .ok r ∧ Fits t r ∧ SameMod t r (a * b) := by
      intro a b
      rcases arith_outcome t (a * b) with ⟨h, -⟩ | ⟨-, r, h1, h2, h3⟩
      · exact absurd h.1 (by simp [hs])
      · exact ⟨r, h1, h2, h3.2 hs⟩
    obtain ⟨q, q1, q2, q3⟩ := hmul x x
    obtain ⟨c, c1, c2, c3⟩ := hmul q x
    refine ⟨q, c, q1, ?_, q2, c2, by rwa [pow_two], ?_⟩
    · unfold cubes
      rw [q1, Res.ok_bind, c1]
    · obtain ⟨k, hk⟩ := q3
      obtain ⟨l, hl⟩ := c3
      exact ⟨l + k * x, by rw [hl, hk]; ring⟩

/-! ### NaN, infinities, signs, overflow -/

/-- The sign of a power. -/
def powSign (x : FVal) (i : Nat) : Bool := negative x && decide (i % 2 = 1)

theorem powSign_add (x : FVal) (i j : Nat) : (powSign x i != powSign x j) = powSign x (i + j) := by
  unfold powSign
  rcases Nat.mod_two_eq_zero_or_one i with h | h <;> rcases Nat.mod_two_eq_zero_or_one j with g | g <;>
    cases negative x <;> simp [h, g, Nat.add_mod]

/-- At least one in magnitude. -/
def Large : FVal → Prop
  | .nan => False
  | .inf _ => True
  | .fin _ m => 1 ≤ m

/-- At most one in magnitude. -/
def Little : FVal → Prop
  | .fin _ m => 0 ≤ m ∧ m ≤ 1
  | _ => False

theorem mul_large (h1 : Rep p emin 1) (hF : IsFmt p emin F) {x y : FVal} (hx : Large x) (hy : Large y) :
    Large (FVal.mul F x y) ∧ negative (FVal.mul F x y) = (negative x != negative y) := by
  rcases x with _ | s | ⟨s, m⟩
  · exact hx.elim
  · rcases y with _ | t | ⟨t, n⟩
    · exact hy.elim
    · exact ⟨trivial, rfl⟩
    · have : n ≠ 0 := by rintro rfl; exact absurd hy (by norm_num [Large])
      simp [FVal.mul, FVal.exactMul, this, roundV, Large, negative]
  · rcases y with _ | t | ⟨t, n⟩
    · exact hy.elim
    · have : m ≠ 0 := by rintro rfl; exact absurd hx (by norm_num [Large])
      simp [FVal.mul, FVal.exactMul, this, roundV, Large, negative]
    · have hm : 1 ≤ m * n := one_le_mul_of_one_le_of_one_le hx hy
      have := le_rn hF.near h1 hm
      simp only [FVal.mul, FVal.exactMul, roundV, FVal.round]
      split
      · exact ⟨trivial, rfl⟩
      · exact ⟨this, rfl⟩

theorem mul_little (h1 : Rep p emin 1) (hF : IsFmt p emin F) {x y : FVal} (hx : Little x) (hy : Little y) :
    Little (FVal.mul F x y) ∧ negative (FVal.mul F x y) = (negative x != negative y) := by
  rcases x with _ | s | ⟨s, m⟩
  · exact hx.elim
  · exact hx.elim
  · rcases y with _ | t | ⟨t, n⟩
    · exact hy.elim
    · exact hy.elim
    · have hm : m * n ≤ 1 := mul_le_one₀ hx.2 hy.1 hy.2
      have h2 := rn_le hF.near h1 hm
      have h0 : 0 ≤ F.rn (m * n) := rn_pos_or_zero hF (mul_nonneg hx.1 hy.1)
      simp only [FVal.mul, FVal.exactMul, roundV, FVal.round]
      rw [if_neg (not_lt.2 (h2.trans hF.one))]
      exact ⟨⟨h0, h2⟩, rfl⟩

theorem large_or_little {x : FVal} (h : Held p emin F x) (hn : x ≠ nan) : Large x ∨ Little x := by
  rcases x with _ | s | ⟨s, m⟩
  · exact absurd rfl hn
  · exact .inl trivial
  · rcases le_total 1 m with g | g
    · exact .inl g
    · exact .inr ⟨h.1, g⟩

theorem loop_sign (h1 : Rep p emin 1) (hF : IsFmt p emin F) {x : FVal} (hx : Held p emin F x) (hn : x ≠ nan) (n : Nat) :
    ∃ r, fastPowsLoop F.scalar.mul F.scalar.one x n = .ok r ∧ (Large r ∨ Little r) ∧ negative r = powSign x n := by
  have s0 : negative F.scalar.one = powSign x 0 := by simp [Fmt.scalar, negative, powSign]
  have s1 : negative x = powSign x 1 := by simp [powSign]
  rcases large_or_little hx hn with g | g
  · obtain ⟨r, e, k1, k2⟩ := fastPowsLoop_inv (mul := F.scalar.mul)
      (P := fun a i => Large a ∧ negative a = powSign x i) (N := n)
      (fun a b i j ha hb _ => ⟨FVal.mul F a b, rfl, (mul_large h1 hF ha.1 hb.1).1, by
        rw [(mul_large h1 hF ha.1 hb.1).2, ha.2, hb.2, powSign_add]⟩) n (res := F.scalar.one) (x := x) (i := 0)
      (j := 1) ⟨le_refl (1 : ℚ), s0⟩ ⟨g, s1⟩ (by omega)
    exact ⟨r, e, .inl k1, by simpa using k2⟩
  · obtain ⟨r, e, k1, k2⟩ := fastPowsLoop_inv (mul := F.scalar.mul)
      (P := fun a i => Little a ∧ negative a = powSign x i) (N := n)
      (fun a b i j ha hb _ => ⟨FVal.mul F a b, rfl, (mul_little h1 hF ha.1 hb.1).1, by
        rw [(mul_little h1 hF ha.1 hb.1).2, ha.2, hb.2, powSign_add]⟩) n (res := F.scalar.one) (x := x) (i := 0)
      (j := 1) ⟨⟨zero_le_one, le_refl (1 : ℚ)⟩, s0⟩ ⟨g, s1⟩ (by omega)
    exact ⟨r, e, .inr k1, by simpa using k2⟩

/-- C97: a power of a number that is not NaN is not NaN, and it is negative exactly if the number is and the
exponent is odd, whatever overflows or underflows on the way. -/
theorem C97_sign (h1 : Rep p emin 1) (hF : IsFmt p emin F) {x : FVal} (hx : Held p emin F x) (hn : x ≠ nan) {n : Int}
    (hf : Fits IntTy.long n) (hmin : n ≠ -9223372036854775808) :
    ∃ r, fastPowsInt F.scalar.mul F.scalar.div F.scalar.one x n = .ok r ∧ r ≠ nan ∧
      (negative r = true ↔ negative x = true ∧ n % 2 = 1) := by
  have nn : ∀ {r : FVal}, Large r ∨ Little r → r ≠ nan := by
    rintro r h rfl
    rcases h with h | h <;> exact h
  rcases Int.eq_nat_or_neg n with ⟨k, rfl | rfl⟩
  · obtain ⟨r, e, h2, h3⟩ := loop_sign h1 hF hx hn k
    refine ⟨r, (fastPowsInt_nonneg _ _ _ _ hf).trans e, nn h2, ?_⟩
    rw [h3]
    simp only [powSign, Bool.and_eq_true, decide_eq_true_eq]
    exact and_congr_right fun _ => by omega
  · rcases Nat.eq_zero_or_pos k with rfl | hk
    · obtain ⟨r, e, h2, h3⟩ := loop_sign h1 hF hx hn 0
      have := fastPowsInt_nonneg F.scalar.mul F.scalar.div F.scalar.one x (n := 0) (by simpa using hf)
      refine ⟨r, by simpa using this.trans e, nn h2, ?_⟩
      rw [h3]
      simp [powSign]
    · have hf' : Fits IntTy.long k := by
        rw [fits_long_iff] at *
        omega
      obtain ⟨q, e, h2, h3⟩ := loop_sign h1 hF hx hn k
      refine ⟨FVal.div F (fin false 1) q, ?_, ?_, ?_⟩
      · rw [fastPowsInt_neg _ _ _ _ hf' hk, e]; rfl
      · rcases q with _ | s | ⟨s, m⟩
        · exact absurd rfl (nn h2)
        · simp [FVal.div]
        · simp only [FVal.div]
          split
          · simp
          · unfold FVal.round; split <;> simp
      · have : negative (FVal.div F (fin false 1) q) = negative q := by
          rcases q with _ | s | ⟨s, m⟩
          · exact absurd rfl (nn h2)
          · simp [FVal.div, negative]
          · simp only [FVal.div]
            split
            · simp [negative]
            · unfold FVal.round; split <;> simp [negative]
        rw [this, h3]
        simp only [powSign, Bool.and_eq_true, decide_eq_true_eq]
        exact and_congr_right fun _ => by omega

/-- C97: `fast_pows_int(x, 0)` is 1 also for NaN; any other power of NaN is NaN. -/
theorem C97_nan {n : Int} (hf : Fits IntTy.long n) (hmin : n ≠ -9223372036854775808) (x : FVal) :
    fastPowsInt F.scalar.mul F.scalar.div F.scalar.one x 0 = .ok (fin false 1) ∧
    (n ≠ 0 → fastPowsInt F.scalar.mul F.scalar.div F.scalar.one nan n = .ok nan) := by
  constructor
  · have := fastPowsInt_nonneg F.scalar.mul F.scalar.div F.scalar.one x (n := 0) (by rw [fits_long_iff]; decide)
    refine Eq.trans (by simpa using this) ?_
    rw [fastPowsLoop_step]
    rfl
  · intro h0
    have key : ∀ k : Nat, 0 < k → fastPowsLoop F.scalar.mul F.scalar.one nan k = .ok nan := by
      intro k hk
      obtain ⟨r, e, k1⟩ := fastPowsLoop_inv (mul := F.scalar.mul) (P := fun a i => 0 < i → a = nan) (N := k)
        (fun a b i j ha hb _ => ⟨FVal.mul F a b, rfl, fun hij => by
          rcases Nat.eq_zero_or_pos i with rfl | hi
          · rw [hb (by omega)]; cases a <;> rfl
          · rw [ha hi]; cases b <;> rfl⟩) k (res := F.scalar.one) (x := nan) (i := 0) (j := 1)
        (fun h => (nomatch h)) (fun _ => rfl) (by omega)
      rw [e, k1 (by omega)]
    rcases Int.eq_nat_or_neg n with ⟨k, rfl | rfl⟩
    · rw [fastPowsInt_nonneg _ _ _ _ hf, key k (by omega)]
    · have hf' : Fits IntTy.long k := by
        rw [fits_long_iff] at *
        omega
      rw [fastPowsInt_neg _ _ _ _ hf' (by omega), key k (by omega)]
      rfl

/-- C97: a negative power is one divided by the positive power.  So it is zero if the positive power overflows, even
if the exact value is a floating-point number. -/
theorem C97_negative (h1 : Rep p emin 1) (hF : IsFmt p emin F) {x : FVal} (hx : Held p emin F x) {n : Nat} (h0 : 0 < n)
    (hf : Fits IntTy.long n) :
    ∃ q r, fastPowsInt F.scalar.mul F.scalar.div F.scalar.one x n = .ok q ∧
      fastPowsInt F.scalar.mul F.scalar.div F.scalar.one x (-(n : Int)) = .ok r ∧
      FloatOp.div.Result F (fin false 1) q r ∧ (∀ s, q = inf s → r = fin s 0) := by
  have hq : ∃ q, fastPowsLoop F.scalar.mul F.scalar.one x n = .ok q ∧ Held p emin F q := by
    obtain ⟨q, e, k⟩ := fastPowsLoop_inv (mul := F.scalar.mul) (P := fun a _ => Held p emin F a) (N := n)
      (fun a b i j ha hb _ => C96_operators hF .mul ha hb |>.imp fun c hc => ⟨hc.1, hc.2.2⟩) n
      (res := F.scalar.one) (x := x) (i := 0) (j := 1) ⟨zero_le_one, hF.one, h1⟩ hx (by omega)
    exact ⟨q, e, k⟩
  obtain ⟨q, e, k⟩ := hq
  obtain ⟨r, h2, h3, -⟩ := C96_operators hF .div (x := fin false 1) (y := q) ⟨zero_le_one, hF.one, h1⟩ k
  refine ⟨q, r, by rw [fastPowsInt_nonneg _ _ _ _ hf, e], ?_, h3, ?_⟩
  · rw [fastPowsInt_neg _ _ _ _ hf h0, e]
    exact h2
  · rintro s rfl
    rw [h3.2.2.2 rfl rfl]
    cases s <;> rfl

theorem loop_finite (hF : IsFmt p emin F) (n : Nat) {res x r : FVal} (h : fastPowsLoop F.scalar.mul res x n = .ok r)
    (hr : r.isFinite = true) :
    res.isFinite = true ∧ (0 < n → x.isFinite = true) ∧
    fastPowsLoop (rounded F.rn pow sqrt).mul res.val x.val n = .ok r.val := by
  induction n using Nat.strong_induction_on generalizing res x with
  | _ n ih =>
    rw [fastPowsLoop_step] at h ⊢
    obtain ⟨q, hq⟩ : ∃ q, (if n % 2 = 1 then F.scalar.mul res x else .ok res) = .ok q := by
      split
      · exact ⟨_, rfl⟩
      · exact ⟨_, rfl⟩
    have hb : ∀ (q : FVal) (f : FVal → Res FVal), (Res.ok q).bind f = f q := fun _ _ => rfl
    have hb' : ∀ (q : ℚ) (f : ℚ → Res ℚ), (Res.ok q).bind f = f q := fun _ _ => rfl
    rw [hq, hb] at h
    -- what the first multiplication contributes
    have first : q.isFinite = true → res.isFinite = true ∧ (n % 2 = 1 → x.isFinite = true) ∧
        (if n % 2 = 1 then (rounded F.rn pow sqrt).mul res.val x.val else .ok res.val) = .ok q.val := by
      intro fq
      by_cases g : n % 2 = 1
      · rw [if_pos g] at hq ⊢
        have hq : FVal.mul F res x = q := Res.ok.inj hq
        subst hq
        obtain ⟨a, b⟩ := mul_finite fq
        exact ⟨a, fun _ => b, by rw [val_mul hF fq]; rfl⟩
      · rw [if_neg g] at hq ⊢
        have hq : res = q := Res.ok.inj hq
        subst hq
        exact ⟨fq, fun h => absurd h g, rfl⟩
    by_cases h0 : n / 2 = 0
    · rw [if_pos h0] at h
      have h : q = r := Res.ok.inj h
      subst h
      obtain ⟨a, b, c⟩ := first hr
      refine ⟨a, fun hn => b (by omega), ?_⟩
      rw [c, hb', if_pos h0]
    · rw [if_neg h0] at h
      obtain ⟨a, b, c⟩ := ih (n / 2) (by omega) (res := q) (x := FVal.mul F x x) h
      obtain ⟨a1, b1, c1⟩ := first a
      have hx := b (by omega)
      refine ⟨a1, fun _ => (mul_finite hx).1, ?_⟩
      rw [c1, hb', if_neg h0, ← c, val_mul hF hx]
      rfl

/-- C97: if `fast_pows_int(x, n)` with `n >= 1` is finite, then `x` is finite and nothing has overflowed: the result
is that of the same multiplications, rounded in the same way, without a largest number. -/
theorem C97_finite (hF : IsFmt p emin F) {n : Nat} (h0 : 0 < n) (hf : Fits IntTy.long n) {x r : FVal}
    (h : fastPowsInt F.scalar.mul F.scalar.div F.scalar.one x n = .ok r) (hr : r.isFinite = true) :
    x.isFinite = true ∧
    fastPowsInt (rounded F.rn pow sqrt).mul (rounded F.rn pow sqrt).div 1 x.val n = .ok r.val := by
  rw [fastPowsInt_nonneg _ _ _ _ hf] at *
  obtain ⟨-, b, c⟩ := loop_finite (pow := pow) (sqrt := sqrt) hF n h hr
  exact ⟨b h0, c⟩

/-- One rounding of a product of at least one, in a format where one is not subnormal. -/
theorem rn_large (hp : 1 ≤ p) (h1 : Rep p emin 1) (hn : (2 : ℚ) ^ p * 2 ^ emin ≤ 2) (h : Nearest p emin rn) (ho : ∀ x, rn (-x) = -rn x)
    {v : ℚ} (hv : 1 ≤ |v|) : 1 ≤ |rn v| ∧ |v - rn v| ≤ unit p * |v| := by
  refine ⟨?_, rel_err_normal hp h (by linarith)⟩
  rcases le_total 0 v with g | g
  · rw [abs_of_nonneg g] at hv
    exact (le_rn h h1 hv).trans (le_abs_self _)
  · rw [abs_of_nonpos g] at hv
    have := le_rn h h1 hv
    rw [ho] at this
    exact this.trans (neg_le_abs _)

/-- The steps of the loop for numbers of magnitude at least one. -/
theorem step_large (hp : 1 ≤ p) (h1 : Rep p emin 1) (hn : (2 : ℚ) ^ p * 2 ^ emin ≤ 2) (h : Nearest p emin rn)
    (ho : ∀ x, rn (-x) = -rn x) {x a b : ℚ} {i j : Nat}
    (ha : Rep p emin a ∧ 1 ≤ |a| ∧ PowErr (unit p) x a i ∧ (i = 0 → a = 1))
    (hb : Rep p emin b ∧ 1 ≤ |b| ∧ PowErr (unit p) x b j ∧ (j = 0 → b = 1)) :
    Rep p emin (rn (a * b)) ∧ 1 ≤ |rn (a * b)| ∧ PowErr (unit p) x (rn (a * b)) (i + j) ∧
      (i + j = 0 → rn (a * b) = 1) := by
  obtain ⟨ra, la, ea, za⟩ := ha
  obtain ⟨rb, lb, eb, zb⟩ := hb
  have hab : 1 ≤ |a * b| := by rw [abs_mul]; exact one_le_mul_of_one_le_of_one_le la lb
  obtain ⟨k1, k2⟩ := rn_large hp h1 hn h ho hab
  refine ⟨h.rep _, k1, ?_, ?_⟩
  · rcases Nat.eq_zero_or_pos i with rfl | hi
    · rw [za rfl, one_mul, Nat.zero_add, rn_rep h rb]
      exact eb
    · rcases Nat.eq_zero_or_pos j with rfl | hj
      · rw [zb rfl, mul_one, Nat.add_zero, rn_rep h ra]
        exact ea
      · unfold PowErr at *
        rw [pow_add, show i + j - 1 = (i - 1) + (j - 1) + 1 by omega]
        exact mul_round_err (unit_pos p) ea eb k2
  · intro h0
    rw [za (by omega), zb (by omega), one_mul]
    exact rn_rep h h1

/-- C97: for `|x| >= 1` and `n >= 1`, a finite `fast_pows_int(x, n)` has the relative error of `n - 1` roundings. -/
theorem C97_error_large (hp : 1 ≤ p) (h1 : Rep p emin 1) (hn : (2 : ℚ) ^ p * 2 ^ emin ≤ 2) (hF : IsFmt p emin F)
    {x r : FVal} (hx : Held p emin F x) (hx1 : 1 ≤ |x.val|) {n : Nat} (h0 : 0 < n) (hf : Fits IntTy.long n)
    (h : fastPowsInt F.scalar.mul F.scalar.div F.scalar.one x n = .ok r) (hr : r.isFinite = true) :
    |r.val - x.val ^ n| ≤ ((1 + unit p) ^ (n - 1) - 1) * |x.val ^ n| := by
  obtain ⟨fx, e⟩ := C97_finite (pow := fun a _ => a) (sqrt := id) hF h0 hf h hr
  rw [fastPowsInt_nonneg _ _ _ _ hf] at e
  obtain ⟨q, e', -, -, k, -⟩ := fastPowsLoop_inv (mul := (rounded F.rn (fun a _ => a) id).mul)
    (P := fun a i => Rep p emin a ∧ 1 ≤ |a| ∧ PowErr (unit p) x.val a i ∧ (i = 0 → a = 1)) (N := n)
    (fun a b i j ha hb _ => ⟨F.rn (a * b), rfl, step_large hp h1 hn hF.near hF.odd ha hb⟩) n
    (res := 1) (x := x.val) (i := 0) (j := 1) ⟨h1, by simp, by simp [PowErr], fun _ => rfl⟩
    ⟨rep_val hx fx, hx1, by simp [PowErr], fun h => (nomatch h)⟩ (by omega)
  have : q = r.val := Res.ok.inj (e'.symm.trans e)
  subst this
  simpa [PowErr] using k

/-- C97: and it is finite if `|x|^n` is smaller than the largest number by as many roundings. -/
theorem C97_no_overflow (hp : 1 ≤ p) (h1 : Rep p emin 1) (hn : (2 : ℚ) ^ p * 2 ^ emin ≤ 2) (hF : IsFmt p emin F)
    {x : FVal} (hx : Held p emin F x) (hx1 : 1 ≤ |x.val|) {n : Nat} (hf : Fits IntTy.long n)
    (hb : (1 + unit p) ^ (n - 1) * |x.val| ^ n ≤ F.top) :
    ∃ r, fastPowsInt F.scalar.mul F.scalar.div F.scalar.one x n = .ok r ∧ r.isFinite = true := by
  rw [fastPowsInt_nonneg _ _ _ _ hf]
  have fx : x.isFinite = true := by
    rcases x with _ | s | ⟨s, m⟩
    · norm_num [FVal.val] at hx1
    · norm_num [FVal.val] at hx1
    · rfl
  obtain ⟨q, e, k, -⟩ := fastPowsLoop_inv (mul := F.scalar.mul)
    (P := fun a i => a.isFinite = true ∧ Rep p emin a.val ∧ 1 ≤ |a.val| ∧ PowErr (unit p) x.val a.val i ∧
      (i = 0 → a.val = 1)) (N := n)
    (by
      rintro a b i j ⟨fa, ha⟩ ⟨fb, hb'⟩ hij
      have st := step_large hp h1 hn hF.near hF.odd ha hb'
      have fin' : (FVal.mul F a b).isFinite = true := by
        rcases a with _ | s | ⟨s, m⟩
        · exact nomatch fa
        · exact nomatch fa
        rcases b with _ | t | ⟨t, l⟩
        · exact nomatch fb
        · exact nomatch fb
        simp only [FVal.mul, FVal.exactMul, roundV, FVal.round]
        rw [if_neg]
        · rfl
        · rw [not_lt]
          have e1 : F.rn (m * l) ≤ |F.rn (val (fin s m) * val (fin t l))| := by
            cases s <;> cases t <;> simp only [val, neg_mul, mul_neg, neg_neg, hF.odd, abs_neg] <;>
              exact le_abs_self _
          have e2 := abs_sub_abs_le_abs_sub (F.rn (val (fin s m) * val (fin t l))) (x.val ^ (i + j))
          have e3 : |F.rn (val (fin s m) * val (fin t l)) - x.val ^ (i + j)| ≤ _ := st.2.2.1
          have e4 : (1 + unit p) ^ (i + j - 1) * |x.val ^ (i + j)| ≤ (1 + unit p) ^ (n - 1) * |x.val| ^ n := by
            rw [abs_pow]
            have hu := unit_pos p
            exact mul_le_mul (pow_le_pow_right₀ (by linarith) (by omega)) (pow_le_pow_right₀ hx1 hij) (by positivity)
              (by positivity)
          linarith
      exact ⟨_, rfl, fin', by rw [val_mul hF fin']; exact st⟩) n (res := F.scalar.one) (x := x) (i := 0) (j := 1)
    ⟨rfl, h1, by simp [Fmt.scalar, val], by simp [PowErr, Fmt.scalar, val], fun _ => rfl⟩
    ⟨fx, rep_val hx fx, hx1, by simp [PowErr], fun h => (nomatch h)⟩ (by omega)
  exact ⟨q, e, k⟩

/-! ### Examples -/

-- 3^40 with 53 bits: 39 roundings at most
example : ∃ rn : ℚ → ℚ, NearestX 53 rn ∧
    ∃ r, fastPowsInt (rounded rn (fun a _ => a) id).mul (rounded rn (fun a _ => a) id).div 1 3 40 = .ok r ∧
      |r - 3 ^ 40| ≤ ((1 + unit 53) ^ 39 - 1) * |3 ^ 40| := by
  obtain ⟨rn, h⟩ := exists_nearestX (p := 53) (by norm_num)
  exact ⟨rn, h, C97_error (by norm_num) h ⟨3, 0, by norm_num, by norm_num⟩ (n := 40) (by rw [fits_long_iff]; decide)⟩

-- 3^(-40)
example : ∃ rn : ℚ → ℚ, NearestX 53 rn ∧
    ∃ r, fastPowsInt (rounded rn (fun a _ => a) id).mul (rounded rn (fun a _ => a) id).div 1 3 (-40) = .ok r ∧
      |r - 1 / 3 ^ 40| ≤ ((1 + unit 53) / (2 - (1 + unit 53) ^ 39) - 1) * |1 / 3 ^ 40| := by
  obtain ⟨rn, h⟩ := exists_nearestX (p := 53) (by norm_num)
  exact ⟨rn, h, C97_error_negative (by norm_num) h ⟨3, 0, by norm_num, by norm_num⟩ (by norm_num) (n := 40)
    (by rw [fits_long_iff]; decide) (by norm_num) (by unfold unit; norm_num)⟩

-- (-3)^33 is exact in double precision
example : ∃ rn : ℚ → ℚ, Nearest 53 (-1074) rn ∧
    fastPowsInt (rounded rn (fun a _ => a) id).mul (rounded rn (fun a _ => a) id).div 1 (-3) 33 =
      .ok (-5559060566555523) := by
  obtain ⟨rn, h⟩ := exists_nearest (p := 53) (by norm_num) (-1074)
  refine ⟨rn, h, ?_⟩
  have := C97_exact_integers (pow := fun a _ => a) (sqrt := id) (by norm_num) (by norm_num) h (x := -3) (n := 33)
    (by norm_num) (by rw [fits_long_iff]; decide)
  refine Eq.trans (by norm_num) (this.trans ?_)
  norm_num

example : squares (SInt.mul IntTy.int) 46340 = .ok 2147395600 ∧ squares (SInt.mul IntTy.int) 46341 = .ub ∧
    cubes (SInt.mul IntTy.int) (-1290) = .ok (-2146689000) ∧ cubes (SInt.mul IntTy.int) 1291 = .ub := by
  decide

-- (5/2)^3 = 15.625 with three bits: 14 or 16, and not larger than allowed
example : ∃ F : Fmt, IsFmt 3 (-3) F ∧
    ∃ r, fastPowsInt F.scalar.mul F.scalar.div F.scalar.one (fin false (5 / 2)) 3 = .ok r ∧ r.isFinite = true ∧
      |r.val - (5 / 2) ^ 3| ≤ ((1 + 1 / 8) ^ 2 - 1) * (5 / 2) ^ 3 := by
  obtain ⟨F, hF, ht, -⟩ := exists_fmt3
  have h1 : Rep 3 (-3) 1 := ⟨1, 0, by norm_num, by norm_num, by norm_num⟩
  have hx : Held 3 (-3) F (fin false (5 / 2)) :=
    ⟨by norm_num, by rw [ht]; norm_num, 5, -1, by norm_num, by norm_num, by norm_num⟩
  have hf : Fits IntTy.long ((3 : Nat) : Int) := by rw [fits_long_iff]; decide
  obtain ⟨r, e, k⟩ := C97_no_overflow (by norm_num) h1 (by norm_num) hF hx
    (by norm_num [val, abs_of_pos]) hf (by rw [ht]; norm_num [unit, val, abs_of_pos])
  refine ⟨F, hF, r, e, k, ?_⟩
  have := C97_error_large (by norm_num) h1 (by norm_num) hF hx (by norm_num [val, abs_of_pos]) (by norm_num) hf e k
  have e8 : unit 3 = 1 / 8 := by norm_num [unit]
  rw [e8] at this
  simpa only [val, abs_of_pos (show (0 : ℚ) < (5 / 2) ^ 3 by norm_num)] using this

-- (-2)^5 overflows to -infinity, and (-2)^(-5) is -0 although -1/32 is a number of the format
example : ∃ F : Fmt, IsFmt 3 (-6) F ∧ Rep 3 (-6) (-1 / 32) ∧
    fastPowsInt F.scalar.mul F.scalar.div F.scalar.one (fin true 2) 5 = .ok (inf true) ∧
    fastPowsInt F.scalar.mul F.scalar.div F.scalar.one (fin true 2) (-5) = .ok (fin true 0) := by
  obtain ⟨rn, h⟩ := exists_nearest (p := 3) (by norm_num) (-6)
  obtain ⟨rn, h, ho⟩ := exists_odd h
  obtain ⟨F, hF, hrn, ht⟩ : ∃ F : Fmt, IsFmt 3 (-6) F ∧ F.rn = rn ∧ F.top = 28 :=
    ⟨⟨rn, 28, id, fun x _ => x⟩, ⟨h, ho, ⟨7, 2, by norm_num, by norm_num, by norm_num⟩, by norm_num⟩, rfl, rfl⟩
  have h1 : Rep 3 (-6) 1 := ⟨1, 0, by norm_num, by norm_num, by norm_num⟩
  have hx : Held 3 (-6) F (fin true 2) := ⟨by norm_num, by rw [ht]; norm_num, 1, 1, by norm_num, by norm_num, by norm_num⟩
  have r : ∀ k : Nat, F.rn (2 ^ k) = 2 ^ k := fun k => rn_rep hF.near ⟨1, k, by norm_num, by omega, by simp⟩
  have r1 := r 1
  have r2 := r 2
  have r4 := r 4
  have r5 := r 5
  norm_num at r1 r2 r4 r5
  have e : fastPowsInt F.scalar.mul F.scalar.div F.scalar.one (fin true 2) 5 = .ok (inf true) := by
    have h5 := fastPowsInt_nonneg F.scalar.mul F.scalar.div F.scalar.one (fin true 2) (n := 5)
      (by rw [fits_long_iff]; decide)
    refine Eq.trans h5 ?_
    simp only [show ∀ a b : FVal, fastPowsLoop F.scalar.mul a b 5 = _ from fun a b => fastPowsLoop_step _ a b 5,
      show ∀ a b : FVal, fastPowsLoop F.scalar.mul a b (5 / 2) = _ from fun a b => fastPowsLoop_step _ a b 2,
      show ∀ a b : FVal, fastPowsLoop F.scalar.mul a b (2 / 2) = _ from fun a b => fastPowsLoop_step _ a b 1]
    simp only [Fmt.scalar, FVal.mul, exactMul, roundV, FVal.round, ht, show (5 : Nat) % 2 = 1 by rfl,
      show (5 : Nat) / 2 = 2 by rfl, show (2 : Nat) % 2 = 0 by rfl, show (2 : Nat) / 2 = 1 by rfl,
      show (1 : Nat) % 2 = 1 by rfl, show (1 : Nat) / 2 = 0 by rfl]
    norm_num [r1, r2, r4, r5, Res.bind]
  obtain ⟨q, r, k1, k2, -, k4⟩ := C97_negative h1 hF hx (n := 5) (by norm_num) (by rw [fits_long_iff]; decide)
  have : q = inf true := Res.ok.inj (k1.symm.trans e)
  exact ⟨F, hF, ⟨-1, -5, by norm_num, by norm_num, by norm_num⟩, e, by rw [← k4 _ this]; exact k2⟩

-- the sign of (-2)^(2^53 + 1), whatever overflows
example : ∃ F : Fmt, IsFmt 3 (-3) F ∧
    ∃ r, fastPowsInt F.scalar.mul F.scalar.div F.scalar.one (fin true 2) 9007199254740993 = .ok r ∧ r ≠ nan ∧
      negative r = true := by
  obtain ⟨F, hF, ht, -⟩ := exists_fmt3
  obtain ⟨r, e, k1, k2⟩ := C97_sign ⟨1, 0, by norm_num, by norm_num, by norm_num⟩ hF (x := fin true 2)
    ⟨by norm_num, by rw [ht]; norm_num, 1, 1, by norm_num, by norm_num, by norm_num⟩ (by simp)
    (n := 9007199254740993) (by rw [fits_long_iff]; decide) (by decide)
  exact ⟨F, hF, r, e, k1, k2.2 ⟨rfl, by decide⟩⟩

end Spp.Props
