import Verif.Props.Ieee
import Verif.Props.FloatLit

/-
C91: the arithmetic operators on floating-point numbers with NaN, infinities and signed zeros.
-/

namespace Spp.Props

open Spp.Spec Spp.Lemmas FVal

variable {F : Fmt} {p : Nat} {emin : Int}

theorem rn_pos_or_zero (hF : IsFmt p emin F) {m : ℚ} (h : 0 ≤ m) : 0 ≤ F.rn m :=
  le_rn hF.near rep_zero h

/-- A magnitude and a sign, rounded. -/
theorem round_roundsTo (hF : IsFmt p emin F) {s : Bool} {m : ℚ} (hm : 0 < m) :
    RoundsTo F (if s then -m else m) (FVal.round F s m) := by
  have h0 : 0 ≤ F.rn m := rn_pos_or_zero hF hm.le
  unfold RoundsTo FVal.round
  cases s
  · simp only [Bool.false_eq_true, if_false, abs_of_nonneg h0, not_lt.2 hm.le, decide_false]
    split
    · exact ⟨rfl, fun h => absurd h (not_le.2 ‹_›), fun _ => rfl⟩
    · exact ⟨rfl, fun _ => ⟨rfl, rfl⟩, fun h => absurd h ‹_›⟩
  · have hn : -m < 0 := by linarith
    simp only [if_true, hF.odd, abs_neg, abs_of_nonneg h0, hn, decide_true]
    split
    · exact ⟨rfl, fun h => absurd h (not_le.2 ‹_›), fun _ => rfl⟩
    · exact ⟨rfl, fun _ => ⟨rfl, rfl⟩, fun h => absurd h ‹_›⟩

/-- The magnitude of a number with its sign, rounded. -/
theorem round_abs (hF : IsFmt p emin F) {v : ℚ} (hv : v ≠ 0) :
    RoundsTo F v (FVal.round F (decide (v < 0)) |v|) := by
  have := round_roundsTo hF (s := decide (v < 0)) (abs_pos.2 hv)
  rcases lt_or_gt_of_ne hv with h | h
  · simpa [h, abs_of_neg h] using this
  · simpa [not_lt.2 h.le, abs_of_pos h] using this

theorem val_fin_eq_zero {s : Bool} {m : ℚ} : (fin s m).val = 0 ↔ m = 0 := by cases s <;> simp [val]

theorem finite_cases {x : FVal} (h : x.isFinite = true) : ∃ s m, x = fin s m := by
  cases x
  · exact absurd h (by decide)
  · exact absurd h (by simp [isFinite])
  · exact ⟨_, _, rfl⟩

/-- C91: addition.  The sum of finite numbers is the exact sum, rounded once; a sum that is exactly zero is
`+0` unless both zeros are negative.  An infinity absorbs finite numbers and infinities of the same sign, and
opposite infinities and NaN give NaN. -/
theorem C91_add (hF : IsFmt p emin F) (x y : FVal) :
    ∃ z, F.scalar.add x y = .ok z ∧ F.scalar.add y x = .ok z ∧
      (x.isFinite = true → y.isFinite = true →
        (x.val + y.val ≠ 0 → RoundsTo F (x.val + y.val) z) ∧
        (x.val + y.val = 0 → z = fin (negative x && negative y) 0)) ∧
      (x = nan ∨ y = nan → z = nan) ∧
      (∀ s, x = inf s → (y.isFinite = true ∨ y = inf s → z = inf s) ∧ (y = inf (!s) → z = nan)) := by
  refine ⟨FVal.add F x y, rfl, congrArg Res.ok ?_, fun hx hy => ?_, ?_, ?_⟩
  · rcases x with _ | s | ⟨s, m⟩ <;> rcases y with _ | t | ⟨t, n⟩ <;> simp only [FVal.add]
    · cases s <;> cases t <;> rfl
    · rw [add_comm (fin t n).val, Bool.and_comm]
  · obtain ⟨s, m, rfl⟩ := finite_cases hx
    obtain ⟨t, n, rfl⟩ := finite_cases hy
    refine ⟨fun h => ?_, fun h => ?_⟩
    · rw [FVal.add]
      simp only [h, if_false]
      exact round_abs hF h
    · rw [FVal.add]
      simp only [h, if_true]
      rfl
  · rintro (rfl | rfl) <;> simp
  · rintro s rfl
    refine ⟨?_, ?_⟩
    · rintro (h | rfl)
      · obtain ⟨t, n, rfl⟩ := finite_cases h; rfl
      · simp [FVal.add]
    · rintro rfl; cases s <;> rfl

/-- C91: subtraction adds the second number with its sign changed. -/
theorem C91_sub (hF : IsFmt p emin F) (x y : FVal) :
    ∃ z, F.scalar.sub x y = .ok z ∧
      (x.isFinite = true → y.isFinite = true →
        (x.val ≠ y.val → RoundsTo F (x.val - y.val) z) ∧
        (x.val = y.val → z = fin (negative x && !negative y) 0)) ∧
      (x = nan ∨ y = nan → z = nan) ∧
      (∀ s, x = inf s → (y.isFinite = true ∨ y = inf (!s) → z = inf s) ∧ (y = inf s → z = nan)) ∧
      (∀ s, y = inf s → x.isFinite = true → z = inf (!s)) := by
  refine ⟨FVal.sub F x y, rfl, fun hx hy => ?_, ?_, ?_, ?_⟩
  · obtain ⟨z, h1, -, h2, -⟩ := C91_add hF x (neg y)
    have hz : FVal.sub F x y = z := Res.ok.inj h1
    obtain ⟨a, b⟩ := h2 hx (by rw [neg_finite]; exact hy)
    rw [val_neg, ← sub_eq_add_neg] at a b
    rw [hz]
    refine ⟨fun h => a (sub_ne_zero.2 h), fun h => ?_⟩
    rw [b (sub_eq_zero.2 h)]
    obtain ⟨t, n, rfl⟩ := finite_cases hy
    rfl
  · rintro (rfl | rfl) <;> simp
  · rintro s rfl
    refine ⟨?_, ?_⟩
    · rintro (h | rfl)
      · obtain ⟨t, n, rfl⟩ := finite_cases h; rfl
      · cases s <;> rfl
    · rintro rfl; cases s <;> rfl
  · rintro s rfl h
    obtain ⟨t, n, rfl⟩ := finite_cases h; rfl

theorem xor_neg {s t : Bool} {m n : ℚ} : (fin s m).val * (fin t n).val = if (s != t) then -(m * n) else m * n := by
  cases s <;> cases t <;> simp [val]

/-- C91: multiplication.  The product of finite numbers is the exact product, rounded once; the sign of a zero, and
of an infinity, is minus if the signs differ.  Zero times infinity is NaN. -/
theorem C91_mul (hF : IsFmt p emin F) {x y : FVal} (hx : Held p emin F x) (hy : Held p emin F y) :
    ∃ z, F.scalar.mul x y = .ok z ∧ F.scalar.mul y x = .ok z ∧
      (x.isFinite = true → y.isFinite = true →
        (x.val * y.val ≠ 0 → RoundsTo F (x.val * y.val) z) ∧
        (x.val * y.val = 0 → z = fin (negative x != negative y) 0)) ∧
      (x = nan ∨ y = nan → z = nan) ∧
      (∀ s, x = inf s →
        (y.isInf = true ∨ (y.isFinite = true ∧ y.val ≠ 0) → z = inf (s != negative y)) ∧
        (y.isFinite = true → y.val = 0 → z = nan)) := by
  refine ⟨FVal.mul F x y, rfl, congrArg Res.ok ?_, fun hx' hy' => ?_, ?_, ?_⟩
  · unfold FVal.mul
    congr 1
    rcases x with _ | s | ⟨s, m⟩ <;> rcases y with _ | t | ⟨t, n⟩ <;> simp only [FVal.exactMul]
    · cases s <;> cases t <;> rfl
    · cases s <;> cases t <;> rfl
    · cases s <;> cases t <;> rfl
    · rw [mul_comm]; cases s <;> cases t <;> rfl
  · obtain ⟨s, m, rfl⟩ := finite_cases hx'
    obtain ⟨t, n, rfl⟩ := finite_cases hy'
    refine ⟨fun h => ?_, fun h => ?_⟩
    · rw [xor_neg] at h ⊢
      refine round_roundsTo hF (lt_of_le_of_ne (mul_nonneg hx.1 hy.1) (fun h0 => h ?_))
      rw [← h0]; simp
    · have h0 : m * n = 0 := by
        rw [xor_neg] at h
        cases hs : (s != t) <;> simp only [hs] at h
        · simpa using h
        · simpa using h
      show FVal.round F (s != t) (m * n) = _
      rw [h0, FVal.round, rn_zero hF, if_neg (by have := hF.one; linarith)]; rfl
  · rintro (rfl | rfl) <;> simp
  · rintro s rfl
    refine ⟨?_, ?_⟩
    · rintro (h | ⟨h, h0⟩)
      · rcases y with _ | t | ⟨t, n⟩
        · exact absurd h (by decide)
        · rfl
        · exact absurd h (by simp [isInf])
      · obtain ⟨t, n, rfl⟩ := finite_cases h
        rw [Ne, val_fin_eq_zero] at h0
        simp [FVal.mul, FVal.exactMul, h0, roundV, negative]
    · intro h h0
      obtain ⟨t, n, rfl⟩ := finite_cases h
      rw [val_fin_eq_zero] at h0
      simp [FVal.mul, FVal.exactMul, h0, roundV]

theorem xor_div {s t : Bool} {m n : ℚ} : (fin s m).val / (fin t n).val = if (s != t) then -(m / n) else m / n := by
  cases s <;> cases t <;> simp [val, div_neg, neg_div]

/-- C91: division.  The quotient of finite numbers is the exact quotient, rounded once; a number divided by zero is
an infinity, zero divided by zero and infinity divided by infinity are NaN; a number divided by infinity is zero.
The sign is minus if the signs differ. -/
theorem C91_div (hF : IsFmt p emin F) {x y : FVal} (hx : Held p emin F x) (hy : Held p emin F y) :
    ∃ z, F.scalar.div x y = .ok z ∧
      (x.isFinite = true → y.isFinite = true →
        (x.val ≠ 0 → y.val ≠ 0 → RoundsTo F (x.val / y.val) z) ∧
        (x.val = 0 → y.val ≠ 0 → z = fin (negative x != negative y) 0) ∧
        (x.val ≠ 0 → y.val = 0 → z = inf (negative x != negative y)) ∧
        (x.val = 0 → y.val = 0 → z = nan)) ∧
      (x = nan ∨ y = nan ∨ (x.isInf = true ∧ y.isInf = true) → z = nan) ∧
      (x.isInf = true → y.isFinite = true → z = inf (negative x != negative y)) ∧
      (x.isFinite = true → y.isInf = true → z = fin (negative x != negative y) 0) := by
  refine ⟨FVal.div F x y, rfl, fun hx' hy' => ?_, ?_, ?_, ?_⟩
  · obtain ⟨s, m, rfl⟩ := finite_cases hx'
    obtain ⟨t, n, rfl⟩ := finite_cases hy'
    simp only [Ne, val_fin_eq_zero]
    refine ⟨fun h1 h2 => ?_, fun h1 h2 => ?_, fun h1 h2 => ?_, fun h1 h2 => ?_⟩
    · rw [xor_div, FVal.div, if_neg h2]
      exact round_roundsTo hF (div_pos (lt_of_le_of_ne hx.1 (Ne.symm h1)) (lt_of_le_of_ne hy.1 (Ne.symm h2)))
    · rw [FVal.div, if_neg h2, h1, zero_div, FVal.round, rn_zero hF, if_neg (by have := hF.one; linarith)]; rfl
    · rw [FVal.div, if_pos h2, if_neg h1]; rfl
    · rw [FVal.div, if_pos h2, if_pos h1]
  · rintro (rfl | rfl | ⟨h1, h2⟩)
    · simp
    · simp
    · rcases x with _ | s | ⟨s, m⟩ <;> rcases y with _ | t | ⟨t, n⟩ <;> first | rfl | (simp [isInf] at h1 h2)
  · intro h1 h2
    obtain ⟨t, n, rfl⟩ := finite_cases h2
    rcases x with _ | s | ⟨s, m⟩ <;> first | rfl | (simp [isInf] at h1)
  · intro h1 h2
    obtain ⟨t, n, rfl⟩ := finite_cases h1
    rcases y with _ | s | ⟨s, m⟩ <;> first | rfl | (simp [isInf] at h2)

/-- C91: `fmas` of finite numbers is the exact value of `x * y + z`, rounded once; an exact zero is `+0` unless
the product and `z` are both negative.  Zero times infinity is NaN whatever is added. -/
theorem C91_fma (hF : IsFmt p emin F) (x y z : FVal) :
    ∃ w, F.scalar.fma x y z = .ok w ∧
      (x.isFinite = true → y.isFinite = true → z.isFinite = true →
        (x.val * y.val + z.val ≠ 0 → RoundsTo F (x.val * y.val + z.val) w) ∧
        (x.val * y.val + z.val = 0 → w = fin ((negative x != negative y) && negative z) 0)) ∧
      (x = nan ∨ y = nan ∨ z = nan → w = nan) ∧
      (∀ s, x = inf s ∨ y = inf s →
        (x.isFinite = true ∧ x.val = 0 ∨ y.isFinite = true ∧ y.val = 0 → w = nan)) ∧
      (x.isFinite = true → y.isFinite = true → ∀ s, z = inf s → w = inf s) ∧
      (x.isInf = true → y.isInf = true ∨ (y.isFinite = true ∧ y.val ≠ 0) →
        (z.isFinite = true ∨ z = inf (negative x != negative y) → w = inf (negative x != negative y)) ∧
        (z = inf (negative x == negative y) → w = nan)) := by
  refine ⟨FVal.fma F x y z, rfl, fun hx hy hz => ?_, ?_, ?_, ?_, ?_⟩
  · obtain ⟨s, m, rfl⟩ := finite_cases hx
    obtain ⟨t, n, rfl⟩ := finite_cases hy
    obtain ⟨u, k, rfl⟩ := finite_cases hz
    obtain ⟨w, h1, -, h2, -⟩ := C91_add hF (fin (s != t) (m * n)) (fin u k)
    have hw : FVal.fma F (fin s m) (fin t n) (fin u k) = w := Res.ok.inj h1
    have hv : (fin (s != t) (m * n)).val = (fin s m).val * (fin t n).val := by
      rw [xor_neg]; cases (s != t) <;> rfl
    obtain ⟨a, b⟩ := h2 rfl rfl
    rw [hv] at a b
    rw [hw]
    exact ⟨a, b⟩
  · rintro (rfl | rfl | rfl) <;> simp
  · rintro s (rfl | rfl)
    · rintro (⟨h, -⟩ | ⟨h, h0⟩)
      · exact absurd h (by simp [isFinite])
      · obtain ⟨t, n, rfl⟩ := finite_cases h
        rw [val_fin_eq_zero] at h0
        simp [FVal.fma, FVal.exactMul, h0]
    · rintro (⟨h, h0⟩ | ⟨h, -⟩)
      · obtain ⟨t, n, rfl⟩ := finite_cases h
        rw [val_fin_eq_zero] at h0
        simp [FVal.fma, FVal.exactMul, h0]
      · exact absurd h (by simp [isFinite])
  · rintro hx hy s rfl
    obtain ⟨s, m, rfl⟩ := finite_cases hx
    obtain ⟨t, n, rfl⟩ := finite_cases hy
    rfl
  · intro h1 h2
    have he : exactMul x y = inf (negative x != negative y) := by
      rcases x with _ | s | ⟨s, m⟩
      · exact absurd h1 (by decide)
      · rcases y with _ | t | ⟨t, n⟩
        · simp [isInf, isFinite] at h2
        · rfl
        · have : n ≠ 0 := by simpa [isInf, isFinite, val_fin_eq_zero] using h2
          simp [FVal.exactMul, this, negative]
      · exact absurd h1 (by simp [isInf])
    unfold FVal.fma
    rw [he]
    refine ⟨?_, ?_⟩
    · rintro (h | rfl)
      · obtain ⟨t, n, rfl⟩ := finite_cases h; rfl
      · simp [FVal.add]
    · rintro rfl
      cases negative x <;> cases negative y <;> rfl

/-- C91: `sqrts` of a positive number is the square root, rounded, of `+0` and `-0` the same zero, of infinity
infinity; of everything negative, and of NaN, it is NaN. -/
theorem C91_sqrt {m : ℚ} (hm : 0 < m) (s : Bool) :
    F.scalar.sqrt (fin false m) =
      .ok (if F.top < F.rn (F.sqrt m) then inf false else fin false (F.rn (F.sqrt m))) ∧
    F.scalar.sqrt (fin s 0) = .ok (fin s 0) ∧ F.scalar.sqrt (inf false) = .ok (inf false) ∧
    F.scalar.sqrt (fin true m) = .ok nan ∧ F.scalar.sqrt (inf true) = .ok nan ∧ F.scalar.sqrt nan = .ok nan := by
  refine ⟨?_, ?_, rfl, ?_, rfl, rfl⟩ <;> simp [Fmt.scalar, FVal.sqrt, hm.ne', FVal.round]

/-- C91: changing the sign is exact for every value. -/
theorem C91_neg (s : Bool) (m : ℚ) :
    F.scalar.neg (fin s m) = .ok (fin (!s) m) ∧ (fin (!s) m).val = -(fin s m).val ∧
    F.scalar.neg (inf s) = .ok (inf (!s)) ∧ F.scalar.neg nan = .ok nan :=
  ⟨rfl, val_neg (fin s m), rfl, rfl⟩

/-- A rounded magnitude is a value of the format. -/
theorem held_round (hF : IsFmt p emin F) {s : Bool} {m : ℚ} (hm : 0 ≤ m) : Held p emin F (FVal.round F s m) := by
  unfold FVal.round
  split
  · trivial
  · exact ⟨rn_pos_or_zero hF hm, not_lt.1 ‹_›, hF.near.rep m⟩

theorem held_zero (hF : IsFmt p emin F) (s : Bool) : Held p emin F (fin s 0) :=
  ⟨le_refl _, by have := hF.one; linarith, rep_zero⟩

theorem held_add (hF : IsFmt p emin F) (x y : FVal) : Held p emin F (FVal.add F x y) := by
  rcases x with _ | s | ⟨s, m⟩ <;> rcases y with _ | t | ⟨t, n⟩ <;> simp only [FVal.add] <;>
    first | trivial | skip
  · split <;> trivial
  · split
    · exact held_zero hF _
    · exact held_round hF (abs_nonneg _)

/-- C91: the results of the operators on values of the format are values of the format. -/
theorem C91_closed (hF : IsFmt p emin F) (hs : ∀ m, 0 ≤ F.sqrt m) {x y z : FVal} (hx : Held p emin F x)
    (hy : Held p emin F y) (hz : Held p emin F z) :
    ∃ a b c d e f g, F.scalar.add x y = .ok a ∧ Held p emin F a ∧ F.scalar.sub x y = .ok b ∧ Held p emin F b ∧
      F.scalar.mul x y = .ok c ∧ Held p emin F c ∧ F.scalar.div x y = .ok d ∧ Held p emin F d ∧
      F.scalar.fma x y z = .ok e ∧ Held p emin F e ∧ F.scalar.sqrt x = .ok f ∧ Held p emin F f ∧
      F.scalar.neg x = .ok g ∧ Held p emin F g := by
  refine ⟨_, _, _, _, _, _, _, rfl, held_add hF x y, rfl, held_add hF x _, rfl, ?_, rfl, ?_, rfl, held_add hF _ _,
    rfl, ?_, rfl, ?_⟩
  · rcases x with _ | s | ⟨s, m⟩ <;> rcases y with _ | t | ⟨t, n⟩ <;>
      simp only [FVal.mul, FVal.exactMul, roundV] <;> first | trivial | skip
    · by_cases h : n = 0 <;> simp only [h, if_true, if_false] <;> trivial
    · by_cases h : m = 0 <;> simp only [h, if_true, if_false] <;> trivial
    · exact held_round hF (mul_nonneg hx.1 hy.1)
  · rcases x with _ | s | ⟨s, m⟩ <;> rcases y with _ | t | ⟨t, n⟩ <;>
      simp only [FVal.div] <;> first | trivial | skip
    · exact held_zero hF _
    · split
      · split <;> trivial
      · exact held_round hF (div_nonneg hx.1 hy.1)
  · rcases x with _ | s | ⟨s, m⟩
    · trivial
    · cases s <;> trivial
    · simp only [FVal.sqrt]
      split
      · exact held_zero hF _
      · split
        · trivial
        · exact held_round hF (hs m)
  · rcases x with _ | s | ⟨s, m⟩
    · trivial
    · trivial
    · exact hx

/-- C91: the difference of two finite values of the format is zero only if they are equal: there is a number
between zero and every difference. -/
theorem C91_difference (hp : 1 ≤ p) (hF : IsFmt p emin F) {x y : FVal} (hx : Held p emin F x) (hy : Held p emin F y)
    (fx : x.isFinite = true) (fy : y.isFinite = true) :
    ∃ d, F.scalar.sub x y = .ok d ∧ (F.scalar.eq d F.scalar.zero = true ↔ F.scalar.eq x y = true) ∧
      (F.scalar.lt d F.scalar.zero = true ↔ F.scalar.lt x y = true) := by
  obtain ⟨d, h1, h2, -⟩ := C91_sub hF x y
  obtain ⟨a, b⟩ := h2 fx fy
  refine ⟨d, h1, ?_⟩
  obtain ⟨s, m, rfl⟩ := finite_cases fx
  obtain ⟨t, n, rfl⟩ := finite_cases fy
  show (FVal.eq d (fin false 0) = true ↔ decide ((fin s m).val = (fin t n).val) = true) ∧
    (FVal.lt d (fin false 0) = true ↔ decide ((fin s m).val < (fin t n).val) = true)
  rw [decide_eq_true_iff, decide_eq_true_iff]
  by_cases he : (fin s m).val = (fin t n).val
  · rw [b he, he]
    cases negative (fin s m) && !negative (fin t n) <;> simp [FVal.eq, FVal.lt, val]
  · obtain ⟨c1, c2, c3⟩ := a he
    -- the difference is a multiple of the smallest number
    have mx : Mult emin (fin s m).val := by
      cases s
      · exact rep_mult hx.2.2
      · exact rep_mult (rep_neg hx.2.2)
    have my : Mult emin (fin t n).val := by
      cases t
      · exact rep_mult hy.2.2
      · exact rep_mult (rep_neg hy.2.2)
    obtain ⟨i, hi⟩ := mx
    obtain ⟨j, hj⟩ := my
    have hd : (fin s m).val - (fin t n).val = ((i - j : Int) : ℚ) * 2 ^ emin := by
      rw [hi, hj]; push_cast; ring
    have hpos : (0 : ℚ) < 2 ^ emin := zpow_pos (by norm_num) _
    have hr : Rep p emin ((1 : ℚ) * 2 ^ emin) :=
      ⟨1, emin, by
        have : (1 : Int) < 2 ^ p := by
          have : (2 : Int) ^ 1 ≤ 2 ^ p := pow_le_pow_right₀ (by norm_num) hp
          linarith
        simpa using this, le_refl _, by push_cast; ring⟩
    rw [one_mul] at hr
    have hij : i - j ≠ 0 := by
      intro h0
      rw [h0] at hd
      apply he
      have : (fin s m).val - (fin t n).val = 0 := by rw [hd]; simp
      linarith
    rcases lt_or_gt_of_ne hij with hlt | hgt
    · -- negative
      have h1' : ((i - j : Int) : ℚ) ≤ -1 := by exact_mod_cast (by omega : i - j ≤ -1)
      have hle : (fin s m).val - (fin t n).val ≤ -(2 ^ emin) := by
        rw [hd]; nlinarith
      have hrn := rn_le hF.near (rep_neg hr) hle
      have hv : (fin s m).val < (fin t n).val := by linarith
      have hneg : F.rn ((fin s m).val - (fin t n).val) < 0 := by linarith
      by_cases hov : |F.rn ((fin s m).val - (fin t n).val)| ≤ F.top
      · obtain ⟨e1, e2⟩ := c2 hov
        obtain ⟨u, k, rfl⟩ := finite_cases e1
        have z0 : (fin false 0).val = 0 := rfl
        simp only [FVal.eq, FVal.lt, e2, decide_eq_true_iff, z0]
        exact ⟨⟨fun h => absurd h hneg.ne, fun h => absurd h he⟩, ⟨fun _ => hv, fun _ => hneg⟩⟩
      · have e := c3 (not_le.1 hov)
        rcases d with _ | u | ⟨u, k⟩
        · exact absurd e (by decide)
        · have hu : u = true := by
            have : decide ((fin s m).val - (fin t n).val < 0) = true := by
              rw [decide_eq_true_iff]; linarith
            rw [← this, ← c1]; rfl
          subst hu
          simp only [FVal.eq, FVal.lt]
          exact ⟨⟨fun h => absurd h (by decide), fun h => absurd h he⟩, ⟨fun _ => hv, fun _ => trivial⟩⟩
        · exact absurd e (by simp [isInf])
    · have h1' : (1 : ℚ) ≤ ((i - j : Int) : ℚ) := by exact_mod_cast (by omega : 1 ≤ i - j)
      have hle : (2 : ℚ) ^ emin ≤ (fin s m).val - (fin t n).val := by
        rw [hd]; nlinarith
      have hrn := le_rn hF.near hr hle
      have hv : ¬ (fin s m).val < (fin t n).val := by linarith
      have hneg : 0 < F.rn ((fin s m).val - (fin t n).val) := by linarith
      by_cases hov : |F.rn ((fin s m).val - (fin t n).val)| ≤ F.top
      · obtain ⟨e1, e2⟩ := c2 hov
        obtain ⟨u, k, rfl⟩ := finite_cases e1
        have z0 : (fin false 0).val = 0 := rfl
        simp only [FVal.eq, FVal.lt, e2, decide_eq_true_iff, z0]
        exact ⟨⟨fun h => absurd h hneg.ne', fun h => absurd h he⟩,
          ⟨fun h => absurd h (not_lt.2 hneg.le), fun h => absurd h hv⟩⟩
      · have e := c3 (not_le.1 hov)
        rcases d with _ | u | ⟨u, k⟩
        · exact absurd e (by decide)
        · have hu : u = false := by
            have : decide ((fin s m).val - (fin t n).val < 0) = false := by
              rw [decide_eq_false_iff_not]; linarith
            rw [← this, ← c1]; rfl
          subst hu
          simp only [FVal.eq, FVal.lt]
          exact ⟨⟨fun h => absurd h (by decide), fun h => absurd h he⟩,
            ⟨fun h => absurd h (by decide), fun h => absurd h hv⟩⟩
        · exact absurd e (by simp [isInf])

theorem round_held (hF : IsFmt p emin F) {s : Bool} {m : ℚ} (h : Held p emin F (fin s m)) :
    FVal.round F s m = fin s m := by
  unfold FVal.round
  rw [rn_rep hF.near h.2.2, if_neg (not_lt.2 h.2.1)]

/-- C91: adding `-0`, and multiplying or dividing by one, leave every value of the format as it is, also the
zeros; adding `+0` changes `-0` only. -/
theorem C91_neutral (hF : IsFmt p emin F) {x : FVal} (hx : Held p emin F x) :
    F.scalar.add x (fin true 0) = .ok x ∧ F.scalar.sub x (fin false 0) = .ok x ∧
    F.scalar.mul x F.scalar.one = .ok x ∧ F.scalar.div x F.scalar.one = .ok x ∧
    (x ≠ fin true 0 → F.scalar.add x F.scalar.zero = .ok x) ∧
    F.scalar.add (fin true 0) F.scalar.zero = .ok (fin false 0) := by
  have hadd : ∀ t, (x ≠ fin true 0 ∨ t = true) → FVal.add F x (fin t 0) = x := by
    intro t ht
    rcases x with _ | s | ⟨s, m⟩
    · rfl
    · rfl
    · have hv : (fin t 0).val = 0 := val_fin_eq_zero.2 rfl
      rw [FVal.add]
      simp only [hv, add_zero]
      by_cases h0 : m = 0
      · subst h0
        rw [if_pos (val_fin_eq_zero.2 rfl)]
        cases s
        · rfl
        · rcases ht with h | rfl
          · exact absurd rfl h
          · rfl
      · rw [if_neg (fun h => h0 (val_fin_eq_zero.1 h))]
        have hpos : 0 < m := lt_of_le_of_ne hx.1 (Ne.symm h0)
        have hs : decide ((fin s m).val < 0) = s ∧ |(fin s m).val| = m := by
          cases s
          · exact ⟨decide_eq_false_iff_not.2 (not_lt.2 hpos.le), abs_of_pos hpos⟩
          · exact ⟨decide_eq_true (by show -m < 0; linarith), by show |-m| = m; rw [abs_neg, abs_of_pos hpos]⟩
        rw [hs.1, hs.2, round_held hF hx]
  refine ⟨congrArg Res.ok (hadd true (Or.inr rfl)), congrArg Res.ok (hadd true (Or.inr rfl)), congrArg Res.ok ?_,
    congrArg Res.ok ?_, fun h => congrArg Res.ok (hadd false (Or.inl h)), congrArg Res.ok ?_⟩
  · show FVal.mul F x (fin false 1) = x
    rcases x with _ | s | ⟨s, m⟩
    · rfl
    · simp [FVal.mul, FVal.exactMul, roundV]
    · simp only [FVal.mul, FVal.exactMul, roundV, mul_one, Bool.bne_false]
      exact round_held hF hx
  · show FVal.div F x (fin false 1) = x
    rcases x with _ | s | ⟨s, m⟩
    · rfl
    · simp [FVal.div]
    · simp only [FVal.div, div_one, Bool.bne_false, one_ne_zero, if_false]
      exact round_held hF hx
  · show FVal.add F (fin true 0) (fin false 0) = _
    simp [FVal.add, val]

/-- C91: conversion from integers rounds once. -/
theorem C91_of_index (hF : IsFmt p emin F) {i : Int} (hi : i ≠ 0) :
    ∃ z, F.scalar.ofIndex i = .ok z ∧ RoundsTo F i z := by
  refine ⟨_, rfl, ?_⟩
  have h : (i : ℚ) ≠ 0 := by exact_mod_cast hi
  have := round_abs hF h
  simpa using this

-- a format with 3 digits in which 1 + 7 is 8, the largest number is 28, and 28 + 28 overflows
example : ∃ F : Fmt, IsFmt 3 0 F ∧ F.top = 28 ∧ Held 3 0 F (fin false 28) := by
  obtain ⟨rn, h⟩ := exists_nearest (p := 3) (by norm_num) 0
  obtain ⟨rn', h', ho⟩ := exists_odd h
  have ht : Rep 3 0 28 := ⟨7, 2, by norm_num, by norm_num, by norm_num⟩
  exact ⟨⟨rn', 28, id, fun x _ => x⟩, ⟨h', ho, ht, by norm_num⟩, rfl, by norm_num, le_refl _, ht⟩

end Spp.Props
