import Verif.Model.Scalar
import Verif.Spec.Scalar
import Verif.Spec.Float
import Verif.Lemmas.Ints
import Verif.Lemmas.Float
import Verif.Lemmas.Index
import Mathlib.Tactic.Linarith

/- C77-C80: bitwise operators, strict booleans, conversions, literals and named arguments. -/

set_option linter.unusedSectionVars false

namespace Spp.Props

open Spp.Spec Spp.SInt

/-! ### C77: bitwise operators -/

theorem bit_same {t : IntTy} {v w : Int} (h : SameMod t v w) {i : Nat} (hi : i < t.bits) :
    bit i v = bit i w := by
  obtain ⟨k, rfl⟩ := h
  unfold bit
  have e : k * 2 ^ t.bits = (2 * (k * 2 ^ (t.bits - i - 1))) * (2 : Int) ^ i := by
    have : (2 : Int) ^ t.bits = 2 ^ (t.bits - i - 1) * 2 ^ i * 2 := by
      rw [← pow_add, ← pow_succ]; congr 1; omega
    rw [this]; ring
  rw [e, Int.add_mul_ediv_right _ _ (two_pow_pos i).ne', Int.add_mul_emod_self_left]

theorem bit_ofNat (i n : Nat) : bit i (n : Int) = n.testBit i := by
  unfold bit
  rw [Nat.testBit_eq_decide_div_mod_eq]
  have : ((n : Int) / 2 ^ i % 2) = ((n / 2 ^ i % 2 : Nat) : Int) := by push_cast; rfl
  rw [this]
  by_cases h : n / 2 ^ i % 2 = 1 <;> simp [h]
  omega

theorem bit_ofInt (t : IntTy) (x : Int) {i : Nat} (hi : i < t.bits) :
    (BitVec.ofInt t.bits x).getLsbD i = bit i x := by
  rw [← BitVec.testBit_toNat, ← bit_ofNat, BitVec.toNat_ofInt]
  have h0 : 0 ≤ x % ((2 ^ t.bits : Nat) : Int) := Int.emod_nonneg _ (by positivity)
  rw [Int.toNat_of_nonneg h0]
  refine bit_same ⟨-(x / ((2 ^ t.bits : Nat) : Int)), ?_⟩ hi
  have := Int.emod_add_mul_ediv x ((2 ^ t.bits : Nat) : Int)
  push_cast at *
  linarith [mul_comm ((2 : Int) ^ t.bits) (x / 2 ^ t.bits)]

theorem bit_wrap (t : IntTy) (n : Nat) {i : Nat} (hi : i < t.bits) :
    bit i (t.wrap (n : Int)) = n.testBit i := by
  rw [bit_same (wrap_same t n) hi, bit_ofNat]

/-- C77: each of the `bits` digits of the result is the operation on the digits of the operands, and the
result is a value of the type; no operand pair is rejected or undefined. -/
theorem C77_bitwise (t : IntTy) (x y : Int) :
    (Fits t (band t x y) ∧ ∀ i < t.bits, bit i (band t x y) = (bit i x && bit i y)) ∧
    (Fits t (bor t x y) ∧ ∀ i < t.bits, bit i (bor t x y) = (bit i x || bit i y)) ∧
    (Fits t (bxor t x y) ∧ ∀ i < t.bits, bit i (bxor t x y) = (bit i x != bit i y)) ∧
    (Fits t (bnot t x) ∧ ∀ i < t.bits, bit i (bnot t x) = !bit i x) := by
  refine ⟨⟨wrap_fits _ _, fun i hi => ?_⟩, ⟨wrap_fits _ _, fun i hi => ?_⟩,
    ⟨wrap_fits _ _, fun i hi => ?_⟩, ⟨wrap_fits _ _, fun i hi => ?_⟩⟩
  · unfold band
    rw [bit_wrap t _ hi, BitVec.testBit_toNat, BitVec.getLsbD_and, bit_ofInt t x hi, bit_ofInt t y hi]
  · unfold bor
    rw [bit_wrap t _ hi, BitVec.testBit_toNat, BitVec.getLsbD_or, bit_ofInt t x hi, bit_ofInt t y hi]
  · unfold bxor
    rw [bit_wrap t _ hi, BitVec.testBit_toNat, BitVec.getLsbD_xor, bit_ofInt t x hi, bit_ofInt t y hi]
  · unfold bnot
    rw [bit_wrap t _ hi, BitVec.testBit_toNat, BitVec.getLsbD_not, bit_ofInt t x hi]
    simp [hi]

/-- The digits determine a value of the type, so C77_bitwise describes the results completely. -/
theorem C77_bits_determine {t : IntTy} {v w : Int} (hv : Fits t v) (hw : Fits t w)
    (h : ∀ i < t.bits, bit i v = bit i w) : v = w := by
  have key : BitVec.ofInt t.bits v = BitVec.ofInt t.bits w := by
    apply BitVec.eq_of_getLsbD_eq
    intro i hi
    rw [bit_ofInt t v hi, bit_ofInt t w hi, h i hi]
  have e := congrArg BitVec.toNat key
  rw [BitVec.toNat_ofInt, BitVec.toNat_ofInt] at e
  have hp : (0 : Int) < ((2 ^ t.bits : Nat) : Int) := by positivity
  have a1 := Int.emod_nonneg v hp.ne'
  have a2 := Int.emod_nonneg w hp.ne'
  have e' : v % ((2 ^ t.bits : Nat) : Int) = w % ((2 ^ t.bits : Nat) : Int) := by omega
  refine fits_unique hv hw ⟨v / ((2 ^ t.bits : Nat) : Int) - w / ((2 ^ t.bits : Nat) : Int), ?_⟩
  have b1 := Int.emod_add_mul_ediv v ((2 ^ t.bits : Nat) : Int)
  have b2 := Int.emod_add_mul_ediv w ((2 ^ t.bits : Nat) : Int)
  push_cast at *
  nlinarith

/-- C77: complement is `-x - 1` for signed types and `2^bits - 1 - x` for unsigned ones. -/
theorem C77_complement {t : IntTy} {x : Int} (hx : Fits t x) :
    (t.signed = true → bnot t x = -x - 1) ∧
    (t.signed = false → bnot t x = 2 ^ t.bits - 1 - x) := by
  have hn : ∀ i < t.bits, bit i (-x - 1) = !bit i x := by
    intro i _
    unfold bit
    have h := two_pow_pos i
    have e : (-x - 1) / (2 : Int) ^ i = -(x / 2 ^ i) - 1 := by
      rw [Int.ediv_eq_iff_of_pos h]
      have := Int.emod_add_mul_ediv x (2 ^ i)
      have := Int.emod_nonneg x h.ne'
      have := Int.emod_lt_of_pos x h
      constructor <;> nlinarith
    rw [e]
    generalize x / 2 ^ i = q
    by_cases hq : q % 2 = 1
    · have : ¬ ((-q - 1) % 2 = 1) := by omega
      simp [hq, this]
    · have : (-q - 1) % 2 = 1 := by omega
      simp [hq, this]
  obtain ⟨-, -, -, hf, hb⟩ := C77_bitwise t x x
  have hp := two_pow_pos t.bits
  constructor
  · intro hs
    refine C77_bits_determine hf ⟨fun _ => ?_, fun h => by simp [hs] at h⟩
      (fun i hi => by rw [hb i hi, hn i hi])
    have := hx.1 hs
    omega
  · intro hs
    refine C77_bits_determine hf ⟨fun h => by simp [hs] at h, fun _ => ?_⟩ (fun i hi => ?_)
    · have := hx.2 hs
      omega
    · rw [hb i hi, ← hn i hi]
      symm
      exact bit_same ⟨1, by ring_nf⟩ hi

/-- C77: the compound assignments store what the binary operators return. -/
theorem C77_compound (t : IntTy) (x y : Int) :
    bandAssign t y x = (.ok (), band t x y) ∧
    borAssign t y x = (.ok (), bor t x y) ∧
    bxorAssign t y x = (.ok (), bxor t x y) := ⟨rfl, rfl, rfl⟩

example : band IntTy.int (-2) 7 = 6 ∧ bor IntTy.int (-8) 5 = -3 ∧ bxor IntTy.int (-1) 5 = -6 ∧
    bnot IntTy.uint 0 = 4294967295 ∧ bnot IntTy.int 5 = -6 := by decide
example : bit 31 (-1) = true ∧ bit 0 (-2) = false := by decide

/-! ### C78: comparisons and strict booleans -/

/-- C78: comparisons of strict integers are the comparisons of the numbers. -/
theorem C78_compare (x y : Int) :
    (SInt.eq x y = true ↔ x = y) ∧ (SInt.ne x y = true ↔ x ≠ y) ∧
    (SInt.lt x y = true ↔ x < y) ∧ (SInt.le x y = true ↔ x ≤ y) ∧
    (SInt.gt x y = true ↔ y < x) ∧ (SInt.ge x y = true ↔ y ≤ x) := by
  unfold SInt.eq SInt.ne SInt.lt SInt.le SInt.gt SInt.ge
  refine ⟨?_, ?_, ?_, ?_, ?_, ?_⟩ <;> simp

/-- C78: negation, `^`, `&&` and `||` of two computed operands. -/
theorem C78_truth_tables (x y : Bool) :
    SBool.not (.ok x) = .ok (if x = true then false else true) ∧
    SBool.xor (.ok x) (.ok y) = .ok (decide (x ≠ y)) ∧
    SBool.and (.ok x) (.ok y) = .ok (decide (x = true ∧ y = true)) ∧
    SBool.or (.ok x) (.ok y) = .ok (decide (x = true ∨ y = true)) := by
  cases x <;> cases y <;> exact ⟨rfl, rfl, rfl, rfl⟩

/-- C78: `&&` and `||` of strict booleans do not stop after the first operand: whatever its value, a
second operand that traps or is undefined makes the whole trap or undefined. -/
theorem C78_no_short_circuit (x : Bool) (k : Kind) :
    SBool.and (.ok x) (.trap k) = .trap k ∧ SBool.and (.ok x) .ub = .ub ∧
    SBool.or (.ok x) (.trap k) = .trap k ∧ SBool.or (.ok x) .ub = .ub ∧
    SBool.builtinAnd (.ok false) (.trap k) = .ok false ∧ SBool.builtinAnd (.ok false) .ub = .ok false :=
  ⟨rfl, rfl, rfl, rfl, rfl, rfl⟩

/-- C78, the consequence: the usual guard `i < A.size() && A[i] > x` does not guard.  For an index past the
end it traps in debug builds and reads outside the array in release builds; written with built-in
booleans it is `false`. -/
theorem C78_guard_fails (l : List Int) (i x : Int) (hi : (l.length : Int) ≤ i) :
    (∀ b : Build, b.Checked →
      SBool.and (.ok (SInt.lt i l.length)) (do let a ← Elem1.sub b l (.at i); pure (SInt.gt a x)) =
        .trap b.kind) ∧
    (∀ b : Build, b.Release →
      SBool.and (.ok (SInt.lt i l.length)) (do let a ← Elem1.sub b l (.at i); pure (SInt.gt a x)) =
        .ub) ∧
    (∀ b : Build, SBool.builtinAnd (.ok (SInt.lt i l.length))
      (do let a ← Elem1.sub b l (.at i); pure (SInt.gt a x)) = .ok false) := by
  have hr : ¬ InRange l.length i := by unfold InRange; omega
  have hv := validIndex_false.2 hr
  refine ⟨fun b hb => ?_, fun b hb => ?_, fun b => ?_⟩
  · simp [SBool.and, Elem1.sub, Pos.resolve, len, hv, assertDebug_false hb]
  · simp [SBool.and, Elem1.sub, Pos.resolve, len, hv, assertDebugM, rd_ub hr, show b.debugOff = true from hb]
  · have : SInt.lt i l.length = false := by unfold SInt.lt; simp; omega
    rw [this]; rfl

example : SBool.and (.ok (SInt.lt 3 2)) (do
    let a ← Elem1.sub ⟨false, true, false⟩ [1, 2] (.at 3); pure (SInt.gt a 0)) = .trap .exception :=
  (C78_guard_fails [1, 2] 3 0 (by decide)).1 _ (by decide)

/-! ### C79: conversions -/

/-- C79: between integer types the value is kept when the target type has it, and is otherwise the value of
the target type that is congruent modulo 2^bits; no build checks it. -/
theorem C79_int_to_int (t : IntTy) (x : Int) :
    Fits t (Conv.intToInt t x) ∧ SameMod t (Conv.intToInt t x) x ∧
    (Conv.intToInt t x = x ↔ Fits t x) := by
  refine ⟨wrap_fits t x, wrap_same t x, fun h => ?_, fun h => wrap_of_fits h⟩
  rw [← h]; exact wrap_fits t x

/-- C79: truth values are 0 and 1, and every number but zero is true. -/
theorem C79_bool (t : IntTy) (ht : 2 ≤ t.bits) (c : Bool) (x : Int) (q : ℚ) :
    Conv.boolToInt t c = (if c = true then 1 else 0) ∧
    Conv.boolToFloat c = (if c = true then 1 else 0) ∧
    (Conv.intToBool x = true ↔ x ≠ 0) ∧ (Conv.floatToBool q = true ↔ q ≠ 0) ∧
    Conv.intToBool (Conv.boolToInt t c) = c ∧ Conv.floatToBool (Conv.boolToFloat c) = c := by
  have h2 : (2 : Int) ≤ 2 ^ (t.bits - 1) := by
    calc (2 : Int) = 2 ^ 1 := rfl
      _ ≤ 2 ^ (t.bits - 1) := pow_le_pow_right₀ (by decide) (by omega)
  have e : Conv.boolToInt t c = (if c = true then 1 else 0) := by
    unfold Conv.boolToInt
    have hs := two_pow_split t
    refine wrap_of_fits ⟨fun _ => ?_, fun _ => ?_⟩ <;> cases c <;> simp <;> omega
  refine ⟨e, rfl, by unfold Conv.intToBool; simp, by unfold Conv.floatToBool; simp, ?_, ?_⟩
  · rw [e]; cases c <;> simp [Conv.intToBool]
  · cases c <;> simp [Conv.floatToBool, Conv.boolToFloat]

theorem trunc_spec (x : ℚ) : TruncOf x (Conv.trunc x) := by
  unfold Conv.trunc
  split
  · rename_i h
    have h1 := Int.le_ceil x
    have h2 := Int.ceil_lt_add_one x
    have h3 : ((⌈x⌉ : Int) : ℚ) ≤ 0 := by exact_mod_cast Int.ceil_le.2 (by simpa using h.le)
    refine ⟨⟨fun h0 => absurd h0 (by linarith), fun _ => ⟨h3, h1⟩⟩, ?_⟩
    rw [abs_lt]; constructor <;> linarith
  · rename_i h
    have h := not_lt.1 h
    have h1 := Int.floor_le x
    have h2 := Int.lt_floor_add_one x
    have h3 : 0 ≤ ((⌊x⌋ : Int) : ℚ) := by exact_mod_cast Int.floor_nonneg.2 h
    refine ⟨⟨fun _ => ⟨h3, h1⟩, fun h0 => ?_⟩, ?_⟩
    · have : x = 0 := le_antisymm h0 h
      subst this; simp
    · rw [abs_lt]; constructor <;> linarith

/-- The truncated value is unique, so `TruncOf` describes the conversion completely. -/
theorem truncOf_unique {x : ℚ} {v w : Int} (hv : TruncOf x v) (hw : TruncOf x w) : v = w := by
  obtain ⟨⟨a1, a2⟩, a3⟩ := hv
  obtain ⟨⟨b1, b2⟩, b3⟩ := hw
  rw [abs_lt] at a3 b3
  rcases le_total 0 x with h | h
  · have := a1 h; have := b1 h
    have c1 : ((v : Int) : ℚ) < w + 1 := by linarith
    have c2 : ((w : Int) : ℚ) < v + 1 := by linarith
    have c1' : v < w + 1 := by exact_mod_cast c1
    have c2' : w < v + 1 := by exact_mod_cast c2
    omega
  · have := a2 h; have := b2 h
    have c1 : ((v : Int) : ℚ) < w + 1 := by linarith
    have c2 : ((w : Int) : ℚ) < v + 1 := by linarith
    have c1' : v < w + 1 := by exact_mod_cast c1
    have c2' : w < v + 1 := by exact_mod_cast c2
    omega

/-- C79: from a floating-point type to an integer type the fractional part is dropped; undefined, in every
build, exactly when the integer type does not have that value. -/
theorem C79_float_to_int (t : IntTy) (x : ℚ) :
    (∀ v, Conv.floatToInt t x = .ok v ↔ TruncOf x v ∧ Fits t v) ∧
    (Conv.floatToInt t x = .ub ↔ ∃ v, TruncOf x v ∧ ¬ Fits t v) ∧
    (∀ k, Conv.floatToInt t x ≠ .trap k) := by
  have hs := trunc_spec x
  unfold Conv.floatToInt
  by_cases h : t.Holds (Conv.trunc x)
  · rw [if_pos h]
    rw [holds_iff_fits] at h
    refine ⟨fun v => ⟨fun e => ?_, fun e => ?_⟩, ⟨fun e => (nomatch e), fun ⟨v, e, hn⟩ => ?_⟩,
      fun k e => (nomatch e)⟩
    · cases e; exact ⟨hs, h⟩
    · rw [truncOf_unique e.1 hs]
    · rw [truncOf_unique e hs] at hn; exact absurd h hn
  · rw [if_neg h]
    rw [holds_iff_fits] at h
    refine ⟨fun v => ⟨fun e => (nomatch e), fun e => ?_⟩, ⟨fun _ => ⟨_, hs, h⟩, fun _ => rfl⟩,
      fun k e => (nomatch e)⟩
    rw [truncOf_unique e.1 hs] at e; exact absurd e.2 h

/-- C79: from an integer type to a floating-point type the result is a nearest representable number, exact
for every integer of at most `p` bits. -/
theorem C79_int_to_float {p : Nat} {emin : Int} {rn : ℚ → ℚ} (h : Nearest p emin rn) (hp : 1 ≤ p)
    (he : emin ≤ 0) (x : Int) :
    Rep p emin (Conv.intToFloat rn x) ∧
    (∀ y, Rep p emin y → |(x : ℚ) - Conv.intToFloat rn x| ≤ |(x : ℚ) - y|) ∧
    (|x| ≤ 2 ^ p → Conv.intToFloat rn x = x) := by
  refine ⟨h.rep _, h.near _, fun hx => ?_⟩
  refine Lemmas.rn_rep h (Lemmas.rep_of_mult hp (g := 0) ⟨x, by simp⟩ he ?_)
  have : ((|x| : Int) : ℚ) ≤ ((2 ^ p : Int) : ℚ) := by exact_mod_cast hx
  push_cast at this
  simpa using this

/-- C79: between floating-point types the result is a nearest number of the target type, exact for every number that the
target type can represent. -/
theorem C79_float_to_float {p : Nat} {emin : Int} {rn : ℚ → ℚ} (h : Nearest p emin rn) (x : ℚ) :
    Rep p emin (Conv.floatToFloat rn x) ∧
    (∀ y, Rep p emin y → |x - Conv.floatToFloat rn x| ≤ |x - y|) ∧
    (Conv.floatToFloat rn x = x ↔ Rep p emin x) :=
  ⟨h.rep x, h.near x, fun e => e ▸ h.rep x, fun hx => Lemmas.rn_rep h hx⟩

/-- C79: hence widening to a type with at least as many digits and as small exponents, and back, changes nothing. -/
theorem C79_widen {p p' : Nat} {emin emin' : Int} {rn rn' : ℚ → ℚ} (h : Nearest p emin rn) (h' : Nearest p' emin' rn')
    (hp : p ≤ p') (he : emin' ≤ emin) {x : ℚ} (hx : Rep p emin x) :
    Conv.floatToFloat rn' x = x ∧ Conv.floatToFloat rn (Conv.floatToFloat rn' x) = x := by
  have e : Conv.floatToFloat rn' x = x := (C79_float_to_float h' x).2.2.2 (by
    obtain ⟨m, e, hm, h1, rfl⟩ := hx
    exact ⟨m, e, lt_of_lt_of_le hm (pow_le_pow_right₀ (by norm_num) hp), le_trans he h1, rfl⟩)
  exact ⟨e, by rw [e]; exact (C79_float_to_float h x).2.2.2 hx⟩

/-- C79: hence an `int` survives the trip through `double` (and any integer of at most `p` bits through a
format with `p` digits), but `2^p + 1` does not: whatever the rounding, another integer comes back. -/
theorem C79_round_trip {p : Nat} {emin : Int} {rn : ℚ → ℚ} (h : Nearest p emin rn) (hp : 1 ≤ p)
    (he : emin ≤ 0) (t : IntTy) :
    (∀ x : Int, Fits t x → |x| ≤ 2 ^ p → Conv.floatToInt t (Conv.intToFloat rn x) = .ok x) ∧
    Conv.floatToInt t (Conv.intToFloat rn (2 ^ p + 1)) ≠ .ok (2 ^ p + 1) := by
  have tr : ∀ x : Int, TruncOf (x : ℚ) x := fun x =>
    ⟨⟨fun h => ⟨h, le_refl _⟩, fun h => ⟨h, le_refl _⟩⟩, by simp⟩
  constructor
  · intro x hx hb
    rw [(C79_int_to_float h hp he x).2.2 hb]
    exact ((C79_float_to_int t x).1 x).2 ⟨tr x, hx⟩
  · intro e
    obtain ⟨⟨⟨s1, -⟩, s2⟩, -⟩ := ((C79_float_to_int t _).1 _).1 e
    set y := Conv.intToFloat rn (2 ^ p + 1) with hy
    have hy1 : |((2 ^ p + 1 : Int) : ℚ) - y| ≤ 1 := by
      have := h.near ((2 ^ p + 1 : Int) : ℚ) (2 ^ p)
        (Lemmas.rep_of_mult hp (g := 0) ⟨2 ^ p, by simp⟩ he (by rw [abs_of_pos (by positivity)]; simp))
      have e2 : ((2 ^ p + 1 : Int) : ℚ) - 2 ^ p = 1 := by push_cast; ring
      rw [e2, abs_one] at this
      exact this
    have hpos : (2 : ℚ) ≤ 2 ^ p := by
      calc (2 : ℚ) = 2 ^ 1 := by norm_num
        _ ≤ 2 ^ p := pow_le_pow_right₀ (by norm_num) hp
    push_cast at hy1 s1 s2
    rw [abs_le] at hy1
    have hy0 : 0 ≤ y := by linarith
    have s3 := (s1 hy0).2
    -- `y` lies in `[2^p + 1, 2^p + 2]`; only the right end is representable
    obtain ⟨m, k, hm, -, hk⟩ := h.rep ((2 ^ p + 1 : Int) : ℚ)
    change y = _ at hk
    have hm' : |(m : ℚ)| < 2 ^ p := by
      have : ((|m| : Int) : ℚ) < ((2 ^ p : Int) : ℚ) := by exact_mod_cast hm
      push_cast at this; exact this
    rw [abs_lt] at hm'
    rcases le_or_gt k 0 with hk0 | hk0
    · have h1 : (2 : ℚ) ^ k ≤ 1 := by
        calc (2 : ℚ) ^ k ≤ 2 ^ (0 : Int) := Lemmas.zpow_mono hk0
          _ = 1 := by simp
      have h2 := Lemmas.two_zpow_pos k
      rcases le_total 0 (m : ℚ) with hm0 | hm0
      · nlinarith
      · nlinarith
    · obtain ⟨j, rfl⟩ : ∃ j : Nat, k = j + 1 := ⟨(k - 1).toNat, by omega⟩
      have e3 : y = (((2 : Int) * (m * 2 ^ j) : Int) : ℚ) := by
        rw [hk, zpow_add₀ (by norm_num)]; push_cast; simp; ring
      obtain ⟨i, hi⟩ : ∃ i : Nat, p = i + 1 := ⟨p - 1, by omega⟩
      have a1 : ((2 ^ p + 1 : Int) : ℚ) ≤ (((2 : Int) * (m * 2 ^ j) : Int) : ℚ) := by
        rw [← e3]; push_cast; exact s3
      have a2 : (((2 : Int) * (m * 2 ^ j) : Int) : ℚ) < ((2 ^ p + 1 + 1 : Int) : ℚ) := by
        rw [← e3]; push_cast; rw [abs_lt] at s2; linarith
      have a1' : (2 ^ p + 1 : Int) ≤ 2 * (m * 2 ^ j) := by exact_mod_cast a1
      have a2' : (2 : Int) * (m * 2 ^ j) < 2 ^ p + 1 + 1 := by exact_mod_cast a2
      rw [hi, pow_succ] at a1' a2'
      omega

/-- C79: sizes of standard containers and back. -/
theorem C79_sizes (x : Int) (h0 : 0 ≤ x) (h1 : x < 2 ^ 63) :
    Conv.toIndexT x = x ∧ Conv.toSizeT x = x := by
  constructor
  · refine wrap_of_fits (t := IntTy.long) ⟨fun _ => ?_, fun h => (nomatch h)⟩
    exact ⟨le_trans (by decide) h0, h1⟩
  · refine wrap_of_fits (t := IntTy.ulong) ⟨fun h => (nomatch h), fun _ => ?_⟩
    exact ⟨h0, lt_trans h1 (by decide)⟩

example : Conv.intToInt IntTy.int 3000000000 = -1294967296 := by decide
example : Conv.floatToInt IntTy.int (-7 / 2) = .ok (-3) :=
  ((C79_float_to_int _ _).1 _).2 ⟨⟨⟨fun h => absurd h (by norm_num), fun _ => by norm_num⟩, by
    rw [abs_lt]; norm_num⟩, by unfold Fits IntTy.int; simp⟩
example : Conv.floatToInt IntTy.int 3000000000 = .ub :=
  ((C79_float_to_int _ _).2.1).2 ⟨3000000000, ⟨⟨fun _ => by norm_num, fun h => absurd h (by norm_num)⟩,
    by norm_num⟩, by unfold Fits IntTy.int; simp⟩
example : ∃ rn, Nearest 53 (-1074) rn ∧
    ∀ x : Int, Fits IntTy.int x → Conv.floatToInt IntTy.int (Conv.intToFloat rn x) = .ok x := by
  obtain ⟨rn, h⟩ := Lemmas.exists_nearest (p := 53) (by decide) (-1074)
  refine ⟨rn, h, fun x hx => (C79_round_trip h (by decide) (by decide) _).1 x hx ?_⟩
  have := hx.1 rfl
  simp only [IntTy.int] at this
  rw [abs_le]; omega

/-- `float` to `double` and back. -/
example : ∃ rn rn', Nearest 24 (-149) rn ∧ Nearest 53 (-1074) rn' ∧
    Conv.floatToFloat rn (Conv.floatToFloat rn' (3 / 8)) = 3 / 8 := by
  obtain ⟨rn, h⟩ := Lemmas.exists_nearest (p := 24) (by decide) (-149)
  obtain ⟨rn', h'⟩ := Lemmas.exists_nearest (p := 53) (by decide) (-1074)
  exact ⟨rn, rn', h, h', (C79_widen h h' (by decide) (by decide) ⟨3, -3, by norm_num, by norm_num, by norm_num⟩).2⟩

/-! ### C80: literals and named arguments -/

/-- C80: `_si` and `_sl` give the number; a number too large for the type is rejected in debug builds, and in
release builds another number of the type is used silently. -/
theorem C80_signed_literals (b : Build) {x : Int} (h0 : 0 ≤ x) :
    (x < 2 ^ 31 → Literal.si b x = .ok x) ∧ (x < 2 ^ 63 → Literal.sl b x = .ok x) ∧
    (2 ^ 31 ≤ x → (b.Checked → Literal.si b x = .trap b.kind) ∧
      (b.Release → ∃ v, Literal.si b x = .ok v ∧ v ≠ x ∧ Fits IntTy.int v ∧ SameMod IntTy.int v x)) ∧
    (2 ^ 63 ≤ x → (b.Checked → Literal.sl b x = .trap b.kind) ∧
      (b.Release → ∃ v, Literal.sl b x = .ok v ∧ v ≠ x ∧ Fits IntTy.long v ∧ SameMod IntTy.long v x)) := by
  have e1 : IntTy.int.hi = 2 ^ 31 - 1 := rfl
  have e2 : IntTy.long.hi = 2 ^ 63 - 1 := rfl
  have k1 : (0 : Int) < 2 ^ 31 := by positivity
  have k2 : (0 : Int) < 2 ^ 63 := by positivity
  have f1 : Fits IntTy.int x ↔ x < 2 ^ 31 :=
    ⟨fun h => (h.1 rfl).2, fun h => ⟨fun _ => ⟨le_trans (by decide) h0, h⟩, fun h => (nomatch h)⟩⟩
  have f2 : Fits IntTy.long x ↔ x < 2 ^ 63 :=
    ⟨fun h => (h.1 rfl).2, fun h => ⟨fun _ => ⟨le_trans (by decide) h0, h⟩, fun h => (nomatch h)⟩⟩
  unfold Literal.si Literal.sl
  refine ⟨fun h => ?_, fun h => ?_, fun h => ⟨fun hb => ?_, fun hb => ?_⟩,
    fun h => ⟨fun hb => ?_, fun hb => ?_⟩⟩
  · rw [decide_eq_true (by rw [e1]; linarith), assertDebug_true, Res.ok_bind]
    exact congrArg Res.ok (wrap_of_fits (f1.2 h))
  · rw [decide_eq_true (by rw [e2]; linarith), assertDebug_true, Res.ok_bind]
    exact congrArg Res.ok (wrap_of_fits (f2.2 h))
  · rw [decide_eq_false (by rw [e1]; linarith), assertDebug_false hb]; rfl
  · refine ⟨_, by rw [show assertDebug b (decide (x ≤ IntTy.int.hi)) = .ok () by
      unfold assertDebug; exact if_pos hb]; rfl, fun e => ?_, wrap_fits _ _, wrap_same _ _⟩
    have := f1.1 (((C79_int_to_int IntTy.int x).2.2).1 e)
    linarith
  · rw [decide_eq_false (by rw [e2]; linarith), assertDebug_false hb]; rfl
  · refine ⟨_, by rw [show assertDebug b (decide (x ≤ IntTy.long.hi)) = .ok () by
      unfold assertDebug; exact if_pos hb]; rfl, fun e => ?_, wrap_fits _ _, wrap_same _ _⟩
    have := f2.1 (((C79_int_to_int IntTy.long x).2.2).1 e)
    linarith

/-- C80: `_sui` and `_sul` keep the number modulo 2^32 and 2^64, without a check in any build. -/
theorem C80_unsigned_literals {x : Int} (h0 : 0 ≤ x) :
    Literal.sui x = x % 2 ^ 32 ∧ Literal.sul x = x % 2 ^ 64 ∧
    (x < 2 ^ 32 → Literal.sui x = x) ∧ (x < 2 ^ 64 → Literal.sul x = x) := by
  refine ⟨rfl, rfl, fun h => ?_, fun h => ?_⟩
  · exact Int.emod_eq_of_lt h0 h
  · exact Int.emod_eq_of_lt h0 h

/-- C80: the named arguments pass every `int` and `long` on unchanged; the ones that are counts or positions
reject exactly the negative ones in debug builds. -/
theorem C80_named (b : Build) {t : IntTy} (ht : t = IntTy.int ∨ t = IntTy.long) {x : Int}
    (hx : Fits t x) :
    named b false x = .ok x ∧ (0 ≤ x → named b true x = .ok x) ∧
    (x < 0 → (b.Checked → named b true x = .trap b.kind) ∧ (b.Release → named b true x = .ok x)) := by
  have hl : Fits IntTy.long x := by
    rcases ht with rfl | rfl
    · refine ⟨fun _ => ?_, fun h => (nomatch h)⟩
      have := hx.1 rfl
      exact ⟨le_trans (by decide) this.1, lt_of_lt_of_le this.2 (by decide)⟩
    · exact hx
  have e : SInt.cast IntTy.long x = x := wrap_of_fits hl
  unfold named
  simp only [e]
  refine ⟨rfl, fun h => ?_, fun h => ⟨fun hb => ?_, fun hb => ?_⟩⟩
  · have : decide (x > -1) = true := decide_eq_true (by omega)
    simp [this]
  · have : decide (x > -1) = false := decide_eq_false (by omega)
    simp [this, assertDebug_false hb]
  · simp [assertDebug, show b.debugOff = true from hb]

example : Literal.si ⟨true, true, false⟩ 3000000000 = .ok (-1294967296) := by decide
example : Literal.si ⟨false, true, false⟩ 3000000000 = .trap .exception := by decide
example : Literal.sui 4294967296 = 0 := by decide
example : named ⟨false, true, false⟩ true (-1) = .trap .exception ∧
    named ⟨false, true, false⟩ false (-1) = .ok (-1) := by decide

end Spp.Props
