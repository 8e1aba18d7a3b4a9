import Verif.Lemmas.Ints
import Verif.Lemmas.Transparent
import Verif.Model.StrictMath
import Mathlib.Data.Nat.Choose.Basic
import Mathlib.Data.Nat.Factorial.Basic
import Mathlib.Order.Lattice
import Mathlib.Algebra.Order.Group.Unbundled.Int
import Mathlib.Algebra.Field.Basic
import Mathlib.Tactic.Ring
import Mathlib.Algebra.Order.Ring.Int
import Mathlib.Tactic.Linarith
import Mathlib.Data.Int.ModEq

/- Properties C05-C10. -/

namespace Spp.Props
open Spec SInt

/-! ### C05 integer power -/

theorem fits_of_natAbs_lt {t : IntTy} (hs : t.signed = true) {v w : Int} (hw : Fits t w)
    (h : v.natAbs < w.natAbs) : Fits t v := by
  refine ⟨fun _ => ?_, fun h' => by simp [hs] at h'⟩
  have := hw.1 hs
  omega

theorem fits_one {t : IntTy} (h2 : 2 ≤ t.bits) : Fits t 1 := by
  have h : (2 : Int) ^ 1 ≤ 2 ^ (t.bits - 1) := pow_le_pow_right₀ (by decide) (by omega)
  have h' : (2 : Int) ^ 1 ≤ 2 ^ t.bits := pow_le_pow_right₀ (by decide) (by omega)
  constructor <;> intro _ <;> constructor <;> omega

theorem fits_neg_one {t : IntTy} (hs : t.signed = true) : Fits t (-1) := by
  have := two_pow_pos (t.bits - 1)
  exact ⟨fun _ => by omega, fun h => by simp [hs] at h⟩

theorem fits_zero {t : IntTy} : Fits t 0 := by
  have := two_pow_pos (t.bits - 1)
  have := two_pow_pos t.bits
  constructor <;> intro _ <;> omega

/-- Lower powers of a value fit if a higher one does. -/
theorem fits_pow_le {t : IntTy} (h2 : 2 ≤ t.bits) {x : Int} (hx : Fits t x) {k n : Nat}
    (hkn : k ≤ n) (hn : Fits t (x ^ n)) : Fits t (x ^ k) := by
  rcases Nat.lt_or_ge x.natAbs 2 with hlt | hge
  · have hx3 : x = 0 ∨ x = 1 ∨ x = -1 := by omega
    rcases hx3 with rfl | rfl | rfl
    · rcases Nat.eq_zero_or_pos k with rfl | hk
      · simpa using fits_one h2
      · rw [zero_pow (by omega)]; exact fits_zero
    · simpa using fits_one h2
    · have hs : t.signed = true := by
        by_contra hs
        have := hx.2 (by simpa using hs); omega
      rcases neg_one_pow_eq_or Int k with h | h <;> rw [h]
      · exact fits_one h2
      · exact fits_neg_one hs
  · rcases Nat.eq_or_lt_of_le hkn with rfl | hlt
    · exact hn
    cases hs : t.signed
    · have h0 := hx.2 hs
      have h1 := hn.2 hs
      refine ⟨fun h => by simp [hs] at h, fun _ => ⟨pow_nonneg h0.1 k, ?_⟩⟩
      have : x ^ k ≤ x ^ n := pow_le_pow_right₀ (by omega) hkn
      omega
    · apply fits_of_natAbs_lt hs hn
      rw [Int.natAbs_pow, Int.natAbs_pow]
      exact Nat.pow_lt_pow_right (by omega) hlt

/-- Loop invariant: with `res = x^a`, `xr = x^c`, `a + c*pr = n`, the loop computes `x^n`. -/
theorem powsLoop_ok {t : IntTy} (h2 : 2 ≤ t.bits) {x : Int} (hx : Fits t x) {n : Nat}
    (hn : Fits t (x ^ n)) (pr a c : Nat) (hpr : a + c * pr = n) :
    powsLoop t (x ^ a) (x ^ c) pr = .ok (x ^ n) := by
  induction pr using Nat.strong_induction_on generalizing a c with
  | _ pr ih =>
    unfold powsLoop
    have hdm := Nat.div_add_mod pr 2
    obtain ⟨a', ha', hres⟩ : ∃ a', a' + 2 * c * (pr / 2) = n ∧
        (if pr % 2 = 1 then SInt.mul t (x ^ a) (x ^ c) else .ok (x ^ a)) = .ok (x ^ a') := by
      by_cases hodd : pr % 2 = 1
      · have e : a + c + 2 * c * (pr / 2) = n := by
          rw [← hpr]; conv_rhs => rw [← hdm, hodd]
          ring
        refine ⟨a + c, e, ?_⟩
        rw [if_pos hodd]
        unfold SInt.mul
        rw [← pow_add]
        exact arith_of_fits (fits_pow_le h2 hx (by omega) hn)
      · have e : a + 2 * c * (pr / 2) = n := by
          have h0 : pr % 2 = 0 := by omega
          rw [← hpr]; conv_rhs => rw [← hdm, h0]
          ring
        exact ⟨a, e, by rw [if_neg hodd]⟩
    rw [hres, Res.ok_bind]
    by_cases hz : pr / 2 = 0
    · rw [if_pos hz]
      rw [hz] at ha'; simp at ha'; rw [ha']
    · rw [if_neg hz]
      have hm : SInt.mul t (x ^ c) (x ^ c) = .ok (x ^ (2 * c)) := by
        unfold SInt.mul
        rw [← pow_add, ← two_mul]
        refine arith_of_fits (fits_pow_le h2 hx ?_ hn)
        have : 2 * c * 1 ≤ 2 * c * (pr / 2) := Nat.mul_le_mul_left _ (by omega)
        omega
      rw [hm, Res.ok_bind]
      exact ih (pr / 2) (by omega) a' (2 * c) ha'

/-- If the loop on a signed type returns a value, it is `res * xr^pr` and representable. -/
theorem powsLoop_sound {t : IntTy} (hs : t.signed = true) (pr : Nat) (res xr v : Int)
    (hres : Fits t res) (h : powsLoop t res xr pr = .ok v) : v = res * xr ^ pr ∧ Fits t v := by
  induction pr using Nat.strong_induction_on generalizing res xr with
  | _ pr ih =>
    unfold powsLoop at h
    have hdm := Nat.div_add_mod pr 2
    obtain ⟨res', h1, h⟩ := Res.bind_eq_ok.1 h
    have hres' : Fits t res' ∧ res' = res * xr ^ (pr % 2) := by
      by_cases hodd : pr % 2 = 1
      · rw [if_pos hodd] at h1
        obtain ⟨h3, rfl⟩ := (arith_ok_iff.1 h1).1 hs
        exact ⟨h3, by rw [hodd, pow_one]⟩
      · rw [if_neg hodd] at h1
        have h0 : pr % 2 = 0 := by omega
        simp only [Res.ok.injEq] at h1
        subst h1
        exact ⟨hres, by rw [h0]; simp⟩
    by_cases hz : pr / 2 = 0
    · rw [if_pos hz] at h
      simp only [Res.ok.injEq] at h
      subst h
      refine ⟨?_, hres'.1⟩
      rw [hres'.2]; congr 2; omega
    · rw [if_neg hz] at h
      obtain ⟨xr', h3, h⟩ := Res.bind_eq_ok.1 h
      obtain ⟨_, rfl⟩ := (arith_ok_iff.1 h3).1 hs
      obtain ⟨e, hf⟩ := ih (pr / 2) (by omega) res' (xr * xr) hres'.1 h
      refine ⟨?_, hf⟩
      rw [e, hres'.2]
      conv_rhs => rw [← hdm, pow_add, pow_mul]
      rw [show xr ^ 2 = xr * xr by ring]; ring

theorem mul_not_trap {t : IntTy} {x y : Int} {k : Kind} : SInt.mul t x y ≠ .trap k := arith_not_trap

theorem powsLoop_not_trap {t : IntTy} (pr : Nat) (res xr : Int) (k : Kind) :
    powsLoop t res xr pr ≠ .trap k := by
  induction pr using Nat.strong_induction_on generalizing res xr with
  | _ pr ih =>
    unfold powsLoop
    intro h
    have aux : ∀ res', (if pr / 2 = 0 then (.ok res' : Res Int) else do
        let xr' ← SInt.mul t xr xr
        powsLoop t res' xr' (pr / 2)) ≠ .trap k := by
      intro res' h
      split at h
      · simp at h
      · cases hm : SInt.mul t xr xr with
        | ok v => rw [hm] at h; exact ih _ (by omega) _ _ h
        | trap k' => exact mul_not_trap hm
        | ub => rw [hm] at h; simp at h
    split at h
    · cases hm : SInt.mul t res xr with
      | ok v => rw [hm] at h; exact aux _ h
      | trap k' => exact mul_not_trap hm
      | ub => rw [hm] at h; simp at h
    · exact aux _ h

open Classical in
/-- C05: for signed types and `n >= 0`, `pows(x, n)` returns exactly `x^n` whenever `x^n` is
representable (no intermediate overflow), and is undefined behaviour exactly otherwise; in every
build. -/
theorem C05_pows_signed (b : Build) {t : IntTy} (h2 : 2 ≤ t.bits) (hs : t.signed = true)
    {x : Int} (hx : Fits t x) (n : Nat) :
    pows b t x n = if Fits t (x ^ n) then .ok (x ^ n) else .ub := by
  unfold pows
  have h0 : decide ((n : Int) ≥ 0) = true := by simp
  rw [h0, assertDebug_true, Res.ok_bind, if_neg (by omega)]
  simp only [Int.toNat_natCast]
  split
  · rename_i hf
    have := powsLoop_ok h2 hx hf n 0 1 (by omega)
    simpa using this
  · rename_i hf
    cases h : powsLoop t 1 x n with
    | ok v =>
      obtain ⟨rfl, hv⟩ := powsLoop_sound hs n 1 x v (fits_one h2) h
      simp at hv; exact absurd hv hf
    | trap k => exact absurd h (powsLoop_not_trap n 1 x k)
    | ub => rfl

theorem sameMod_emod {t : IntTy} {a b : Int} : SameMod t a b ↔ a % 2 ^ t.bits = b % 2 ^ t.bits := by
  constructor
  · rintro ⟨k, rfl⟩; simp
  · intro h
    refine ⟨a / 2 ^ t.bits - b / 2 ^ t.bits, ?_⟩
    have h1 := Int.emod_add_mul_ediv a (2 ^ t.bits)
    have h2 := Int.emod_add_mul_ediv b (2 ^ t.bits)
    rw [Int.sub_mul, Int.mul_comm (a / _), Int.mul_comm (b / _)]; omega

theorem powsLoop_unsigned {t : IntTy} (hs : t.signed = false) (pr : Nat) (res xr : Int) :
    ∃ v, powsLoop t res xr pr = .ok v ∧ SameMod t v (res * xr ^ pr) ∧
      (Fits t res → Fits t v) := by
  induction pr using Nat.strong_induction_on generalizing res xr with
  | _ pr ih =>
    unfold powsLoop
    have hdm := Nat.div_add_mod pr 2
    obtain ⟨r', hr', hm, hf⟩ : ∃ r',
        (if pr % 2 = 1 then SInt.mul t res xr else .ok res) = .ok r' ∧
        SameMod t r' (res * xr ^ (pr % 2)) ∧ (Fits t res → Fits t r') := by
      by_cases hodd : pr % 2 = 1
      · refine ⟨res * xr % 2 ^ t.bits, ?_, ?_, ?_⟩
        · rw [if_pos hodd]; simp [SInt.mul, IntTy.arith, hs]
        · rw [hodd, pow_one, sameMod_emod, Int.emod_emod_of_dvd _ (Int.dvd_refl _)]
        · intro _
          have := wrap_fits t (res * xr)
          simpa [IntTy.wrap, hs] using this
      · have h0 : pr % 2 = 0 := by omega
        exact ⟨res, by rw [if_neg hodd], by rw [h0, sameMod_emod]; simp, id⟩
    rw [hr', Res.ok_bind]
    by_cases hz : pr / 2 = 0
    · rw [if_pos hz]
      refine ⟨r', rfl, ?_, hf⟩
      have : pr % 2 = pr := by omega
      rwa [this] at hm
    · rw [if_neg hz]
      have hx' : SInt.mul t xr xr = .ok (xr * xr % 2 ^ t.bits) := by
        simp [SInt.mul, IntTy.arith, hs]
      rw [hx', Res.ok_bind]
      obtain ⟨v, h1, h3, h4⟩ := ih (pr / 2) (by omega) r' (xr * xr % 2 ^ t.bits)
      refine ⟨v, h1, ?_, fun h => h4 (hf h)⟩
      rw [sameMod_emod] at *
      rw [h3, Int.mul_emod, hm, ← Int.mul_emod]
      have e : res * xr ^ pr = res * xr ^ (pr % 2) * (xr * xr) ^ (pr / 2) := by
        conv_lhs => rw [← hdm, pow_add, pow_mul]
        rw [show xr ^ 2 = xr * xr by ring]; ring
      rw [e, Int.mul_emod, Int.mul_emod (res * xr ^ (pr % 2)) ((xr * xr) ^ _)]
      congr 2
      exact (Int.ModEq.pow (pr / 2) (Int.mod_modEq (xr * xr) (2 ^ t.bits)))

/-- C05 (unsigned types): `pows(x, n)` is `x^n` modulo 2^bits. -/
theorem C05_pows_unsigned (b : Build) {t : IntTy} (h2 : 2 ≤ t.bits) (hs : t.signed = false)
    (x : Int) (n : Nat) :
    ∃ v, pows b t x n = .ok v ∧ Fits t v ∧ SameMod t v (x ^ n) := by
  obtain ⟨v, h1, h3, h4⟩ := powsLoop_unsigned hs n 1 x
  refine ⟨v, ?_, h4 (fits_one h2), by simpa using h3⟩
  unfold pows
  have h0 : decide ((n : Int) ≥ 0) = true := by simp
  rw [h0, assertDebug_true, Res.ok_bind, if_neg (by omega)]
  simpa using h1

/-- C05 (negative exponent): trapped in checked builds. -/
theorem C05_pows_negative {b : Build} (hb : b.Checked) (t : IntTy) (x : Int) {p : Int}
    (hp : p < 0) : pows b t x p = .trap b.kind := by
  have : decide (p ≥ 0) = false := by simp; omega
  simp [pows, this, assertDebug_false hb]

example : Fits IntTy.int (-2) ∧ Fits IntTy.int ((-2) ^ 31) ∧
    pows ⟨false, true, false⟩ IntTy.int (-2) 31 = .ok (-2147483648) ∧
    pows ⟨false, true, false⟩ IntTy.int 2 31 = .ub := by
  refine ⟨⟨by simp [IntTy.int], by simp [IntTy.int]⟩, ⟨by simp [IntTy.int], by simp [IntTy.int]⟩,
    ?_, ?_⟩
  · have := C05_pows_signed ⟨false, true, false⟩ (t := IntTy.int) (by decide) rfl
      (x := -2) ⟨by simp [IntTy.int], by simp [IntTy.int]⟩ 31
    rw [if_pos ⟨by simp [IntTy.int], by simp [IntTy.int]⟩] at this
    exact this
  · have := C05_pows_signed ⟨false, true, false⟩ (t := IntTy.int) (by decide) rfl
      (x := 2) ⟨by simp [IntTy.int], by simp [IntTy.int]⟩ 31
    rw [if_neg (fun h => by have := h.1 rfl; simp [IntTy.int] at this)] at this
    exact this

/-! ### C06 factorial -/

theorem fits_long_iff {v : Int} :
    Fits IntTy.long v ↔ -9223372036854775808 ≤ v ∧ v ≤ 9223372036854775807 := by
  unfold Fits IntTy.long; simp; omega

theorem factorialRec_sound (n : Nat) (v : Int) (h : factorialRec n = .ok v) :
    v = n.factorial ∧ Fits IntTy.long v := by
  induction n generalizing v with
  | zero =>
    simp only [factorialRec, Res.ok.injEq] at h
    subst h; exact ⟨by simp, fits_long_iff.2 (by omega)⟩
  | succ n ih =>
    unfold factorialRec at h
    obtain ⟨r, h1, h3⟩ := Res.bind_eq_ok.1 h
    obtain ⟨rfl, _⟩ := ih r h1
    obtain ⟨hf, rfl⟩ := (arith_ok_iff.1 h3).1 rfl
    exact ⟨by rw [Nat.factorial_succ]; push_cast; ring, hf⟩

theorem factorialRec_not_trap (n : Nat) (k : Kind) : factorialRec n ≠ .trap k := by
  induction n with
  | zero => simp [factorialRec]
  | succ n ih =>
    unfold factorialRec
    cases h : factorialRec n with
    | ok v => simpa using mul_not_trap
    | trap k' => rintro ⟨⟩; exact ih h
    | ub => simp

open Classical in
/-- C06: for `n >= 0`, `factorial(n)` is `n!` if that is a `long`, and overflows exactly otherwise;
negative arguments trap in checked builds. -/
theorem C06_factorial (b : Build) (n : Nat) :
    factorial b n = if Fits IntTy.long (n.factorial) then .ok (n.factorial : Int) else .ub := by
  unfold factorial
  have h0 : decide ((n : Int) > -1) = true := by simp; omega
  rw [h0, assertDebug_true, Res.ok_bind, if_neg (by omega), Int.toNat_natCast]
  split
  · rename_i hf
    induction n with
    | zero => simp [factorialRec]
    | succ n ih =>
      have hle : ((n.factorial : Nat) : Int) ≤ ((n + 1).factorial : Nat) := by
        exact_mod_cast Nat.factorial_le (by omega)
      have hf' : Fits IntTy.long (n.factorial) := by
        rw [fits_long_iff] at *
        have : (0 : Int) ≤ (n.factorial : Nat) := by positivity
        omega
      have h0' : decide ((n : Int) > -1) = true := by simp; omega
      rw [factorialRec, ih h0' hf', Res.ok_bind]
      unfold SInt.mul
      have e : ((n : Int) + 1) * (n.factorial : Nat) = ((n + 1).factorial : Nat) := by
        rw [Nat.factorial_succ]; push_cast; ring
      rw [e]
      exact arith_of_fits hf
  · rename_i hf
    cases h : factorialRec n with
    | ok v => obtain ⟨rfl, hv⟩ := factorialRec_sound n v h; exact absurd hv hf
    | trap k => exact absurd h (factorialRec_not_trap n k)
    | ub => rfl

theorem C06_factorial_negative {b : Build} (hb : b.Checked) {n : Int} (hn : n < 0) :
    factorial b n = .trap b.kind := by
  have : decide (n > -1) = false := by simp; omega
  simp [factorial, this, assertDebug_false hb]

example : Fits IntTy.long (Nat.factorial 20) ∧ ¬ Fits IntTy.long (Nat.factorial 21) := by
  rw [fits_long_iff, fits_long_iff]; decide

/-! ### C07 binomial coefficients -/

/-- Loop invariant: before the iteration with `f1 = d + i + 1`, `f2 = i + 1`, the product is
`choose (d + i) i`. -/
theorem binomLoop_ok (b : Build) (d k : Nat) (hfit : Fits IntTy.long ((d + k).choose k * k))
    (hn : (d + k : Int) < 9223372036854775807) (i : Nat) (hi : i ≤ k) :
    binomLoop b (d + k : Int) (d + i + 1 : Int) (i + 1 : Int) ((d + i).choose i : Nat) =
      .ok ((d + k).choose k : Nat) := by
  induction hj : k - i generalizing i with
  | zero =>
    have : i = k := by omega
    subst this
    unfold binomLoop
    rw [if_neg (by omega)]
  | succ j ih =>
    unfold binomLoop
    rw [if_pos (by omega)]
    have e1 : (((d + i).choose i : Nat) : Int) * (d + i + 1 : Int) =
        (((d + (i + 1)).choose (i + 1) * (i + 1) : Nat) : Int) := by
      have := Nat.add_one_mul_choose_eq (d + i) i
      push_cast
      have h' : ((d + i + 1 : Nat) : Int) * ((d + i).choose i : Nat) =
          ((d + i + 1).choose (i + 1) : Nat) * ((i + 1 : Nat) : Int) := by exact_mod_cast this
      push_cast at h'
      rw [show d + (i + 1) = d + i + 1 by omega, mul_comm]; exact h'
    have hmono : (d + (i + 1)).choose (i + 1) * (i + 1) ≤ (d + k).choose k * k := by
      apply Nat.mul_le_mul _ (by omega)
      have : ∀ m, (d + (i + 1)).choose (i + 1) ≤ (d + (i + 1 + m)).choose (i + 1 + m) := by
        intro m
        induction m with
        | zero => simp
        | succ m ihm =>
          refine le_trans ihm ?_
          rw [show d + (i + 1 + (m + 1)) = (d + (i + 1 + m)) + 1 by omega,
            show i + 1 + (m + 1) = (i + 1 + m) + 1 by omega, Nat.choose_succ_succ]
          omega
      have := this (k - (i + 1))
      rwa [show i + 1 + (k - (i + 1)) = k by omega] at this
    have hfit' := fits_long_iff.1 hfit
    have hm : SInt.mul IntTy.long ((d + i).choose i : Nat) (d + i + 1 : Int) =
        .ok (((d + (i + 1)).choose (i + 1) * (i + 1) : Nat) : Int) := by
      unfold SInt.mul
      rw [e1]
      apply arith_of_fits
      rw [fits_long_iff]
      have : (((d + (i + 1)).choose (i + 1) * (i + 1) : Nat) : Int) ≤
        (((d + k).choose k * k : Nat) : Int) := by exact_mod_cast hmono
      push_cast at *
      have hp : (0 : Int) ≤ ((d + (i + 1)).choose (i + 1) : Nat) := by positivity
      constructor
      · nlinarith
      · omega
    rw [hm, Res.ok_bind]
    have hq : SInt.div b IntTy.long (((d + (i + 1)).choose (i + 1) * (i + 1) : Nat) : Int)
        (i + 1 : Int) = .ok ((d + (i + 1)).choose (i + 1) : Nat) := by
      unfold SInt.div
      have hne : ((i : Int) + 1 != 0) = true := by simp; omega
      rw [hne, assertDebug_true, Res.ok_bind]
      unfold builtinDiv
      rw [if_neg (by omega)]
      have e2 : (((d + (i + 1)).choose (i + 1) * (i + 1) : Nat) : Int).tdiv (i + 1 : Int) =
          ((d + (i + 1)).choose (i + 1) : Nat) := by
        push_cast
        exact Int.mul_tdiv_cancel _ (by omega)
      rw [e2]
      apply arith_of_fits
      rw [fits_long_iff]
      have h3 : (d + (i + 1)).choose (i + 1) * 1 ≤ (d + (i + 1)).choose (i + 1) * (i + 1) :=
        Nat.mul_le_mul_left _ (by omega)
      have : (((d + (i + 1)).choose (i + 1) : Nat) : Int) ≤
        (((d + k).choose k * k : Nat) : Int) := by exact_mod_cast (by omega)
      push_cast at *
      have hp : (0 : Int) ≤ ((d + (i + 1)).choose (i + 1) : Nat) := by positivity
      constructor
      · nlinarith
      · omega
    rw [hq, Res.ok_bind]
    have ha1 : SInt.add IntTy.long (d + i + 1 : Int) 1 = .ok (d + i + 1 + 1 : Int) := by
      unfold SInt.add; exact arith_of_fits (fits_long_iff.2 (by omega))
    have ha2 : SInt.add IntTy.long (i + 1 : Int) 1 = .ok (i + 1 + 1 : Int) := by
      unfold SInt.add; exact arith_of_fits (fits_long_iff.2 (by omega))
    rw [ha1, ha2, Res.ok_bind, Res.ok_bind]
    have := ih (i + 1) (by omega) (by omega)
    push_cast at this
    rw [show (d : Int) + (i + 1) + 1 = d + i + 1 + 1 by ring] at this
    exact this

/-- C07: for `0 <= k <= n < LONG_MAX`, `binom_coeff(n, k)` returns the binomial coefficient
whenever `(n choose k) * k`, the largest intermediate product, is a `long`; all divisions in the
loop are exact. -/
theorem C07_binom (b : Build) {n k : Nat} (hk : k ≤ n) (hn : (n : Int) < 9223372036854775807)
    (hfit : Fits IntTy.long ((n.choose k * k : Nat) : Int)) :
    binomCoeff b n k = .ok (n.choose k : Nat) := by
  obtain ⟨d, rfl⟩ : ∃ d, n = d + k := ⟨n - k, by omega⟩
  unfold binomCoeff
  have h1 : decide ((k : Int) > -1) = true := by simp; omega
  have h2 : decide (((d + k : Nat) : Int) ≥ k) = true := by simp
  rw [h1, h2]
  simp only [assertDebug_true, Res.ok_bind]
  push_cast at *
  have e1 : SInt.sub IntTy.long (d + k : Int) k = .ok (d : Int) := by
    unfold SInt.sub
    rw [show (d : Int) + k - k = d by ring]
    exact arith_of_fits (fits_long_iff.2 (by omega))
  have e2 : SInt.add IntTy.long (d : Int) 1 = .ok (d + 1 : Int) := by
    unfold SInt.add; exact arith_of_fits (fits_long_iff.2 (by omega))
  have e3 : SInt.add IntTy.long (d : Int) k = .ok (d + k : Int) := by
    unfold SInt.add; exact arith_of_fits (fits_long_iff.2 (by omega))
  rw [e1, Res.ok_bind, e2, Res.ok_bind, e3, Res.ok_bind]
  have := binomLoop_ok b d k hfit (by omega) 0 (by omega)
  simpa using this

/-- If the loop succeeds from the invariant state, the largest intermediate product did fit. -/
theorem binomLoop_overflow (b : Build) (d k : Nat) (hk : 0 < k)
    (hfit : ¬ Fits IntTy.long ((d + k).choose k * k)) (hn : (d + k : Int) < 9223372036854775807)
    (i : Nat) (hi : i < k) :
    binomLoop b (d + k : Int) (d + i + 1 : Int) (i + 1 : Int) ((d + i).choose i : Nat) = .ub := by
  induction hj : k - i generalizing i with
  | zero => omega
  | succ j ih =>
    unfold binomLoop
    rw [if_pos (by omega)]
    have e1 : (((d + i).choose i : Nat) : Int) * (d + i + 1 : Int) =
        (((d + (i + 1)).choose (i + 1) * (i + 1) : Nat) : Int) := by
      have := Nat.add_one_mul_choose_eq (d + i) i
      push_cast
      have h' : ((d + i + 1 : Nat) : Int) * ((d + i).choose i : Nat) =
          ((d + i + 1).choose (i + 1) : Nat) * ((i + 1 : Nat) : Int) := by exact_mod_cast this
      push_cast at h'
      rw [show d + (i + 1) = d + i + 1 by omega, mul_comm]; exact h'
    by_cases hf : Fits IntTy.long (((d + (i + 1)).choose (i + 1) * (i + 1) : Nat) : Int)
    · have hm : SInt.mul IntTy.long ((d + i).choose i : Nat) (d + i + 1 : Int) =
          .ok (((d + (i + 1)).choose (i + 1) * (i + 1) : Nat) : Int) := by
        unfold SInt.mul
        rw [e1]
        exact arith_of_fits hf
      rw [hm, Res.ok_bind]
      have hq : SInt.div b IntTy.long (((d + (i + 1)).choose (i + 1) * (i + 1) : Nat) : Int)
          (i + 1 : Int) = .ok ((d + (i + 1)).choose (i + 1) : Nat) := by
        unfold SInt.div
        have hne : ((i : Int) + 1 != 0) = true := by simp; omega
        rw [hne, assertDebug_true, Res.ok_bind]
        unfold builtinDiv
        rw [if_neg (by omega)]
        have e2 : (((d + (i + 1)).choose (i + 1) * (i + 1) : Nat) : Int).tdiv (i + 1 : Int) =
            ((d + (i + 1)).choose (i + 1) : Nat) := by
          push_cast
          exact Int.mul_tdiv_cancel _ (by omega)
        rw [e2]
        apply arith_of_fits
        rw [fits_long_iff] at hf ⊢
        have h3 : (d + (i + 1)).choose (i + 1) * 1 ≤ (d + (i + 1)).choose (i + 1) * (i + 1) :=
          Nat.mul_le_mul_left _ (by omega)
        have : (((d + (i + 1)).choose (i + 1) : Nat) : Int) ≤
          (((d + (i + 1)).choose (i + 1) * (i + 1) : Nat) : Int) := by exact_mod_cast (by omega)
        constructor
        · have : (0 : Int) ≤ ((d + (i + 1)).choose (i + 1) : Nat) := by positivity
          omega
        · omega
      rw [hq, Res.ok_bind]
      have ha1 : SInt.add IntTy.long (d + i + 1 : Int) 1 = .ok (d + i + 1 + 1 : Int) := by
        unfold SInt.add; exact arith_of_fits (fits_long_iff.2 (by omega))
      have ha2 : SInt.add IntTy.long (i + 1 : Int) 1 = .ok (i + 1 + 1 : Int) := by
        unfold SInt.add; exact arith_of_fits (fits_long_iff.2 (by omega))
      rw [ha1, ha2, Res.ok_bind, Res.ok_bind]
      by_cases hlast : i + 1 = k
      · subst hlast; push_cast at hf hfit; exact absurd hf hfit
      · have := ih (i + 1) (by omega) (by omega)
        push_cast at this
        rw [show (d : Int) + (i + 1) + 1 = d + i + 1 + 1 by ring] at this
        exact this
    · have hm : SInt.mul IntTy.long ((d + i).choose i : Nat) (d + i + 1 : Int) = .ub := by
        unfold SInt.mul
        rw [e1]
        exact arith_ub_iff.2 ⟨rfl, hf⟩
      rw [hm, Res.ub_bind]

/-- C07 (sharpness): if `(n choose k) * k` is not a `long`, the computation overflows, although the
result itself may be representable. -/
theorem C07_binom_overflow (b : Build) {n k : Nat} (hk : k ≤ n)
    (hn : (n : Int) < 9223372036854775807)
    (hfit : ¬ Fits IntTy.long ((n.choose k * k : Nat) : Int)) :
    binomCoeff b n k = .ub := by
  obtain ⟨d, rfl⟩ : ∃ d, n = d + k := ⟨n - k, by omega⟩
  have hk0 : 0 < k := by
    rcases Nat.eq_zero_or_pos k with rfl | h
    · exact absurd (by simp [fits_long_iff]) hfit
    · exact h
  unfold binomCoeff
  have h1 : decide ((k : Int) > -1) = true := by simp; omega
  have h2 : decide (((d + k : Nat) : Int) ≥ k) = true := by simp
  rw [h1, h2]
  simp only [assertDebug_true, Res.ok_bind]
  push_cast at *
  have e1 : SInt.sub IntTy.long (d + k : Int) k = .ok (d : Int) := by
    unfold SInt.sub
    rw [show (d : Int) + k - k = d by ring]
    exact arith_of_fits (fits_long_iff.2 (by omega))
  have e2 : SInt.add IntTy.long (d : Int) 1 = .ok (d + 1 : Int) := by
    unfold SInt.add; exact arith_of_fits (fits_long_iff.2 (by omega))
  have e3 : SInt.add IntTy.long (d : Int) k = .ok (d + k : Int) := by
    unfold SInt.add; exact arith_of_fits (fits_long_iff.2 (by omega))
  rw [e1, Res.ok_bind, e2, Res.ok_bind, e3, Res.ok_bind]
  have := binomLoop_overflow b d k hk0 hfit (by omega) 0 hk0
  simpa using this

/-- C07 (negation of the unrestricted claim): `62 choose 31` is a `long`, but computing it is
undefined behaviour in every build. -/
theorem C07_binom_full_claim_false (b : Build) :
    Fits IntTy.long (Nat.choose 62 31) ∧ binomCoeff b 62 31 = .ub := by
  constructor
  · rw [fits_long_iff]; decide +kernel
  · exact C07_binom_overflow b (n := 62) (k := 31) (by decide) (by decide)
      (by rw [fits_long_iff]; decide +kernel)

/-- C07 (rejected arguments). -/
theorem C07_binom_rejects {b : Build} (hb : b.Checked) {n k : Int} (h : k < 0 ∨ n < k) :
    binomCoeff b n k = .trap b.kind := by
  unfold binomCoeff
  by_cases hk : k < 0
  · have : decide (k > -1) = false := by simp; omega
    simp [this, assertDebug_false hb]
  · have h1 : decide (k > -1) = true := by simp; omega
    have h2 : decide (n ≥ k) = false := by simp; omega
    simp [h1, h2, assertDebug_false hb]

example : (5 : Nat) ≤ 10 ∧ Fits IntTy.long ((Nat.choose 10 5 * 5 : Nat) : Int) ∧
    binomCoeff ⟨false, true, false⟩ 10 5 = .ok 252 := by
  refine ⟨by decide, by rw [fits_long_iff]; decide, ?_⟩
  have := C07_binom ⟨false, true, false⟩ (n := 10) (k := 5) (by decide) (by decide)
    (by rw [fits_long_iff]; decide)
  exact this

/-! ### C08 sign, absolute value, min, max, clamp -/

/-- C08 (abss): the absolute value, except that the most negative signed value overflows. -/
theorem C08_abss {t : IntTy} {x : Int} (hx : Fits t x) :
    (x ≠ t.lo ∨ t.signed = false → abss t x = .ok |x|) ∧
    (t.signed = true → x = -(2 ^ (t.bits - 1)) → abss t x = .ub) := by
  constructor
  · intro h
    unfold abss
    cases hs : t.signed
    · have := (hx.2 hs).1
      simp [abs_of_nonneg this]
    · simp only [if_true]
      split
      · rw [abs_of_pos (by omega)]
      · rw [abs_of_nonpos (by omega)]
        unfold SInt.neg
        apply arith_of_fits
        refine ⟨fun _ => ?_, fun h' => by simp [hs] at h'⟩
        have h1 := hx.1 hs
        have h2 : x ≠ -(2 ^ (t.bits - 1)) := by
          rcases h with h | h
          · simpa [IntTy.lo, hs] using h
          · simp [hs] at h
        omega
  · intro hs hmin
    unfold abss
    have := two_pow_pos (t.bits - 1)
    rw [if_pos hs, if_neg (by omega)]
    unfold SInt.neg
    refine arith_ub_iff.2 ⟨hs, fun h => ?_⟩
    have := h.1 hs
    omega

/-- C08 (signs). -/
theorem C08_signs (x : Int) :
    (0 < x → signs x = 1) ∧ (x = 0 → signs x = 0) ∧ (x < 0 → signs x = -1) := by
  unfold signs
  refine ⟨fun h => ?_, fun h => ?_, fun h => ?_⟩
  · rw [if_pos h, if_neg (by omega)]; rfl
  · subst h; rfl
  · rw [if_neg (by omega), if_pos h]; rfl

/-- C08 (mins/maxs): the returned value is one of the arguments and a bound for both; the two
results together are the two arguments. -/
theorem C08_min_max [LinearOrder α] (x y : α) :
    (mins x y = x ∨ mins x y = y) ∧ mins x y ≤ x ∧ mins x y ≤ y ∧
    (maxs x y = x ∨ maxs x y = y) ∧ x ≤ maxs x y ∧ y ≤ maxs x y ∧
    mins x y = min x y ∧ maxs x y = max x y := by
  unfold mins maxs
  rcases lt_trichotomy x y with h | h | h
  · simp [h, le_of_lt h, not_lt_of_gt h]
  · subst h; simp
  · simp [h, le_of_lt h, not_lt_of_gt h]

/-- C08 (clamps, accepted bounds): the result lies in `[low, high]`, equals `x` if `x` does, and is
the nearest bound otherwise; idempotent and monotone. -/
theorem C08_clamp [LinearOrder α] (b : Build) {low high : α} (h : low ≤ high) (x : α) :
    ∃ r, clamps b x low high = .ok r ∧ low ≤ r ∧ r ≤ high ∧ (low ≤ x → x ≤ high → r = x) ∧
      (x < low → r = low) ∧ (high < x → r = high) ∧ clamps b r low high = .ok r ∧
      (∀ y, x ≤ y → ∃ s, clamps b y low high = .ok s ∧ r ≤ s) := by
  have key : ∀ z, clamps b z low high = .ok (stdClamp z low high) := by
    intro z; simp [clamps, h, not_lt.2 h]
  have spec : ∀ z, stdClamp z low high = max low (min z high) := by
    intro z
    unfold stdClamp
    split
    · rename_i h1
      rw [min_eq_left (le_of_lt (lt_of_lt_of_le h1 h)), max_eq_left (le_of_lt h1)]
    · rename_i h1
      split
      · rename_i h2; rw [min_eq_right (le_of_lt h2), max_eq_right h]
      · rename_i h2; rw [min_eq_left (not_lt.1 h2), max_eq_right (not_lt.1 h1)]
  refine ⟨_, key x, ?_, ?_, ?_, ?_, ?_, ?_, ?_⟩
  · rw [spec]; exact le_max_left _ _
  · rw [spec]; exact max_le h (min_le_right _ _)
  · intro h1 h2; rw [spec, min_eq_left h2, max_eq_right h1]
  · intro h1; unfold stdClamp; rw [if_pos h1]
  · intro h1; unfold stdClamp
    rw [if_neg (not_lt.2 (le_trans h (le_of_lt h1))), if_pos h1]
  · rw [key]
    congr 1
    rw [spec, spec, min_eq_left (max_le h (min_le_right _ _)), max_eq_right (le_max_left _ _)]
  · intro y hxy
    refine ⟨_, key y, ?_⟩
    rw [spec, spec]
    exact max_le_max (le_refl _) (min_le_min hxy (le_refl _))

/-- C08 (clamps, wrong bounds): a checked build stops; the others have undefined behaviour. -/
theorem C08_clamp_rejects [LinearOrder α] (b : Build) {low high : α} (h : high < low) (x : α) :
    (b.Checked → clamps b x low high = .trap b.kind) ∧ (¬ b.Checked → clamps b x low high = .ub) := by
  have e : decide (low ≤ high) = false := by simp [h]
  constructor
  · intro hb; simp [clamps, e, assertDebug_false hb]
  · intro hb
    have : assertDebug b false = .ok () := by
      rcases b with ⟨_ | _, _ | _, _ | _⟩ <;> first | rfl | exact absurd (by decide) hb
    simp [clamps, e, this, h]

example : clamps ⟨false, true, false⟩ (7 : Int) 1 5 = .ok 5 ∧
    clamps ⟨false, true, false⟩ (7 : Int) 5 1 = .trap .exception ∧
    clamps ⟨true, true, false⟩ (7 : Int) 5 1 = .ub ∧
    abss IntTy.int (-2147483648) = .ub ∧ abss IntTy.int (-5) = .ok 5 := by decide

/-! ### C09 interval membership (scalars) -/

/-- C09 (scalars): exact characterisation, and rejection of reversed bounds. -/
theorem C09_in_interval [LinearOrder α] (b : Build) (x low high : α) :
    (low ≤ high → inOpen b x low high = .ok (decide (low < x ∧ x < high)) ∧
      inClosed b x low high = .ok (decide (low ≤ x ∧ x ≤ high))) ∧
    (b.Checked → ¬ low ≤ high → inOpen b x low high = .trap b.kind ∧
      inClosed b x low high = .trap b.kind) := by
  constructor
  · intro h
    simp [inOpen, inClosed, h, Bool.decide_and]
  · intro hb h
    have : decide (low ≤ high) = false := by simpa using h
    simp [inOpen, inClosed, this, assertDebug_false hb]

example : inOpen ⟨false, true, false⟩ (3 : Int) 3 5 = .ok false ∧
    inClosed ⟨false, true, false⟩ (3 : Int) 3 5 = .ok true := by decide

/-! ### C10 fast power with signed exponent -/

theorem fastPowsLoop_step (mul : α → α → Res α) (res x : α) (n : Nat) :
    fastPowsLoop mul res x n = (if n % 2 = 1 then mul res x else .ok res).bind fun r =>
      if n / 2 = 0 then .ok r else (mul x x).bind fun y => fastPowsLoop mul r y (n / 2) := by
  conv_lhs => unfold fastPowsLoop
  by_cases h : n % 2 = 1 <;> by_cases g : n / 2 = 0 <;> simp only [h, g, if_true, if_false] <;> rfl

theorem fastPowsLoop_eq [CommMonoid α] (n : Nat) (res x : α) :
    fastPowsLoop (fun a b => .ok (a * b)) res x n = .ok (res * x ^ n) := by
  induction n using Nat.strong_induction_on generalizing res x with
  | _ n ih =>
    rw [fastPowsLoop_step]
    have hdm := Nat.div_add_mod n 2
    have hodd : (if n % 2 = 1 then .ok (res * x) else .ok res) = Res.ok (res * x ^ (n % 2)) := by
      rcases Nat.mod_two_eq_zero_or_one n with h | h <;> simp [h]
    rw [hodd]
    show (if n / 2 = 0 then _ else fastPowsLoop _ _ (x * x) (n / 2)) = _
    split
    · rename_i h; congr 3; omega
    · rename_i h
      rw [ih (n / 2) (by omega), mul_assoc]
      congr 2
      conv_rhs => rw [← hdm, add_comm, pow_add, pow_mul, pow_two]

/-- C10: in exact arithmetic over a field, `fast_pows_int(x, p)` is `x^p`, for every exponent
except the most negative `long` (and `x` non-zero if `p` is negative, where the code divides). -/
theorem C10_fast_pows [Field α] (x : α) {p : Int}
    (hp : Fits IntTy.long p) (hmin : p ≠ -9223372036854775808) (hx : p < 0 → x ≠ 0) :
    ∃ r, fastPowsInt (fun a b => .ok (a * b)) (fun a b => .ok (a / b)) 1 x p = .ok r ∧
      (∀ n : Nat, p = n → r = x ^ n) ∧ (∀ n : Nat, p = -(n : Int) → r * x ^ n = 1) := by
  have habs : abss IntTy.long p = .ok |p| := by
    refine (C08_abss hp).1 (.inl ?_)
    simpa [IntTy.lo, IntTy.long] using hmin
  refine ⟨if p ≥ 0 then 1 * x ^ |p|.toNat else 1 / (1 * x ^ |p|.toNat), ?_, ?_, ?_⟩
  · unfold fastPowsInt
    rw [habs, Res.ok_bind, fastPowsLoop_eq, Res.ok_bind]
    split <;> rfl
  · rintro n rfl
    simp
  · rintro n rfl
    rcases Nat.eq_zero_or_pos n with rfl | hn
    · simp
    · rw [if_neg (by omega)]
      have : (|(-(n : Int))|).toNat = n := by rw [abs_neg]; simp
      rw [this, one_mul]
      exact one_div_mul_cancel (pow_ne_zero _ (hx (by omega)))

/-- C10: the most negative exponent is not defined, whatever the element type. -/
theorem C10_min_exponent (mul div : α → α → Res α) (one x : α) :
    fastPowsInt mul div one x (-9223372036854775808) = .ub := by
  have : abss IntTy.long (-9223372036854775808) = .ub := by decide
  simp [fastPowsInt, this]

example : Fits IntTy.long (-3) ∧
    fastPowsInt (fun a b => .ok (a * b)) (fun a b => .ok (a / b)) 1 (2 : ℚ) (-3) = .ok (1 / 8) := by
  refine ⟨fits_long_iff.2 (by omega), ?_⟩
  have h : abss IntTy.long (-3) = .ok 3 := by decide
  unfold fastPowsInt
  rw [h, Res.ok_bind, fastPowsLoop_eq, Res.ok_bind, if_neg (by decide)]
  rw [show Int.toNat 3 = 3 from rfl]
  norm_num

/-- C04 (scalar functions). -/
theorem C04_math_transparent (t : IntTy) (x y : Int) :
    Transparent (fun b => pows b t x y) ∧ Transparent (fun b => factorial b x) ∧
    Transparent (fun b => clamps b x y x) := by
  exact ⟨transparent_bind (transparent_assertDebug _) (fun _ => transparent_const _),
    transparent_bind (transparent_assertDebug _) (fun _ => transparent_const _),
    transparent_bind (transparent_assertDebug _) (fun _ => transparent_const _)⟩

end Spp.Props
