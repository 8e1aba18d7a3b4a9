import Verif.Lemmas.Ints
import Verif.Lemmas.Transparent

/- Properties C01, C02, C03 and the scalar part of C04. -/

namespace Spp.Props
open Spec SInt

/-- Quotient and remainder are determined by the specification `TruncDiv`. -/
theorem TruncDiv_unique {x y q r q' r' : Int} (h : TruncDiv x y q r) (h' : TruncDiv x y q' r') :
    q = q' ∧ r = r' := by
  have e : (q - q') * y = r' - r := by
    have h1 := h.eq; have h2 := h'.eq; rw [Int.sub_mul]; omega
  have hs : (r' - r).natAbs < y.natAbs := by
    have a := h.small; have b := h'.small
    have c := h.sign_pos; have d := h.sign_neg; have c' := h'.sign_pos; have d' := h'.sign_neg
    by_cases hx : 0 ≤ x
    · have := c hx; have := c' hx; omega
    · have := d (by omega); have := d' (by omega); omega
  have hq : q - q' = 0 := by
    rcases Nat.eq_zero_or_pos (q - q').natAbs with h0 | h0
    · omega
    · rw [← e, Int.natAbs_mul] at hs
      have : 1 * y.natAbs ≤ (q - q').natAbs * y.natAbs := Nat.mul_le_mul_right _ (by omega)
      omega
  rw [hq] at e
  constructor <;> omega

/-- C01 (zero divisor): with checks on, `/`, `%`, `/=`, `%=` by zero trap, and the stored value is
untouched. -/
theorem C01_zero_divisor_traps {b : Build} (hb : b.Checked) (t : IntTy) (x : Int) :
    div b t x 0 = .trap b.kind ∧ rem b t x 0 = .trap b.kind ∧
    divAssign b t 0 x = (.trap b.kind, x) ∧ remAssign b t 0 x = (.trap b.kind, x) := by
  simp [div, rem, divAssign, remAssign, assertDebug_false hb]

/-- C01 (without checks division by zero is undefined behaviour). -/
theorem C01_zero_divisor_release {b : Build} (hb : b.Release) (t : IntTy) (x : Int) :
    div b t x 0 = .ub ∧ rem b t x 0 = .ub := by
  simp [div, rem, assertDebug_release hb, builtinDiv, builtinRem]

/-- C01 (result): for every other divisor, in every build, quotient and remainder are the truncated
ones, representable, and the assigning forms store them. -/
theorem C01_division_result (b : Build) {t : IntTy} {x y : Int} (hx : Fits t x) (hy : Fits t y)
    (h0 : y ≠ 0) (hm : ¬ MinOverMinusOne t x y) :
    ∃ q r, TruncDiv x y q r ∧ Fits t q ∧
      div b t x y = .ok q ∧ rem b t x y = .ok r ∧
      divAssign b t y x = (.ok (), q) ∧ remAssign b t y x = (.ok (), r) := by
  have hf := tdiv_fits hx hy h0 hm
  have hh := (holds_iff_fits t _).2 hf
  have hne : (y != 0) = true := by simpa using h0
  refine ⟨x.tdiv y, x.tmod y, tdiv_truncDiv h0, hf, ?_, ?_, ?_, ?_⟩ <;>
    simp [hne, div, rem, divAssign, remAssign, h0, builtinDiv, builtinRem, arith_of_fits hf, hh]

/-- C01 (overflow): MIN / -1 and MIN % -1 are undefined behaviour in every build. -/
theorem C01_min_over_minus_one (b : Build) {t : IntTy} {x y : Int}
    (hm : MinOverMinusOne t x y) : div b t x y = .ub ∧ rem b t x y = .ub := by
  have hn := minOver_not_fits hm
  have hh : ¬ t.Holds (x.tdiv y) := fun h => hn ((holds_iff_fits t _).1 h)
  have h0 : y ≠ 0 := by have := hm.2.2; omega
  have ha : t.arith (x.tdiv y) = .ub := arith_ub_iff.2 ⟨hm.1, hn⟩
  have hne : (y != 0) = true := by simpa using h0
  simp [hne, div, rem, h0, builtinDiv, builtinRem, ha, hh]

/-- C01 (summary for checked builds): the only undefined case left is MIN / -1. -/
theorem C01_checked_ub_iff {b : Build} (hb : b.Checked) {t : IntTy} {x y : Int}
    (hx : Fits t x) (hy : Fits t y) :
    (div b t x y = .ub ↔ MinOverMinusOne t x y) ∧ (rem b t x y = .ub ↔ MinOverMinusOne t x y) := by
  by_cases h0 : y = 0
  · subst h0
    have := C01_zero_divisor_traps hb t x
    have hn : ¬ MinOverMinusOne t x 0 := fun h => by have := h.2.2; omega
    simp [this, hn]
  · by_cases hm : MinOverMinusOne t x y
    · simp [C01_min_over_minus_one b hm, hm]
    · obtain ⟨q, r, _, _, h1, h2, _, _⟩ := C01_division_result b hx hy h0 hm
      simp [h1, h2, hm]

example : Build.Checked ⟨false, true, false⟩ ∧ Fits IntTy.int (-7) ∧ Fits IntTy.int 2 ∧
    ¬ MinOverMinusOne IntTy.int (-7) 2 ∧
    div ⟨false, true, false⟩ IntTy.int (-7) 2 = .ok (-3) ∧
    rem ⟨false, true, false⟩ IntTy.int (-7) 2 = .ok (-1) := by
  refine ⟨by decide, ⟨?_, ?_⟩, ⟨?_, ?_⟩, ?_, by decide, by decide⟩ <;>
    simp [IntTy.int, MinOverMinusOne]
example : MinOverMinusOne IntTy.int (-2147483648) (-1) := by
  refine ⟨rfl, by decide, rfl⟩

/-- C02 (+): the value returned is the exact sum for signed types, the residue for unsigned types. -/
theorem C02_add {t : IntTy} {x y r : Int} :
    add t x y = .ok r ↔ (t.signed = true → Fits t (x + y) ∧ r = x + y) ∧
      (t.signed = false → Fits t r ∧ SameMod t r (x + y)) := arith_ok_iff
/-- C02 (-). -/
theorem C02_sub {t : IntTy} {x y r : Int} :
    sub t x y = .ok r ↔ (t.signed = true → Fits t (x - y) ∧ r = x - y) ∧
      (t.signed = false → Fits t r ∧ SameMod t r (x - y)) := arith_ok_iff
/-- C02 (*). -/
theorem C02_mul {t : IntTy} {x y r : Int} :
    mul t x y = .ok r ↔ (t.signed = true → Fits t (x * y) ∧ r = x * y) ∧
      (t.signed = false → Fits t r ∧ SameMod t r (x * y)) := arith_ok_iff
/-- C02 (unary -; only instantiable for signed types). -/
theorem C02_neg {t : IntTy} (hs : t.signed = true) {x r : Int} :
    neg t x = .ok r ↔ Fits t (-x) ∧ r = -x := by
  unfold neg; rw [arith_ok_iff]; simp [hs]

/-- C02 (undefined exactly on signed overflow; no arithmetic operator ever traps). -/
theorem C02_ub_iff {t : IntTy} {x y : Int} :
    (add t x y = .ub ↔ t.signed = true ∧ ¬ Fits t (x + y)) ∧
    (sub t x y = .ub ↔ t.signed = true ∧ ¬ Fits t (x - y)) ∧
    (mul t x y = .ub ↔ t.signed = true ∧ ¬ Fits t (x * y)) ∧
    (neg t x = .ub ↔ t.signed = true ∧ ¬ Fits t (-x)) ∧
    ∀ k, add t x y ≠ .trap k ∧ sub t x y ≠ .trap k ∧ mul t x y ≠ .trap k ∧ neg t x ≠ .trap k :=
  ⟨arith_ub_iff, arith_ub_iff, arith_ub_iff, arith_ub_iff,
   fun _ => ⟨arith_not_trap, arith_not_trap, arith_not_trap, arith_not_trap⟩⟩

/-- What `x op= y` must do given the outcome of `x op y`. -/
def stores (r : Res Int) (old : Int) : Res Unit × Int :=
  match r with
  | .ok v => (.ok (), v)
  | .trap k => (.trap k, old)
  | .ub => (.ub, old)

/-- C02/C01/C03 (compound assignment agrees with the binary operator, for every build, including
what is stored when the operation fails). -/
theorem C02_compound (b : Build) (t : IntTy) (x y : Int) :
    addAssign t y x = stores (add t x y) x ∧ subAssign t y x = stores (sub t x y) x ∧
    mulAssign t y x = stores (mul t x y) x ∧ divAssign b t y x = stores (div b t x y) x ∧
    remAssign b t y x = stores (rem b t x y) x ∧ shlAssign b t y x = stores (shl b t x y) x ∧
    shrAssign b t y x = stores (shr b t x y) x := by
  refine ⟨?_, ?_, ?_, ?_, ?_, ?_, ?_⟩
  · simp only [addAssign, add, Op.get_bind]; cases t.arith (x + y) <;> rfl
  · simp only [subAssign, sub, Op.get_bind]; cases t.arith (x - y) <;> rfl
  · simp only [mulAssign, mul, Op.get_bind]; cases t.arith (x * y) <;> rfl
  · simp only [divAssign, div]
    cases assertDebug b (y != 0) <;> simp [stores]
    cases builtinDiv t x y <;> rfl
  · simp only [remAssign, rem]
    cases assertDebug b (y != 0) <;> simp [stores]
    cases builtinRem t x y <;> rfl
  · simp only [shlAssign, shl, Op.get_bind]
    cases shiftChecks b t x y <;> simp [stores]
    cases builtinShl t x y <;> rfl
  · simp only [shrAssign, shr, Op.get_bind]
    cases shiftChecks b t x y <;> simp [stores]
    cases builtinShr t x y <;> rfl

/-- C02 (++ and --): prefix forms return the new value, postfix forms the old one; all store the
incremented/decremented value; at the end of the range they overflow like + and -. -/
theorem C02_inc_dec (t : IntTy) (x : Int) :
    (∀ v, add t x 1 = .ok v → preInc t x = (.ok v, v) ∧ postInc t x = (.ok x, v)) ∧
    (∀ v, sub t x 1 = .ok v → preDec t x = (.ok v, v) ∧ postDec t x = (.ok x, v)) ∧
    (add t x 1 = .ub → preInc t x = (.ub, x) ∧ postInc t x = (.ub, x)) ∧
    (sub t x 1 = .ub → preDec t x = (.ub, x) ∧ postDec t x = (.ub, x)) := by
  unfold add sub
  refine ⟨?_, ?_, ?_, ?_⟩ <;> intros <;> simp_all [preInc, preDec, postInc, postDec]

example : add IntTy.int 2147483647 1 = .ub ∧ add IntTy.uint 4294967295 1 = .ok 0 ∧
    mul IntTy.int 46341 46341 = .ub ∧ neg IntTy.int (-2147483648) = .ub ∧
    postInc IntTy.int 5 = (.ok 5, 6) := by decide

/-- C03 (negative operands trap in checked builds; the stored value stays). -/
theorem C03_negative_shift_traps {b : Build} (hb : b.Checked) {t : IntTy} (hs : t.signed = true)
    {x y : Int} (h : x < 0 ∨ y < 0) :
    shl b t x y = .trap b.kind ∧ shr b t x y = .trap b.kind := by
  have key : shiftChecks b t x y = .trap b.kind := by
    unfold shiftChecks
    simp only [hs, if_true]
    by_cases hx : x < 0
    · have : decide (x > -1) = false := by simp; omega
      simp [this, assertDebug_false hb]
    · have h1 : decide (x > -1) = true := by simp; omega
      have h2 : decide (y > -1) = false := by simp; omega
      simp [h1, h2, assertDebug_false hb]
  simp [shl, shr, key]

theorem shr_fits {t : IntTy} {x : Int} (hx : Fits t x) (k : Nat) (h0 : 0 ≤ x) :
    Fits t (x / 2 ^ k) := by
  have h1 : x / 2 ^ k ≤ x := Int.ediv_le_self _ h0
  have h2 : 0 ≤ x / 2 ^ k := Int.ediv_nonneg h0 (Int.le_of_lt (two_pow_pos k))
  constructor
  · intro hs; have := hx.1 hs; have := two_pow_pos (t.bits - 1); omega
  · intro hs; have := hx.2 hs; omega

/-- C03 (result): for non-negative operands and counts below the width, << multiplies by 2^y modulo
2^bits and >> divides by 2^y rounding down, in every build.  Counts >= width are
`C03_shift_count_not_checked`. -/
theorem C03_shift (b : Build) {t : IntTy} {x : Int} (hx : Fits t x) (hx0 : 0 ≤ x)
    {n : Nat} (hn : n < t.bits) :
    (∃ r, shl b t x n = .ok r ∧ Fits t r ∧ SameMod t r (x * 2 ^ n)) ∧
    (∃ r, shr b t x n = .ok r ∧ Fits t r ∧ 2 ^ n * r ≤ x ∧ x < 2 ^ n * (r + 1)) := by
  have hc : shiftChecks b t x n = .ok () := by
    unfold shiftChecks
    have h1 : decide (x > -1) = true := by simp; omega
    have h2 : decide ((n : Int) > -1) = true := by simp; omega
    split <;> simp only [h1, h2, assertDebug_true, Res.ok_bind]
  have hg : ¬ ((n : Int) < 0 ∨ (t.bits : Int) ≤ n) := by omega
  constructor
  · refine ⟨t.wrap (x * 2 ^ n), ?_, wrap_fits _ _, wrap_same _ _⟩
    simp [shl, hc, builtinShl, hn]
  · refine ⟨x / 2 ^ n, ?_, shr_fits hx n hx0, ?_, ?_⟩
    · simp [shr, hc, builtinShr, hn]
    · rw [Int.mul_comm]; exact Int.ediv_mul_le _ (Int.ne_of_gt (two_pow_pos n))
    · rw [Int.mul_comm]; exact Int.lt_ediv_add_one_mul_self _ (two_pow_pos n)

/-- C03 (defect): in every build, including fully checked ones, shifting a non-negative value by a
count equal to the width (or more) is not trapped and is undefined behaviour. -/
theorem C03_shift_count_not_checked (b : Build) {t : IntTy} {x y : Int} (hx : 0 ≤ x)
    (hy : (t.bits : Int) ≤ y) : shl b t x y = .ub ∧ shr b t x y = .ub := by
  have hc : shiftChecks b t x y = .ok () := by
    unfold shiftChecks
    have h1 : decide (x > -1) = true := by simp; omega
    have h2 : decide (y > -1) = true := by simp; omega
    split <;> simp only [h1, h2, assertDebug_true, Res.ok_bind]
  simp [shl, shr, hc, builtinShl, builtinShr, hy]

example : Fits IntTy.int 1 ∧ Fits IntTy.int 32 ∧ (IntTy.int.bits : Int) ≤ 32 ∧
    shl ⟨false, true, false⟩ IntTy.int 1 32 = .ub ∧
    shl ⟨false, true, false⟩ IntTy.int 3 4 = .ok 48 ∧
    shr ⟨false, true, false⟩ IntTy.int 50 4 = .ok 3 := by
  refine ⟨⟨?_, ?_⟩, ⟨?_, ?_⟩, by decide, by decide, by decide, by decide⟩ <;> simp [IntTy.int]

/-- Conversions between integer types keep the value when it fits and reduce it modulo 2^bits
otherwise (strict_cast, si(), sl(), sui(), sul()). -/
theorem C02_cast (t : IntTy) (x : Int) :
    Fits t (SInt.cast t x) ∧ SameMod t (SInt.cast t x) x ∧ (Fits t x → SInt.cast t x = x) :=
  ⟨wrap_fits t x, wrap_same t x, wrap_of_fits⟩

example : SInt.cast IntTy.int 4294967295 = -1 ∧ SInt.cast IntTy.uint (-1) = 4294967295 := by decide

/-- C04 (scalar operators): the debug checks never change an accepted call. -/
theorem C04_scalar_transparent (t : IntTy) (x y : Int) :
    Transparent (fun b => div b t x y) ∧ Transparent (fun b => rem b t x y) ∧
    Transparent (fun b => shl b t x y) ∧ Transparent (fun b => shr b t x y) := by
  have hs : Transparent (fun b => shiftChecks b t x y) := by
    unfold shiftChecks
    exact transparent_ite (transparent_bind (transparent_assertDebug _)
      (fun _ => transparent_assertDebug _)) (transparent_const _)
  exact ⟨transparent_bind (transparent_assertDebug _) (fun _ => transparent_const _),
    transparent_bind (transparent_assertDebug _) (fun _ => transparent_const _),
    transparent_bind hs (fun _ => transparent_const _),
    transparent_bind hs (fun _ => transparent_const _)⟩

end Spp.Props
