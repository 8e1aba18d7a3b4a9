import Verif.Lemmas.Format
import Verif.Props.FloatIO

/-
C95: printing and reading quadruple-precision numbers.
-/

set_option linter.unusedSectionVars false

namespace Spp.Props

open Spp.Spec Spp.IO Spp.Lemmas

/-! ### Printing -/

theorem quadText_sci {fmt : NumFormat} (h : fmt.scientific = true) (h0 : 0 ≤ fmt.quad) (h1 : fmt.quad < 2 ^ 31 - 7)
    (x : ℚ) : quadText fmt x = .ok ((capitalE (showSci fmt.quad.toNat x)).take 127) := by
  obtain ⟨D, hD, -⟩ := showSci_spec fmt.quad.toNat x
  have hl := scientific_length hD
  have hw : IntTy.int.arith (fmt.quad + 7) = .ok (fmt.quad + 7) := by
    have : IntTy.int.Holds (fmt.quad + 7) := by
      constructor <;> norm_num [IntTy.lo, IntTy.hi, IntTy.int] <;> omega
    simp only [IntTy.arith, this, if_true]
    rfl
  unfold quadText
  rw [if_neg (by omega), if_pos h, hw]
  simp only [Res.ok_bind, Res.pure_eq, Res.ok.injEq]
  unfold quadField
  simp only [if_true]
  rw [show (showSci fmt.quad.toNat x).map (fun c => if c = 'e' then 'E' else c) = capitalE (showSci fmt.quad.toNat x)
    from rfl]
  have : (fmt.quad + 7).toNat - (capitalE (showSci fmt.quad.toNat x)).length = 0 := by
    rw [capitalE, List.length_map]; omega
  rw [this]
  simp

theorem quadText_fix {fmt : NumFormat} (h : fmt.scientific = false) (h0 : 0 ≤ fmt.quad) (h1 : fmt.quad < 2 ^ 31 - 3)
    (x : ℚ) : quadText fmt x = .ok ((showFixed fmt.quad.toNat x).take 127) := by
  obtain ⟨D, hD, -⟩ := showFixed_spec fmt.quad.toNat x
  have hl := fixed_length hD
  have hw : IntTy.int.arith (fmt.quad + 3) = .ok (fmt.quad + 3) := by
    have : IntTy.int.Holds (fmt.quad + 3) := by
      constructor <;> norm_num [IntTy.lo, IntTy.hi, IntTy.int] <;> omega
    simp only [IntTy.arith, this, if_true]
    rfl
  unfold quadText
  rw [if_neg (by omega), if_neg (by simp [h]), hw]
  simp only [Res.ok_bind, Res.pure_eq, Res.ok.injEq]
  unfold quadField
  simp only [Bool.false_eq_true, if_false]
  have : (fmt.quad + 3).toNat - (showFixed fmt.quad.toNat x).length = 0 := by omega
  rw [this]
  simp

/-- C95: with at most 118 digits after the point, scientific notation writes every number in full: a sign, a digit,
the point, the digits, `E` and the exponent.  The decimal is within half a unit of its last digit. -/
theorem C95_scientific {fmt : NumFormat} (h : fmt.scientific = true) (h0 : 0 ≤ fmt.quad) (h1 : fmt.quad ≤ 118)
    {x : ℚ} (hx : QuadRange x) :
    ∃ w D, quadText fmt x = .ok (capitalE w) ∧ Scientific fmt.quad.toNat w D ∧ NumberText (capitalE w) D ∧
      |x - D| ≤ |x| / 10 ^ fmt.quad.toNat / 2 := by
  obtain ⟨D, hD, hE⟩ := showSci_spec fmt.quad.toNat x
  refine ⟨_, D, ?_, hD, (capital_scientific hD).1, hE⟩
  rw [quadText_sci h h0 (by omega), List.take_of_length_le]
  have := showSci_length fmt.quad.toNat hx
  rw [capitalE, List.length_map]
  omega

/-- C95: fixed notation writes a number in full if the sign, the digits before the point, the point and the digits
after it are no more than 127 characters. -/
theorem C95_fixed {fmt : NumFormat} (h : fmt.scientific = false) (h0 : 0 ≤ fmt.quad) {x : ℚ} {k : Nat} (hk : 0 < k)
    (h1 : fmt.quad + 2 + k ≤ 127) (hx : |x| + 1 ≤ 10 ^ k) :
    ∃ w D, quadText fmt x = .ok w ∧ Fixed fmt.quad.toNat w D ∧ NumberText w D ∧
      |x - D| ≤ 1 / 10 ^ fmt.quad.toNat / 2 := by
  obtain ⟨D, hD, hE⟩ := showFixed_spec fmt.quad.toNat x
  refine ⟨_, D, ?_, hD, number_fixed hD, hE⟩
  rw [quadText_fix h h0 (by omega), List.take_of_length_le]
  have := showFixed_length fmt.quad.toNat hk hx
  omega

/-- C95: in fixed notation a number of 127 digits or more before the point is cut: only 126 of its digits are
written, which is a decimal number at most a tenth as large (but for rounding). -/
theorem C95_cut_fixed {fmt : NumFormat} (h : fmt.scientific = false) (h0 : 0 ≤ fmt.quad) (h1 : fmt.quad < 2 ^ 31 - 3)
    {x : ℚ} (hx : (10 : ℚ) ^ 127 ≤ |x|) :
    ∃ w y, quadText fmt x = .ok w ∧ w.length = 127 ∧ NumberText w y ∧ 10 * |y| ≤ |x| + 1 := by
  set P := fmt.quad.toNat
  obtain ⟨ds, d1, d2, d3⟩ := showFixed_parts P x
  obtain ⟨b1, b2⟩ := whole_bounds P x
  set n := roundEven (|x| * 10 ^ P) / 10 ^ P
  obtain ⟨i1, i2, i3⟩ := toDigits_facts n
  have hn : 10 ^ 126 ≤ n := by
    have h : ((10 ^ 126 : Nat) : ℚ) < (n : ℚ) + 1 := by
      push_cast
      have : (10 : ℚ) ^ 126 + 1 ≤ 10 ^ 127 := by norm_num
      linarith
    have : (10 ^ 126 : Nat) < n + 1 := by exact_mod_cast h
    exact Nat.lt_succ_iff.1 this
  have hl : 127 ≤ (Nat.toDigits 10 n).length := by
    by_contra hlt
    have := (Nat.length_toDigits_le_iff (b := 10) (n := n) (k := 126) (by decide) (by decide)).mp (by omega)
    exact absurd hn (not_le.2 this)
  set is := Nat.toDigits 10 n
  have hsplit := List.take_append_drop 126 is
  have htake : (showFixed P x).take 127 = signChar (decide (x < 0)) :: is.take 126 := by
    rw [d3, List.take_succ_cons, List.take_append_of_le_length (by omega)]
  have hlen : (is.take 126).length = 126 := by rw [List.length_take]; omega
  have hdt : DecimalText (is.take 126) (digitsValue (is.take 126)) := by
    refine ⟨is.take 126, [], [], 0, fun d hd => i2 d (List.mem_of_mem_take hd), by simp, ?_, Or.inl ⟨rfl, rfl⟩,
      Or.inr ⟨rfl, by simp⟩, by simp⟩
    intro h0
    rw [List.append_nil] at h0
    rw [h0] at hlen
    simp at hlen
  refine ⟨_, signed (decide (x < 0)) (digitsValue (is.take 126)), quadText_fix h h0 h1 x, ?_, ?_, ?_⟩
  · rw [htake, List.length_cons, hlen]
  · rw [htake]
    exact numberText_signed hdt _
  · have habs : |signed (decide (x < 0)) (digitsValue (is.take 126) : ℚ)| = digitsValue (is.take 126) := by
      unfold signed
      split
      · rw [abs_neg, abs_of_nonneg (Nat.cast_nonneg _)]
      · rw [abs_of_nonneg (Nat.cast_nonneg _)]
    rw [habs]
    have e : n = digitsValue (is.take 126) * 10 ^ (is.drop 126).length + digitsValue (is.drop 126) := by
      rw [← i3, ← decimal_eq, ← decimal_eq, ← decimal_eq, ← decimal_append, hsplit]
    have hdl : 1 ≤ (is.drop 126).length := by rw [List.length_drop]; omega
    have : 10 * digitsValue (is.take 126) ≤ n := by
      have h10 : 10 ^ 1 ≤ 10 ^ (is.drop 126).length := Nat.pow_le_pow_right (by decide) hdl
      calc 10 * digitsValue (is.take 126) = digitsValue (is.take 126) * 10 ^ 1 := by ring
        _ ≤ digitsValue (is.take 126) * 10 ^ (is.drop 126).length := Nat.mul_le_mul_left _ h10
        _ ≤ n := by omega
    have : (10 : ℚ) * digitsValue (is.take 126) ≤ n := by exact_mod_cast this
    linarith

/-- C95: in scientific notation with 125 digits or more after the point the exponent is cut off: whatever the number
is, the text is a decimal number less than ten. -/
theorem C95_cut_scientific {fmt : NumFormat} (h : fmt.scientific = true) (h0 : 125 ≤ fmt.quad)
    (h1 : fmt.quad < 2 ^ 31 - 7) (x : ℚ) :
    ∃ w y, quadText fmt x = .ok w ∧ w.length = 127 ∧ NumberText w y ∧ |y| < 10 := by
  obtain ⟨D, hD, -⟩ := showSci_spec fmt.quad.toNat x
  obtain ⟨-, neg, eneg, d, ds, es, h2, h3, h4, h5, h6, h7, -⟩ := capital_scientific hD
  rw [← capitalE_eq] at h7
  have htake : (capitalE (showSci fmt.quad.toNat x)).take 127 = signChar neg :: d :: '.' :: ds.take 124 := by
    rw [h7, List.take_succ_cons, List.take_succ_cons, List.take_succ_cons,
      List.take_append_of_le_length (by omega)]
  have hdig : ∀ c ∈ d :: ds.take 124, c.isDigit = true := by
    intro c hc
    rcases List.mem_cons.1 hc with rfl | hc
    · exact h2 _ (by simp)
    · exact h2 c (List.mem_cons_of_mem _ (List.mem_of_mem_take hc))
  have hlen : (ds.take 124).length = 124 := by rw [List.length_take]; omega
  have hdt : DecimalText (d :: '.' :: ds.take 124) (digitsValue (d :: ds.take 124) * (10 : ℚ) ^ ((0 : Int) - 124)) := by
    refine ⟨[d], ds.take 124, [], 0, fun c hc => hdig c (by simp_all), fun c hc => hdig c (List.mem_cons_of_mem _ hc),
      by simp, Or.inl ⟨rfl, rfl⟩, Or.inl (by simp), ?_⟩
    rw [hlen]; rfl
  refine ⟨_, signed neg (digitsValue (d :: ds.take 124) * (10 : ℚ) ^ ((0 : Int) - 124)),
    quadText_sci h (by omega) h1 x, ?_, ?_, ?_⟩
  · rw [htake]; simp only [List.length_cons, hlen]
  · rw [htake]; exact numberText_signed hdt neg
  · have hlt := digitsValue_lt hdig
    rw [List.length_cons, hlen] at hlt
    have hq : (digitsValue (d :: ds.take 124) : ℚ) < 10 ^ 125 := by exact_mod_cast hlt
    have habs : ∀ q : ℚ, 0 ≤ q → |signed neg q| = q := by
      intro q hq
      unfold signed
      split
      · rw [abs_neg, abs_of_nonneg hq]
      · rw [abs_of_nonneg hq]
    rw [habs _ (by have := ten_pos ((0 : Int) - 124); positivity)]
    rw [zero_sub, zpow_neg, ← div_eq_mul_inv, div_lt_iff₀ (ten_pos _)]
    have : (10 : ℚ) * 10 ^ (124 : Int) = 10 ^ 125 := by norm_num
    rw [this]
    exact hq

/-- C95: a precision that the conversion to `int` made negative, or one so large that the field width overflows, is
undefined behaviour; there are no other failures. -/
theorem C95_outcome (fmt : NumFormat) (hq : fmt.quad < 2 ^ 31) (x : ℚ) :
    (quadText fmt x = .ub ↔ fmt.quad < 0 ∨ 2 ^ 31 ≤ fmt.quad + (if fmt.scientific then 7 else 3)) ∧
    (quadText fmt x ≠ .ub → ∃ w, quadText fmt x = .ok w) := by
  by_cases h0 : fmt.quad < 0
  · have : quadText fmt x = .ub := by unfold quadText; rw [if_pos h0]
    simp [this, h0]
  · have ub : ∀ k : Int, 0 ≤ k → k ≤ 7 → 2 ^ 31 ≤ fmt.quad + k → IntTy.int.arith (fmt.quad + k) = .ub := by
      intro k k0 k1 hk
      have : ¬ IntTy.int.Holds (fmt.quad + k) := by
        rintro ⟨-, h⟩
        norm_num [IntTy.hi, IntTy.int] at h
        omega
      simp only [IntTy.arith, this]
      rfl
    cases hs : fmt.scientific
    · simp only [Bool.false_eq_true, if_false]
      by_cases h : 2 ^ 31 ≤ fmt.quad + 3
      · have : quadText fmt x = .ub := by
          unfold quadText
          rw [if_neg h0, if_neg (by simp [hs]), ub 3 (by norm_num) (by norm_num) h]; rfl
        simp [this]
        exact Or.inr (by omega)
      · rw [quadText_fix hs (by omega) (by omega)]
        simp
        omega
    · simp only [if_true]
      by_cases h : 2 ^ 31 ≤ fmt.quad + 7
      · have : quadText fmt x = .ub := by
          unfold quadText
          rw [if_neg h0, if_pos hs, ub 7 (by norm_num) (by norm_num) h]; rfl
        simp [this]
        exact Or.inr (by omega)
      · rw [quadText_sci hs (by omega) (by omega)]
        simp
        omega

-- with the initial settings, and -1/3
example : ∃ w D, quadText NumFormat.initial (-1 / 3) = .ok (capitalE w) ∧ Scientific 33 w D ∧ NumberText (capitalE w) D ∧
    |(-1 / 3 : ℚ) - D| ≤ |(-1 / 3 : ℚ)| / 10 ^ 33 / 2 :=
  C95_scientific (fmt := NumFormat.initial) rfl (by decide) (by decide)
    (Or.inr ⟨le_trans (zpow_le_zpow_right₀ (by norm_num) (show (-5000 : Int) ≤ -1 by norm_num))
        (by norm_num [abs_of_neg]),
      lt_of_lt_of_le (by norm_num [abs_of_neg])
        (zpow_le_zpow_right₀ (by norm_num) (show (0 : Int) ≤ 5000 by norm_num))⟩)

-- 10^200 in fixed notation
example : ∃ w y, quadText ⟨false, 7, 16, 19, 33⟩ (10 ^ 200) = .ok w ∧ w.length = 127 ∧ NumberText w y ∧
    10 * |y| ≤ |(10 : ℚ) ^ 200| + 1 :=
  C95_cut_fixed rfl (by decide) (by decide) (by norm_num [abs_of_pos])

example : ∃ w D, quadText ⟨false, 7, 16, 19, 33⟩ (5 / 2) = .ok w ∧ Fixed 33 w D ∧ NumberText w D ∧
    |(5 / 2 : ℚ) - D| ≤ 1 / 10 ^ 33 / 2 :=
  C95_fixed (fmt := ⟨false, 7, 16, 19, 33⟩) (k := 1) rfl (by decide) (by decide) (by decide) (by norm_num [abs_of_pos])

example (x : ℚ) : ∃ w y, quadText ⟨true, 7, 16, 19, 130⟩ x = .ok w ∧ w.length = 127 ∧ NumberText w y ∧ |y| < 10 :=
  C95_cut_scientific rfl (by decide) (by decide) x

example : quadText ⟨true, 7, 16, 19, -1⟩ 0 = .ub := (C95_outcome _ (by decide) 0).1.2 (Or.inl (by decide))

/-- C95: on a stream, a quadruple-precision number is its text after what was there, and no setting of the stream
changes; if it has no text, nothing is defined. -/
theorem C95_stream (gen : Flags → ℚ → List Char) (fmt : NumFormat) (os : OStream) (x : ℚ) :
    (∀ w, quadText fmt x = .ok w → os.put gen fmt (.sfloat .quad x) = .ok ⟨os.flags, os.text ++ w⟩) ∧
    (quadText fmt x = .ub → os.put gen fmt (.sfloat .quad x) = .ub) := by
  constructor
  · intro w h
    change (quadText fmt x >>= _) = _
    rw [h]; rfl
  · intro h
    change (quadText fmt x >>= _) = _
    rw [h]; rfl

example : ∃ w, quadText { NumFormat.initial with quad := 2 } (-5 / 4) = .ok w ∧ w = "-1.25E+00".toList :=
  ⟨_, rfl, by decide +kernel⟩

/-! ### Reading one number -/

/-- C95: `is >> x` takes the next word.  If it is a decimal number, `x` is the number nearest to it and the stream
goes on after the word. -/
theorem C95_read (b : Build) (q : QuadReader) (builtin : Bool) {s w t : List Char} {y : ℚ} (hs : Blank s)
    (hw : ∀ c ∈ w, isSpace c = false) (hy : NumberText w y) (ht : t = [] ∨ ∃ c u, t = c :: u ∧ isSpace c = true)
    (x : ℚ) :
    readQuad b q builtin (.ofText (s ++ w ++ t), x) = (.ok (), (⟨t, t.isEmpty, false⟩, q.rn y)) := by
  unfold readQuad
  simp only [Op.get_bind, extractWord_word hs (numberText_ne hy) hw ht, strtoq_number hy, Op.set_bind,
    List.isEmpty_nil, assertAlways_true, Op.lift_ok_bind, Op.set_run]

/-- C95: a word that is not a number is an error.  A `Strict` variable keeps its value, a built-in one does not:
it has the value of the part of the word that is a number, or zero. -/
theorem C95_bad_word {b : Build} (hb : b.Guarded) (q : QuadReader) {s w t : List Char} (hs : Blank s)
    (hne : w ≠ []) (hw : ∀ c ∈ w, isSpace c = false) (hn : ¬ ∃ y, NumberText w y) (hsp : ¬ SpecialText w)
    (ht : t = [] ∨ ∃ c u, t = c :: u ∧ isSpace c = true) (x : ℚ) :
    readQuad b q false (.ofText (s ++ w ++ t), x) = (.trap b.kind, (⟨t, t.isEmpty, false⟩, x)) ∧
    ∃ z, readQuad b q true (.ofText (s ++ w ++ t), x) = (.trap b.kind, (⟨t, t.isEmpty, false⟩, z)) ∧
      (w.head?.all (fun c => !c.isDigit && c != '.' && c != '+' && c != '-') → z = 0) := by
  have hbad : (strtoq q w).2.isEmpty = false := by
    by_contra h
    rw [Bool.not_eq_false, List.isEmpty_iff] at h
    exact hn (strtoq_inv hne hsp h)
  unfold readQuad
  simp only [Op.get_bind, extractWord_word hs hne hw ht, hbad, Op.set_bind, assertAlways_false hb,
    Op.lift_trap_bind, Bool.false_eq_true, if_false, if_true]
  refine ⟨trivial, _, rfl, ?_⟩
  intro hc
  rcases w with _ | ⟨c, w⟩
  · exact absurd rfl hne
  · simp only [List.head?_cons, Option.all_some, Bool.and_eq_true, Bool.not_eq_true', bne_iff_ne] at hc
    obtain ⟨⟨⟨h1, h2⟩, h3⟩, h4⟩ := hc
    have hs' : isSpecial (c :: w) = false := by
      rw [← Bool.not_eq_true, isSpecial_iff]; exact hsp
    unfold strtoq
    rw [hs']
    have e1 : ((c :: w).head? == some '-') = false := by simpa using h4
    have e2 : ((c :: w).head? == some '+') = false := by simpa using h3
    rw [e1, e2]
    simp only [Bool.false_eq_true, if_false]
    have e3 : strtoqUnsigned q.rn false (c :: w) = none := by
      unfold strtoqUnsigned
      have a1 : (c :: w).takeWhile Char.isDigit = [] := by simp [h1]
      have a2 : (c :: w).dropWhile Char.isDigit = c :: w := by simp [h1]
      have a3 : ((c :: w).head? == some '.') = false := by simpa using h2
      simp only [a1, a2, a3, Bool.false_eq_true, if_false, List.isEmpty_nil, Bool.and_self, if_true]
    rw [e3]
    rfl

/-- C95: where only spaces are left there is no error, in any build: the variable becomes zero.  Only the state of
the stream tells. -/
theorem C95_end (b : Build) (q : QuadReader) (builtin : Bool) {s : List Char} (hs : Blank s) (x : ℚ) :
    readQuad b q builtin (.ofText s, x) = (.ok (), (⟨[], true, true⟩, 0)) := by
  unfold readQuad
  simp only [Op.get_bind, extractWord_blank hs, strtoq_nil, Op.set_bind, List.isEmpty_nil, assertAlways_true,
    Op.lift_ok_bind, Op.set_run]

/-- C95: the same for a stream that has already failed or is at its end. -/
theorem C95_failed (b : Build) (q : QuadReader) (builtin : Bool) {s : Stream} (hs : s.eof = true ∨ s.fail = true)
    (x : ℚ) : readQuad b q builtin (s, x) = (.ok (), (⟨s.rest, s.eof, true⟩, 0)) := by
  have h : (s.eof || s.fail) = true := by rcases hs with h | h <;> simp [h]
  unfold readQuad extractWord
  simp only [Op.get_bind, h, if_true, strtoq_nil, Op.set_bind, List.isEmpty_nil, assertAlways_true,
    Op.lift_ok_bind, Op.set_run]

/-- C95: with 35 to 118 digits after the point, a number printed in scientific notation and read again is the same
number, whatever the rounding of ties. -/
theorem C95_read_back (b : Build) {q : QuadReader} {emin : Int} (h : Nearest 113 emin q.rn) (builtin : Bool)
    {fmt : NumFormat} (hf : fmt.scientific = true) (h0 : 35 ≤ fmt.quad) (h1 : fmt.quad ≤ 118) {x : ℚ}
    (hx : Rep 113 emin x) (hr : QuadRange x) (old : ℚ) :
    ∃ w, quadText fmt x = .ok w ∧ readQuad b q builtin (.ofText w, old) = (.ok (), (⟨[], true, false⟩, x)) := by
  obtain ⟨w, D, e1, e2, e3, e4⟩ := C95_scientific hf (by omega) h1 hr
  refine ⟨_, e1, ?_⟩
  have hw : ∀ c ∈ capitalE w, isSpace c = false := by
    obtain ⟨-, h2⟩ := scientific_word e2
    intro c hc
    obtain ⟨d, hd, rfl⟩ := List.mem_map.1 hc
    have := h2 d hd
    show isSpace (if d = 'e' then 'E' else d) = false
    split
    · rfl
    · exact this
  have := C95_read b q builtin (s := []) (t := []) (by intro c hc; cases hc) hw e3 (Or.inl rfl) old
  rw [List.nil_append, List.append_nil] at this
  rw [this, rn_decimal h ?_ hx e4]
  · rfl
  · have : (10 : Nat) ^ 35 ≤ 10 ^ fmt.quad.toNat := Nat.pow_le_pow_right (by decide) (by omega)
    exact lt_of_lt_of_le (by norm_num) this

/-! ### Reading an array -/

theorem words_tail {t : List Char} {ws : List (List Char)} (h : Words t ws) : ∀ w ∈ ws, w ≠ [] := by
  induction h with
  | none => simp
  | one _ h => simpa using h
  | cons _ h _ _ _ ih => simpa [h] using ih

theorem quad_step (b : Build) (q : QuadReader) (fuel : Nat) (pre : List ℚ) {k : Nat} {y : ℚ} {s w t : List Char}
    (hk : 0 < k) (hsz : pre.length + 1 < 2 ^ 61) (hs : Blank s) (hw : ∀ c ∈ w, isSpace c = false)
    (hy : NumberText w y) (ht : t = [] ∨ ∃ c u, t = c :: u ∧ isSpace c = true) :
    ∃ k', 0 < k' ∧ readLoopQuad b q (fuel + 1) ⟨.ofText (s ++ w ++ t), pre.length, pre ++ List.replicate k default⟩ =
      readLoopQuad b q fuel
        ⟨⟨t, t.isEmpty, false⟩, (pre ++ [q.rn y]).length, (pre ++ [q.rn y]) ++ List.replicate k' default⟩ := by
  obtain ⟨k, rfl⟩ := Nat.exists_eq_succ_of_ne_zero (Nat.pos_iff_ne_zero.mp hk)
  have he := extractWord_word hs (numberText_ne hy) hw ht
  set x := q.rn y with hx
  have hq : strtoq q w = (x, []) := strtoq_number hy
  have hadd : iadd (pre.length : Int) 1 = .ok ((pre ++ [x]).length : Int) := by
    rw [iadd_ok (by unfold IsIndex; omega)]; simp
  rcases Nat.eq_zero_or_pos k with rfl | hk0
  · refine ⟨(pre ++ [x]).length, by simp, ?_⟩
    have hmul : imul 2 ((pre ++ [x]).length : Int) = .ok (2 * ((pre ++ [x]).length : Int)) :=
      imul_ok (by unfold IsIndex; simp; omega)
    have hr : Arr1.resize b (2 * ((pre ++ [x]).length : Int)) true (pre ++ [x]) =
        (.ok (), (pre ++ [x]) ++ List.replicate (pre ++ [x]).length default) := by
      rw [(Props.C24_resize b (by omega) (pre ++ [x])).1]
      have : (2 * ((pre ++ [x]).length : Int)).toNat = 2 * (pre ++ [x]).length := by omega
      rw [this, resized, List.take_of_length_le (by omega),
        show 2 * (pre ++ [x]).length - (pre ++ [x]).length = (pre ++ [x]).length by omega]
    simp only [readLoopQuad, Op.get_bind, he, hq, Op.set_bind, wr_grow, Op.lift_ok_bind, hadd, List.isEmpty_nil,
      assertAlways_true, Bool.false_eq_true, if_false]
    simp only [List.replicate_zero, List.append_nil, len, if_true, hmul, Res.ok_bind, hr, Res.pure_eq,
      Op.lift_ok_bind, Op.set_bind]
  · refine ⟨k, hk0, ?_⟩
    simp only [readLoopQuad, Op.get_bind, he, hq, Op.set_bind, wr_grow, Op.lift_ok_bind, hadd, List.isEmpty_nil,
      assertAlways_true, Bool.false_eq_true, if_false]
    rw [if_neg (by simp only [len, List.length_append, List.length_replicate]; omega)]
    simp only [Res.pure_eq, Op.lift_ok_bind, Op.set_bind]

theorem quad_stop (b : Build) (q : QuadReader) (fuel : Nat) (n : Int) (l : List ℚ) {t : List Char} (ht : Blank t) :
    readLoopQuad b q (fuel + 1) ⟨⟨t, t.isEmpty, false⟩, n, l⟩ = (.ok (), ⟨⟨[], true, true⟩, n, l⟩) := by
  have he : extractWord ⟨t, t.isEmpty, false⟩ = ([], ⟨[], true, true⟩) := by
    rcases t with _ | ⟨c, t⟩
    · rfl
    · exact extractWord_blank ht
  simp only [readLoopQuad, Op.get_bind, he, strtoq_nil, Op.set_bind, Op.lift_ok_bind, List.isEmpty_nil,
    assertAlways_true, if_true, Op.pure_run]

theorem loop_words (b : Build) (q : QuadReader) {t : List Char} {ws : List (List Char)} (hw : Words t ws) :
    ∀ {ys : List ℚ}, List.Forall₂ NumberText ws ys → ∀ (fuel : Nat) (pre : List ℚ) (k : Nat), t.length < fuel →
      0 < k → pre.length + ys.length < 2 ^ 61 →
      ∃ k', 0 < k' ∧ readLoopQuad b q fuel ⟨.ofText t, pre.length, pre ++ List.replicate k default⟩ =
        (.ok (), ⟨⟨[], true, true⟩, (pre ++ ys.map q.rn).length, pre ++ ys.map q.rn ++ List.replicate k' default⟩) := by
  induction hw with
  | @none s hs =>
    intro ys hv fuel pre k hf hk hsz
    cases hv
    obtain ⟨fuel, rfl⟩ := Nat.exists_eq_succ_of_ne_zero (Nat.ne_of_gt (Nat.lt_of_le_of_lt (Nat.zero_le _) hf))
    refine ⟨k, hk, ?_⟩
    simp only [List.map_nil, List.append_nil]
    have he := extractWord_blank hs
    simp only [readLoopQuad, Op.get_bind, he, strtoq_nil, Op.set_bind, Op.lift_ok_bind, List.isEmpty_nil,
      assertAlways_true, if_true, Op.pure_run]
  | @one s w s' hs hne hw hs' =>
    intro ys hv fuel pre k hf hk hsz
    obtain ⟨y, ys', hy, hv2, rfl⟩ := List.forall₂_cons_left_iff.mp hv
    cases hv2
    have hlen := List.length_pos_iff.mpr hne
    simp only [List.length_append] at hf
    obtain ⟨fuel, rfl⟩ : ∃ f, fuel = f + 1 + 1 := ⟨fuel - 2, by omega⟩
    obtain ⟨k', hk', e⟩ := quad_step b q (fuel + 1) pre hk (by simpa using hsz) hs hw hy
      (t := s') (by
        rcases s' with _ | ⟨c, u⟩
        · exact Or.inl rfl
        · exact Or.inr ⟨c, u, rfl, hs' c (by simp)⟩)
    exact ⟨k', hk', by rw [e, quad_stop b q fuel _ _ hs']; rfl⟩
  | @cons s w c t ws hs hne hw hc hws ih =>
    intro ys hv fuel pre k hf hk hsz
    obtain ⟨y, ys', hy, hv2, rfl⟩ := List.forall₂_cons_left_iff.mp hv
    have hlen := List.length_pos_iff.mpr hne
    simp only [List.length_append, List.length_cons] at hf hsz
    obtain ⟨fuel, rfl⟩ : ∃ f, fuel = f + 1 := ⟨fuel - 1, by omega⟩
    obtain ⟨k', hk', e⟩ := quad_step b q fuel pre hk (by omega) hs hw hy (t := c :: t) (Or.inr ⟨c, t, rfl, hc⟩)
    obtain ⟨k2, hk2, e2⟩ := ih hv2 fuel (pre ++ [q.rn y]) k' (by simp only [List.length_cons]; omega) hk'
      (by simp only [List.length_append, List.length_singleton]; omega)
    refine ⟨k2, hk2, ?_⟩
    rw [e]
    rw [show (⟨c :: t, (c :: t).isEmpty, false⟩ : Stream) = .ofText (c :: t) from rfl, e2]
    simp

theorem loop_bad {b : Build} (hb : b.Guarded) (q : QuadReader) {t : List Char} {all : List (List Char)}
    (hw : Words t all) : ∀ {ws : List (List Char)} {w : List Char} {ws' : List (List Char)} {ys : List ℚ},
      all = ws ++ w :: ws' → List.Forall₂ NumberText ws ys → (¬ ∃ y, NumberText w y) → ¬ SpecialText w →
      ∀ (fuel : Nat) (pre : List ℚ) (k : Nat), t.length < fuel → 0 < k → pre.length + ys.length < 2 ^ 61 →
      ∃ s, readLoopQuad b q fuel ⟨.ofText t, pre.length, pre ++ List.replicate k default⟩ = (.trap b.kind, s) := by
  have bad : ∀ {s w t : List Char} (fuel : Nat) (n : Int) (l : List ℚ), Blank s → w ≠ [] →
      (∀ c ∈ w, isSpace c = false) → (t = [] ∨ ∃ c u, t = c :: u ∧ isSpace c = true) → (¬ ∃ y, NumberText w y) →
      ¬ SpecialText w → ∃ st, readLoopQuad b q (fuel + 1) ⟨.ofText (s ++ w ++ t), n, l⟩ = (.trap b.kind, st) := by
    intro s w t fuel n l hs hne hw ht hn hsp
    have hbad : (strtoq q w).2.isEmpty = false := by
      by_contra h
      rw [Bool.not_eq_false, List.isEmpty_iff] at h
      exact hn (strtoq_inv hne hsp h)
    exact ⟨_, by simp only [readLoopQuad, Op.get_bind, extractWord_word hs hne hw ht, hbad, Op.set_bind,
      assertAlways_false hb, Op.lift_trap_bind]; rfl⟩
  induction hw with
  | none =>
    intro ws w ws' ys h
    exact absurd h.symm (by simp)
  | @one s w s' hs hne hw hs' =>
    intro ws w2 ws' ys h hv hn hsp fuel pre k hf hk hsz
    obtain ⟨fuel, rfl⟩ := Nat.exists_eq_succ_of_ne_zero (Nat.ne_of_gt (Nat.lt_of_le_of_lt (Nat.zero_le _) hf))
    cases ws with
    | cons a ws => simp at h
    | nil =>
      obtain ⟨rfl, -⟩ := List.cons.inj h
      exact bad fuel _ _ hs hne hw (by
        rcases s' with _ | ⟨c, u⟩
        · exact Or.inl rfl
        · exact Or.inr ⟨c, u, rfl, hs' c (by simp)⟩) hn hsp
  | @cons s w c t all hs hne hw hc hws ih =>
    intro ws w2 ws' ys h hv hn hsp fuel pre k hf hk hsz
    have hlen := List.length_pos_iff.mpr hne
    simp only [List.length_append, List.length_cons] at hf
    obtain ⟨fuel, rfl⟩ : ∃ f, fuel = f + 1 := ⟨fuel - 1, by omega⟩
    cases ws with
    | nil =>
      obtain ⟨rfl, -⟩ := List.cons.inj h
      exact bad fuel _ _ hs hne hw (Or.inr ⟨c, t, rfl, hc⟩) hn hsp
    | cons a ws =>
      obtain ⟨rfl, hall⟩ := List.cons.inj h
      obtain ⟨y, ys', hy, hv2, rfl⟩ := List.forall₂_cons_left_iff.mp hv
      simp only [List.length_cons] at hsz
      obtain ⟨k', hk', e⟩ := quad_step b q fuel pre hk (by omega) hs hw hy (t := c :: t) (Or.inr ⟨c, t, rfl, hc⟩)
      rw [e]
      exact ih hall hv2 hn hsp fuel (pre ++ [q.rn y]) k' (by simp only [List.length_cons]; omega) hk'
        (by simp only [List.length_append, List.length_singleton]; omega)

/-- C95: reading an array: if every word of the text is a decimal number, the array has the nearest numbers, in
order, and the stream is good again. -/
theorem C95_array (b : Build) (q : QuadReader) {t : List Char} {ws : List (List Char)} {ys : List ℚ}
    (hw : Words t ws) (hv : List.Forall₂ NumberText ws ys) (hsz : ys.length < 2 ^ 61) (A : List ℚ) :
    read1Quad b q (.ofText t, A) = (.ok (), (.ofText [], ys.map q.rn)) := by
  obtain ⟨k', hk', e⟩ := loop_words b q hw hv (t.length + 1) [] 8 (by omega) (by omega) (by simpa using hsz)
  have hm : Arr1.make (α := ℚ) b 8 = .ok (List.replicate 8 default) := Arr1.make_ok b (by omega)
  simp only [List.nil_append, List.length_nil] at e
  unfold read1Quad
  simp only [Op.get_bind, hm, Op.lift_ok_bind, Op.set_bind]
  rw [show (Stream.ofText t).rest = t from rfl]
  change readLoopQuad b q (t.length + 1) ⟨.ofText t, 0, _⟩ = _ at e
  rw [e]
  have hr : Arr1.resize b ((ys.map q.rn).length : Int) true (ys.map q.rn ++ List.replicate k' default) =
      (.ok (), ys.map q.rn) := by
    rw [(Props.C24_resize b (by omega) _).1, resized]
    simp
  simp only [Op.lift_ok_bind, Op.set_bind, assertAlways_true, hr, Op.set_run]
  rfl

/-- C95: a word that is not a number, wherever it is in the text, is an error that leaves the array unchanged. -/
theorem C95_array_bad {b : Build} (hb : b.Guarded) (q : QuadReader) {t w : List Char} {ws ws' : List (List Char)}
    {ys : List ℚ} (hw : Words t (ws ++ w :: ws')) (hv : List.Forall₂ NumberText ws ys) (hn : ¬ ∃ y, NumberText w y)
    (hsp : ¬ SpecialText w) (hsz : ys.length < 2 ^ 61) (A : List ℚ) :
    ∃ s, read1Quad b q (.ofText t, A) = (.trap b.kind, (s, A)) := by
  obtain ⟨s, e⟩ := loop_bad hb q hw rfl hv hn hsp (t.length + 1) [] 8 (by omega) (by omega) (by simpa using hsz)
  have hm : Arr1.make (α := ℚ) b 8 = .ok (List.replicate 8 default) := Arr1.make_ok b (by omega)
  simp only [List.nil_append, List.length_nil] at e
  refine ⟨s.is, ?_⟩
  unfold read1Quad
  simp only [Op.get_bind, hm, Op.lift_ok_bind, Op.set_bind]
  rw [show (Stream.ofText t).rest = t from rfl]
  change readLoopQuad b q (t.length + 1) ⟨.ofText t, 0, _⟩ = _ at e
  rw [e]
  rfl

/-! Examples -/

section

theorem sample_quad : NumberText "-1.5E2".toList (-150) := by
  refine ⟨"1.5E2".toList, 150, ⟨['1'], ['5'], "E2".toList, 2, by decide, by decide, by decide, ?_, Or.inl rfl, ?_⟩,
    Or.inr (Or.inr ⟨rfl, rfl⟩)⟩
  · exact Or.inr ⟨'E', ['2'], Or.inr rfl, by decide, by decide, Or.inl ⟨rfl, by decide⟩⟩
  · have : digitsValue (['1'] ++ ['5']) = 15 := by decide
    rw [this]; norm_num

example (b : Build) (q : QuadReader) : readQuad b q false (.ofText (" ".toList ++ "-1.5E2".toList ++ "\n7".toList), 9) =
    (.ok (), (⟨"\n7".toList, false, false⟩, q.rn (-150))) :=
  C95_read b q false (by simp [Blank, isSpace]) (by decide) sample_quad (Or.inr ⟨'\n', ['7'], rfl, by decide⟩) 9

theorem sample_bad : (¬ ∃ y, NumberText "12x".toList y) ∧ ¬ SpecialText "12x".toList := by
  have hs : ¬ SpecialText "12x".toList := by
    rw [← isSpecial_iff]; decide
  refine ⟨?_, hs⟩
  rintro ⟨y, h⟩
  have := strtoq_number (q := ⟨fun _ => 0, fun _ => (0, [])⟩) h
  have h2 : (strtoq ⟨fun _ => 0, fun _ => (0, [])⟩ "12x".toList).2 = [] := by rw [this]
  exact absurd h2 (by decide)

example (q : QuadReader) : readQuad ⟨false, true, false⟩ q false (.ofText ([] ++ "12x".toList ++ []), 9) =
    (.trap .exception, (⟨[], true, false⟩, 9)) :=
  (C95_bad_word (b := ⟨false, true, false⟩) (by decide) q (by simp [Blank]) (by decide) (by decide) sample_bad.1
    sample_bad.2 (Or.inl rfl) 9).1

example (b : Build) (q : QuadReader) : readQuad b q false (.ofText [' '], 9) = (.ok (), (⟨[], true, true⟩, 0)) :=
  C95_end b q false (by simp [Blank, isSpace]) 9

example (b : Build) (q : QuadReader) (A : List ℚ) : read1Quad b q (.ofText (" ".toList ++ "-1.5E2".toList ++ []), A) =
    (.ok (), (.ofText [], [q.rn (-150)])) :=
  C95_array b q (.one (by simp [Blank, isSpace]) (by decide) (by decide) (by simp [Blank]))
    (.cons sample_quad .nil) (by decide) A

/-- A bad word at the very end. -/
example (q : QuadReader) (A : List ℚ) :
    ∃ s, read1Quad ⟨false, true, false⟩ q (.ofText ([] ++ "-1.5E2".toList ++ ' ' :: ([] ++ "12x".toList ++ [])), A) =
      (.trap .exception, (s, A)) :=
  C95_array_bad (b := ⟨false, true, false⟩) (by decide) q (ws := ["-1.5E2".toList]) (ws' := [])
    (.cons (s := []) (c := ' ') (by simp [Blank]) (by decide) (by decide) (by decide)
      (.one (s := [' ']) (s' := []) (by simp [Blank, isSpace]) (by decide) (by decide) (by simp [Blank])))
    (.cons sample_quad .nil) sample_bad.1 sample_bad.2 (by decide) A

/-- There are roundings to 113 binary digits. -/
example (b : Build) : ∃ q : QuadReader, ∃ w, quadText ⟨true, 7, 16, 19, 40⟩ 3 = .ok w ∧
    readQuad b q true (.ofText w, 0) = (.ok (), (⟨[], true, false⟩, 3)) := by
  obtain ⟨rn, h⟩ := exists_nearest (p := 113) (by norm_num) (-16494)
  refine ⟨⟨rn, fun _ => (0, [])⟩, C95_read_back b (q := ⟨rn, fun _ => (0, [])⟩) h true
    (fmt := ⟨true, 7, 16, 19, 40⟩) rfl (by decide) (by decide) (x := 3) ?_ ?_ 0⟩
  · exact ⟨3, 0, by norm_num, by norm_num, by norm_num⟩
  · refine Or.inr ⟨le_trans (zpow_le_zpow_right₀ (by norm_num) (show (-5000 : Int) ≤ 0 by norm_num))
        (by norm_num [abs_of_pos]),
      lt_of_lt_of_le (b := (10 : ℚ) ^ (1 : Int)) (by norm_num [abs_of_pos])
        (zpow_le_zpow_right₀ (by norm_num) (show (1 : Int) ≤ 5000 by norm_num))⟩

end

end Spp.Props
