import Verif.Lemmas.FloatLit

/-
C90  Floating-point literals.

`float` has 24 significant digits and least exponent -149, `double` 53 and -1074, `long double` (x86) 64
and -16445, `float128` 113 and -16494.
-/

namespace Spp.Props
open Spp.Spec Spp.Lemmas Spp.IO

/-- A number of the type is denoted exactly. -/
theorem C90_exact {rl rf rd : ℚ → ℚ} (hl : Nearest 64 (-16445) rl) (hf : Nearest 24 (-149) rf)
    (hd : Nearest 53 (-1074) rd) :
    (∀ x, Rep 24 (-149) x → Literal.sf rl rf x = x) ∧ (∀ x, Rep 53 (-1074) x → Literal.sd rl rd x = x) ∧
    (∀ x, Rep 64 (-16445) x → Literal.sld rl x = x) :=
  ⟨fun _ h => twice_rep (by norm_num) (by norm_num) hl hf h,
   fun _ h => twice_rep (by norm_num) (by norm_num) hl hd h, fun _ h => rn_rep hl h⟩

/-- Any other number is replaced by one of its two neighbours. -/
theorem C90_faithful {rl rf rd : ℚ → ℚ} (hl : Nearest 64 (-16445) rl) (hf : Nearest 24 (-149) rf)
    (hd : Nearest 53 (-1074) rd) (x : ℚ) :
    Neighbour 24 (-149) x (Literal.sf rl rf x) ∧ Neighbour 53 (-1074) x (Literal.sd rl rd x) ∧
    Neighbour 64 (-16445) x (Literal.sld rl x) :=
  ⟨twice_faithful (by norm_num) (by norm_num) hl hf x, twice_faithful (by norm_num) (by norm_num) hl hd x, by
    have := twice_faithful (le_refl _) (le_refl _) hl hl x
    rwa [rn_rep hl (hl.rep x)] at this⟩

/-- It is nearly the nearer one: no number of the type is nearer by more than `2^-63 |x|`. -/
theorem C90_nearly_nearest {rl rf rd : ℚ → ℚ} (hl : Nearest 64 (-16445) rl) (hf : Nearest 24 (-149) rf)
    (hd : Nearest 53 (-1074) rd) {x : ℚ} (hx : 2 ^ (-16382 : Int) ≤ |x|) :
    (∀ z, Rep 24 (-149) z → |Literal.sf rl rf x - x| ≤ |z - x| + 2 ^ (-63 : Int) * |x|) ∧
    (∀ z, Rep 53 (-1074) z → |Literal.sd rl rd x - x| ≤ |z - x| + 2 ^ (-63 : Int) * |x|) := by
  have hx' : (2 : ℚ) ^ 64 * 2 ^ (-16445 : Int) ≤ 2 * |x| := by
    have e : (2 : ℚ) ^ 64 * 2 ^ (-16445 : Int) = 2 * 2 ^ (-16382 : Int) := by
      rw [show (2 : ℚ) ^ 64 = 2 ^ (64 : Int) by norm_cast, ← zpow_add₀ (by norm_num), ← zpow_succ']
      norm_num
    rw [e]; linarith
  have hu : 2 * unit 64 = (2 : ℚ) ^ (-63 : Int) := by
    unfold unit
    norm_num
  constructor
  · intro z hz
    have := twice_close (by norm_num) hl hf hx' hz
    rwa [hu] at this
  · intro z hz
    have := twice_close (by norm_num) hl hd hx' hz
    rwa [hu] at this

/-- But it need not be the nearer one: whatever the rules for breaking ties, there is a `_sf` literal and a
`_sd` literal for which another number of the type is nearer to the number written. -/
theorem C90_not_nearest {rl rf rd : ℚ → ℚ} (hl : Nearest 64 (-16445) rl) (hf : Nearest 24 (-149) rf)
    (hd : Nearest 53 (-1074) rd) :
    (∃ x z, Rep 24 (-149) z ∧ |z - x| < |Literal.sf rl rf x - x|) ∧
    (∃ x z, Rep 53 (-1074) z ∧ |z - x| < |Literal.sd rl rd x - x|) :=
  ⟨twice_not_nearest (p := 24) (q := 64) (eminq := -16445) (rt := rf) (by norm_num) (by norm_num) (by norm_num)
    (by norm_num) (by norm_num) hl hf,
   twice_not_nearest (p := 53) (q := 64) (eminq := -16445) (rt := rd) (by norm_num) (by norm_num) (by norm_num)
    (by norm_num) (by norm_num) hl hd⟩

/-- A `long double` literal is a nearest number. -/
theorem C90_long_double {rl : ℚ → ℚ} (hl : Nearest 64 (-16445) rl) (x z : ℚ) (hz : Rep 64 (-16445) z) :
    Rep 64 (-16445) (Literal.sld rl x) ∧ |x - Literal.sld rl x| ≤ |x - z| :=
  ⟨hl.rep x, hl.near x z hz⟩

/-- A decimal literal of quadruple precision that does not look like an octal number denotes a nearest
number. -/
theorem C90_quad (b : Build) {rq : ℚ → ℚ} (hq : Nearest 113 (-16494) rq) {w : List Char} {x : ℚ}
    (hw : DecimalText w x) (ho : ¬ LooksOctal w) :
    ∃ v, Literal.sq b rq w = .ok v ∧ Rep 113 (-16494) v ∧ ∀ z, Rep 113 (-16494) z → |x - v| ≤ |x - z| := by
  refine ⟨rq x, ?_, hq.rep x, hq.near x⟩
  have h1 : Literal.binaryOrOctal w = false := by
    rw [← Bool.not_eq_true, binaryOrOctal_iff]; exact ho
  have h2 := scan_text (rq := rq) (rest := []) hw ⟨by intro c hc; simp at hc, rfl, rfl, rfl⟩
  rw [List.append_nil] at h2
  unfold Literal.sq
  rw [h1, h2]
  rfl

/-- One that does traps, also if it is an ordinary decimal number such as `07.5`. -/
theorem C90_quad_octal (b : Build) (hb : b.Guarded) (rq : ℚ → ℚ) (w : List Char) :
    Literal.sq b rq w = .trap b.kind ↔ LooksOctal w := by
  have key : Literal.sq b rq w = if Literal.binaryOrOctal w then .trap b.kind else .ok (IO.scanFloat rq w).val := by
    unfold Literal.sq
    obtain ⟨d, e, n⟩ := b
    cases Literal.binaryOrOctal w <;> cases e <;> cases n <;>
      first | rfl | (simp [Build.Guarded] at hb)
  rw [key, ← binaryOrOctal_iff]
  cases Literal.binaryOrOctal w <;> simp

/-- Digit separators: everything from the first one on is ignored, so `1'000.5_sq` is 1. -/
theorem C90_quad_separator (b : Build) {rq : ℚ → ℚ} {w rest : List Char} {x : ℚ}
    (hw : DecimalText w x) (ho : ¬ LooksOctal (w ++ '\'' :: rest)) :
    Literal.sq b rq (w ++ '\'' :: rest) = .ok (rq x) := by
  have h1 : Literal.binaryOrOctal (w ++ '\'' :: rest) = false := by
    rw [← Bool.not_eq_true, binaryOrOctal_iff]; exact ho
  have h2 := scan_text (rq := rq) (rest := '\'' :: rest) hw ⟨noDigit_cons (by decide) _, rfl, rfl, rfl⟩
  unfold Literal.sq
  rw [h1, h2]
  rfl

/-! ### The hypotheses can be met -/

example : ∃ rl rf rd, Nearest 64 (-16445) rl ∧ Nearest 24 (-149) rf ∧ Nearest 53 (-1074) rd := by
  obtain ⟨rl, h1⟩ := exists_nearest (p := 64) (by norm_num) (-16445)
  obtain ⟨rf, h2⟩ := exists_nearest (p := 24) (by norm_num) (-149)
  obtain ⟨rd, h3⟩ := exists_nearest (p := 53) (by norm_num) (-1074)
  exact ⟨rl, rf, rd, h1, h2, h3⟩

/-- 0.1 is not too small for `C90_nearly_nearest`. -/
example : (2 : ℚ) ^ (-16382 : Int) ≤ |(1 / 10 : ℚ)| := by
  have h : (2 : ℚ) ^ (-16382 : Int) ≤ 2 ^ (-4 : Int) := zpow_mono (by norm_num)
  refine h.trans ?_
  rw [abs_of_pos (by norm_num)]
  norm_num

/-- `1.5e-2`, `.25` and `7`. -/
example : DecimalText "1.5e-2".toList (3 / 200) ∧ DecimalText ".25".toList (1 / 4) ∧ DecimalText "7".toList 7 := by
  refine ⟨⟨['1'], ['5'], ['e', '-', '2'], -2, by decide, by decide, by decide,
    .inr ⟨'e', ['2'], .inl rfl, by decide, by decide, .inr (.inr ⟨rfl, by decide⟩)⟩, .inl rfl, ?_⟩,
    ⟨[], ['2', '5'], [], 0, by decide, by decide, by decide, .inl ⟨rfl, rfl⟩, .inl rfl, ?_⟩,
    ⟨['7'], [], [], 0, by decide, by decide, by decide, .inl ⟨rfl, rfl⟩, .inr ⟨rfl, rfl⟩, ?_⟩⟩
  · rw [show digitsValue (['1'] ++ ['5']) = 15 by decide]; norm_num
  · rw [show digitsValue ([] ++ ['2', '5']) = 25 by decide]; norm_num
  · rw [show digitsValue (['7'] ++ []) = 7 by decide]; norm_num

example : ¬ LooksOctal "1.5e-2".toList ∧ LooksOctal "07.5".toList ∧ ¬ LooksOctal "0.5".toList := by
  refine ⟨?_, ⟨'7', ['.', '5'], rfl, by decide⟩, ?_⟩
  · rintro ⟨c, t, h, -⟩
    have : ('1' : Char) = '0' := by injection h
    revert this; decide
  · rintro ⟨c, t, h, hc⟩
    have : c = '.' := by
      have h' : "0.5".toList = ['0', '.', '5'] := rfl
      rw [h'] at h
      injection h with _ h; injection h with h _; exact h.symm
    subst this
    revert hc; decide

/-- `1'000.5_sq` is 1. -/
example (b : Build) (rq : ℚ → ℚ) (h : rq 1 = 1) : Literal.sq b rq "1'000.5".toList = .ok 1 := by
  have h1 : DecimalText ['1'] 1 := ⟨['1'], [], [], 0, by decide, by decide, by decide, .inl ⟨rfl, rfl⟩,
    .inr ⟨rfl, rfl⟩, by rw [show digitsValue (['1'] ++ []) = 1 by decide]; norm_num⟩
  have := C90_quad_separator b (rq := rq) (rest := "000.5".toList) h1 (by
    rintro ⟨c, t, h, -⟩
    have : ('1' : Char) = '0' := by injection h
    revert this; decide)
  rw [h] at this
  exact this

end Spp.Props
