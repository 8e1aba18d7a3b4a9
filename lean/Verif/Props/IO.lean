import Verif.Lemmas.IOText

/-
C66, C67: reading arrays from streams.
-/

set_option linter.unusedSectionVars false

namespace Spp.Props

open Spp.Spec Spp.IO

variable {α : Type} [Inhabited α]

/-! ### C66 reading one-dimensional arrays -/

/-- Every text has a sequence of numbers, and at most as many as characters. -/
theorem C66_every_text {num : Scanner α} (hn : Sane num) (t : List Char) :
    ∃ vs clean left, Numbers num t vs clean left ∧ vs.length ≤ t.length := by
  obtain ⟨vs, c, l, h⟩ := numbers_exist hn t
  exact ⟨vs, c, l, h, numbers_length hn h⟩

/-- The outcome for every text, whatever the way characters form numbers: if the numbers reach to the
end of the text, all of them are stored in order, the old contents are gone, and the stream is good
again.  Otherwise the call fails and leaves the array unchanged - except in builds without assertions,
where the numbers read so far are stored. -/
theorem C66_outcome (b : Build) {num : Scanner α} (hn : Sane num) {t vs clean left}
    (h : Numbers num t vs clean left) (hsz : vs.length < 2 ^ 61) (A : List α) :
    (clean = true ∨ ¬ b.Guarded → read1 b num (.ofText t, A) = (.ok (), (.ofText left, vs))) ∧
    (clean = false ∧ b.Guarded →
      read1 b num (.ofText t, A) = (.trap b.kind, (⟨left, false, true⟩, A))) := by
  rw [read1_numbers b hn h hsz A]
  cases clean with
  | true => simp
  | false =>
    refine ⟨fun hb => ?_, fun hb => ?_⟩
    · have : assertAlways b false = .ok () := by
        rcases b with ⟨d, _ | _, _ | _⟩ <;> simp_all [Build.Guarded, assertAlways]
      rw [this]
    · rw [assertAlways_false hb.2]

/-- Integers: whatever the spaces between them, all are stored in order.  This is so in every build. -/
theorem C66_integers (b : Build) (ty : IntTy) {t : List Char} {ws : List (List Char)} {vs : List Int}
    (hw : Words t ws) (hv : List.Forall₂ (Numeral ty) ws vs) (hsz : vs.length < 2 ^ 61) (A : List Int) :
    read1 b (scanInt ty) (.ofText t, A) = (.ok (), (.ofText [], vs)) :=
  (C66_outcome b (sane_scanInt ty) (numbers_words_end hw hv) hsz A).1 (.inl rfl)

/-- A character that cannot begin a number: the call fails and the array is unchanged. -/
theorem C66_malformed {b : Build} (hb : b.Guarded) (ty : IntTy) {good junk : List Char} {c : Char}
    {ws : List (List Char)} {vs : List Int} (hw : Words good ws) (hv : List.Forall₂ (Numeral ty) ws vs)
    (hsz : vs.length < 2 ^ 61) (hs : isSpace c = false) (hd : c.isDigit = false) (hp : c ≠ '+')
    (hm : c ≠ '-') (A : List Int) :
    read1 b (scanInt ty) (.ofText (good ++ c :: junk), A) =
      (.trap b.kind, (⟨c :: junk, false, true⟩, A)) := by
  have hno : NoDigit (c :: junk) := by
    intro d h; simp only [List.head?_cons, Option.some.injEq] at h; subst h; exact hd
  have hscan : scanInt ty (c :: junk) = ⟨0, false, c :: junk, false⟩ := by
    simp [scanInt, hp, hm, hd]
  have := Numbers.stop (num := scanInt ty) (s := []) (c := c) (t := junk) (by simp) hs (by rw [hscan])
  rw [hscan] at this
  have h2 := numbers_words hw hv hno (by simp) (by simpa using this)
  rw [List.append_nil] at h2
  exact (C66_outcome b (sane_scanInt ty) h2 hsz A).2 ⟨rfl, hb⟩

/-- A number out of range, followed by anything that is not a digit: the call fails and the array is
unchanged. -/
theorem C66_out_of_range {b : Build} (hb : b.Guarded) (ty : IntTy) {good ds junk : List Char} {c : Char}
    {ws : List (List Char)} {vs : List Int} (hw : Words good ws) (hv : List.Forall₂ (Numeral ty) ws vs)
    (hsz : vs.length < 2 ^ 61) (hds : ∀ d ∈ ds, d.isDigit = true) (hne : ds ≠ [])
    (hbig : ty.hi < digitsValue ds) (hc : c.isDigit = false) (A : List Int) :
    read1 b (scanInt ty) (.ofText (good ++ ' ' :: (ds ++ c :: junk)), A) =
      (.trap b.kind, (⟨c :: junk, false, true⟩, A)) := by
  have hno : NoDigit (c :: junk) := by
    intro d h; simp only [List.head?_cons, Option.some.injEq] at h; subst h; exact hc
  obtain ⟨h1, h2⟩ := takeWhile_digits hds hno
  obtain ⟨d, ds', rfl⟩ : ∃ d ds', ds = d :: ds' := by
    cases ds with
    | nil => exact absurd rfl hne
    | cons d ds' => exact ⟨d, ds', rfl⟩
  have hd := digit_no_sign (hds d (by simp))
  have hnot : ¬ ty.Holds (digitsValue (d :: ds') : Int) := fun hh => by have := hh.2; omega
  have hscan : scanInt ty ((d :: ds') ++ c :: junk) = ⟨ty.hi, false, c :: junk, false⟩ := by
    have hh : (((d :: ds') ++ c :: junk).head? == some '-') = false ∧
      (((d :: ds') ++ c :: junk).head? == some '+') = false := by simp [hd.1, hd.2.1]
    simp only [scanInt, hh.1, hh.2, Bool.or_self, Bool.false_eq_true, if_false, h1, h2, decimal_eq,
      List.isEmpty_cons, hnot, ite_self]
  have := Numbers.stop (num := scanInt ty) (s := [' ']) (c := d) (t := ds' ++ c :: junk) (by simp [isSpace])
    hd.2.2 (by rw [← List.cons_append, hscan])
  rw [← List.cons_append, hscan] at this
  have h3 := numbers_words hw hv (noDigit_space (by rfl) _) (by simp) this
  rw [List.append_nil] at h3
  exact (C66_outcome b (sane_scanInt ty) h3 hsz A).2 ⟨rfl, hb⟩

/-- The gap: a number out of range at the very end of the text, with nothing after it, is dropped
without any error, in every build. -/
theorem C66_dropped (b : Build) (ty : IntTy) {good ds : List Char}
    {ws : List (List Char)} {vs : List Int} (hw : Words good ws) (hv : List.Forall₂ (Numeral ty) ws vs)
    (hsz : vs.length < 2 ^ 61) (hds : ∀ d ∈ ds, d.isDigit = true) (hne : ds ≠ [])
    (hbig : ty.hi < digitsValue ds) (A : List Int) :
    read1 b (scanInt ty) (.ofText (good ++ ' ' :: ds), A) = (.ok (), (.ofText [], vs)) := by
  obtain ⟨h1, h2⟩ := takeWhile_digits (rest := []) hds (by intro c hc; cases hc)
  rw [List.append_nil] at h1 h2
  obtain ⟨d, ds', rfl⟩ : ∃ d ds', ds = d :: ds' := by
    cases ds with
    | nil => exact absurd rfl hne
    | cons d ds' => exact ⟨d, ds', rfl⟩
  have hd := digit_no_sign (hds d (by simp))
  have hnot : ¬ ty.Holds (digitsValue (d :: ds') : Int) := fun hh => by have := hh.2; omega
  have hscan : scanInt ty (d :: ds') = ⟨ty.hi, false, [], true⟩ := by
    have hh : ((d :: ds').head? == some '-') = false ∧ ((d :: ds').head? == some '+') = false := by
      simp [hd.1, hd.2.1]
    simp only [scanInt, hh.1, hh.2, Bool.or_self, Bool.false_eq_true, if_false, h1, h2, decimal_eq,
      List.isEmpty_cons, hnot, ite_self, List.isEmpty_nil]
  have := Numbers.stop (num := scanInt ty) (s := [' ']) (c := d) (t := ds') (by simp [isSpace])
    hd.2.2 (by rw [hscan])
  rw [hscan] at this
  have h3 := numbers_words hw hv (noDigit_space (by rfl) _) (by simp) this
  rw [List.append_nil] at h3
  exact (C66_outcome b (sane_scanInt ty) h3 hsz A).1 (.inl rfl)

/-- The same for a sign at the very end. -/
theorem C66_dropped_sign (b : Build) (ty : IntTy) {good : List Char} {c : Char}
    {ws : List (List Char)} {vs : List Int} (hw : Words good ws) (hv : List.Forall₂ (Numeral ty) ws vs)
    (hsz : vs.length < 2 ^ 61) (hc : c = '+' ∨ c = '-') (A : List Int) :
    read1 b (scanInt ty) (.ofText (good ++ [c]), A) = (.ok (), (.ofText [], vs)) := by
  have hscan : scanInt ty [c] = ⟨0, false, [], true⟩ := by
    rcases hc with rfl | rfl <;> rfl
  have hs : isSpace c = false := by rcases hc with rfl | rfl <;> decide
  have := Numbers.stop (num := scanInt ty) (s := []) (c := c) (t := []) (by simp) hs (by rw [hscan])
  rw [hscan] at this
  have hno : NoDigit [c] := by
    intro d h; simp only [List.head?_cons, Option.some.injEq] at h; subst h
    rcases hc with rfl | rfl <;> decide
  have h3 := numbers_words hw hv hno (by simp) (by simpa using this)
  rw [List.append_nil] at h3
  exact (C66_outcome b (sane_scanInt ty) h3 hsz A).1 (.inl rfl)

/-- Reading one number into a `Strict` object: the number and the stream after it, or, if there is
none, an error that leaves the object unchanged. -/
theorem C66_scalar {b : Build} (hb : b.Guarded) (num : Scanner α) {s t : List Char} {c : Char}
    (hs : Blank s) (hc : isSpace c = false) (x : α) :
    ((num (c :: t)).ok = true → readScalar b num (.ofText (s ++ c :: t), x) =
      (.ok (), (⟨(num (c :: t)).rest, (num (c :: t)).eof, false⟩, (num (c :: t)).val))) ∧
    ((num (c :: t)).ok = false → readScalar b num (.ofText (s ++ c :: t), x) =
      (.trap b.kind, (⟨(num (c :: t)).rest, (num (c :: t)).eof, true⟩, x))) ∧
    readScalar b num (.ofText s, x) = (.trap b.kind, (⟨[], true, true⟩, x)) := by
  refine ⟨fun h => ?_, fun h => ?_, ?_⟩
  · simp only [readScalar, Op.get_bind, extract_number num hs hc, h, Op.set_bind, Bool.not_true, Bool.not_false,
      assertAlways_true, Op.lift_ok_bind, Op.set_run]
  · simp only [readScalar, Op.get_bind, extract_number num hs hc, h, Op.set_bind, Bool.not_true, Bool.not_false,
      assertAlways_false hb, Op.lift_trap_bind]
  · simp only [readScalar, Op.get_bind, extract_blank num hs, Op.set_bind, Bool.not_true,
      assertAlways_false hb, Op.lift_trap_bind]

/-- Files: a file that cannot be opened is an error and leaves the array unchanged; otherwise the text
of the file is read. -/
theorem C66_file {b : Build} (hb : b.Guarded) (num : Scanner α) (A : List α) (t : List Char) :
    readFile1 b num none A = (.trap b.kind, A) ∧
    readFile1 b num (some t) A =
      ((read1 b num (.ofText t, A)).1, (read1 b num (.ofText t, A)).2.2) := by
  constructor
  · simp [readFile1, openFile, assertAlways_false hb]
  · simp [readFile1, openFile, Stream.ofText]

/-! Examples -/

section
open List

/-- "7 -12\n+3 " is the words 7, -12, +3. -/
theorem sample_words : Words "7 -12\n+3 ".toList ["7".toList, "-12".toList, "+3".toList] := by
  have h3 : Words "\n+3 ".toList ["+3".toList] :=
    .one (s := ['\n']) (w := ['+', '3']) (s' := [' ']) (by simp [Blank, isSpace]) (by simp)
      (by simp [isSpace]) (by simp [Blank, isSpace])
  have h2 : Words " -12\n+3 ".toList ["-12".toList, "+3".toList] :=
    .cons (s := [' ']) (w := ['-', '1', '2']) (c := '\n') (by simp [Blank, isSpace]) (by simp)
      (by simp [isSpace]) rfl h3
  exact .cons (s := []) (w := ['7']) (c := ' ') (by simp [Blank]) (by simp) (by simp [isSpace]) rfl h2

theorem sample_numerals :
    List.Forall₂ (Numeral IntTy.int) ["7".toList, "-12".toList, "+3".toList] [7, -12, 3] := by
  refine .cons ⟨['7'], by simp, by decide, ⟨fun _ => by decide, fun h => by cases h⟩, .inl ⟨rfl, by decide⟩⟩
    (.cons ⟨['1', '2'], by simp, by decide, ⟨fun _ => by decide, fun h => by cases h⟩,
      .inr (.inr ⟨rfl, rfl, by decide⟩)⟩
    (.cons ⟨['3'], by simp, by decide, ⟨fun _ => by decide, fun h => by cases h⟩,
      .inr (.inl ⟨rfl, by decide⟩)⟩ .nil))

example (b : Build) : read1 b (scanInt IntTy.int) (.ofText "7 -12\n+3 ".toList, [100]) =
    (.ok (), (.ofText [], [7, -12, 3])) :=
  C66_integers b IntTy.int sample_words sample_numerals (by decide) [100]

example : read1 ⟨true, true, false⟩ (scanInt IntTy.int) (.ofText ("7 -12\n+3 ".toList ++ "x 4".toList), [100]) =
    (.trap .exception, (⟨"x 4".toList, false, true⟩, [100])) :=
  C66_malformed (b := ⟨true, true, false⟩) (by decide) IntTy.int (c := 'x') (junk := " 4".toList)
    sample_words sample_numerals (by decide) (by decide) (by decide) (by decide) (by decide) [100]

example : read1 ⟨true, true, false⟩ (scanInt IntTy.int)
    (.ofText ("7 -12\n+3 ".toList ++ ' ' :: ("2147483648".toList ++ '\n' :: [])), [100]) =
    (.trap .exception, (⟨"\n".toList, false, true⟩, [100])) :=
  C66_out_of_range (b := ⟨true, true, false⟩) (by decide) IntTy.int
    sample_words sample_numerals (by decide) (by decide) (by decide) (by decide) (by decide) [100]

/-- A 32-bit number too large, at the end of the text: the array gets three elements and no error. -/
example (b : Build) : read1 b (scanInt IntTy.int)
    (.ofText ("7 -12\n+3 ".toList ++ ' ' :: "2147483648".toList), [100]) =
    (.ok (), (.ofText [], [7, -12, 3])) :=
  C66_dropped b IntTy.int sample_words sample_numerals (by decide) (by decide) (by decide) (by decide) [100]

example (b : Build) : read1 b (scanInt IntTy.int) (.ofText ("7 -12\n+3 ".toList ++ ['-']), [100]) =
    (.ok (), (.ofText [], [7, -12, 3])) :=
  C66_dropped_sign b IntTy.int sample_words sample_numerals (by decide) (.inr rfl) [100]

example : readScalar ⟨true, true, false⟩ (scanInt IntTy.int) (.ofText ([' '] ++ '4' :: "2,".toList), 5) =
    (.ok (), (⟨",".toList, false, false⟩, 42)) :=
  (C66_scalar (b := ⟨true, true, false⟩) (by decide) (scanInt IntTy.int) (s := [' ']) (c := '4')
    (t := "2,".toList) (by simp [Blank, isSpace]) (by decide) 5).1 (by decide)

end

/-! ### C67 reading two-dimensional arrays -/

/-- The lines before the first row: nothing that can be read as a number, and no malformed text either
(apart from the gap of C66 at the end of a line). -/
def NoRow (num : Scanner α) (l : List Char) : Prop := ∃ left, Numbers num l [] true left

/-- A line with the row `r`. -/
def RowOf (num : Scanner α) (l : List Char) (r : List α) : Prop := ∃ left, Numbers num l r true left

theorem readFirst_row (b : Build) {num : Scanner α} (hn : Sane num) {pre others : List (List Char)}
    {first : List Char} {r : List α} {s : Stream} {fuel : Nat} (h : At s (pre ++ first :: others))
    (hp : ∀ l ∈ pre, NoRow num l) (hr : RowOf num first r) (hne : r ≠ []) (hsz : r.length < 2 ^ 61)
    (hf : s.rest.length + 1 < fuel) :
    ∃ s', At s' others ∧ readFirst b num fuel (s, Arr2.empty) = (.ok (), (s', ⟨1, r.length, r⟩)) := by
  obtain ⟨s1, f1, h1, h2, h3, e1⟩ := readFirst_skip b hn pre s (first :: others) fuel h hp (by omega)
  obtain ⟨s2, e2, h4, h5⟩ := getline_cons h1
  obtain ⟨left, hN⟩ := hr
  have hg := getFirstRow_numbers b hn hN hsz
  simp only [assertAlways_true, Res.ok_bind, if_neg hne, Res.pure_eq] at hg
  obtain ⟨f, rfl⟩ : ∃ f, f1 = f + 1 + 1 := ⟨f1 - 2, by omega⟩
  refine ⟨s2, h4, ?_⟩
  rw [e1, readFirst]
  simp only [Op.get_bind]
  rw [if_pos (by rfl)]
  simp only [e2, Op.set_bind, hg, Op.lift_ok_bind]
  rw [readFirst]
  simp only [Op.get_bind]
  rw [if_neg (by simp only [len]; have := List.length_pos_iff.mpr hne; omega)]
  rfl

/-- The array of one row, enlarged to two. -/
theorem two_rows (b : Build) {r : List α} (hne : r ≠ []) (hsz : r.length < 2 ^ 61) :
    ∃ a, Arr2.resize b 2 (r.length : Int) true ⟨1, r.length, r⟩ = (.ok (), a) ∧
      IsMat a (sheet [r] (room 1) r.length) := by
  have hpos := List.length_pos_iff.mpr hne
  have h : IsMat (⟨1, r.length, r⟩ : Arr2 α) (sheet [r] 1 r.length) := by
    refine ⟨rfl, rfl, by simp [sheet], by simp only [sheet]; omega, ?_⟩
    intro i j hi hj
    simp only [sheet] at hi hj ⊢
    obtain rfl : i = 0 := by omega
    simp [List.getD_eq_getElem?_getD, List.getElem?_eq_getElem hj]
  obtain ⟨a, e, ha⟩ := sheet_resize b h (R' := 2) (n' := r.length) (by simp) (by simp) (by omega) hpos
    (by omega)
  exact ⟨a, e, by rw [show room 1 = 2 by decide]; exact ha⟩

/-- The rows of the text become the rows of the array, in order: lines without numbers before the first
row are skipped, later empty lines are skipped, and all rows have the same number of elements.  This is
so in every build.  The stream is left at its end with both flags set, so that a test of the stream
after the call reports failure. -/
theorem C67_rows (b : Build) {num : Scanner α} (hn : Sane num) {t first : List Char}
    {pre others : List (List Char)} {r : List α} {rows : List (List α)}
    (ht : textLines t = pre ++ first :: others) (hp : ∀ l ∈ pre, NoRow num l) (hr : RowOf num first r)
    (hne : r ≠ [])
    (ho : List.Forall₂ (fun l r' => RowOf num l r' ∧ r'.length = r.length)
      (others.filter (fun l => !l.isEmpty)) rows)
    (hsz : (1 + rows.length) * r.length < 2 ^ 61) (A : Arr2 α) :
    ∃ A', read2 b num (.ofText t, A) = (.ok (), (⟨[], true, true⟩, A')) ∧
      IsMat A' (Mat.ofLists (r :: rows)) := by
  have hpos := List.length_pos_iff.mpr hne
  have hrsz : r.length < 2 ^ 61 := Nat.lt_of_le_of_lt (Nat.le_mul_of_pos_left _ (by omega)) hsz
  have hcsz : 1 + rows.length < 2 ^ 61 := Nat.lt_of_le_of_lt (Nat.le_mul_of_pos_right _ hpos) hsz
  obtain ⟨s1, h1, e1⟩ := readFirst_row b hn (by rw [← ht]; exact at_ofText t) hp hr hne hrsz
    (fuel := t.length + 2) (by show t.length + 1 < _; omega)
  obtain ⟨a2, e2, h2⟩ := two_rows b hne hrsz
  obtain ⟨s3, f3, a3, h3, hf3, hm3, e3⟩ := readRows_prefix b hn hpos others rows [r] s1 [] (s1.rest.length + 1) a2
    (by simpa using h1) (ho.imp (fun _ _ hh => ⟨hh.2, hh.1⟩)) (by omega) (by simp) (by simp) (by simpa using hsz) h2
  obtain ⟨f, rfl⟩ : ∃ f, f3 = f + 1 := ⟨f3 - 1, by omega⟩
  have hlen : ∀ l ∈ [r] ++ rows, l.length ≤ r.length := by
    intro l hl
    simp only [List.cons_append, List.nil_append, List.mem_cons] at hl
    rcases hl with rfl | hl
    · exact Nat.le_refl _
    · have key : ∀ {ls : List (List Char)} {rs : List (List α)},
          List.Forall₂ (fun l r' => RowOf num l r' ∧ r'.length = r.length) ls rs →
          ∀ x ∈ rs, x.length = r.length := by
        intro ls rs hh
        induction hh with
        | nil => simp
        | cons h _ ih =>
          intro x hx
          rcases List.mem_cons.mp hx with rfl | hx
          · exact h.2
          · exact ih x hx
      exact Nat.le_of_eq (key ho l hl)
  obtain ⟨a4, e4, h4⟩ := sheet_resize b hm3 (R' := ([r] ++ rows).length) (n' := r.length)
    (Nat.le_of_lt (lt_room _)) hlen (by simp) hpos
    (by rw [List.length_append, List.length_singleton]; omega)
  refine ⟨a4, ?_, ?_⟩
  · unfold read2
    simp only [Op.get_bind]
    rw [show (Stream.ofText t).rest.length + 2 = t.length + 2 from rfl, e1]
    simp only [Op.set_bind, Op.lift_ok_bind]
    rw [if_pos (by simp only [len]; omega)]
    simp only [e2, Op.lift_ok_bind]
    have e3' : readRows b num (r.length : Int) (s1.rest.length + 1) (s1, 1, a2) =
        (.ok (), (⟨[], true, true⟩, (([r] ++ rows).length : Int), a3)) := by
      change readRows b num (r.length : Int) (s1.rest.length + 1) (s1, 1, a2) = _ at e3
      rw [e3, readRows]
      simp only [Op.get_bind, getline_nil h3, Op.set_run]
    rw [e3']
    simp only [Op.set_bind, Op.lift_ok_bind, e4, Op.set_run]
  · refine Arr2.isMat_ext h4 ⟨by simp [sheet, Mat.ofLists], by simp [sheet, Mat.ofLists], fun i j _ _ => ?_⟩
    simp [sheet, Mat.ofLists]

/-- A text without numbers gives the empty array. -/
theorem C67_no_rows (b : Build) {num : Scanner α} (hn : Sane num) {t : List Char}
    (hp : ∀ l ∈ textLines t, NoRow num l) (A : Arr2 α) :
    read2 b num (.ofText t, A) = (.ok (), (⟨[], true, true⟩, Arr2.empty)) := by
  obtain ⟨s1, f1, h1, h2, h3, e1⟩ := readFirst_skip b hn (textLines t) (.ofText t) [] (t.length + 2)
    (by rw [List.append_nil]; exact at_ofText t) hp (by show t.length < _; omega)
  obtain ⟨f, rfl⟩ : ∃ f, f1 = f + 1 := ⟨f1 - 1, by omega⟩
  unfold read2
  simp only [Op.get_bind]
  rw [show (Stream.ofText t).rest.length + 2 = t.length + 2 from rfl, e1, readFirst]
  simp only [Op.get_bind]
  rw [if_pos (by rfl)]
  simp only [getline_nil h1, Op.set_run, Op.set_bind, Op.lift_ok_bind]
  rw [if_neg (by simp [Arr2.empty, len])]
  rfl

/-- Malformed text in the first line that has any: the call fails and the array is unchanged. -/
theorem C67_malformed_first {b : Build} (hb : b.Guarded) {num : Scanner α} (hn : Sane num)
    {t bad : List Char} {pre others : List (List Char)} {vs : List α} {left : List Char}
    (ht : textLines t = pre ++ bad :: others) (hp : ∀ l ∈ pre, NoRow num l)
    (hbad : Numbers num bad vs false left) (hsz : vs.length < 2 ^ 61) (A : Arr2 α) :
    ∃ s, read2 b num (.ofText t, A) = (.trap b.kind, (s, A)) := by
  obtain ⟨s1, f1, h1, h2, h3, e1⟩ := readFirst_skip b hn pre (.ofText t) (bad :: others) (t.length + 2)
    (by rw [← ht]; exact at_ofText t) hp (by show t.length < _; omega)
  obtain ⟨s2, e2, h4, h5⟩ := getline_cons h1
  obtain ⟨f, rfl⟩ : ∃ f, f1 = f + 1 := ⟨f1 - 1, by omega⟩
  have hg := getFirstRow_numbers b hn hbad hsz
  simp only [assertAlways_false hb, Res.trap_bind] at hg
  refine ⟨s2, ?_⟩
  unfold read2
  simp only [Op.get_bind]
  rw [show (Stream.ofText t).rest.length + 2 = t.length + 2 from rfl, e1, readFirst]
  simp only [Op.get_bind]
  rw [if_pos (by rfl)]
  simp only [e2, Op.set_bind, hg, Op.lift_trap_bind]

/-- What happens at the first line after a number of good rows that is not a good row. -/
theorem bad_row (b : Build) {num : Scanner α} (hn : Sane num) {t first bad : List Char}
    {pre mid others : List (List Char)} {r : List α} {rows : List (List α)}
    (ht : textLines t = pre ++ first :: (mid ++ bad :: others)) (hp : ∀ l ∈ pre, NoRow num l)
    (hr : RowOf num first r) (hne : r ≠ [])
    (ho : List.Forall₂ (fun l r' => RowOf num l r' ∧ r'.length = r.length)
      (mid.filter (fun l => !l.isEmpty)) rows)
    (hsz : (1 + rows.length) * r.length < 2 ^ 61) (hbe : bad ≠ []) (A : Arr2 α) :
    ∃ a s, IsMat a (sheet (r :: rows) (room (1 + rows.length)) r.length) ∧
      (∀ o : Kind, getRow b num bad ((1 + rows.length : Nat) : Int) a = .trap o →
        read2 b num (.ofText t, A) = (.trap o, (s, A))) ∧
      (getRow b num bad ((1 + rows.length : Nat) : Int) a = .ub →
        read2 b num (.ofText t, A) = (.ub, (s, A))) := by
  have hpos := List.length_pos_iff.mpr hne
  have hrsz : r.length < 2 ^ 61 := Nat.lt_of_le_of_lt (Nat.le_mul_of_pos_left _ (by omega)) hsz
  obtain ⟨s1, h1, e1⟩ := readFirst_row b hn (by rw [← ht]; exact at_ofText t) hp hr hne hrsz
    (fuel := t.length + 2) (by show t.length + 1 < _; omega)
  obtain ⟨a2, e2, h2⟩ := two_rows b hne hrsz
  obtain ⟨s3, f3, a3, h3, hf3, hm3, e3⟩ := readRows_prefix b hn hpos mid rows [r] s1 (bad :: others)
    (s1.rest.length + 1) a2
    h1 (ho.imp (fun _ _ hh => ⟨hh.2, hh.1⟩)) (by omega) (by simp) (by simp) (by simpa using hsz) h2
  obtain ⟨f, rfl⟩ : ∃ f, f3 = f + 1 := ⟨f3 - 1, by omega⟩
  obtain ⟨s4, e4, h4, _⟩ := getline_cons h3
  have hbe' : bad.isEmpty = false := by cases bad with
    | nil => exact absurd rfl hbe
    | cons => rfl
  have hlen : (([r] ++ rows).length : Int) = ((1 + rows.length : Nat) : Int) := by
    rw [List.length_append, List.length_singleton]
  have hlen' : ([r] ++ rows).length = 1 + rows.length := by
    rw [List.length_append, List.length_singleton]
  have hread : ∀ {o : Res Unit} {st : Stream × Int × Arr2 α},
      readRows b num (r.length : Int) (f + 1) (s3, (([r] ++ rows).length : Int), a3) = (o, st) →
      (∀ k, o = .trap k → read2 b num (.ofText t, A) = (.trap k, (st.1, A))) ∧
      (o = .ub → read2 b num (.ofText t, A) = (.ub, (st.1, A))) := by
    intro o st he
    have e3' : readRows b num (r.length : Int) (s1.rest.length + 1) (s1, 1, a2) = (o, st) := by
      change readRows b num (r.length : Int) (s1.rest.length + 1) (s1, 1, a2) = _ at e3
      rw [e3, he]
    have hgo : read2 b num (.ofText t, A) = (do
        Op.lift o
        let t := Arr2.resize b st.2.1 (r.length : Int) true st.2.2
        Op.lift t.1
        Op.set (st.1, t.2) : Op (Stream × Arr2 α) Unit) (st.1, A) := by
      unfold read2
      simp only [Op.get_bind]
      rw [show (Stream.ofText t).rest.length + 2 = t.length + 2 from rfl, e1]
      simp only [Op.set_bind, Op.lift_ok_bind]
      rw [if_pos (by simp only [len]; omega)]
      simp only [e2, Op.lift_ok_bind]
      rw [e3']
      simp only [Op.set_bind]
    constructor
    · rintro k rfl; rw [hgo]; rfl
    · rintro rfl; rw [hgo]; rfl
  refine ⟨a3, s4, by simpa [hlen', Nat.add_comm] using hm3, ?_, ?_⟩
  · intro o hg
    refine (hread (o := .trap o) (st := (s4, (([r] ++ rows).length : Int), a3)) ?_).1 o rfl
    rw [readRows]
    simp only [Op.get_bind, e4, Op.set_bind, hbe', Bool.false_eq_true, if_false]
    rw [hlen, hg]
    simp only [Op.lift_trap_bind]
  · intro hg
    refine (hread (o := .ub) (st := (s4, (([r] ++ rows).length : Int), a3)) ?_).2 rfl
    rw [readRows]
    simp only [Op.get_bind, e4, Op.set_bind, hbe', Bool.false_eq_true, if_false]
    rw [hlen, hg]
    simp only [Op.lift_ub_bind]

/-- A later line, not empty, with fewer numbers than the first row, or with malformed text after as many:
the call fails and the array is unchanged.  A line of spaces is such a line. -/
theorem C67_bad_row {b : Build} (hb : b.Guarded) {num : Scanner α} (hn : Sane num) {t first bad : List Char}
    {pre mid others : List (List Char)} {r vs : List α} {rows : List (List α)} {clean : Bool}
    {left : List Char}
    (ht : textLines t = pre ++ first :: (mid ++ bad :: others)) (hp : ∀ l ∈ pre, NoRow num l)
    (hr : RowOf num first r) (hne : r ≠ [])
    (ho : List.Forall₂ (fun l r' => RowOf num l r' ∧ r'.length = r.length)
      (mid.filter (fun l => !l.isEmpty)) rows)
    (hsz : (1 + rows.length) * r.length < 2 ^ 61) (hbe : bad ≠ [])
    (hbad : Numbers num bad vs clean left)
    (hwhy : vs.length < r.length ∨ vs.length = r.length ∧ clean = false) (A : Arr2 α) :
    ∃ s, read2 b num (.ofText t, A) = (.trap b.kind, (s, A)) := by
  obtain ⟨a, s, ha, h1, _⟩ := bad_row b hn ht hp hr hne ho hsz hbe A
  have hrsz : r.length < 2 ^ 61 := Nat.lt_of_le_of_lt (Nat.le_mul_of_pos_left _ (by omega)) hsz
  obtain ⟨a', _, hg⟩ := getRow_numbers b hn hbad (L := r :: rows) (R := room (1 + rows.length)) (n := r.length)
    (by have := lt_room (1 + rows.length); simp; omega) (by omega) (by omega) ha
  refine ⟨s, h1 b.kind ?_⟩
  rw [show (((r :: rows).length : Nat) : Int) = ((1 + rows.length : Nat) : Int) by simp; omega] at hg
  rw [hg]
  rcases hwhy with hlt | ⟨heq, rfl⟩
  · rw [show decide (vs.length = r.length) = false by simp; omega, assertAlways_false hb]
    rfl
  · rw [show decide (vs.length = r.length) = true by simp; omega, assertAlways_true, assertAlways_false hb]
    rfl

/-- A later line with more numbers than the first row.  With checks the call fails and the array is
unchanged.  In a release build the numbers are first stored past the row: as long as they fit the space
reserved the call still fails; beyond that the write is outside the buffer. -/
theorem C67_long_row {b : Build} (hb : b.Guarded) {num : Scanner α} (hn : Sane num) {t first bad : List Char}
    {pre mid others : List (List Char)} {r vs : List α} {rows : List (List α)} {clean : Bool}
    {left : List Char}
    (ht : textLines t = pre ++ first :: (mid ++ bad :: others)) (hp : ∀ l ∈ pre, NoRow num l)
    (hr : RowOf num first r) (hne : r ≠ [])
    (ho : List.Forall₂ (fun l r' => RowOf num l r' ∧ r'.length = r.length)
      (mid.filter (fun l => !l.isEmpty)) rows)
    (hsz : (1 + rows.length) * r.length < 2 ^ 61) (hbe : bad ≠ [])
    (hbad : Numbers num bad vs clean left) (hlong : r.length < vs.length) (hvs : vs.length < 2 ^ 61)
    (A : Arr2 α) :
    ∃ s,
      (b.Checked ∨ (1 + rows.length) * r.length + vs.length ≤ room (1 + rows.length) * r.length →
        read2 b num (.ofText t, A) = (.trap b.kind, (s, A))) ∧
      (b.Release → room (1 + rows.length) * r.length < (1 + rows.length) * r.length + vs.length →
        read2 b num (.ofText t, A) = (.ub, (s, A))) := by
  obtain ⟨a, s, ha, h1, h2⟩ := bad_row b hn ht hp hr hne ho hsz hbe A
  have hrsz : r.length < 2 ^ 61 := Nat.lt_of_le_of_lt (Nat.le_mul_of_pos_left _ (by omega)) hsz
  have hL : ((r :: rows).length : Int) = ((1 + rows.length : Nat) : Int) := by simp; omega
  have hfuel : vs.length < bad.length + 1 := by have := numbers_length hn hbad; omega
  have hrow := lt_room (1 + rows.length)
  have hchk : b.Checked → getRow b num bad ((1 + rows.length : Nat) : Int) a = .trap b.kind := by
    intro hc
    have := rowLoop_long hc hbad (bad.length + 1) (r :: rows) [] (room (1 + rows.length)) r.length a hfuel
      (by simp; omega) (by simp) (by simpa using hlong) (by omega) (Arr2.isMat_ext ha (sheet_pad _ _ _))
    rw [hL] at this
    change rowLoop b num _ _ _ 0 a = _ at this
    simp only [getRow, this, Res.trap_bind]
  have hcols : a.cols = r.length := ha.cols
  have hdata : a.data.length = room (1 + rows.length) * r.length := ha.size
  have hrel : b.Release → _ := fun hc => rowLoop_release hc hn hbad (bad.length + 1) (1 + rows.length) 0
    r.length a hfuel hcols (by omega)
  refine ⟨s, fun hh => h1 _ ?_, fun hc hover => h2 ?_⟩
  · by_cases hc : b.Checked
    · exact hchk hc
    · have hR : b.Release := by
        by_contra hnr
        exact hc ⟨by simpa [Build.Release] using hnr, hb⟩
      rcases hh with hh | hh
      · exact absurd hh hc
      · obtain ⟨a', e, hc'⟩ := (hrel hR).1 (by rw [hdata]; omega)
        change rowLoop b num _ _ _ 0 a = _ at e
        simp only [getRow, e, Res.ok_bind, hc']
        rw [show (((0 + vs.length : Nat) : Int) == (r.length : Int)) = false by
          rw [beq_eq_false_iff_ne]; omega, assertAlways_false hb]
        rfl
  · have e := (hrel hc).2 (by rw [hdata]; omega) (by rintro rfl; simp at hlong)
    change rowLoop b num _ _ _ 0 a = _ at e
    simp only [getRow, e, Res.ub_bind]

/-- Integers: words on lines. -/
theorem C67_integers (b : Build) (ty : IntTy) {t : List Char} {lines : List (List (List Char))}
    {M : List (List Int)} {n : Nat} (hn : 0 < n)
    (ht : List.Forall₂ Words ((textLines t).filter (fun l => !l.isEmpty)) lines)
    (hv : List.Forall₂ (List.Forall₂ (Numeral ty)) lines M) (hM : ∀ r ∈ M, r.length = n) (hne : M ≠ [])
    (hsz : M.length * n < 2 ^ 61) (A : Arr2 Int) :
    ∃ A', read2 b (scanInt ty) (.ofText t, A) = (.ok (), (⟨[], true, true⟩, A')) ∧
      IsMat A' (Mat.ofLists M) := by
  have hrows : List.Forall₂ (RowOf (scanInt ty)) ((textLines t).filter (fun l => !l.isEmpty)) M := by
    have key : ∀ {ls : List (List Char)} {lines : List (List (List Char))} {M : List (List Int)},
        List.Forall₂ Words ls lines → List.Forall₂ (List.Forall₂ (Numeral ty)) lines M →
        List.Forall₂ (RowOf (scanInt ty)) ls M := by
      intro ls lines M h
      induction h generalizing M with
      | nil => intro h2; cases h2; exact .nil
      | cons h _ ih =>
        intro h2
        obtain ⟨v, vs, h3, h4, rfl⟩ := List.forall₂_cons_left_iff.mp h2
        exact .cons ⟨_, numbers_words_end h h3⟩ (ih h4)
    exact key ht hv
  have split : ∀ (ls : List (List Char)) {r : List Int} {rows : List (List Int)},
      List.Forall₂ (RowOf (scanInt ty)) (ls.filter (fun l => !l.isEmpty)) (r :: rows) →
      ∃ pre first others, ls = pre ++ first :: others ∧ (∀ l ∈ pre, l = []) ∧
        RowOf (scanInt ty) first r ∧
        List.Forall₂ (RowOf (scanInt ty)) (others.filter (fun l => !l.isEmpty)) rows := by
    intro ls
    induction ls with
    | nil => intro r rows h; cases h
    | cons l ls ih =>
      intro r rows h
      cases hl : l.isEmpty with
      | true =>
        rw [List.filter_cons, if_neg (by simp [hl])] at h
        obtain ⟨pre, first, others, h1, h2, h3, h4⟩ := ih h
        refine ⟨l :: pre, first, others, by rw [h1]; rfl, ?_, h3, h4⟩
        intro x hx
        rcases List.mem_cons.mp hx with rfl | hx
        · simpa using hl
        · exact h2 x hx
      | false =>
        rw [List.filter_cons, if_pos (by simp [hl])] at h
        cases h with
        | cons h1 h2 => exact ⟨[], l, ls, rfl, by simp, h1, h2⟩
  obtain ⟨r, rows, rfl⟩ : ∃ r rows, M = r :: rows := by
    cases M with
    | nil => exact absurd rfl hne
    | cons r rows => exact ⟨r, rows, rfl⟩
  obtain ⟨pre, first, others, h1, h2, h3, h4⟩ := split (textLines t) hrows
  have hr : r.length = n := hM r (by simp)
  refine C67_rows b (sane_scanInt ty) h1 ?_ h3 ?_ ?_ ?_ A
  · intro l hl
    rw [h2 l hl]
    exact ⟨[], .nothing (by simp)⟩
  · intro h; rw [h] at hr; simp at hr; omega
  · have key : ∀ {ls : List (List Char)} {rs : List (List Int)},
        List.Forall₂ (RowOf (scanInt ty)) ls rs → (∀ x ∈ rs, x.length = n) →
        List.Forall₂ (fun l r' => RowOf (scanInt ty) l r' ∧ r'.length = r.length) ls rs := by
      intro ls rs hh
      induction hh with
      | nil => intro _; exact .nil
      | cons h _ ih =>
        intro hx
        exact .cons ⟨h, by rw [hr]; exact hx _ (by simp)⟩ (ih (fun x hm => hx x (by simp [hm])))
    exact key h4 (fun x hx => hM x (by simp [hx]))
  · rw [hr]
    simpa [Nat.add_comm] using hsz

/-- Files, as in C66. -/
theorem C67_file {b : Build} (hb : b.Guarded) (num : Scanner α) (A : Arr2 α) (t : List Char) :
    readFile2 b num none A = (.trap b.kind, A) ∧
    readFile2 b num (some t) A =
      ((read2 b num (.ofText t, A)).1, (read2 b num (.ofText t, A)).2.2) := by
  constructor
  · simp [readFile2, openFile, assertAlways_false hb]
  · simp [readFile2, openFile, Stream.ofText]

/-! Examples -/

/-- One word on a line. -/
theorem one_word {w : List Char} {v : Int} (h : Numeral IntTy.int w v) : RowOf (scanInt IntTy.int) w [v] :=
  ⟨[], numbers_last h⟩

theorem num_digit {c : Char} (h : c.isDigit = true) : Numeral IntTy.int [c] (digitsValue [c]) := by
  refine ⟨[c], by simp, by simpa using h, ⟨fun _ => ?_, fun h => by cases h⟩, .inl ⟨rfl, rfl⟩⟩
  have h9 : c.toNat ≤ 57 := by
    simp only [Char.isDigit, Bool.and_eq_true, decide_eq_true_eq] at h
    exact h.2
  have : digitsValue [c] = c.toNat - 48 := by
    simp [digitsValue, Nat.ofDigits_singleton]
  rw [this]
  show -(2 ^ 31) ≤ ((c.toNat - 48 : Nat) : Int) ∧ ((c.toNat - 48 : Nat) : Int) < 2 ^ 31
  constructor <;> omega

theorem two_words {c d : Char} (hc : c.isDigit = true) (hd : d.isDigit = true) :
    RowOf (scanInt IntTy.int) [c, ' ', d] [(digitsValue [c] : Int), (digitsValue [d] : Int)] :=
  ⟨[], numbers_numeral (num_digit hc) (noDigit_space rfl _) (by simp)
    (numbers_blank (s := [' ']) (by simp [Blank, isSpace]) (numbers_last (num_digit hd)))⟩

example (b : Build) : ∃ A', read2 b (scanInt IntTy.int) (.ofText "\n1 2\n\n3 4\n".toList, Arr2.empty) =
    (.ok (), (⟨[], true, true⟩, A')) ∧ IsMat A' (Mat.ofLists [[1, 2], [3, 4]]) := by
  refine C67_rows b (sane_scanInt _) (pre := [[]]) (first := ['1', ' ', '2']) (others := [[], ['3', ' ', '4']])
    (r := [1, 2]) (rows := [[3, 4]]) rfl ?_ ?_ (by simp) ?_ (by decide) _
  · intro l hl
    simp only [List.mem_singleton] at hl
    rw [hl]
    exact ⟨[], .nothing (by simp)⟩
  · exact two_words (c := '1') (d := '2') rfl rfl
  · exact .cons ⟨two_words (c := '3') (d := '4') rfl rfl, rfl⟩ .nil

/-- The second row is too short. -/
example : ∃ s, read2 ⟨true, true, true⟩ (scanInt IntTy.int) (.ofText "1 2\n3\n".toList, Arr2.empty) =
    (.trap .exception, (s, Arr2.empty)) :=
  C67_bad_row (b := ⟨true, true, true⟩) (by decide) (sane_scanInt _) (pre := []) (first := ['1', ' ', '2'])
    (mid := []) (bad := ['3']) (others := []) (rows := []) (r := [1, 2]) (vs := [3]) rfl (by simp)
    (two_words (c := '1') (d := '2') rfl rfl) (by simp) .nil (by decide) (by simp)
    (numbers_last (num_digit (c := '3') rfl)) (.inl (by decide)) _

/-- A line of one space after the first row. -/
example : ∃ s, read2 ⟨true, true, true⟩ (scanInt IntTy.int) (.ofText "1 2\n \n".toList, Arr2.empty) =
    (.trap .exception, (s, Arr2.empty)) :=
  C67_bad_row (b := ⟨true, true, true⟩) (by decide) (sane_scanInt _) (pre := []) (first := ['1', ' ', '2'])
    (mid := []) (bad := [' ']) (others := []) (rows := []) (r := [1, 2]) (vs := []) rfl (by simp)
    (two_words (c := '1') (d := '2') rfl rfl) (by simp) .nil (by decide) (by simp)
    (.nothing (by simp [isSpace])) (.inl (by decide)) _

/-- In a release build with exceptions, a second row of two numbers after a first row of one number is
written outside the buffer. -/
example : ∃ s, read2 ⟨true, true, true⟩ (scanInt IntTy.int) (.ofText "1\n3 4\n".toList, Arr2.empty) =
    (.ub, (s, Arr2.empty)) := by
  obtain ⟨left, h⟩ := two_words (c := '3') (d := '4') rfl rfl
  obtain ⟨s, _, h2⟩ := C67_long_row (b := ⟨true, true, true⟩) (by decide) (sane_scanInt IntTy.int) (pre := [])
    (t := "1\n3 4\n".toList)
    (first := ['1']) (mid := []) (bad := ['3', ' ', '4']) (others := []) (rows := []) (r := [1])
    (vs := [3, 4]) rfl (by simp)
    (one_word (num_digit (c := '1') rfl)) (by simp) .nil (by decide) (by simp) h (by decide) (by decide)
    Arr2.empty
  exact ⟨s, h2 rfl (by decide)⟩

end Spp.Props
