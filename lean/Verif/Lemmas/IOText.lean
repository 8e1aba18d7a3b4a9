import Verif.Lemmas.IO
import Verif.Lemmas.Ints

/- Numerals, words and printed numbers. -/

set_option linter.unusedSectionVars false

namespace Spp.IO

open Spp.Spec

theorem decimal_eq (ds : List Char) : decimal ds = digitsValue ds := by
  have key : ∀ (l : List Char) (acc : Nat),
      l.foldl (fun n c => 10 * n + (c.toNat - 48)) acc = 10 ^ l.length * acc +
        Nat.ofDigits 10 (l.map (fun c => c.toNat - '0'.toNat)).reverse := by
    intro l
    induction l with
    | nil => intro acc; simp [Nat.ofDigits]
    | cons c l ih =>
      intro acc
      rw [List.foldl_cons, ih, List.map_cons, List.reverse_cons, Nat.ofDigits_append, Nat.ofDigits_singleton,
        List.length_reverse, List.length_map, List.length_cons, Nat.pow_succ]
      have : ('0' : Char).toNat = 48 := rfl
      rw [this]
      ring
  have := key ds 0
  simpa [decimal, digitsValue] using this

/-- The text does not begin with a digit. -/
def NoDigit (t : List Char) : Prop := ∀ c, t.head? = some c → c.isDigit = false

theorem takeWhile_digits {ds rest : List Char} (h : ∀ c ∈ ds, c.isDigit = true) (hr : NoDigit rest) :
    (ds ++ rest).takeWhile Char.isDigit = ds ∧ (ds ++ rest).dropWhile Char.isDigit = rest := by
  have h1 : rest.takeWhile Char.isDigit = [] ∧ rest.dropWhile Char.isDigit = rest := by
    cases rest with
    | nil => exact ⟨rfl, rfl⟩
    | cons c t =>
      have := hr c rfl
      constructor
      · rw [List.takeWhile_cons, if_neg (by simp [this])]
      · rw [List.dropWhile_cons, if_neg (by simp [this])]
  constructor
  · rw [List.takeWhile_append_of_pos (by simpa using h), h1.1, List.append_nil]
  · rw [List.dropWhile_append_of_pos (by simpa using h), h1.2]

theorem digit_no_sign {c : Char} (h : c.isDigit = true) : c ≠ '-' ∧ c ≠ '+' ∧ isSpace c = false := by
  have key : ∀ d : Char, d.isDigit = false → c ≠ d := by
    rintro d hd rfl; rw [h] at hd; cases hd
  refine ⟨key _ (by decide), key _ (by decide), ?_⟩
  simp only [isSpace, Bool.or_eq_false_iff, beq_eq_false_iff_ne]
  exact ⟨⟨⟨⟨⟨key _ (by decide), key _ (by decide)⟩, key _ (by decide)⟩, key _ (by decide)⟩,
    key _ (by decide)⟩, key _ (by decide)⟩

/-- `scanInt` on digits without a sign. -/
theorem scan_digits (t : IntTy) {ds rest : List Char} (hne : ds ≠ []) (h : ∀ c ∈ ds, c.isDigit = true)
    (hr : NoDigit rest) (hf : Fits t (digitsValue ds)) :
    scanInt t (ds ++ rest) = ⟨digitsValue ds, true, rest, rest.isEmpty⟩ := by
  obtain ⟨h1, h2⟩ := takeWhile_digits h hr
  have hhead : ((ds ++ rest).head? == some '-') = false ∧ ((ds ++ rest).head? == some '+') = false := by
    cases ds with
    | nil => exact absurd rfl hne
    | cons c ds =>
      have := digit_no_sign (h c (by simp))
      simp [this.1, this.2.1]
  have he : ds.isEmpty = false := by cases ds with
    | nil => exact absurd rfl hne
    | cons => rfl
  have hh := (holds_iff_fits t _).mpr hf
  simp only [scanInt, hhead.1, hhead.2, Bool.or_self, Bool.false_eq_true, if_false, h1, h2, he, decimal_eq,
    hh, if_true]
  cases ht : t.signed
  · simp only [Bool.false_eq_true, if_false]
    rw [wrap_of_fits hf]
  · rfl

theorem scan_plus (t : IntTy) {ds rest : List Char} (hne : ds ≠ []) (h : ∀ c ∈ ds, c.isDigit = true)
    (hr : NoDigit rest) (hf : Fits t (digitsValue ds)) :
    scanInt t ('+' :: (ds ++ rest)) = ⟨digitsValue ds, true, rest, rest.isEmpty⟩ := by
  obtain ⟨h1, h2⟩ := takeWhile_digits h hr
  have hhead : ((some '+' : Option Char) == some '-') = false ∧ ((some '+' : Option Char) == some '+') = true :=
    by decide
  have he : ds.isEmpty = false := by cases ds with
    | nil => exact absurd rfl hne
    | cons => rfl
  have hh := (holds_iff_fits t _).mpr hf
  simp only [scanInt, List.head?_cons, hhead.1, hhead.2, Bool.or_true, if_true, List.tail_cons,
    Bool.false_eq_true, if_false, h1, h2, he, decimal_eq, hh]
  cases ht : t.signed
  · simp only [Bool.false_eq_true, if_false]
    rw [wrap_of_fits hf]
  · rfl

theorem scan_minus (t : IntTy) (ht : t.signed = true) {ds rest : List Char} (hne : ds ≠ [])
    (h : ∀ c ∈ ds, c.isDigit = true) (hr : NoDigit rest) (hf : Fits t (-(digitsValue ds : Int))) :
    scanInt t ('-' :: (ds ++ rest)) = ⟨-(digitsValue ds : Int), true, rest, rest.isEmpty⟩ := by
  obtain ⟨h1, h2⟩ := takeWhile_digits h hr
  have hhead : ((some '-' : Option Char) == some '-') = true := by decide
  have he : ds.isEmpty = false := by cases ds with
    | nil => exact absurd rfl hne
    | cons => rfl
  have hh := (holds_iff_fits t _).mpr hf
  simp only [scanInt, List.head?_cons, hhead, Bool.true_or, if_true, List.tail_cons, h1, h2, he,
    Bool.false_eq_true, if_false, decimal_eq, hh, ht]

theorem scan_numeral {t : IntTy} {w : List Char} {v : Int} (h : Numeral t w v) {rest : List Char}
    (hr : NoDigit rest) : scanInt t (w ++ rest) = ⟨v, true, rest, rest.isEmpty⟩ := by
  obtain ⟨ds, hne, hd, hf, ⟨rfl, rfl⟩ | ⟨rfl, rfl⟩ | ⟨ht, rfl, rfl⟩⟩ := h
  · exact scan_digits t hne hd hr hf
  · exact scan_plus t hne hd hr hf
  · exact scan_minus t ht hne hd hr hf

theorem numeral_ne {t : IntTy} {w : List Char} {v : Int} (h : Numeral t w v) :
    ∃ c u, w = c :: u ∧ isSpace c = false := by
  obtain ⟨ds, hne, hd, hf, ⟨rfl, rfl⟩ | ⟨rfl, rfl⟩ | ⟨ht, rfl, rfl⟩⟩ := h
  · cases w with
    | nil => exact absurd rfl hne
    | cons c u => exact ⟨c, u, rfl, (digit_no_sign (hd c (by simp))).2.2⟩
  · exact ⟨_, _, rfl, by decide⟩
  · exact ⟨_, _, rfl, by decide⟩

theorem scan_fields (t : IntTy) (s : List Char) :
    ((scanInt t s).rest = s.dropWhile Char.isDigit ∨ (scanInt t s).rest = s.tail.dropWhile Char.isDigit) ∧
    (scanInt t s).eof = (scanInt t s).rest.isEmpty := by
  unfold scanInt
  simp only
  generalize hb : (s.head? == some '-' || s.head? == some '+') = bb
  cases bb <;> simp only [Bool.false_eq_true, if_false, if_true] <;> (repeat' split) <;> simp

theorem scan_consumes (t : IntTy) (s : List Char) (h : (scanInt t s).ok = true) :
    (scanInt t s).rest.length < s.length := by
  revert h
  unfold scanInt
  simp only
  generalize hb : (s.head? == some '-' || s.head? == some '+') = bb
  have key : ∀ u : List Char, (u.takeWhile Char.isDigit).isEmpty = false →
      (u.dropWhile Char.isDigit).length < u.length := by
    intro u hu
    have := congrArg List.length (List.takeWhile_append_dropWhile (p := Char.isDigit) (l := u))
    rw [List.length_append] at this
    have h2 : 0 < (u.takeWhile Char.isDigit).length := by
      apply List.length_pos_iff.mpr
      intro h3; rw [h3] at hu; cases hu
    omega
  have ht : s.tail.length ≤ s.length := by rw [List.length_tail]; omega
  cases bb <;> simp only [Bool.false_eq_true, if_false, if_true]
  · by_cases he : (s.takeWhile Char.isDigit).isEmpty = true
    · simp [he]
    · have := key s (by simpa using he)
      simp only [he]
      (repeat' split) <;> simp_all
  · by_cases he : (s.tail.takeWhile Char.isDigit).isEmpty = true
    · simp [he]
    · have := key s.tail (by simpa using he)
      simp only [he]
      intro _
      have h3 : (s.tail.dropWhile Char.isDigit).length < s.length := by omega
      (repeat' split) <;> first | exact h3 | (next h => cases h)

theorem sane_scanInt (t : IntTy) : Sane (scanInt t) where
  consumes c u h := scan_consumes t (c :: u) h
  atEnd s h := by
    rw [(scan_fields t s).2] at h
    simpa using h

/-! ### Words -/

theorem numbers_blank {α : Type} {num : Scanner α} {s t : List Char} {vs clean left} (hs : Blank s)
    (h : Numbers num t vs clean left) : Numbers num (s ++ t) vs clean left := by
  have join : ∀ {u : List Char}, (∀ c ∈ u, isSpace c = true) → ∀ c ∈ s ++ u, isSpace c = true := by
    intro u hu c hc
    rcases List.mem_append.mp hc with hc | hc
    · exact hs c hc
    · exact hu c hc
  cases h with
  | nothing h1 => exact .nothing (join h1)
  | stop h1 h2 h3 => rw [← List.append_assoc]; exact .stop (join h1) h2 h3
  | last h1 h2 h3 h4 => rw [← List.append_assoc]; exact .last (join h1) h2 h3 h4
  | more h1 h2 h3 h4 h5 => rw [← List.append_assoc]; exact .more (join h1) h2 h3 h4 h5

theorem noDigit_space {c : Char} (h : isSpace c = true) (t : List Char) : NoDigit (c :: t) := by
  intro d hd
  simp only [List.head?_cons, Option.some.injEq] at hd
  subst hd
  cases hc : c.isDigit with
  | false => rfl
  | true => rw [(digit_no_sign hc).2.2] at h; cases h

theorem numbers_numeral {ty : IntTy} {w t : List Char} {v : Int} {vs clean left} (hw : Numeral ty w v)
    (ht : NoDigit t) (hne : t ≠ []) (h : Numbers (scanInt ty) t vs clean left) :
    Numbers (scanInt ty) (w ++ t) (v :: vs) clean left := by
  have hscan := scan_numeral hw ht
  obtain ⟨c, u, rfl, hc⟩ := numeral_ne hw
  rw [List.cons_append] at hscan ⊢
  have hemp : t.isEmpty = false := by cases t with
    | nil => exact absurd rfl hne
    | cons => rfl
  have := Numbers.more (num := scanInt ty) (s := []) (c := c) (t := u ++ t) (vs := vs) (clean := clean)
    (left := left) (by simp) hc (by rw [hscan]) (by rw [hscan]; exact hemp) (by rw [hscan]; exact h)
  rw [hscan] at this
  simpa using this

theorem numbers_last {ty : IntTy} {w : List Char} {v : Int} (hw : Numeral ty w v) :
    Numbers (scanInt ty) w [v] true [] := by
  have hscan := scan_numeral hw (rest := []) (by intro c hc; cases hc)
  obtain ⟨c, u, rfl, hc⟩ := numeral_ne hw
  rw [List.append_nil] at hscan
  have := Numbers.last (num := scanInt ty) (s := []) (c := c) (t := u) (by simp) hc (by rw [hscan])
    (by rw [hscan]; rfl)
  rw [hscan] at this
  simpa using this

theorem blank_head {s : List Char} (hs : Blank s) (hne : s ≠ []) (t : List Char) : NoDigit (s ++ t) := by
  cases s with
  | nil => exact absurd rfl hne
  | cons c s => exact noDigit_space (hs c (by simp)) _

/-- Words that are numerals, followed by a text that does not begin with a digit. -/
theorem numbers_words {ty : IntTy} {good : List Char} {ws : List (List Char)} {vs : List Int}
    (hw : Words good ws) (hv : List.Forall₂ (Numeral ty) ws vs) {t : List Char} {us clean left}
    (ht : NoDigit t) (hne : t ≠ []) (h : Numbers (scanInt ty) t us clean left) :
    Numbers (scanInt ty) (good ++ t) (vs ++ us) clean left := by
  induction hw generalizing vs with
  | none hs => cases hv; exact numbers_blank hs h
  | @one s w s' hs _ _ hs' =>
    obtain ⟨v, vs', hv1, hv2, rfl⟩ := List.forall₂_cons_left_iff.mp hv
    cases hv2
    rw [List.append_assoc, List.append_assoc]
    refine numbers_blank hs ?_
    refine numbers_numeral hv1 ?_ (by simp [hne]) (numbers_blank hs' h)
    by_cases he : s' = []
    · rw [he]; exact ht
    · exact blank_head hs' he t
  | @cons s w c u ws hs _ _ hc _ ih =>
    obtain ⟨v, vs', hv1, hv2, rfl⟩ := List.forall₂_cons_left_iff.mp hv
    rw [List.append_assoc, List.append_assoc]
    refine numbers_blank hs ?_
    exact numbers_numeral hv1 (noDigit_space hc _) (by simp) (ih hv2)

/-- Words that are numerals, up to the end of the text. -/
theorem numbers_words_end {ty : IntTy} {good : List Char} {ws : List (List Char)} {vs : List Int}
    (hw : Words good ws) (hv : List.Forall₂ (Numeral ty) ws vs) :
    Numbers (scanInt ty) good vs true [] := by
  induction hw generalizing vs with
  | none hs => cases hv; exact .nothing hs
  | @one s w s' hs _ _ hs' =>
    obtain ⟨v, vs', hv1, hv2, rfl⟩ := List.forall₂_cons_left_iff.mp hv
    cases hv2
    rw [List.append_assoc]
    refine numbers_blank hs ?_
    by_cases he : s' = []
    · rw [he, List.append_nil]; exact numbers_last hv1
    · have := blank_head hs' he []
      rw [List.append_nil] at this
      exact numbers_numeral hv1 this he (.nothing hs')
  | @cons s w c u ws hs _ _ hc _ ih =>
    obtain ⟨v, vs', hv1, hv2, rfl⟩ := List.forall₂_cons_left_iff.mp hv
    rw [List.append_assoc]
    refine numbers_blank hs ?_
    exact numbers_numeral hv1 (noDigit_space hc _) (by simp) (ih hv2)

end Spp.IO
