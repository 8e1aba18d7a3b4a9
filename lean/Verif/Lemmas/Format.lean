import Verif.Spec.Format
import Verif.Lemmas.FloatLit
import Verif.Lemmas.IO

/- Printing and reading quadruple-precision numbers. -/

namespace Spp.Lemmas

open Spp.Spec Spp.IO

/-! ### `strtoflt128` -/

theorem strtoqUnsigned_text {rn : ℚ → ℚ} {neg : Bool} {w rest : List Char} {x : ℚ} (h : DecimalText w x)
    (hr : Stops rest) : strtoqUnsigned rn neg (w ++ rest) = some (rn (signed neg x), rest) := by
  obtain ⟨ip, fp, t, e, h1, h2, h3, h4, h5, rfl⟩ := h
  have ht : NoDigit (t ++ rest) ∧ ((t ++ rest).head? == some '.') = false := by
    rcases h4 with ⟨rfl, -⟩ | ⟨c, ds, hc, -, -, h⟩
    · exact ⟨hr.1, hr.2.1⟩
    · obtain ⟨t', rfl⟩ : ∃ t', t = c :: t' := by rcases h with ⟨h, -⟩ | ⟨h, -⟩ | ⟨h, -⟩ <;> exact ⟨_, h⟩
      rcases hc with rfl | rfl <;> exact ⟨noDigit_cons (by decide) _, by rfl⟩
  have hv : ∀ e : Int, floatValue neg ip fp e = signed neg (digitsValue (ip ++ fp) * (10 : ℚ) ^ (e - fp.length)) := by
    intro e; simp only [floatValue, signed, decimal_eq]
  have hE : (if (t ++ rest).head? == some 'e' || (t ++ rest).head? == some 'E' then
      match scanExponent (t ++ rest).tail with
      | (none, _) => some (rn (floatValue neg ip fp 0), t ++ rest)
      | (some e, rest) => some (rn (floatValue neg ip fp e), rest)
      else some (rn (floatValue neg ip fp 0), t ++ rest)) =
      some (rn (signed neg (digitsValue (ip ++ fp) * (10 : ℚ) ^ (e - fp.length))), rest) := by
    rcases h4 with ⟨rfl, rfl⟩ | ⟨c, ds, hc, hd1, hd2, h⟩
    · rw [List.nil_append, hr.2.2.1, hr.2.2.2]
      simp only [Bool.or_self, Bool.false_eq_true, if_false, hv]
    · have hx := scanExponent_text hd1 hd2 hr.1 h
      obtain ⟨t', rfl⟩ : ∃ t', t = c :: t' := by rcases h with ⟨h, -⟩ | ⟨h, -⟩ | ⟨h, -⟩ <;> exact ⟨_, h⟩
      have hb : ((some c : Option Char) == some 'e' || (some c : Option Char) == some 'E') = true := by
        rcases hc with rfl | rfl <;> decide
      rw [List.tail_cons] at hx
      simp only [List.cons_append, List.head?_cons, hb, if_true, List.tail_cons, hx, hv]
  have hne : (ip.isEmpty && fp.isEmpty) = false := by
    cases ip with
    | nil => cases fp with
      | nil => exact absurd rfl h3
      | cons => rfl
    | cons => rfl
  rcases h5 with rfl | ⟨rfl, rfl⟩
  · obtain ⟨a1, a2⟩ := takeWhile_digits (ds := ip) (rest := '.' :: (fp ++ (t ++ rest))) h1
      (noDigit_cons (by decide) _)
    obtain ⟨b1, b2⟩ := takeWhile_digits (ds := fp) (rest := t ++ rest) h2 ht.1
    have e1 : ip ++ '.' :: (fp ++ t) ++ rest = ip ++ '.' :: (fp ++ (t ++ rest)) := by simp
    rw [e1]
    unfold strtoqUnsigned
    simp only [a1, a2, List.head?_cons, beq_self_eq_true, if_true, List.tail_cons, b1, b2, hne,
      Bool.false_eq_true, if_false]
    exact hE
  · obtain ⟨a1, a2⟩ := takeWhile_digits (ds := ip) (rest := t ++ rest) h1 ht.1
    rw [List.append_assoc]
    unfold strtoqUnsigned
    simp only [a1, a2, ht.2, hne, Bool.false_eq_true, if_false]
    exact hE

theorem digits_takeWhile (u : List Char) : ∀ d ∈ u.takeWhile Char.isDigit, d.isDigit = true :=
  fun _ h => List.mem_takeWhile_imp h

theorem exponent_inv {u u' ds r : List Char} {e : Int} (hs : ds ++ r = u') (hd : ∀ d ∈ ds, d.isDigit = true)
    (hu : u' = if (u.head? == some '-') || u.head? == some '+' then u.tail else u)
    (h : (if ds.isEmpty then ((none : Option Int), r)
      else (some (if u.head? == some '-' then -(decimal ds : Int) else decimal ds), r)) = (some e, []))
    (c : Char) (hc : c = 'e' ∨ c = 'E') : ExponentText (c :: u) e := by
  cases ds with
  | nil => simp at h
  | cons d ds =>
    simp only [List.isEmpty_cons, Bool.false_eq_true, if_false, Prod.mk.injEq, Option.some.injEq] at h
    obtain ⟨h1, rfl⟩ := h
    rw [List.append_nil] at hs
    right
    refine ⟨c, d :: ds, hc, by simp, hd, ?_⟩
    rw [decimal_eq] at h1
    rw [hu] at hs
    rcases u with _ | ⟨a, u⟩
    · simp at hs
    · by_cases ha : a = '-'
      · subst ha
        right; right
        exact ⟨by rw [hs]; rfl, h1.symm⟩
      · have hm : ((a :: u).head? == some '-') = false := by simpa using ha
        rw [hm] at h1 hs
        by_cases hp : a = '+'
        · subst hp
          right; left
          exact ⟨by rw [hs]; rfl, h1.symm⟩
        · have hp' : ((a :: u).head? == some '+') = false := by simpa using hp
          rw [hp'] at hs
          left
          exact ⟨by rw [hs]; rfl, h1.symm⟩

theorem scanExponent_inv {u : List Char} {e : Int} (h : scanExponent u = (some e, [])) (c : Char)
    (hc : c = 'e' ∨ c = 'E') : ExponentText (c :: u) e :=
  exponent_inv List.takeWhile_append_dropWhile (digits_takeWhile _) rfl h c hc

theorem strtoqTail_inv {rn : ℚ → ℚ} {neg : Bool} {ip fp u2 : List Char} {v : ℚ}
    (h : (if ip.isEmpty && fp.isEmpty then none
      else if u2.head? == some 'e' || u2.head? == some 'E' then
        match scanExponent u2.tail with
        | (none, _) => some (rn (floatValue neg ip fp 0), u2)
        | (some e, rest) => some (rn (floatValue neg ip fp e), rest)
      else some (rn (floatValue neg ip fp 0), u2)) = some (v, [])) :
    ip ++ fp ≠ [] ∧ ∃ e, ExponentText u2 e := by
  split at h
  · exact nomatch h
  · rename_i hne
    refine ⟨?_, ?_⟩
    · intro h0
      obtain ⟨rfl, rfl⟩ := List.append_eq_nil_iff.1 h0
      exact hne rfl
    · split at h
      · rename_i hE
        obtain ⟨c, u2, rfl, hc⟩ : ∃ c u', u2 = c :: u' ∧ (c = 'e' ∨ c = 'E') := by
          rcases u2 with _ | ⟨a, u2⟩
          · simp at hE
          · exact ⟨a, u2, rfl, by simpa using hE⟩
        rw [List.tail_cons] at h
        rcases he : scanExponent u2 with ⟨_ | e, rest⟩ <;> rw [he] at h
        · simp at h
        · simp only [Option.some.injEq, Prod.mk.injEq] at h
          obtain ⟨-, rfl⟩ := h
          exact ⟨e, scanExponent_inv he c hc⟩
      · simp only [Option.some.injEq, Prod.mk.injEq] at h
        obtain ⟨-, rfl⟩ := h
        exact ⟨0, Or.inl ⟨rfl, rfl⟩⟩

theorem strtoqUnsigned_inv {rn : ℚ → ℚ} {neg : Bool} {u : List Char} {v : ℚ}
    (h : strtoqUnsigned rn neg u = some (v, [])) : ∃ x, DecimalText u x := by
  have hs1 : u.takeWhile Char.isDigit ++ u.dropWhile Char.isDigit = u := List.takeWhile_append_dropWhile
  by_cases hp : ((u.dropWhile Char.isDigit).head? == some '.') = true
  · unfold strtoqUnsigned at h
    simp only [hp, if_true] at h
    obtain ⟨hne, e, he⟩ := strtoqTail_inv h
    refine ⟨_, _, _, _, e, digits_takeWhile _, digits_takeWhile _, hne, he, Or.inl ?_, rfl⟩
    rw [List.takeWhile_append_dropWhile]
    conv_lhs => rw [← hs1]
    congr 1
    rcases hd : u.dropWhile Char.isDigit with _ | ⟨a, r⟩
    · rw [hd] at hp; simp at hp
    · rw [hd] at hp
      simp only [List.head?_cons, beq_iff_eq, Option.some.injEq] at hp
      rw [hp]; rfl
  · rw [Bool.not_eq_true] at hp
    unfold strtoqUnsigned at h
    simp only [hp, Bool.false_eq_true, if_false] at h
    obtain ⟨hne, e, he⟩ := strtoqTail_inv h
    exact ⟨_, _, [], _, e, digits_takeWhile _, by simp, hne, he, Or.inr ⟨rfl, hs1.symm⟩, rfl⟩

theorem decimalText_head {w : List Char} {x : ℚ} (h : DecimalText w x) (rest : List Char) :
    ((w ++ rest).head? == some '-') = false ∧ ((w ++ rest).head? == some '+') = false := by
  obtain ⟨ip, fp, t, e, h1, h2, h3, h4, h5, rfl⟩ := h
  cases ip with
  | nil =>
    rcases h5 with rfl | ⟨rfl, -⟩
    · constructor <;> rfl
    · exact absurd rfl h3
  | cons d ip =>
    obtain ⟨a, b, -⟩ := digit_head (h1 d (by simp))
    rcases h5 with rfl | ⟨rfl, rfl⟩ <;> exact ⟨a, b⟩

theorem decimalText_special {w : List Char} {x : ℚ} (h : DecimalText w x) :
    ∃ c u, w = c :: u ∧ (c.isDigit = true ∨ c = '.') ∧ (u.head? == some 'x') = false ∧ (u.head? == some 'X') = false := by
  obtain ⟨ip, fp, t, e, h1, h2, h3, h4, h5, rfl⟩ := h
  have dig : ∀ c : Char, c.isDigit = true → c ≠ 'x' ∧ c ≠ 'X' := by
    intro c hc
    constructor <;> rintro rfl <;> exact absurd hc (by decide)
  have ht : (t.head? == some 'x') = false ∧ (t.head? == some 'X') = false := by
    rcases h4 with ⟨rfl, -⟩ | ⟨c, ds, hc, -, -, h⟩
    · exact ⟨rfl, rfl⟩
    · obtain ⟨t', rfl⟩ : ∃ t', t = c :: t' := by rcases h with ⟨h, -⟩ | ⟨h, -⟩ | ⟨h, -⟩ <;> exact ⟨_, h⟩
      rcases hc with rfl | rfl <;> exact ⟨rfl, rfl⟩
  have hd : ∀ (c : Char) (l : List Char), c.isDigit = true →
      ((c :: l).head? == some 'x') = false ∧ ((c :: l).head? == some 'X') = false := by
    intro c l hc
    obtain ⟨a, b⟩ := dig c hc
    exact ⟨by simpa using a, by simpa using b⟩
  rcases ip with _ | ⟨c, _ | ⟨c2, ip⟩⟩
  · rcases h5 with rfl | ⟨rfl, -⟩
    · refine ⟨'.', fp ++ t, rfl, Or.inr rfl, ?_⟩
      rcases fp with _ | ⟨d, fp⟩
      · exact absurd rfl h3
      · exact hd d _ (h2 d (by simp))
    · exact absurd rfl h3
  · rcases h5 with rfl | ⟨rfl, rfl⟩
    · exact ⟨c, _, rfl, Or.inl (h1 c (by simp)), rfl, rfl⟩
    · exact ⟨c, _, rfl, Or.inl (h1 c (by simp)), ht⟩
  · rcases h5 with rfl | ⟨rfl, rfl⟩
    · exact ⟨c, _, rfl, Or.inl (h1 c (by simp)), hd c2 _ (h1 c2 (by simp))⟩
    · exact ⟨c, _, rfl, Or.inl (h1 c (by simp)), hd c2 _ (h1 c2 (by simp))⟩

theorem special_decimal {w : List Char} {x : ℚ} (h : DecimalText w x) :
    isSpecial w = false ∧ isSpecial ('+' :: w) = false ∧ isSpecial ('-' :: w) = false := by
  have hh := decimalText_head h []
  rw [List.append_nil] at hh
  obtain ⟨c, u, rfl, hc, h1, h2⟩ := decimalText_special h
  have ne : ∀ d : Char, d.isDigit = false → d ≠ '.' → (c == d) = false := by
    intro d hd hp
    rcases hc with hc | rfl
    · by_contra hne
      rw [Bool.not_eq_false, beq_iff_eq] at hne
      subst hne
      rw [hc] at hd
      exact absurd hd (by decide)
    · simpa using fun h => hp h.symm
  have key : (c == 'i' || c == 'I' || c == 'n' || c == 'N' ||
      (c == '0' && (u.head? == some 'x' || u.head? == some 'X'))) = false := by
    rw [ne 'i' (by decide) (by decide), ne 'I' (by decide) (by decide), ne 'n' (by decide) (by decide),
      ne 'N' (by decide) (by decide), h1, h2]
    simp
  refine ⟨?_, key, key⟩
  unfold isSpecial
  rw [hh.1, hh.2]
  exact key

theorem isSpecial_iff (w : List Char) : isSpecial w = true ↔ SpecialText w := by
  have base : ∀ u : List Char, (match u with
      | [] => false
      | c :: u => c == 'i' || c == 'I' || c == 'n' || c == 'N' ||
        (c == '0' && (u.head? == some 'x' || u.head? == some 'X'))) = true ↔
      ((∃ c t, u = c :: t ∧ (c = 'i' ∨ c = 'I' ∨ c = 'n' ∨ c = 'N')) ∨
        ∃ c t, u = '0' :: c :: t ∧ (c = 'x' ∨ c = 'X')) := by
    intro u
    rcases u with _ | ⟨c, u⟩
    · simp
    · simp only [Bool.or_eq_true, Bool.and_eq_true, beq_iff_eq]
      constructor
      · rintro ((((h | h) | h) | h) | ⟨h0, h⟩)
        · exact Or.inl ⟨c, u, rfl, Or.inl h⟩
        · exact Or.inl ⟨c, u, rfl, Or.inr (Or.inl h)⟩
        · exact Or.inl ⟨c, u, rfl, Or.inr (Or.inr (Or.inl h))⟩
        · exact Or.inl ⟨c, u, rfl, Or.inr (Or.inr (Or.inr h))⟩
        · right
          rcases u with _ | ⟨d, u⟩
          · simp at h
          · refine ⟨d, u, by rw [h0], by simpa using h⟩
      · rintro (⟨c', t, h, h'⟩ | ⟨d, t, h, h'⟩)
        · obtain ⟨rfl, rfl⟩ := List.cons.inj h
          rcases h' with h' | h' | h' | h' <;> simp [h']
        · obtain ⟨rfl, rfl⟩ := List.cons.inj h
          right
          exact ⟨rfl, by rcases h' with rfl | rfl <;> simp⟩
  refine (base (if w.head? == some '-' || w.head? == some '+' then w.tail else w)).trans ?_
  unfold SpecialText
  rcases w with _ | ⟨a, w⟩
  · constructor
    · rintro (⟨c, t, h, -⟩ | ⟨c, t, h, -⟩) <;> cases h
    · rintro ⟨s, u, -, h, h'⟩
      obtain ⟨rfl, rfl⟩ := List.append_eq_nil_iff.1 h.symm
      exact h'
  · by_cases ha : a = '-' ∨ a = '+'
    · have : ((a :: w).head? == some '-' || (a :: w).head? == some '+') = true := by
        rcases ha with rfl | rfl <;> rfl
      rw [this, if_pos rfl, List.tail_cons]
      constructor
      · intro h
        refine ⟨[a], w, ?_, rfl, h⟩
        rcases ha with rfl | rfl
        · exact Or.inr (Or.inr rfl)
        · exact Or.inr (Or.inl rfl)
      · rintro ⟨s, u, hs, h, h'⟩
        rcases hs with rfl | rfl | rfl
        · exfalso
          rw [List.nil_append] at h
          subst h
          rcases ha with rfl | rfl
          · rcases h' with ⟨c, t, h, h2⟩ | ⟨c, t, h, -⟩
            · obtain ⟨rfl, -⟩ := List.cons.inj h
              revert h2; decide
            · exact absurd (List.cons.inj h).1 (by decide)
          · rcases h' with ⟨c, t, h, h2⟩ | ⟨c, t, h, -⟩
            · obtain ⟨rfl, -⟩ := List.cons.inj h
              revert h2; decide
            · exact absurd (List.cons.inj h).1 (by decide)
        · rw [(List.cons.inj h).2]; exact h'
        · rw [(List.cons.inj h).2]; exact h'
    · have : ((a :: w).head? == some '-' || (a :: w).head? == some '+') = false := by
        rw [not_or] at ha
        simpa using ha
      rw [this]
      simp only [Bool.false_eq_true, if_false]
      constructor
      · intro h
        exact ⟨[], _, Or.inl rfl, rfl, h⟩
      · rintro ⟨s, u, hs, h, h'⟩
        rcases hs with rfl | rfl | rfl
        · rw [List.nil_append] at h; rw [h]; exact h'
        · exact absurd (Or.inr (List.cons.inj h).1) ha
        · exact absurd (Or.inl (List.cons.inj h).1) ha

theorem stops_nil : Stops [] := ⟨by intro c hc; simp at hc, rfl, rfl, rfl⟩

/-- A word that is a decimal number. -/
theorem strtoq_number {q : QuadReader} {w : List Char} {x : ℚ} (h : NumberText w x) : strtoq q w = (q.rn x, []) := by
  obtain ⟨u, y, hd, h⟩ := h
  obtain ⟨s1, s2, s3⟩ := special_decimal hd
  have ht : ∀ neg, strtoqUnsigned q.rn neg u = some (q.rn (signed neg y), []) := by
    intro neg
    have := strtoqUnsigned_text (rn := q.rn) (neg := neg) hd stops_nil
    rwa [List.append_nil] at this
  rcases h with ⟨rfl, rfl⟩ | ⟨rfl, rfl⟩ | ⟨rfl, rfl⟩
  · have hh := decimalText_head hd []
    rw [List.append_nil] at hh
    unfold strtoq
    rw [s1, hh.1, hh.2]
    simp only [Bool.false_eq_true, if_false]
    rw [ht]; rfl
  · unfold strtoq
    have a : ((some '+' : Option Char) == some '-') = false := by decide
    rw [s2]
    simp only [List.head?_cons, a, Bool.false_eq_true, if_false, beq_self_eq_true, if_true,
      List.tail_cons, ht]; rfl
  · unfold strtoq
    rw [s3]
    simp only [List.head?_cons, beq_self_eq_true, if_true, List.tail_cons, ht, Bool.false_eq_true, if_false]; rfl

/-- A word is accepted only if it is a decimal number. -/
theorem strtoq_inv {q : QuadReader} {w : List Char} (hw : w ≠ []) (hs : ¬ SpecialText w) (h : (strtoq q w).2 = []) :
    ∃ x, NumberText w x := by
  rcases w with _ | ⟨a, u⟩
  · exact absurd rfl hw
  rw [← isSpecial_iff, Bool.not_eq_true] at hs
  unfold strtoq at h
  rw [hs] at h
  simp only [Bool.false_eq_true, if_false] at h
  have key : ∀ neg u', (((strtoqUnsigned q.rn neg u').getD (0, a :: u)).2 = []) → ∃ x, DecimalText u' x := by
    intro neg u' h
    rcases e : strtoqUnsigned q.rn neg u' with _ | ⟨v, r⟩ <;> rw [e] at h
    · simp at h
    · rw [show r = [] from h] at e
      exact strtoqUnsigned_inv e
  by_cases hm : a = '-'
  · subst hm
    simp only [List.head?_cons, beq_self_eq_true, if_true, List.tail_cons] at h
    obtain ⟨y, hy⟩ := key _ _ h
    exact ⟨-y, u, y, hy, Or.inr (Or.inr ⟨rfl, rfl⟩)⟩
  · have h1 : ((a :: u).head? == some '-') = false := by simpa using hm
    rw [h1] at h
    by_cases hp : a = '+'
    · subst hp
      simp only [List.head?_cons, beq_self_eq_true, if_true, List.tail_cons, Bool.false_eq_true, if_false] at h
      obtain ⟨y, hy⟩ := key _ _ h
      exact ⟨y, u, y, hy, Or.inr (Or.inl ⟨rfl, rfl⟩)⟩
    · have h2 : ((a :: u).head? == some '+') = false := by simpa using hp
      rw [h2] at h
      simp only [Bool.false_eq_true, if_false] at h
      obtain ⟨y, hy⟩ := key _ _ h
      exact ⟨y, _, y, hy, Or.inl ⟨rfl, rfl⟩⟩

theorem strtoq_nil (q : QuadReader) : strtoq q [] = (0, []) := by
  have : isSpecial [] = false := rfl
  unfold strtoq
  rw [this]
  rfl

theorem numberText_ne {w : List Char} {x : ℚ} (h : NumberText w x) : w ≠ [] := by
  obtain ⟨u, y, hd, ⟨rfl, rfl⟩ | ⟨rfl, rfl⟩ | ⟨rfl, rfl⟩⟩ := h
  · obtain ⟨c, u, rfl, -⟩ := decimalText_special hd
    simp
  · simp
  · simp

/-! ### Printed texts are decimal numbers -/

theorem numberText_signed {u : List Char} {y : ℚ} (h : DecimalText u y) (neg : Bool) :
    NumberText (signChar neg :: u) (signed neg y) := by
  cases neg
  · exact ⟨u, y, h, Or.inr (Or.inl ⟨rfl, rfl⟩)⟩
  · exact ⟨u, y, h, Or.inr (Or.inr ⟨rfl, rfl⟩)⟩

/-- The letter of the exponent in capitals. -/
def capital (c : Char) : Char := if c = 'e' then 'E' else c

theorem capitalE_eq (w : List Char) : capitalE w = w.map capital := rfl

theorem capital_digits {ds : List Char} (h : ∀ c ∈ ds, c.isDigit = true) : ds.map capital = ds := by
  conv_rhs => rw [← List.map_id ds]
  refine List.map_congr_left (fun c hc => ?_)
  unfold capital
  rw [if_neg]
  · rfl
  · rintro rfl
    exact absurd (h _ hc) (by decide)

theorem capital_sign (neg : Bool) : capital (signChar neg) = signChar neg := by cases neg <;> decide

/-- The text in scientific notation with a capital letter. -/
theorem capital_scientific {P : Nat} {w : List Char} {D : ℚ} (h : Scientific P w D) :
    NumberText (w.map capital) D ∧ ∃ (neg eneg : Bool) (d : Char) (ds es : List Char),
      (∀ c ∈ d :: ds, c.isDigit = true) ∧ (∀ c ∈ es, c.isDigit = true) ∧ ds.length = P ∧ 2 ≤ es.length ∧
      w = signChar neg :: d :: '.' :: (ds ++ 'e' :: signChar eneg :: es) ∧
      w.map capital = signChar neg :: d :: '.' :: (ds ++ 'E' :: signChar eneg :: es) ∧
      D = signed neg (digitsValue (d :: ds) *
        10 ^ ((if eneg then -(digitsValue es : Int) else digitsValue es) - P)) := by
  obtain ⟨neg, eneg, d, ds, es, h1, h2, h3, h4, rfl, rfl⟩ := h
  have hd : ['.'].map capital = ['.'] := by decide
  have e : (signChar neg :: d :: '.' :: (ds ++ 'e' :: signChar eneg :: es)).map capital =
      signChar neg :: d :: '.' :: (ds ++ 'E' :: signChar eneg :: es) := by
    have a := capital_digits (ds := [d]) (by intro c hc; exact h1 c (by simp_all))
    simp only [List.map_cons, List.map_nil, List.cons.injEq, and_true] at a
    simp only [List.map_cons, List.map_append, capital_sign, a,
      capital_digits (fun c hc => h1 c (List.mem_cons_of_mem _ hc)), capital_digits h2]
    rfl
  refine ⟨?_, neg, eneg, d, ds, es, h1, h2, h3, h4, rfl, e, rfl⟩
  rw [e]
  refine numberText_signed (u := d :: '.' :: (ds ++ 'E' :: signChar eneg :: es)) ?_ neg
  refine ⟨[d], ds, 'E' :: signChar eneg :: es, if eneg then -(digitsValue es : Int) else digitsValue es,
    by intro c hc; exact h1 c (by simp_all), fun c hc => h1 c (List.mem_cons_of_mem _ hc), by simp, ?_,
    Or.inl rfl, ?_⟩
  · right
    refine ⟨'E', es, Or.inr rfl, by intro h0; rw [h0] at h4; simp at h4, h2, ?_⟩
    cases eneg
    · right; left; exact ⟨rfl, rfl⟩
    · right; right; exact ⟨rfl, rfl⟩
  · rw [h3]; rfl

theorem number_fixed {P : Nat} {w : List Char} {D : ℚ} (h : Fixed P w D) : NumberText w D := by
  obtain ⟨neg, is, ds, h1, h2, h3, h4, rfl, rfl⟩ := h
  have : DecimalText (is ++ '.' :: ds) (digitsValue (is ++ ds) / 10 ^ P) := by
    refine ⟨is, ds, [], 0, h1, h2, ?_, Or.inl ⟨rfl, rfl⟩, Or.inl (by simp), ?_⟩
    · intro h0; exact h3 (List.append_eq_nil_iff.1 h0).1
    · rw [h4, zero_sub, zpow_neg, zpow_natCast, div_eq_mul_inv]
  exact numberText_signed this neg

/-! ### Lengths -/

theorem twoDigits_length {n : Nat} (h : n < 10 ^ 4) : (twoDigits n).length ≤ 4 := by
  unfold twoDigits
  rw [digits_eq]
  split
  · rename_i h'
    have := (Nat.length_toDigits_le_iff (b := 10) (n := n) (k := 1) (by decide) (by omega)).mpr (by omega)
    simp only [List.length_cons]
    omega
  · exact (Nat.length_toDigits_le_iff (b := 10) (n := n) (k := 4) (by decide) (by omega)).mpr h

/-- The exponent of a quadruple-precision number has at most four digits. -/
theorem showSci_length (P : Nat) {x : ℚ} (hx : QuadRange x) : (showSci P x).length ≤ P + 9 := by
  have h0 : (twoDigits 0).length ≤ 4 := twoDigits_length (by norm_num)
  rcases hx with rfl | ⟨h1, h2⟩
  · unfold showSci
    simp [List.replicate_succ]
    omega
  · have hx : 0 < |x| := lt_of_lt_of_le (ten_pos _) h1
    have l1 : -5000 ≤ Int.log 10 |x| :=
      (Int.zpow_le_iff_le_log (b := 10) (by norm_num) hx).mp (by simpa using h1)
    have l2 : Int.log 10 |x| < 5000 :=
      (Int.lt_zpow_iff_log_lt (b := 10) (by norm_num) hx).mp (by simpa using h2)
    obtain ⟨p1, p2, -, -⟩ := sciParts_spec P hx
    have he : (sciParts P |x|).2.natAbs < 10 ^ 4 := by
      unfold sciParts
      simp only
      split <;> simp only <;> omega
    have hl := toDigits_length p1 p2
    have ht := twoDigits_length he
    unfold showSci
    simp only [if_neg (abs_pos.1 hx)]
    obtain ⟨d, ds, hds⟩ : ∃ d ds, Nat.toDigits 10 (sciParts P |x|).1 = d :: ds := by
      cases h : Nat.toDigits 10 (sciParts P |x|).1 with
      | nil => rw [h] at hl; simp at hl
      | cons d ds => exact ⟨d, ds, rfl⟩
    rw [hds, List.length_cons] at hl
    simp only [digits_eq, hds, List.length_cons, List.length_append, List.tail_cons]
    simp
    omega

theorem scientific_length {P : Nat} {w : List Char} {D : ℚ} (h : Scientific P w D) : P + 7 ≤ w.length := by
  obtain ⟨neg, eneg, d, ds, es, h1, h2, h3, h4, rfl, rfl⟩ := h
  simp
  omega

theorem fixed_length {P : Nat} {w : List Char} {D : ℚ} (h : Fixed P w D) : P + 3 ≤ w.length := by
  obtain ⟨neg, is, ds, h1, h2, h3, h4, rfl, rfl⟩ := h
  have := List.length_pos_iff.mpr h3
  simp
  omega

theorem digitsValue_ge {ds : List Char} : digitsValue ds < 10 ^ ds.length ∨ ∃ c ∈ ds, c.isDigit = false := by
  by_cases h : ∃ c ∈ ds, c.isDigit = false
  · exact Or.inr h
  · left
    rw [not_exists] at h
    have hd : ∀ c ∈ ds, c.isDigit = true := by
      intro c hc
      by_contra hne
      exact h c ⟨hc, by simpa using hne⟩
    clear h
    induction ds with
    | nil => decide
    | cons c ds ih =>
      have := ih (fun c hc => hd c (List.mem_cons_of_mem _ hc))
      have hc : c.toNat - 48 ≤ 9 := by
        have := hd c (by simp)
        simp only [Char.isDigit, Bool.and_eq_true, decide_eq_true_eq] at this
        have h2 := this.2
        have : c.toNat ≤ 57 := h2
        omega
      rw [← decimal_eq] at this ⊢
      rw [show c :: ds = [c] ++ ds from rfl, decimal_append]
      have e : decimal [c] = c.toNat - 48 := by simp [decimal]
      rw [e, List.length_append, List.length_singleton, pow_add]
      calc (c.toNat - 48) * 10 ^ ds.length + decimal ds < (c.toNat - 48) * 10 ^ ds.length + 10 ^ ds.length := by omega
        _ = ((c.toNat - 48) + 1) * 10 ^ ds.length := by ring
        _ ≤ 10 ^ 1 * 10 ^ ds.length := Nat.mul_le_mul_right _ (by omega)

theorem digitsValue_lt {ds : List Char} (h : ∀ c ∈ ds, c.isDigit = true) : digitsValue ds < 10 ^ ds.length := by
  rcases digitsValue_ge (ds := ds) with h' | ⟨c, hc, h'⟩
  · exact h'
  · rw [h c hc] at h'
    cases h'

/-- The text in fixed notation. -/
theorem showFixed_parts (P : Nat) (x : ℚ) : ∃ ds : List Char, ds.length = P ∧ (∀ c ∈ ds, c.isDigit = true) ∧
    showFixed P x = signChar (decide (x < 0)) :: (Nat.toDigits 10 (roundEven (|x| * 10 ^ P) / 10 ^ P) ++ '.' :: ds) := by
  unfold showFixed
  obtain ⟨f1, f2, f3⟩ := toDigits_facts (roundEven (|x| * 10 ^ P) % 10 ^ P)
  have hmod : roundEven (|x| * 10 ^ P) % 10 ^ P < 10 ^ P := Nat.mod_lt _ (by positivity)
  refine ⟨(if P = 0 then [] else
    List.replicate (P - (Nat.toDigits 10 (roundEven (|x| * 10 ^ P) % 10 ^ P)).length) '0' ++
      Nat.toDigits 10 (roundEven (|x| * 10 ^ P) % 10 ^ P)), ?_, ?_, ?_⟩
  · split
    · rename_i h; rw [h]; rfl
    · rename_i h
      have := (Nat.length_toDigits_le_iff (b := 10) (n := roundEven (|x| * 10 ^ P) % 10 ^ P) (k := P) (by decide)
        (by omega)).mpr hmod
      simp only [List.length_append, List.length_replicate]; omega
  · intro c hc
    split at hc
    · cases hc
    · rcases List.mem_append.mp hc with hc | hc
      · rw [(List.mem_replicate.mp hc).2]; decide
      · exact f2 c hc
  · simp only [digits_eq, signChar, decide_eq_true_eq]

/-- The digits before the point. -/
theorem whole_bounds (P : Nat) (x : ℚ) :
    ((roundEven (|x| * 10 ^ P) / 10 ^ P : Nat) : ℚ) ≤ |x| + 1 / 2 ∧
    |x| < ((roundEven (|x| * 10 ^ P) / 10 ^ P : Nat) : ℚ) + 3 / 2 := by
  have hT : (0 : ℚ) < 10 ^ P := by positivity
  have h1T : (1 : ℚ) ≤ 10 ^ P := one_le_pow₀ (by norm_num)
  have hr := roundEven_near (x := |x| * 10 ^ P) (by positivity)
  rw [abs_le] at hr
  set n := roundEven (|x| * 10 ^ P)
  have hdm := Nat.div_add_mod n (10 ^ P)
  have hlt := Nat.mod_lt n (show 0 < 10 ^ P by positivity)
  have e : (10 : ℚ) ^ P * ((n / 10 ^ P : Nat) : ℚ) + ((n % 10 ^ P : Nat) : ℚ) = n := by exact_mod_cast hdm
  have e2 : ((n % 10 ^ P : Nat) : ℚ) < 10 ^ P := by exact_mod_cast hlt
  have e3 : (0 : ℚ) ≤ ((n % 10 ^ P : Nat) : ℚ) := Nat.cast_nonneg _
  constructor
  · have : (10 : ℚ) ^ P * ((n / 10 ^ P : Nat) : ℚ) ≤ 10 ^ P * (|x| + 1 / 2) := by nlinarith
    exact le_of_mul_le_mul_left this hT
  · have : (10 : ℚ) ^ P * |x| < 10 ^ P * (((n / 10 ^ P : Nat) : ℚ) + 3 / 2) := by nlinarith
    exact lt_of_mul_lt_mul_left this hT.le

/-- A shorter text for small numbers. -/
theorem showFixed_length (P : Nat) {x : ℚ} {k : Nat} (hk : 0 < k) (hx : |x| + 1 ≤ 10 ^ k) :
    (showFixed P x).length ≤ P + 2 + k := by
  obtain ⟨ds, h1, -, h3⟩ := showFixed_parts P x
  rw [h3]
  have hw : roundEven (|x| * 10 ^ P) / 10 ^ P < 10 ^ k := by
    have := (whole_bounds P x).1
    have h : ((roundEven (|x| * 10 ^ P) / 10 ^ P : Nat) : ℚ) < 10 ^ k := by linarith
    exact_mod_cast h
  have := (Nat.length_toDigits_le_iff (b := 10) (k := k) (by decide) hk).mpr hw
  simp
  omega

/-! ### Reading -/

/-- Two ways to find the end of a word. -/
theorem extractWord_blank {t : List Char} (h : Blank t) : extractWord (.ofText t) = ([], ⟨[], true, true⟩) := by
  have : t.dropWhile isSpace = [] := by
    have := dropWhile_blank h []
    simpa using this
  simp [extractWord, Stream.ofText, this]

theorem extractWord_word {s w t : List Char} (hs : Blank s) (hne : w ≠ []) (hw : ∀ c ∈ w, isSpace c = false)
    (ht : t = [] ∨ ∃ c u, t = c :: u ∧ isSpace c = true) :
    extractWord (.ofText (s ++ w ++ t)) = (w, ⟨t, t.isEmpty, false⟩) := by
  have h1 : (s ++ w ++ t).dropWhile isSpace = w ++ t := by
    rw [List.append_assoc, dropWhile_blank hs]
    rcases w with _ | ⟨c, w⟩
    · exact absurd rfl hne
    · rw [List.cons_append, List.dropWhile_cons, if_neg (by simp [hw c (by simp)])]
  have h2 : (w ++ t).isEmpty = false := by
    rcases w with _ | ⟨c, w⟩
    · exact absurd rfl hne
    · rfl
  have h3 : ∀ w : List Char, (∀ c ∈ w, isSpace c = false) → (w ++ t).takeWhile (fun c => !isSpace c) = w ∧
      (w ++ t).dropWhile (fun c => !isSpace c) = t := by
    intro w hw
    induction w with
    | nil =>
      rcases ht with rfl | ⟨c, u, rfl, hc⟩
      · exact ⟨rfl, rfl⟩
      · simp [hc]
    | cons c w ih =>
      obtain ⟨i1, i2⟩ := ih (fun c hc => hw c (List.mem_cons_of_mem _ hc))
      have := hw c (by simp)
      constructor
      · rw [List.cons_append, List.takeWhile_cons, if_pos (by simp [this]), i1]
      · rw [List.cons_append, List.dropWhile_cons, if_pos (by simp [this]), i2]
  obtain ⟨h4, h5⟩ := h3 w hw
  have hf : ((Stream.ofText (s ++ w ++ t)).eof || (Stream.ofText (s ++ w ++ t)).fail) = false := rfl
  have hr : (Stream.ofText (s ++ w ++ t)).rest = s ++ w ++ t := rfl
  simp only [extractWord, hf, hr, h1, h2, h4, h5, Bool.false_eq_true, if_false]

end Spp.Lemmas
