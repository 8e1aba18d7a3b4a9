import Verif.Lemmas.IOText
import Verif.Spec.Print

namespace Spp.IO

open Spp.Spec

/-! ### Digits -/

theorem digitChar_ofNat {n : Nat} (h : n < 10) : Char.ofNat (48 + n) = n.digitChar := by
  have key : ∀ m : Fin 10, Char.ofNat (48 + m.val) = m.val.digitChar := by decide
  exact key ⟨n, h⟩

theorem digits_eq (n : Nat) : digits n = Nat.toDigits 10 n := by
  induction n using Nat.strongRecOn with
  | _ n ih =>
    rw [digits]
    split
    · rename_i h; rw [Nat.toDigits_of_lt_base h, digitChar_ofNat h]
    · rename_i h
      rw [ih (n / 10) (by omega), Nat.toDigits_of_base_le (n := n) (by decide) (by omega), digitChar_ofNat (by omega)]

theorem toDigits_facts (n : Nat) : Nat.toDigits 10 n ≠ [] ∧ (∀ c ∈ Nat.toDigits 10 n, c.isDigit = true) ∧
    digitsValue (Nat.toDigits 10 n) = n := by
  have key : ∀ m : Fin 10, m.val.digitChar.isDigit = true ∧ m.val.digitChar.toNat - 48 = m.val := by decide
  induction n using Nat.strongRecOn with
  | _ n ih =>
    by_cases h : n < 10
    · rw [Nat.toDigits_of_lt_base h]
      have := key ⟨n, h⟩
      refine ⟨by simp, by simpa using this.1, ?_⟩
      simpa [digitsValue, Nat.ofDigits_singleton] using this.2
    · rw [Nat.toDigits_of_base_le (by decide) (by omega)]
      obtain ⟨h1, h2, h3⟩ := ih (n / 10) (by omega)
      have h10 := key ⟨n % 10, by omega⟩
      refine ⟨by simp, ?_, ?_⟩
      · intro c hc
        rcases List.mem_append.mp hc with hc | hc
        · exact h2 c hc
        · rw [List.mem_singleton.mp hc]; exact h10.1
      · rw [← decimal_eq] at h3 ⊢
        unfold decimal at h3 ⊢
        rw [List.foldl_append, h3]
        simp only [List.foldl_cons, List.foldl_nil, h10.2]
        omega

theorem showInt_eq (t : IntTy) (v : Int) : showInt t v = written t v := by
  unfold showInt written
  rw [digits_eq]
  cases t.signed
  · rfl
  · by_cases h : v < 0 <;> simp [h]

theorem numeral_written {t : IntTy} {v : Int} (hf : Fits t v) : Numeral t (written t v) v := by
  obtain ⟨h1, h2, h3⟩ := toDigits_facts v.natAbs
  refine ⟨_, h1, h2, hf, ?_⟩
  unfold written
  cases ht : t.signed
  · left
    have := (hf.2 ht).1
    exact ⟨by simp, by rw [h3]; omega⟩
  · by_cases h : v < 0
    · right; right
      exact ⟨rfl, by simp [h], by rw [h3]; omega⟩
    · right; left
      exact ⟨by simp [h], by rw [h3]; omega⟩

/-- No space in a printed number. -/
theorem written_word {t : IntTy} (v : Int) : written t v ≠ [] ∧ ∀ c ∈ written t v, isSpace c = false := by
  obtain ⟨h1, h2, h3⟩ := toDigits_facts v.natAbs
  have hd : ∀ c ∈ Nat.toDigits 10 v.natAbs, isSpace c = false := fun c hc => (digit_no_sign (h2 c hc)).2.2
  refine ⟨by unfold written; simp [h1], ?_⟩
  intro c hc
  unfold written at hc
  rcases List.mem_append.mp hc with hc | hc
  · split at hc
    · split at hc <;> rw [List.mem_singleton.mp hc] <;> decide
    · cases hc
  · exact hd c hc

/-! ### Texts of words -/

/-- Words followed by a newline, then more words. -/
theorem words_snoc_space {t : List Char} {ws : List (List Char)} (h : Words t ws) {s : List Char}
    (hs : Blank s) : Words (t ++ s) ws := by
  induction h with
  | none h0 =>
    exact .none (fun c hc => (List.mem_append.mp hc).elim (h0 c) (hs c))
  | one h0 h1 h2 h3 =>
    rw [List.append_assoc]
    exact .one h0 h1 h2 (fun c hc => (List.mem_append.mp hc).elim (h3 c) (hs c))
  | cons h0 h1 h2 h3 _ ih =>
    rw [List.append_assoc]
    exact .cons h0 h1 h2 h3 (by simpa using ih)

theorem blank_append {s s' : List Char} (h : Blank s) (h' : Blank s') : Blank (s ++ s') :=
  fun c hc => (List.mem_append.mp hc).elim (h c) (h' c)

theorem words_blank {s t : List Char} {ws : List (List Char)} (hs : Blank s) (h : Words t ws) :
    Words (s ++ t) ws := by
  cases h with
  | none h0 => exact .none (blank_append hs h0)
  | one h0 h1 h2 h3 =>
    rw [List.append_assoc, ← List.append_assoc s, ← List.append_assoc]
    exact .one (blank_append hs h0) h1 h2 h3
  | cons h0 h1 h2 h3 h4 =>
    rw [List.append_assoc, ← List.append_assoc s, ← List.append_assoc]
    exact .cons (blank_append hs h0) h1 h2 h3 h4

theorem words_nil {ws : List (List Char)} (h : Words [] ws) : ws = [] := by
  have key : ∀ {t : List Char} {ws : List (List Char)}, Words t ws → t = [] → ws = [] := by
    intro t ws h
    cases h with
    | none _ => intro _; rfl
    | one _ h1 _ _ => intro ht; simp at ht; exact absurd ht.2.1 h1
    | cons _ h1 _ _ _ => intro ht; simp at ht
  exact key h rfl

/-- Booleans: the scanner of `bool`. -/
theorem sane_scanBool : Sane scanBool where
  consumes c t h := by
    unfold scanBool at h ⊢
    by_cases hh : ((scanInt IntTy.long (c :: t)).ok &&
        ((scanInt IntTy.long (c :: t)).val == 0 || (scanInt IntTy.long (c :: t)).val == 1)) = true
    · simp only [hh, if_true] at h ⊢
      exact (sane_scanInt IntTy.long).consumes c t (by simp only [Bool.and_eq_true] at hh; exact hh.1)
    · simp [hh] at h
  atEnd t h := by
    unfold scanBool at h ⊢
    by_cases hh : ((scanInt IntTy.long t).ok &&
        ((scanInt IntTy.long t).val == 0 || (scanInt IntTy.long t).val == 1)) = true
    · simp only [hh, if_true] at h ⊢
      exact (sane_scanInt IntTy.long).atEnd t h
    · simp only [hh] at h ⊢
      exact (sane_scanInt IntTy.long).atEnd t h

theorem words_column {ws : List (List Char)} (h : ∀ w ∈ ws, w ≠ [] ∧ ∀ c ∈ w, isSpace c = false) :
    Words (column ws) ws := by
  induction ws with
  | nil => exact .none (by intro c hc; cases hc)
  | cons w ws ih =>
    have ih := ih (fun w hw => h w (by simp [hw]))
    have := h w (by simp)
    show Words ((w ++ ['\n']) ++ column ws) (w :: ws)
    have h2 : Words ([] ++ w ++ '\n' :: column ws) (w :: ws) :=
      .cons (by intro c hc; cases hc) this.1 this.2 rfl
        (words_blank (s := ['\n']) (by intro c hc; rw [List.mem_singleton.mp hc]; rfl) ih)
    simpa using h2

theorem row_cons (w v : List Char) (ws : List (List Char)) :
    row (w :: v :: ws) = w ++ ' ' :: ' ' :: row (v :: ws) := by
  simp [row, List.intercalate, List.intersperse]

theorem row_single (w : List Char) : row [w] = w := by simp [row, List.intercalate]

/-- A row of words, each with spaces before it. -/
theorem words_row (pre : List Char → List Char) (hp : ∀ w, Blank (pre w)) : ∀ {ws : List (List Char)},
    (∀ w ∈ ws, w ≠ [] ∧ ∀ c ∈ w, isSpace c = false) → Words (row (ws.map (fun w => pre w ++ w))) ws
  | [], _ => .none (by intro c hc; cases hc)
  | [w], h => by
    have h0 := h w (by simp)
    rw [List.map_singleton, row_single]
    have := Words.one (s' := []) (hp w) h0.1 h0.2 (by intro c hc; cases hc)
    simpa using this
  | w :: v :: ws, h => by
    have ih := words_row pre hp (ws := v :: ws) (fun w hw => h w (by simp [hw]))
    have h0 := h w (by simp)
    rw [List.map_cons, List.map_cons, row_cons]
    rw [List.map_cons] at ih
    exact .cons (hp w) h0.1 h0.2 rfl
      (words_blank (s := [' ', ' ']) (by intro c hc; simp at hc; rw [hc]; rfl) ih)

/-- The lines of a column. -/
theorem textLines_column : ∀ {ls : List (List Char)}, (∀ l ∈ ls, '\n' ∉ l) → textLines (column ls) = ls
  | [], _ => rfl
  | l :: ls, h => by
    have ih := textLines_column (ls := ls) (fun l hl => h l (by simp [hl]))
    have key : ∀ (l : List Char), '\n' ∉ l → textLines (l ++ '\n' :: column ls) = l :: ls := by
      intro l
      induction l with
      | nil => intro _; simp [textLines, ih]
      | cons c l ihl =>
        intro hn
        have hc : c ≠ '\n' := by rintro rfl; exact hn (by simp)
        have := ihl (fun hm => hn (by simp [hm]))
        simp [textLines, hc, this]
    have := key l (h l (by simp))
    show textLines ((l ++ ['\n']) ++ column ls) = _
    simpa using this

theorem row_no_newline {ws : List (List Char)} (h : ∀ w ∈ ws, '\n' ∉ w) : '\n' ∉ row ws := by
  induction ws with
  | nil => simp [row, List.intercalate]
  | cons w ws ih =>
    cases ws with
    | nil => rw [row_single]; exact h w (by simp)
    | cons v ws =>
      have ih := ih (fun w hw => h w (by simp [hw]))
      rw [row_cons]
      simp only [List.mem_append, List.mem_cons, not_or]
      exact ⟨h w (by simp), by decide, by decide, ih⟩

/-- Booleans are read as the numbers 0 and 1. -/
theorem numbers_bool {t : List Char} {vs : List Int} {clean left} (h : Numbers (scanInt IntTy.long) t vs clean left)
    (hv : ∀ v ∈ vs, v = 0 ∨ v = 1) : Numbers scanBool t (vs.map (fun v => v == 1)) clean left := by
  have hbad : ∀ u, (scanInt IntTy.long u).ok = false → (scanBool u).ok = false ∧
      (scanBool u).eof = (scanInt IntTy.long u).eof ∧ (scanBool u).rest = (scanInt IntTy.long u).rest := by
    intro u hu; simp [scanBool, hu]
  have hgood : ∀ u, (scanInt IntTy.long u).ok = true →
      (scanInt IntTy.long u).val = 0 ∨ (scanInt IntTy.long u).val = 1 →
      (scanBool u).ok = true ∧ (scanBool u).val = ((scanInt IntTy.long u).val == 1) ∧
      (scanBool u).eof = (scanInt IntTy.long u).eof ∧ (scanBool u).rest = (scanInt IntTy.long u).rest := by
    intro u hu hv
    rcases hv with hv | hv <;> simp [scanBool, hu, hv]
  induction h with
  | nothing h0 => exact .nothing h0
  | stop h0 h1 h2 =>
    obtain ⟨e1, e2, e3⟩ := hbad _ h2
    rw [← e2, ← e3]
    exact .stop h0 h1 e1
  | last h0 h1 h2 h3 =>
    obtain ⟨e1, e2, e3, e4⟩ := hgood _ h2 (hv _ (by simp))
    rw [List.map_singleton, ← e2]
    exact .last h0 h1 e1 (by rw [e3, h3])
  | more h0 h1 h2 h3 _ ih =>
    obtain ⟨e1, e2, e3, e4⟩ := hgood _ h2 (hv _ (by simp))
    rw [List.map_cons, ← e2]
    exact .more h0 h1 e1 (by rw [e3, h3]) (by rw [e4]; exact ih (fun v hm => hv v (by simp [hm])))

/-! ### Printing loops -/

theorem foldN_pieces {f : Nat → List Char → Res (List Char)} (piece : Nat → List Char) (n : Nat)
    (h : ∀ i out, i < n → f i out = .ok (out ++ piece i)) (out : List Char) :
    foldN n f out = .ok (out ++ ((List.range n).map piece).flatten) := by
  refine foldN_ok (fun k => out ++ ((List.range k).map piece).flatten) n (by simp) ?_
  intro k hk
  rw [h k _ hk]
  simp [List.range_succ]

theorem range_map_getElem {α β : Type} (l : List α) (g : Nat → α → β) :
    l.zipIdx.map (fun p => g p.2 p.1) = (List.range l.length).attach.map
      (fun i => g i.1 (l[i.1]'(by simpa using i.2))) := by
  apply List.ext_getElem
  · simp
  · intro i h1 h2; simp

/-- Pieces for the elements of a list, in terms of its entries. -/
theorem pieces_list {α : Type} (l : List α) (g : Nat → α → List Char) (piece : Nat → List Char)
    (h : ∀ i (hi : i < l.length), piece i = g i l[i]) :
    (List.range l.length).map piece = l.zipIdx.map (fun p => g p.2 p.1) := by
  apply List.ext_getElem
  · simp
  · intro i h1 h2
    have hi : i < l.length := by simpa using h1
    simp [h i hi]

/-- `row` as pieces with separators after all but the last. -/
theorem row_pieces (l : List (List Char)) :
    (l.zipIdx.map (fun p => p.1 ++ (if p.2 + 1 = l.length then [] else [' ', ' ']))).flatten = row l := by
  have key : ∀ (l : List (List Char)) (k N : Nat), k + l.length = N →
      ((l.zipIdx k).map (fun p => p.1 ++ (if p.2 + 1 = N then [] else [' ', ' ']))).flatten = row l := by
    intro l
    induction l with
    | nil => intro k N _; rfl
    | cons w l ih =>
      intro k N hN
      simp only [List.length_cons] at hN
      rw [List.zipIdx_cons, List.map_cons, List.flatten_cons, ih (k + 1) N (by omega)]
      cases l with
      | nil =>
        have : k + 1 = N := by simpa using hN
        simp [this, row, List.intercalate]
      | cons v l =>
        have : k + 1 ≠ N := by simp only [List.length_cons] at hN; omega
        rw [row_cons]
        simp [this]
  exact key l 0 l.length (by omega)

theorem nameLine_eq (name : List Char) : nameLine name = title name := by
  cases name <;> rfl

theorem pad_eq (w : Int) (s : List Char) : pad w s = rightAligned w.toNat s := rfl

/-! ### The largest absolute value -/

theorem abss_ok {t : IntTy} {x : Int} (hf : Fits t x) (hx : ¬ (t.signed = true ∧ x = t.lo)) :
    abss t x = .ok (x.natAbs : Int) := by
  have hp := t.pos
  unfold abss
  cases hs : t.signed with
  | false =>
    have := (hf.2 hs).1
    rw [if_neg (by decide)]
    congr 1; omega
  | true =>
    rw [if_pos rfl]
    have h1 := hf.1 hs
    have hlo : t.lo = -(2 ^ (t.bits - 1)) := by simp [IntTy.lo, hs]
    have hhi : t.hi = 2 ^ (t.bits - 1) - 1 := by simp [IntTy.hi, hs]
    have hne : x ≠ t.lo := fun h => hx ⟨hs, h⟩
    split
    · congr 1; omega
    · have hh : t.Holds (-x) := by
        unfold IntTy.Holds
        rw [hlo] at hne
        rw [hlo, hhi]
        omega
      have : SInt.neg t x = .ok (-x) := by
        simp [SInt.neg, IntTy.arith, hs, hh]
      rw [this]
      congr 1; omega

theorem abss_min {t : IntTy} (hs : t.signed = true) : abss t t.lo = .ub := by
  have hp := t.pos
  have hlo : t.lo = -(2 ^ (t.bits - 1)) := by simp [IntTy.lo, hs]
  have hhi : t.hi = 2 ^ (t.bits - 1) - 1 := by simp [IntTy.hi, hs]
  have h2 : (0 : Int) < 2 ^ (t.bits - 1) := Int.pow_pos (by decide)
  unfold abss
  rw [if_pos hs, if_neg (by rw [hlo]; omega)]
  simp only [SInt.neg, IntTy.arith, hs, if_true]
  rw [if_neg]
  unfold IntTy.Holds
  rw [hlo, hhi]
  omega

/-- The loop of `max`. -/
theorem maxLoop {t : IntTy} : ∀ (l : List Int) (acc : Int), (∀ x ∈ l, Fits t x) →
    ((∀ x ∈ l, ¬ (t.signed = true ∧ x = t.lo)) →
      l.foldlM (fun acc y => do let v ← abss t y; pure (maxs v acc)) acc =
        .ok (l.foldl (fun m x => max m (x.natAbs : Int)) acc)) ∧
    (t.signed = true → t.lo ∈ l →
      l.foldlM (fun acc y => do let v ← abss t y; pure (maxs v acc)) acc = (.ub : Res Int)) := by
  intro l
  induction l with
  | nil => intro acc _; exact ⟨fun _ => rfl, fun _ h => by cases h⟩
  | cons x l ih =>
    intro acc hf
    have hl : ∀ x ∈ l, Fits t x := fun y hy => hf y (by simp [hy])
    by_cases hx : t.signed = true ∧ x = t.lo
    · refine ⟨fun h => absurd hx (h x (by simp)), fun _ _ => ?_⟩
      rw [List.foldlM_cons, hx.2, abss_min hx.1]
      rfl
    · have e := abss_ok (hf x (by simp)) hx
      have hm : maxs (x.natAbs : Int) acc = max acc (x.natAbs : Int) := by
        unfold maxs; split <;> omega
      constructor
      · intro h
        rw [List.foldlM_cons, e]
        simp only [Res.ok_bind, Res.pure_eq, List.foldl_cons]
        rw [hm]
        exact (ih _ hl).1 (fun y hy => h y (by simp [hy]))
      · intro hs hmem
        rw [List.foldlM_cons, e]
        simp only [Res.ok_bind, Res.pure_eq]
        refine (ih _ hl).2 hs ?_
        rcases List.mem_cons.mp hmem with h | h
        · exact absurd ⟨hs, h.symm⟩ hx
        · exact h

end Spp.IO
