import Verif.Props.IO
import Verif.Lemmas.Print

/-
C75: printed texts, and reading them back.
-/

set_option linter.unusedSectionVars false

namespace Spp.Props

open Spp.Spec Spp.IO

variable {α : Type}

/-! ### One-dimensional objects -/

/-- One element per line, below the name if there is one. -/
theorem C75_column (digit : Int → Int) (sh : α → List Char) (name : List Char) {vs : List α}
    {un : Int → Res α} (hun : ∀ i (h : i < vs.length), un i = .ok vs[i]) :
    print1 ⟨false, false⟩ digit sh name vs.length un = .ok (title name ++ column (vs.map sh)) := by
  unfold print1
  simp only [Bool.false_and, Bool.false_eq_true, if_false, Bool.not_false, if_true, nameLine_eq]
  rw [foldN_pieces (fun i => if h : i < vs.length then sh vs[i] ++ ['\n'] else [])]
  · congr 2
    rw [pieces_list vs (fun _ v => sh v ++ ['\n']) _ (fun i hi => by simp [hi])]
    rw [column, List.map_map]
    congr 1
    apply List.ext_getElem
    · simp
    · intro i h1 h2; simp
  · intro i out hi
    rw [hun i hi]
    simp [hi]

/-- In row style: all elements on one line, two spaces apart. -/
theorem C75_row (digit : Int → Int) (sh : α → List Char) (name : List Char) {vs : List α}
    {un : Int → Res α} (hun : ∀ i (h : i < vs.length), un i = .ok vs[i]) :
    print1 ⟨false, true⟩ digit sh name vs.length un =
      .ok (title name ++ row (vs.map sh) ++ ['\n']) := by
  unfold print1
  simp only [Bool.false_and, Bool.false_eq_true, if_false, Bool.not_true, nameLine_eq]
  rw [foldN_pieces (fun i => if h : i < vs.length then
    sh vs[i] ++ (if i + 1 = vs.length then [] else [' ', ' ']) else [])]
  · rw [pieces_list vs (fun i v => sh v ++ (if i + 1 = vs.length then [] else [' ', ' '])) _
      (fun i hi => by simp [hi])]
    rw [Res.ok_bind, Res.pure_eq]
    congr 3
    rw [← row_pieces]
    congr 1
    apply List.ext_getElem
    · simp
    · intro i h1 h2; simp
  · intro i out hi
    rw [hun i hi]
    simp [hi]

/-- Detailed, row style: each element after its label; an empty array is shown as `[]`. -/
theorem C75_row_detailed (digit : Int → Int) (sh : α → List Char) (name : List Char) {vs : List α}
    {un : Int → Res α} (hun : ∀ i (h : i < vs.length), un i = .ok vs[i]) :
    print1 ⟨true, true⟩ digit sh name vs.length un =
      .ok (title name ++ (if vs = [] then "[]\n".toList else []) ++
        row (vs.zipIdx.map (fun p => label1 p.2 ++ [' '] ++ sh p.1)) ++ ['\n']) := by
  have h0 : (vs.length == 0) = decide (vs = []) := by cases vs <;> simp
  unfold print1
  simp only [Bool.true_and, if_true, Bool.not_true, Bool.false_eq_true, if_false, nameLine_eq, h0]
  rw [foldN_pieces (fun i => if h : i < vs.length then
    label1 i ++ [' '] ++ sh vs[i] ++ (if i + 1 = vs.length then [] else [' ', ' ']) else [])]
  · rw [pieces_list vs (fun i v => label1 i ++ [' '] ++ sh v ++ (if i + 1 = vs.length then [] else [' ', ' '])) _
      (fun i hi => by simp [hi])]
    rw [Res.ok_bind, Res.pure_eq]
    congr 3
    · by_cases h : vs = [] <;> simp [h]
    · rw [← row_pieces]
      congr 1
      apply List.ext_getElem
      · simp
      · intro i h1 h2; simp
  · intro i out hi
    rw [hun i hi]
    simp [hi, label1, digits_eq]

theorem digitCount_mono {i n : Nat} (h : i ≤ n) : digitCount i ≤ digitCount n := by
  have hp : 0 < digitCount n := Nat.length_toDigits_pos
  have h2 := (Nat.length_toDigits_le_iff (b := 10) (n := n) (by decide) hp).mp (Nat.le_refl _)
  exact (Nat.length_toDigits_le_iff (b := 10) (n := i) (by decide) hp).mpr (by omega)

theorem smartSpaces_exact {digit : Int → Int} {n i : Nat} (hd : ∀ k : Nat, k ≤ n → digit k = digitCount k)
    (hi : i ≤ n) :
    smartSpaces digit n i = .ok (List.replicate (1 + digitCount n - digitCount i) ' ') := by
  have := digitCount_mono hi
  unfold smartSpaces
  rw [hd n (Nat.le_refl _), hd i hi, if_neg (by omega)]
  congr 2
  omega

/-- Detailed, one element per line: the labels are padded to the same width, so that the elements are
aligned.  (Provided `count_digit`, which goes through `std::log10`, counts the digits of the indexes
correctly.) -/
theorem C75_column_detailed {digit : Int → Int} (sh : α → List Char) (name : List Char) {vs : List α}
    {un : Int → Res α} (hun : ∀ i (h : i < vs.length), un i = .ok vs[i])
    (hd : ∀ k : Nat, k ≤ vs.length → digit k = digitCount k) :
    print1 ⟨true, false⟩ digit sh name vs.length un =
      .ok (title name ++ (if vs = [] then "[]\n".toList else []) ++
        column (vs.zipIdx.map (fun p => leftAligned (digitCount vs.length + 5) (label1 p.2) ++ sh p.1))) := by
  have h0 : (vs.length == 0) = decide (vs = []) := by cases vs <;> simp
  unfold print1
  simp only [Bool.true_and, if_true, Bool.not_false, nameLine_eq, h0]
  rw [foldN_pieces (fun i => if h : i < vs.length then
    leftAligned (digitCount vs.length + 5) (label1 i) ++ sh vs[i] ++ ['\n'] else [])]
  · rw [pieces_list vs (fun i v => leftAligned (digitCount vs.length + 5) (label1 i) ++ sh v ++ ['\n']) _
      (fun i hi => by simp [hi])]
    congr 2
    · by_cases h : vs = [] <;> simp [h]
    · rw [column, List.map_map]
      rfl
  · intro i out hi
    rw [hun i hi]
    simp only [Res.ok_bind, smartSpaces_exact hd (Nat.le_of_lt hi), Res.pure_eq, hi, dite_true]
    have hlen : (label1 i).length = digitCount i + 4 := by simp [label1, digitCount]
    have : leftAligned (digitCount vs.length + 5) (label1 i) =
        label1 i ++ List.replicate (1 + digitCount vs.length - digitCount i) ' ' := by
      unfold leftAligned
      rw [hlen]
      congr 2
      omega
    rw [this]
    simp [label1, digits_eq]

/-! ### Two-dimensional arrays -/

section TwoDim
variable [Inhabited α]

/-- The cells of one row of the print. -/
theorem table_row {L : List (List α)} {n : Nat} (hL : ∀ r ∈ L, r.length = n) {a : Arr2 α}
    (ha : IsMat a (Mat.ofLists L)) {i : Nat} (hi : i < L.length) (cell : Nat → α → List Char)
    {body : Nat → List Char → Res (List Char)}
    (hbody : ∀ j x out, j < n → a.rd2 i j = .ok x →
      body j out = .ok (out ++ cell j x ++ (if j + 1 = n then [] else [' ', ' ']))) (out : List Char) :
    foldN a.cols.toNat body out = .ok (out ++ row ((L[i]).zipIdx.map (fun p => cell p.2 p.1))) := by
  have hr : (L[i]).length = n := hL _ (List.getElem_mem hi)
  have hn : (Mat.ofLists L).n = n := by
    obtain ⟨r, L', rfl⟩ : ∃ r L', L = r :: L' := by
      cases L with
      | nil => simp at hi
      | cons r L' => exact ⟨r, L', rfl⟩
    simpa [Mat.ofLists] using hL r (by simp)
  have hc : a.cols.toNat = (L[i]).length := by rw [ha.cols, hn, hr]; simp
  rw [hc]
  rw [foldN_pieces (fun j => if h : j < (L[i]).length then
    cell j (L[i])[j] ++ (if j + 1 = (L[i]).length then [] else [' ', ' ']) else [])]
  · rw [pieces_list (L[i]) (fun j v => cell j v ++ (if j + 1 = (L[i]).length then [] else [' ', ' '])) _
      (fun j hj => by simp [hj])]
    congr 2
    rw [← row_pieces]
    congr 1
    apply List.ext_getElem
    · simp
    · intro j h1 h2; simp
  · intro j out hj
    rw [hbody j (L[i])[j] out (by omega) ?_]
    · rw [dif_pos hj, hr, List.append_assoc]
    · rw [Arr2.rd2_ok ha (by simpa [Mat.ofLists] using hi) (by omega)]
      simp [Mat.ofLists, List.getD_eq_getElem?_getD, hi, hj]

/-- Rows on lines, elements of a row two spaces apart and right-aligned to the field width. -/
theorem C75_table (rs : Bool) (digit : Int → Int) (sh : α → List Char) (w : Int) (name : List Char)
    {L : List (List α)} {n : Nat} (hL : ∀ r ∈ L, r.length = n) {a : Arr2 α}
    (ha : IsMat a (Mat.ofLists L)) :
    print2 ⟨false, rs⟩ digit sh (.ok w) name a =
      .ok (title name ++ column (L.map (fun r => row (r.map (fun x => rightAligned w.toNat (sh x)))))) := by
  unfold print2
  simp only [Bool.false_and, Bool.false_eq_true, if_false, nameLine_eq, Res.ok_bind]
  rw [show a.rows.toNat = L.length by rw [ha.rows]; simp [Mat.ofLists]]
  rw [foldN_pieces (fun i => if h : i < L.length then
    row ((L[i]).map (fun x => rightAligned w.toNat (sh x))) ++ ['\n'] else [])]
  · rw [pieces_list L (fun _ r => row (r.map (fun x => rightAligned w.toNat (sh x))) ++ ['\n']) _
      (fun i hi => by simp [hi])]
    congr 2
    rw [column, List.map_map]
    congr 1
    apply List.ext_getElem
    · simp
    · intro i h1 h2; simp
  · intro i out hi
    rw [table_row hL ha hi (fun _ x => rightAligned w.toNat (sh x))]
    · rw [Res.ok_bind, Res.pure_eq]
      simp only [hi, dite_true, List.append_assoc]
      congr 3
      congr 1
      apply List.ext_getElem
      · simp
      · intro j h1 h2; simp
    · intro j x out hj hx
      have hcols : a.cols = n := by
        rw [ha.cols]
        have : (Mat.ofLists L).n = n := by
          obtain ⟨r, L', rfl⟩ : ∃ r L', L = r :: L' := by
            cases L with
            | nil => simp at hi
            | cons r L' => exact ⟨r, L', rfl⟩
          simpa [Mat.ofLists] using hL r (by simp)
        rw [this]
      simp only [Res.pure_eq, Res.ok_bind, hx, pad_eq, hcols, List.append_nil]
      by_cases hl : j + 1 = n
      · rw [if_pos hl, if_pos (by omega)]
      · rw [if_neg hl, if_neg (by omega)]

/-- Detailed: each element after its label, with spaces that make up for the digits of the row number
(but not for those of the column number). -/
theorem C75_table_detailed (rs : Bool) {digit : Int → Int} (sh : α → List Char) (w : Int) (name : List Char)
    {L : List (List α)} {n : Nat} (hL : ∀ r ∈ L, r.length = n) {a : Arr2 α}
    (ha : IsMat a (Mat.ofLists L)) (hd : ∀ k : Nat, k ≤ L.length → digit k = digitCount k) :
    print2 ⟨true, rs⟩ digit sh (.ok w) name a =
      .ok (title name ++ (if L = [] then "[]\n".toList else []) ++
        column (L.zipIdx.map (fun r => row (r.1.zipIdx.map (fun x => label2 r.2 x.2 ++
          List.replicate (1 + digitCount L.length - digitCount r.2) ' ' ++
          rightAligned w.toNat (sh x.1)))))) := by
  have h0 : (len a.data == 0) = decide (L = []) := by
    have h1 : (a.data.length : Int) = 0 ↔ L = [] := by
      rw [ha.size]
      have hz := ha.zero
      have hm : (Mat.ofLists L).m = L.length := rfl
      rw [hm] at hz ⊢
      constructor
      · intro h
        have h : L.length * (Mat.ofLists L).n = 0 := by exact_mod_cast h
        rcases Nat.mul_eq_zero.mp h with h | h
        · exact List.length_eq_zero_iff.mp h
        · exact List.length_eq_zero_iff.mp (hz.mpr h)
      · rintro rfl; simp
    by_cases h : L = []
    · simp only [h, decide_true]
      have := h1.mpr h
      simpa [len] using this
    · simp only [h, decide_false]
      have : ¬ (a.data.length : Int) = 0 := fun hh => h (h1.mp hh)
      simpa [len] using this
  unfold print2
  simp only [Bool.true_and, h0, nameLine_eq, Res.ok_bind]
  rw [show a.rows.toNat = L.length by rw [ha.rows]; simp [Mat.ofLists]]
  rw [foldN_pieces (fun i => if h : i < L.length then
    row ((L[i]).zipIdx.map (fun x => label2 i x.2 ++
          List.replicate (1 + digitCount L.length - digitCount i) ' ' ++
          rightAligned w.toNat (sh x.1))) ++ ['\n'] else [])]
  · rw [pieces_list L (fun i r => row (r.zipIdx.map (fun x => label2 i x.2 ++
          List.replicate (1 + digitCount L.length - digitCount i) ' ' ++
          rightAligned w.toNat (sh x.1))) ++ ['\n']) _
      (fun i hi => by simp [hi])]
    congr 2
    · by_cases h : L = [] <;> simp [h]
    · rw [column, List.map_map]
      rfl
  · intro i out hi
    rw [table_row hL ha hi (fun j x => label2 i j ++
          List.replicate (1 + digitCount L.length - digitCount i) ' ' ++
          rightAligned w.toNat (sh x))]
    · rw [Res.ok_bind, Res.pure_eq]
      simp only [hi, dite_true, List.append_assoc]
    · intro j x out hj hx
      have hcols : a.cols = n := by
        rw [ha.cols]
        have : (Mat.ofLists L).n = n := by
          obtain ⟨r, L', rfl⟩ : ∃ r L', L = r :: L' := by
            cases L with
            | nil => simp at hi
            | cons r L' => exact ⟨r, L', rfl⟩
          simpa [Mat.ofLists] using hL r (by simp)
        rw [this]
      have hrows : a.rows = (L.length : Nat) := ha.rows
      simp only [if_true, hrows, smartSpaces_exact hd (Nat.le_of_lt hi), Res.pure_eq, Res.ok_bind, hx, pad_eq, hcols,
        digits_eq]
      have e : (if (j : Int) + 1 = (n : Int) then ([] : List Char) else [' ', ' ']) =
          (if j + 1 = n then [] else [' ', ' ']) := by
        by_cases hl : j + 1 = n
        · rw [if_pos hl, if_pos (by omega)]
        · rw [if_neg hl, if_neg (by omega)]
      rw [e]
      simp [label2]

end TwoDim

/-! ### Field widths -/

/-- The width of integer fields is found from the largest absolute value - unless the array contains the
most negative number of the type, for which it is undefined. -/
theorem C75_width (t : IntTy) (digit : Int → Int) {l : List Int} (hf : ∀ x ∈ l, Fits t x) :
    (¬ (t.signed = true ∧ t.lo ∈ l) →
      intWidth t digit l = .ok (digit ((l.map Int.natAbs).foldl max 0 : Nat) + (if t.signed then 2 else 1))) ∧
    (t.signed = true → t.lo ∈ l → intWidth t digit l = .ub) := by
  have hmax : ∀ (l : List Int) (k : Nat),
      l.foldl (fun m x => max m (x.natAbs : Int)) (k : Int) = ((l.map Int.natAbs).foldl max k : Nat) := by
    intro l
    induction l with
    | nil => intro k; rfl
    | cons x l ih =>
      intro k
      rw [List.foldl_cons, List.map_cons, List.foldl_cons, ← ih]
      congr 1
      omega
  cases l with
  | nil =>
    refine ⟨fun _ => ?_, fun _ h => by cases h⟩
    unfold intWidth maxAbs
    cases t.signed <;> rfl
  | cons x l =>
    have hl : ∀ y ∈ l, Fits t y := fun y hy => hf y (by simp [hy])
    constructor
    · intro h
      have e := abss_ok (hf x (by simp)) (fun hx => h ⟨hx.1, by simp [hx.2]⟩)
      have e2 := (maxLoop l (x.natAbs : Int) hl).1 (fun y hy hh => h ⟨hh.1, by simp [← hh.2, hy]⟩)
      unfold intWidth maxAbs
      simp only [e, Res.ok_bind]
      rw [e2, hmax, Res.ok_bind, Res.pure_eq, List.map_cons, List.foldl_cons, Nat.zero_max]
      cases t.signed <;> rfl
    · intro hs hm
      unfold intWidth maxAbs
      by_cases hx : x = t.lo
      · subst hx
        simp only [abss_min hs]
        rfl
      · have e := abss_ok (hf x (by simp)) (fun hh => hx hh.2)
        have hm' : t.lo ∈ l := by
          rcases List.mem_cons.mp hm with h | h
          · exact absurd h.symm hx
          · exact h
        simp only [e, Res.ok_bind]
        rw [(maxLoop l (x.natAbs : Int) hl).2 hs hm']
        rfl

/-- If `count_digit` is right for the largest absolute value, the width is at least one more than any
number needs, and so all fields of the print have the same length. -/
theorem C75_aligned {t : IntTy} {digit : Int → Int} {l : List Int} (hf : ∀ x ∈ l, Fits t x)
    (hlo : ¬ (t.signed = true ∧ t.lo ∈ l))
    (hd : (digitCount ((l.map Int.natAbs).foldl max 0) : Int) ≤ digit ((l.map Int.natAbs).foldl max 0 : Nat)) :
    ∃ w : Int, intWidth t digit l = .ok w ∧
      ∀ x ∈ l, (written t x).length < w.toNat ∧ (rightAligned w.toNat (written t x)).length = w.toNat := by
  refine ⟨_, (C75_width t digit hf).1 hlo, ?_⟩
  intro x hx
  have hle : x.natAbs ≤ (l.map Int.natAbs).foldl max 0 := by
    have key : ∀ (l : List Nat) (k : Nat), k ≤ l.foldl max k ∧ ∀ y ∈ l, y ≤ l.foldl max k := by
      intro l
      induction l with
      | nil => intro k; simp
      | cons y l ih =>
        intro k
        obtain ⟨h1, h2⟩ := ih (max k y)
        refine ⟨by rw [List.foldl_cons]; omega, ?_⟩
        intro z hz
        rw [List.foldl_cons]
        rcases List.mem_cons.mp hz with rfl | hz
        · omega
        · exact h2 z hz
    exact (key _ 0).2 _ (List.mem_map_of_mem hx)
  have hc := digitCount_mono hle
  have hlen : (written t x).length = digitCount x.natAbs + (if t.signed then 1 else 0) := by
    unfold written digitCount
    cases t.signed
    · simp
    · by_cases h : x < 0 <;> simp [h]
  have h1 : (written t x).length <
      (digit ((l.map Int.natAbs).foldl max 0 : Nat) + (if t.signed then 2 else 1)).toNat := by
    rw [hlen]
    cases t.signed <;> simp <;> omega
  refine ⟨h1, ?_⟩
  unfold rightAligned
  simp only [List.length_append, List.length_replicate]
  omega

/-- Printing a two-dimensional array that contains the most negative number of its type is undefined
behaviour, whatever the format. -/
theorem C75_most_negative {t : IntTy} (ht : t.signed = true) (f : Format) (digit : Int → Int)
    (name : List Char) {a : Arr2 Int} (hf : ∀ x ∈ a.data, Fits t x) (hm : t.lo ∈ a.data) :
    print2 f digit (showInt t) (intWidth t digit a.data) name a = .ub := by
  unfold print2
  rw [(C75_width t digit hf).2 ht hm]
  rfl

/-! ### Reading a print back -/

/-- A printed one-dimensional integer array, read back, is the array; in every build and in both
styles. -/
theorem C75_read_back (b : Build) (rs : Bool) (digit : Int → Int) {t : IntTy} {vs : List Int} {un : Int → Res Int}
    (hun : ∀ i (h : i < vs.length), un i = .ok vs[i]) (hf : ∀ v ∈ vs, Fits t v) (hsz : vs.length < 2 ^ 61)
    (A : List Int) :
    ∃ text, print1 ⟨false, rs⟩ digit (showInt t) [] vs.length un = .ok text ∧
      read1 b (scanInt t) (.ofText text, A) = (.ok (), (.ofText [], vs)) := by
  have hsh : (showInt t) = written t := funext (showInt_eq t)
  have hw : ∀ w ∈ vs.map (written t), w ≠ [] ∧ ∀ c ∈ w, isSpace c = false := by
    intro w hw
    obtain ⟨v, _, rfl⟩ := List.mem_map.mp hw
    exact written_word v
  have hn : List.Forall₂ (Numeral t) (vs.map (written t)) vs := by
    rw [List.forall₂_map_left_iff]
    exact List.forall₂_same.mpr (fun v hv => numeral_written (hf v hv))
  cases rs with
  | false =>
    refine ⟨_, C75_column digit (showInt t) [] hun, ?_⟩
    rw [hsh]
    exact C66_integers b t (words_column hw) hn hsz A
  | true =>
    refine ⟨_, C75_row digit (showInt t) [] hun, ?_⟩
    rw [hsh]
    have h1 := words_row (fun _ => []) (fun _ c hc => by cases hc) hw
    simp only [List.nil_append, List.map_id'] at h1
    exact C66_integers b t (words_snoc_space h1 (by intro c hc; rw [List.mem_singleton.mp hc]; rfl)) hn hsz A

/-- The same for two-dimensional arrays, whatever the field width. -/
theorem C75_read_back_table (b : Build) (rs : Bool) (digit : Int → Int) (w : Int) {t : IntTy}
    {L : List (List Int)} {n : Nat} (hn : 0 < n) (hne : L ≠ []) (hL : ∀ r ∈ L, r.length = n)
    (hf : ∀ r ∈ L, ∀ v ∈ r, Fits t v) (hsz : L.length * n < 2 ^ 61) {a : Arr2 Int}
    (ha : IsMat a (Mat.ofLists L)) (A : Arr2 Int) :
    ∃ text, print2 ⟨false, rs⟩ digit (showInt t) (.ok w) [] a = .ok text ∧
      ∃ A', read2 b (scanInt t) (.ofText text, A) = (.ok (), (⟨[], true, true⟩, A')) ∧
        IsMat A' (Mat.ofLists L) := by
  have hsh : (showInt t) = written t := funext (showInt_eq t)
  refine ⟨_, C75_table rs digit (showInt t) w [] hL ha, ?_⟩
  rw [hsh]
  have hword : ∀ r : List Int, ∀ x ∈ r.map (written t), x ≠ [] ∧ ∀ c ∈ x, isSpace c = false := by
    intro r x hx
    obtain ⟨v, _, rfl⟩ := List.mem_map.mp hx
    exact written_word v
  have hwords : ∀ r : List Int, Words (row (r.map (fun x => rightAligned w.toNat (written t x))))
      (r.map (written t)) := by
    intro r
    have := words_row (fun x => List.replicate (w.toNat - x.length) ' ')
      (fun x c hc => by rw [(List.mem_replicate.mp hc).2]; rfl) (hword r)
    rw [List.map_map] at this
    exact this
  have hnl : ∀ l ∈ L.map (fun r => row (r.map (fun x => rightAligned w.toNat (written t x)))), '\n' ∉ l := by
    intro l hl
    obtain ⟨r, _, rfl⟩ := List.mem_map.mp hl
    apply row_no_newline
    intro x hx
    obtain ⟨v, hv, rfl⟩ := List.mem_map.mp hx
    unfold rightAligned
    intro hmem
    rcases List.mem_append.mp hmem with h | h
    · have := (List.mem_replicate.mp h).2; cases this
    · have := (written_word (t := t) v).2 _ h
      simp [isSpace] at this
  have hlines := textLines_column hnl
  have hne' : ∀ l ∈ L.map (fun r => row (r.map (fun x => rightAligned w.toNat (written t x)))),
      (!l.isEmpty) = true := by
    intro l hl
    obtain ⟨r, hr, rfl⟩ := List.mem_map.mp hl
    cases hrow : row (r.map (fun x => rightAligned w.toNat (written t x))) with
    | cons => rfl
    | nil =>
      exfalso
      have hh := hwords r
      rw [hrow] at hh
      have hl := hL r hr
      cases hr' : r with
      | nil => rw [hr'] at hl; simp at hl; omega
      | cons x r' =>
        rw [hr'] at hh
        have := words_nil hh
        simp at this
  refine C67_integers b t (lines := L.map (fun r => r.map (written t))) (M := L) hn ?_ ?_ hL hne hsz A
  · show List.Forall₂ Words (List.filter (fun l => !l.isEmpty) (textLines (title [] ++ column _))) _
    rw [show title [] = [] from rfl, List.nil_append, hlines, List.filter_eq_self.mpr hne',
      List.forall₂_map_left_iff, List.forall₂_map_right_iff]
    exact List.forall₂_same.mpr (fun r _ => hwords r)
  · rw [List.forall₂_map_left_iff]
    refine List.forall₂_same.mpr (fun r hr => ?_)
    rw [List.forall₂_map_left_iff]
    exact List.forall₂_same.mpr (fun v hv => numeral_written (hf r hr v hv))

/-- Writing to a file and reading the file. -/
theorem C75_file {b : Build} (hb : b.Guarded) (text : List Char) (old : List Char) :
    printFile b (.ok text) none = (.trap b.kind, none) ∧
    printFile b (.ok text) (some old) = (.ok (), some text) := by
  constructor
  · simp only [printFile, Op.get_bind, Option.isSome_none, assertAlways_false hb, Op.lift_trap_bind]
  · simp only [printFile, Op.get_bind, Option.isSome_some, assertAlways_true, Op.lift_ok_bind, if_true, Op.set_bind,
      Op.set_run]

/-- `print_to_file` then `read_from_file` restores a one-dimensional integer array. -/
theorem C75_file_round_trip {b : Build} (hb : b.Guarded) (digit : Int → Int) {t : IntTy} {vs : List Int}
    (rs : Bool) {un : Int → Res Int}
    (hun : ∀ i (h : i < vs.length), un i = .ok vs[i]) (hf : ∀ v ∈ vs, Fits t v) (hsz : vs.length < 2 ^ 61)
    (old : List Char) (A : List Int) :
    ∃ file, printFile b (print1 ⟨false, rs⟩ digit (showInt t) [] vs.length un) (some old) = (.ok (), file) ∧
      readFile1 b (scanInt t) file A = (.ok (), vs) := by
  obtain ⟨text, e1, e2⟩ := C75_read_back b rs digit hun hf hsz A
  refine ⟨some text, by rw [e1]; exact (C75_file hb text old).2, ?_⟩
  rw [(C66_file hb (scanInt t) A text).2, e2]

/-- A printed integer scalar, read back. -/
theorem C75_scalar (b : Build) {t : IntTy} {v : Int} (hf : Fits t v) (x : Int) :
    printScalar [] (showInt t v) = written t v ++ ['\n'] ∧
    readScalar b (scanInt t) (.ofText (written t v ++ ['\n']), x) =
      (.ok (), (.ofText ['\n'], v)) := by
  refine ⟨by rw [showInt_eq]; simp [printScalar, nameLine], ?_⟩
  have hscan := scan_numeral (numeral_written hf) (noDigit_space (c := '\n') rfl [])
  obtain ⟨c, u, hcu, hc⟩ := numeral_ne (numeral_written (t := t) hf)
  rw [hcu] at hscan ⊢
  have he := extract_number (scanInt t) (s := []) (c := c) (t := u ++ ['\n']) (by simp) hc
  rw [List.nil_append] at he
  rw [List.cons_append] at hscan ⊢
  rw [hscan] at he
  simp only [readScalar, Op.get_bind, he, Op.set_bind, Bool.not_true, Bool.not_false, assertAlways_true,
    Op.lift_ok_bind, Op.set_run]
  rfl

/-- Booleans are printed as `true` and `false`, but reading expects 0 and 1: reading back a printed
boolean array that is not empty fails and leaves the target as it was. -/
theorem C75_booleans {b : Build} (hb : b.Guarded) (rs : Bool) (digit : Int → Int) {vs : List Bool}
    (hne : vs ≠ []) {un : Int → Res Bool} (hun : ∀ i (h : i < vs.length), un i = .ok vs[i]) (A : List Bool) :
    ∃ text s, print1 ⟨false, rs⟩ digit showBool [] vs.length un = .ok text ∧
      read1 b scanBool (.ofText text, A) = (.trap b.kind, (s, A)) := by
  obtain ⟨v, vs', rfl⟩ : ∃ v vs', vs = v :: vs' := by
    cases vs with
    | nil => exact absurd rfl hne
    | cons v vs' => exact ⟨v, vs', rfl⟩
  obtain ⟨c, hc, u, hv⟩ : ∃ c, (c = 't' ∨ c = 'f') ∧ ∃ u, showBool v = c :: u := by
    cases v
    · exact ⟨'f', .inr rfl, _, rfl⟩
    · exact ⟨'t', .inl rfl, _, rfl⟩
  have htext : ∃ text, print1 ⟨false, rs⟩ digit showBool [] (v :: vs').length un = .ok text ∧
      ∃ z, text = c :: z := by
    cases rs with
    | false =>
      refine ⟨_, C75_column digit showBool [] hun, ?_⟩
      rw [List.map_cons, hv]
      exact ⟨_, rfl⟩
    | true =>
      refine ⟨_, C75_row digit showBool [] hun, ?_⟩
      rw [List.map_cons, hv]
      cases vs' with
      | nil => rw [List.map_nil, row_single]; exact ⟨_, rfl⟩
      | cons x xs => rw [List.map_cons, row_cons]; exact ⟨_, rfl⟩
  obtain ⟨text, e, z, rfl⟩ := htext
  have hscan : scanBool (c :: z) = ⟨false, false, c :: z, false⟩ := by
    have : scanInt IntTy.long (c :: z) = ⟨0, false, c :: z, false⟩ := by
      rcases hc with rfl | rfl <;> simp [scanInt, List.takeWhile, List.dropWhile, Char.isDigit]
    unfold scanBool
    rw [this]
    rfl
  have hs : isSpace c = false := by rcases hc with rfl | rfl <;> decide
  have hN := Numbers.stop (num := scanBool) (s := []) (c := c) (t := z) (by simp) hs (by rw [hscan])
  rw [hscan] at hN
  exact ⟨c :: z, _, e, (C66_outcome b sane_scanBool hN (by simp) A).2 ⟨rfl, hb⟩⟩

/-- Boolean arrays are read from the numerals of 0 and 1. -/
theorem C75_booleans_read (b : Build) {t : List Char} {ws : List (List Char)} {vs : List Int}
    (hw : Words t ws) (hv : List.Forall₂ (Numeral IntTy.long) ws vs) (h01 : ∀ v ∈ vs, v = 0 ∨ v = 1)
    (hsz : vs.length < 2 ^ 61) (A : List Bool) :
    read1 b scanBool (.ofText t, A) = (.ok (), (.ofText [], vs.map (fun v => v == 1))) :=
  (C66_outcome b sane_scanBool (numbers_bool (numbers_words_end hw hv) h01) (by simpa using hsz) A).1 (.inl rfl)

/-! ### Several objects -/

/-- `print` of several arrays puts an empty line between them; `printn` puts one after each. -/
theorem C75_several (ts : List (List Char)) :
    printArrays ts = ['\n'].intercalate ts ∧ printnArrays ts = column ts ∧
    printScalars ts = column ts ∧ printnScalars ts = column ts ++ ['\n'] := by
  refine ⟨?_, ?_, ?_, ?_⟩
  · induction ts with
    | nil => rfl
    | cons t ts ih =>
      cases ts with
      | nil => simp [printArrays, List.intercalate]
      | cons u us =>
        rw [printArrays, ih]
        · simp [List.intercalate, List.intersperse]
        · intro h; cases h
  · induction ts with
    | nil => rfl
    | cons t ts ih => rw [printnArrays, ih]; rfl
  · induction ts with
    | nil => rfl
    | cons t ts ih => rw [printScalars, ih]; simp [printScalar, nameLine, column]
  · rw [printnScalars]
    congr 1
    induction ts with
    | nil => rfl
    | cons t ts ih => rw [printScalars, ih]; simp [printScalar, nameLine, column]

/-- A printed vector of indexes, read back as an array. -/
theorem C75_indexes (b : Build) {l : List Int} (hf : ∀ v ∈ l, Fits IntTy.long v) (hsz : l.length < 2 ^ 61)
    (A : List Int) :
    printIndexes l = column (l.map (written IntTy.long)) ∧
    read1 b (scanInt IntTy.long) (.ofText (printIndexes l), A) = (.ok (), (.ofText [], l)) := by
  have e : printIndexes l = column (l.map (written IntTy.long)) := by
    have key : ∀ (l : List Int) (out : List Char),
        l.foldl (fun out x => out ++ showInt IntTy.long x ++ ['\n']) out =
          out ++ column (l.map (written IntTy.long)) := by
      intro l
      induction l with
      | nil => intro out; simp [column]
      | cons x l ih => intro out; rw [List.foldl_cons, ih, showInt_eq]; simp [column]
    exact key l []
  refine ⟨e, ?_⟩
  rw [e]
  refine C66_integers b _ (words_column ?_) ?_ hsz A
  · intro w hw
    obtain ⟨v, _, rfl⟩ := List.mem_map.mp hw
    exact written_word v
  · rw [List.forall₂_map_left_iff]
    exact List.forall₂_same.mpr (fun v hv => numeral_written (hf v hv))

/-! Examples -/

/-- Two elements, printed in a column. -/
example : print1 ⟨false, false⟩ (fun _ => 0) (showInt IntTy.int) "A".toList 2 (fun i => .ok (5 - 12 * i)) =
    .ok "A:\n+5\n-7\n".toList := by
  have h := C75_column (fun _ => 0) (showInt IntTy.int) "A".toList (vs := [5, -7])
    (un := fun i => .ok (5 - 12 * i)) (by
      intro i h
      have : i = 0 ∨ i = 1 := by simp at h; omega
      rcases this with rfl | rfl <;> rfl)
  rw [show [5, -7].length = 2 from rfl] at h
  rw [h, show showInt IntTy.int = written IntTy.int from funext (showInt_eq _)]
  decide +kernel

/-- Unsigned numbers carry no sign; the labels are aligned. -/
example : print1 ⟨true, false⟩ (fun i => digitCount i.toNat) (showInt IntTy.uint) [] 2 (fun i => .ok (5 + 12 * i)) =
    .ok "[0] = 5\n[1] = 17\n".toList := by
  have h := C75_column_detailed (digit := fun i => (digitCount i.toNat : Int)) (showInt IntTy.uint) []
    (vs := [5, 17]) (un := fun i => .ok (5 + 12 * i)) (by
      intro i h
      have : i = 0 ∨ i = 1 := by simp at h; omega
      rcases this with rfl | rfl <;> rfl) (by intro k _; simp)
  rw [show ([5, 17] : List Int).length = 2 from rfl] at h
  rw [h, show showInt IntTy.uint = written IntTy.uint from funext (showInt_eq _)]
  decide +kernel

/-- Ten elements: the labels of the first ones get one more space. -/
example : leftAligned (digitCount 10 + 5) (label1 3) = "[3] =  ".toList ∧
    leftAligned (digitCount 10 + 5) (label1 9) ++ "+1".toList = "[9] =  +1".toList := by decide +kernel

theorem sample_mat : IsMat (⟨2, 2, [1, -20, 300, 4]⟩ : Arr2 Int) (Mat.ofLists [[1, -20], [300, 4]]) := by
  refine ⟨rfl, rfl, rfl, by decide, ?_⟩
  intro i j hi hj
  simp only [Mat.ofLists, List.length_cons, List.length_nil] at hi hj
  have hi : i = 0 ∨ i = 1 := by omega
  have hj : j = 0 ∨ j = 1 := by simp at hj; omega
  rcases hi with rfl | rfl <;> rcases hj with rfl | rfl <;> rfl

example : print2 ⟨false, false⟩ (fun _ => 3) (showInt IntTy.int) (.ok 5) [] ⟨2, 2, [1, -20, 300, 4]⟩ =
    .ok "   +1    -20\n +300     +4\n".toList := by
  rw [C75_table false (fun _ => 3) (showInt IntTy.int) 5 [] (L := [[1, -20], [300, 4]]) (n := 2) (by decide)
    sample_mat]
  rw [show showInt IntTy.int = written IntTy.int from funext (showInt_eq _)]
  decide +kernel

example : ∃ w, intWidth IntTy.int (fun i => digitCount i.toNat) [1, -20, 300, 4] = .ok w ∧
    ∀ x ∈ [1, -20, 300, 4], (written IntTy.int x).length < w.toNat ∧
      (rightAligned w.toNat (written IntTy.int x)).length = w.toNat :=
  C75_aligned (by
    intro x hx
    simp only [List.mem_cons, List.not_mem_nil, or_false] at hx
    rcases hx with rfl | rfl | rfl | rfl <;> exact ⟨fun _ => by decide, fun h => by cases h⟩)
    (by decide) (by simp)

example (f : Format) (digit : Int → Int) :
    print2 f digit (showInt IntTy.int) (intWidth IntTy.int digit [7, -2147483648]) [] ⟨1, 2, [7, -2147483648]⟩ = .ub :=
  C75_most_negative (t := IntTy.int) rfl f digit [] (a := ⟨1, 2, [7, -2147483648]⟩) (by
    intro x hx
    simp only [List.mem_cons, List.not_mem_nil, or_false] at hx
    rcases hx with rfl | rfl <;> exact ⟨fun _ => by decide, fun h => by cases h⟩) (by decide)

example (b : Build) : ∃ text, print2 ⟨false, true⟩ (fun _ => 3) (showInt IntTy.int) (.ok 5) []
      ⟨2, 2, [1, -20, 300, 4]⟩ = .ok text ∧
    ∃ A', read2 b (scanInt IntTy.int) (.ofText text, Arr2.empty) = (.ok (), (⟨[], true, true⟩, A')) ∧
      IsMat A' (Mat.ofLists [[1, -20], [300, 4]]) :=
  C75_read_back_table b true (fun _ => 3) 5 (n := 2) (by decide) (by simp) (by decide) (by
    intro r hr v hv
    have : v ∈ [1, -20, 300, 4] := by
      simp only [List.mem_cons, List.not_mem_nil, or_false] at hr
      rcases hr with rfl | rfl <;> simp_all
      rcases hv with rfl | rfl <;> simp
    simp only [List.mem_cons, List.not_mem_nil, or_false] at this
    rcases this with rfl | rfl | rfl | rfl <;> exact ⟨fun _ => by decide, fun h => by cases h⟩)
    (by decide) sample_mat Arr2.empty

example (b : Build) : ∃ text, print1 ⟨false, true⟩ (fun _ => 0) (showInt IntTy.int) [] [5, -7].length
      (fun i => .ok (5 - 12 * i)) = .ok text ∧
    read1 b (scanInt IntTy.int) (.ofText text, [1]) = (.ok (), (.ofText [], [5, -7])) :=
  C75_read_back b true (fun _ => 0) (by
    intro i h
    have : i = 0 ∨ i = 1 := by simp at h; omega
    rcases this with rfl | rfl <;> rfl) (by
    intro x hx
    simp only [List.mem_cons, List.not_mem_nil, or_false] at hx
    rcases hx with rfl | rfl <;> exact ⟨fun _ => by decide, fun h => by cases h⟩) (by decide) [1]

example : ∃ text s, print1 ⟨false, false⟩ (fun _ => 0) showBool [] [true].length (fun _ => .ok true) = .ok text ∧
    read1 ⟨true, true, true⟩ scanBool (.ofText text, [false]) = (.trap .exception, (s, [false])) :=
  C75_booleans (b := ⟨true, true, true⟩) (by decide) false (fun _ => 0) (vs := [true]) (by simp)
    (by intro i h; obtain rfl : i = 0 := by simpa using h
        rfl) [false]

end Spp.Props
