import Verif.Props.Print
import Verif.Lemmas.FloatIO

/-
C76: printing and reading floating-point numbers.
-/

set_option linter.unusedSectionVars false

namespace Spp.Props

open Spp.Spec Spp.IO Spp.Lemmas

/-- In scientific format a number is written with a sign, one digit before and `P` after the point and an
exponent; the decimal differs from the number by at most half a unit in the last of the `P + 1` digits. -/
theorem C76_scientific (P : Nat) (x : ℚ) :
    ∃ D, Scientific P (showFloat true P x) D ∧ |x - D| ≤ |x| / 10 ^ P / 2 :=
  showSci_spec P x

/-- In fixed format there are `P` digits after the point and the error is at most half a unit in the last
of them. -/
theorem C76_fixed (P : Nat) (x : ℚ) :
    ∃ D, Fixed P (showFloat false P x) D ∧ |x - D| ≤ 1 / 10 ^ P / 2 :=
  showFixed_spec P x

theorem signed_nearest {x w y : ℚ} {n : Nat} (hw : 0 < w) (hy : y * w = |x|)
    (hn : ∀ j : Int, |y - n| ≤ |y - j| ∧ (|y - n| = |y - j| → j ≠ n → Even n)) :
    ∃ k : Int, signed (decide (x < 0)) (n * w) = k * w ∧
      (∀ j : Int, |x - k * w| ≤ |x - j * w|) ∧
      (∀ j : Int, j ≠ k → |x - k * w| = |x - j * w| → Even k) := by
  have scale : ∀ q : ℚ, |y - q| * w = |(|x| - q * w)| := by
    intro q
    rw [← hy, ← sub_mul, abs_mul, abs_of_pos hw]
  by_cases hx : x < 0
  · have flip : ∀ j : Int, |x - j * w| = |y - ((-j : Int) : ℚ)| * w := by
      intro j
      rw [scale, abs_of_neg hx]
      push_cast
      rw [← abs_neg]
      congr 1; ring
    refine ⟨-n, by simp [hx, signed], fun j => ?_, fun j hj he => ?_⟩
    · rw [flip, flip]
      have := (hn (-j)).1
      simp only [neg_neg]
      exact mul_le_mul_of_nonneg_right (by exact_mod_cast this) hw.le
    · rw [flip, flip] at he
      have he := mul_right_cancel₀ hw.ne' he
      simp only [neg_neg] at he
      have := (hn (-j)).2 (by exact_mod_cast he) (by omega)
      exact Even.neg (by exact_mod_cast this)
  · have flip : ∀ j : Int, |x - j * w| = |y - (j : ℚ)| * w := by
      intro j
      rw [scale, abs_of_nonneg (not_lt.1 hx)]
    refine ⟨n, by simp [hx, signed], fun j => ?_, fun j hj he => ?_⟩
    · rw [flip, flip]
      exact mul_le_mul_of_nonneg_right (by exact_mod_cast (hn j).1) hw.le
    · rw [flip, flip] at he
      have he := mul_right_cancel₀ hw.ne' he
      have := (hn j).2 (by exact_mod_cast he) hj
      exact_mod_cast this

/-- C76: in scientific format the decimal is, of all with `P` digits after the first digit of the number, one that
is nearest to it, and of two nearest ones the one whose last digit is even. -/
theorem C76_nearest_scientific (P : Nat) {x : ℚ} {e : Int} (h1 : (10 : ℚ) ^ e ≤ |x|) (h2 : |x| < 10 ^ (e + 1)) :
    ∃ (k : Int), Scientific P (showFloat true P x) (k * 10 ^ (e - P)) ∧
      (∀ j : Int, |x - k * 10 ^ (e - P)| ≤ |x - j * 10 ^ (e - P)|) ∧
      (∀ j : Int, j ≠ k → |x - k * 10 ^ (e - P)| = |x - j * 10 ^ (e - P)| → Even k) := by
  have hx : 0 < |x| := lt_of_lt_of_le (ten_pos e) h1
  have he : Int.log 10 |x| = e := by
    have a := (Int.zpow_le_iff_le_log (b := 10) (by norm_num) (x := e) hx).mp (by simpa using h1)
    have c := (Int.lt_zpow_iff_log_lt (b := 10) (by norm_num) (x := e + 1) hx).mp (by simpa using h2)
    omega
  obtain ⟨D, d1, -, d3⟩ := showSci_full P x
  have d3 := d3 (abs_pos.1 hx)
  rw [he] at d3
  have hy : |x| * 10 ^ ((P : Int) - e) * 10 ^ (e - (P : Int)) = |x| := by
    rw [mul_assoc, ← zpow_add₀ (by norm_num)]
    simp
  obtain ⟨k, k1, k2, k3⟩ := signed_nearest (x := x) (ten_pos (e - P)) hy
    (roundEven_nearest (by have := ten_pos ((P : Int) - e); positivity))
  refine ⟨k, ?_, k2, k3⟩
  rw [← k1, ← d3]
  exact d1

/-- C76: the same in fixed format for the decimals with `P` digits after the point. -/
theorem C76_nearest_fixed (P : Nat) (x : ℚ) :
    ∃ (k : Int), Fixed P (showFloat false P x) (k / 10 ^ P) ∧
      (∀ j : Int, |x - k / 10 ^ P| ≤ |x - j / 10 ^ P|) ∧
      (∀ j : Int, j ≠ k → |x - k / 10 ^ P| = |x - j / 10 ^ P| → Even k) := by
  obtain ⟨D, d1, -, d3⟩ := showFixed_full P x
  have hT : (0 : ℚ) < 10 ^ P := by positivity
  have hy : |x| * 10 ^ P * (10 ^ P)⁻¹ = |x| := by field_simp
  obtain ⟨k, k1, k2, k3⟩ := signed_nearest (x := x) (inv_pos.2 hT) hy (roundEven_nearest (by positivity))
  simp only [← div_eq_mul_inv] at k1 k2 k3
  refine ⟨k, ?_, k2, k3⟩
  rw [← k1, ← d3]
  exact d1

-- 0.125 with two digits is a tie between 0.12 and 0.13
example : ∃ k : Int, Fixed 2 (showFloat false 2 (1 / 8)) (k / 10 ^ 2) ∧ k = 12 := by
  obtain ⟨k, h1, h2, h3⟩ := C76_nearest_fixed 2 (1 / 8)
  refine ⟨k, h1, ?_⟩
  have a := h2 12
  have b := h3 12
  have c := h3 13
  have hk : (12 : ℚ) ≤ k ∧ (k : ℚ) ≤ 13 := by
    rw [show |(1 / 8 : ℚ) - ((12 : Int) : ℚ) / 10 ^ 2| = 1 / 200 by norm_num [abs_of_pos], abs_le] at a
    constructor <;> linarith [a.1, a.2]
  have hk1 : 12 ≤ k := by exact_mod_cast hk.1
  have hk2 : k ≤ 13 := by exact_mod_cast hk.2
  by_contra hne
  have h13 : k = 13 := by omega
  subst h13
  have : Even (13 : Int) := b (by norm_num) (by norm_num [abs_of_neg, abs_of_pos])
  exact absurd this (by decide)

/-- Texts of both formats are read as the number nearest to the decimal. -/
theorem C76_reads {rn : ℚ → ℚ} {P : Nat} {w rest : List Char} {D : ℚ} (h : Scientific P w D ∨ Fixed P w D)
    (hr : rest = [] ∨ ∃ c u, rest = c :: u ∧ isSpace c = true) :
    scanFloat rn (w ++ rest) = ⟨rn D, true, rest, rest.isEmpty⟩ := by
  have he : Ends rest := by
    intro c hc
    rcases hr with rfl | ⟨d, u, rfl, hd⟩
    · cases hc
    · simp only [List.head?_cons, Option.some.injEq] at hc; subst hc; exact hd
  rcases h with h | h
  · exact reads_scientific h rest he
  · exact reads_fixed h rest he

/-! ### Reading back -/

/-- One number: with `P` digits after the point such that `2^p < 10^P`, the text determines the number,
whatever the rounding of ties. -/
theorem C76_number {p P : Nat} {emin : Int} {rn : ℚ → ℚ} (h : Nearest p emin rn) (hP : 2 ^ p < 10 ^ P) {x : ℚ}
    (hx : Rep p emin x) : Reads (scanFloat rn) (showFloat true P x) x := by
  obtain ⟨D, h1, h2⟩ := showSci_spec P x
  have := reads_scientific (rn := rn) h1
  rwa [rn_decimal h hP hx h2] at this

/-- Reading back a print, for any kind of element whose texts are words that the scanner reads. -/
theorem read_back_words {α : Type} [Inhabited α] (b : Build) (rs : Bool) (digit : Int → Int) {sh : α → List Char}
    {num : Scanner α} (hn : Sane num) {vs : List α} {un : Int → Res α}
    (hun : ∀ i (h : i < vs.length), un i = .ok vs[i])
    (hsh : ∀ v ∈ vs, sh v ≠ [] ∧ (∀ c ∈ sh v, isSpace c = false) ∧ Reads num (sh v) v)
    (hsz : vs.length < 2 ^ 61) (A : List α) :
    ∃ text, print1 ⟨false, rs⟩ digit sh [] vs.length un = .ok text ∧
      read1 b num (.ofText text, A) = (.ok (), (.ofText [], vs)) := by
  have hw : ∀ w ∈ vs.map sh, w ≠ [] ∧ ∀ c ∈ w, isSpace c = false := by
    intro w hw
    obtain ⟨v, hv, rfl⟩ := List.mem_map.mp hw
    exact ⟨(hsh v hv).1, (hsh v hv).2.1⟩
  have hr : List.Forall₂ (Reads num) (vs.map sh) vs := by
    rw [List.forall₂_map_left_iff]
    exact List.forall₂_same.mpr (fun v hv => (hsh v hv).2.2)
  cases rs with
  | false =>
    exact ⟨_, C75_column digit sh [] hun,
      (C66_outcome b hn (numbers_reads (words_column hw) hr) hsz A).1 (.inl rfl)⟩
  | true =>
    refine ⟨_, C75_row digit sh [] hun, ?_⟩
    have h1 := words_row (fun _ => []) (fun _ c hc => by cases hc) hw
    simp only [List.nil_append, List.map_id'] at h1
    exact (C66_outcome b hn (numbers_reads (words_snoc_space h1
      (by intro c hc; rw [List.mem_singleton.mp hc]; rfl)) hr) hsz A).1 (.inl rfl)

/-- The same for two-dimensional arrays. -/
theorem read_back_table {α : Type} [Inhabited α] (b : Build) (rs : Bool) (digit : Int → Int) (w : Int)
    {sh : α → List Char} {num : Scanner α} (hn : Sane num) {L : List (List α)} {n : Nat} (hpos : 0 < n)
    (hne : L ≠ []) (hL : ∀ r ∈ L, r.length = n)
    (hsh : ∀ r ∈ L, ∀ v ∈ r, sh v ≠ [] ∧ (∀ c ∈ sh v, isSpace c = false) ∧ Reads num (sh v) v)
    (hsz : L.length * n < 2 ^ 61) {a : Arr2 α} (ha : IsMat a (Mat.ofLists L)) (A : Arr2 α) :
    ∃ text, print2 ⟨false, rs⟩ digit sh (.ok w) [] a = .ok text ∧
      ∃ A', read2 b num (.ofText text, A) = (.ok (), (⟨[], true, true⟩, A')) ∧
        IsMat A' (Mat.ofLists L) := by
  refine ⟨_, C75_table rs digit sh w [] hL ha, ?_⟩
  have hrow : ∀ r ∈ L, RowOf num (row (r.map (fun x => rightAligned w.toNat (sh x)))) r := by
    intro r hr
    have hw := words_row (fun x => List.replicate (w.toNat - x.length) ' ')
      (fun x c hc => by rw [(List.mem_replicate.mp hc).2]; rfl) (ws := r.map sh) (by
        intro x hx
        obtain ⟨v, hv, rfl⟩ := List.mem_map.mp hx
        exact ⟨(hsh r hr v hv).1, (hsh r hr v hv).2.1⟩)
    rw [List.map_map] at hw
    exact ⟨_, numbers_reads hw (by
      rw [List.forall₂_map_left_iff]
      exact List.forall₂_same.mpr (fun v hv => (hsh r hr v hv).2.2))⟩
  have hnl : ∀ l ∈ L.map (fun r => row (r.map (fun x => rightAligned w.toNat (sh x)))), '\n' ∉ l := by
    intro l hl
    obtain ⟨r, hr, rfl⟩ := List.mem_map.mp hl
    apply row_no_newline
    intro x hx
    obtain ⟨v, hv, rfl⟩ := List.mem_map.mp hx
    unfold rightAligned
    intro hmem
    rcases List.mem_append.mp hmem with h | h
    · have := (List.mem_replicate.mp h).2; cases this
    · have := (hsh r hr v hv).2.1 _ h
      simp [isSpace] at this
  obtain ⟨r, L', rfl⟩ : ∃ r L', L = r :: L' := by
    cases L with
    | nil => exact absurd rfl hne
    | cons r L' => exact ⟨r, L', rfl⟩
  have hlen : r.length = n := hL r (by simp)
  have hlines := textLines_column hnl
  rw [show title [] = [] from rfl, List.nil_append]
  refine C67_rows b hn (pre := []) (first := row (r.map (fun x => rightAligned w.toNat (sh x))))
    (others := L'.map (fun r => row (r.map (fun x => rightAligned w.toNat (sh x))))) (r := r) (rows := L')
    (by rw [hlines]; rfl) (by simp) (hrow r (by simp)) ?_ ?_ ?_ A
  · rintro rfl; simp at hlen; omega
  · have hkeep : ∀ l ∈ L'.map (fun r => row (r.map (fun x => rightAligned w.toNat (sh x)))),
        (!l.isEmpty) = true := by
      intro l hl
      obtain ⟨q, hq, rfl⟩ := List.mem_map.mp hl
      have hql := hL q (by simp [hq])
      cases hrw : row (q.map (fun x => rightAligned w.toNat (sh x))) with
      | cons => rfl
      | nil =>
        exfalso
        obtain ⟨left, hN⟩ := hrow q (by simp [hq])
        rw [hrw] at hN
        have := numbers_length hn hN
        simp at this
        rw [this] at hql
        simp at hql
        omega
    rw [List.filter_eq_self.mpr hkeep, List.forall₂_map_left_iff]
    exact List.forall₂_same.mpr (fun q hq => ⟨hrow q (by simp [hq]), by rw [hL q (by simp [hq]), hlen]⟩)
  · rw [hlen, Nat.add_comm]
    simpa using hsz

/-- A printed one-dimensional floating-point array, read back, is exactly the array, if the precision
satisfies `2^p < 10^P`. -/
theorem C76_read_back (b : Build) (rs : Bool) (digit : Int → Int) {p P : Nat} {emin : Int} {rn : ℚ → ℚ}
    (h : Nearest p emin rn) (hP : 2 ^ p < 10 ^ P) {vs : List ℚ} (hvs : ∀ v ∈ vs, Rep p emin v) {un : Int → Res ℚ}
    (hun : ∀ i (h : i < vs.length), un i = .ok vs[i]) (hsz : vs.length < 2 ^ 61) (A : List ℚ) :
    ∃ text, print1 ⟨false, rs⟩ digit (showFloat true P) [] vs.length un = .ok text ∧
      read1 b (scanFloat rn) (.ofText text, A) = (.ok (), (.ofText [], vs)) := by
  refine read_back_words b rs digit (sane_scanFloat rn) hun (fun v hv => ?_) hsz A
  obtain ⟨D, h1, _⟩ := showSci_spec P v
  exact ⟨(scientific_word h1).1, (scientific_word h1).2, C76_number h hP (hvs v hv)⟩

/-- The same for two-dimensional arrays. -/
theorem C76_read_back_table (b : Build) (rs : Bool) (digit : Int → Int) (w : Int) {p P : Nat} {emin : Int}
    {rn : ℚ → ℚ} (h : Nearest p emin rn) (hP : 2 ^ p < 10 ^ P) {L : List (List ℚ)} {n : Nat} (hn : 0 < n)
    (hne : L ≠ []) (hL : ∀ r ∈ L, r.length = n) (hvs : ∀ r ∈ L, ∀ v ∈ r, Rep p emin v)
    (hsz : L.length * n < 2 ^ 61) {a : Arr2 ℚ} (ha : IsMat a (Mat.ofLists L)) (A : Arr2 ℚ) :
    ∃ text, print2 ⟨false, rs⟩ digit (showFloat true P) (.ok w) [] a = .ok text ∧
      ∃ A', read2 b (scanFloat rn) (.ofText text, A) = (.ok (), (⟨[], true, true⟩, A')) ∧
        IsMat A' (Mat.ofLists L) := by
  refine read_back_table b rs digit w (sane_scanFloat rn) hn hne hL (fun r hr v hv => ?_) hsz ha A
  obtain ⟨D, h1, _⟩ := showSci_spec P v
  exact ⟨(scientific_word h1).1, (scientific_word h1).2, C76_number h hP (hvs r hr v hv)⟩

/-- In fixed format the number read back is the one nearest to a decimal within half a unit of the last
digit printed. -/
theorem C76_read_back_fixed (b : Build) (rs : Bool) (digit : Int → Int) {P : Nat} (rn : ℚ → ℚ) {vs : List ℚ}
    {un : Int → Res ℚ} (hun : ∀ i (h : i < vs.length), un i = .ok vs[i]) (hsz : vs.length < 2 ^ 61) (A : List ℚ) :
    ∃ text us, print1 ⟨false, rs⟩ digit (showFloat false P) [] vs.length un = .ok text ∧
      read1 b (scanFloat rn) (.ofText text, A) = (.ok (), (.ofText [], us)) ∧
      List.Forall₂ (fun v u => ∃ D, |v - D| ≤ 1 / 10 ^ P / 2 ∧ u = rn D) vs us := by
  have hD : ∀ v, ∃ D, Fixed P (showFloat false P v) D ∧ |v - D| ≤ 1 / 10 ^ P / 2 := showFixed_spec P
  choose D h1 h2 using hD
  have hw : ∀ w ∈ vs.map (showFloat false P), w ≠ [] ∧ ∀ c ∈ w, isSpace c = false := by
    intro w hw
    obtain ⟨v, hv, rfl⟩ := List.mem_map.mp hw
    exact fixed_word (h1 v)
  have hr : List.Forall₂ (Reads (scanFloat rn)) (vs.map (showFloat false P)) (vs.map (fun v => rn (D v))) := by
    rw [List.forall₂_map_left_iff, List.forall₂_map_right_iff]
    exact List.forall₂_same.mpr (fun v hv => reads_fixed (h1 v))
  have hres : List.Forall₂ (fun v u => ∃ D, |v - D| ≤ 1 / 10 ^ P / 2 ∧ u = rn D) vs (vs.map (fun v => rn (D v))) := by
    rw [List.forall₂_map_right_iff]
    exact List.forall₂_same.mpr (fun v _ => ⟨D v, h2 v, rfl⟩)
  cases rs with
  | false =>
    exact ⟨_, _, C75_column digit _ [] hun,
      (C66_outcome b (sane_scanFloat rn) (numbers_reads (words_column hw) hr) (by simpa using hsz) A).1 (.inl rfl), hres⟩
  | true =>
    refine ⟨_, _, C75_row digit _ [] hun, ?_, hres⟩
    have h1 := words_row (fun _ => []) (fun _ c hc => by cases hc) hw
    simp only [List.nil_append, List.map_id'] at h1
    exact (C66_outcome b (sane_scanFloat rn) (numbers_reads (words_snoc_space h1
      (by intro c hc; rw [List.mem_singleton.mp hc]; rfl)) hr) (by simpa using hsz) A).1 (.inl rfl)

/-! ### The default precisions -/

/-- The default precision for `double` is 16, that is 17 significant digits, which is enough: every array
of doubles printed with the default format is read back unchanged. -/
theorem C76_double (b : Build) (rs : Bool) (digit : Int → Int) {emin : Int} {rn : ℚ → ℚ} (h : Nearest 53 emin rn)
    {vs : List ℚ} (hvs : ∀ v ∈ vs, Rep 53 emin v) {un : Int → Res ℚ}
    (hun : ∀ i (h : i < vs.length), un i = .ok vs[i]) (hsz : vs.length < 2 ^ 61) (A : List ℚ) :
    ∃ text, print1 ⟨false, rs⟩ digit (showFloat true (defaultPrecision 53)) [] vs.length un = .ok text ∧
      read1 b (scanFloat rn) (.ofText text, A) = (.ok (), (.ofText [], vs)) := by
  have hP : defaultPrecision 53 = 16 := by
    unfold defaultPrecision digits10
    rw [show Nat.log 10 (2 ^ (53 - 1)) = 15 from (Nat.log_eq_iff (by norm_num)).mpr (by norm_num)]
  exact C76_read_back b rs digit h (by rw [hP]; norm_num) hvs hun hsz A

/-- How a number between two powers of ten is written. -/
theorem sciParts_eq {P : Nat} {x : ℚ} {e : Int} {n : Nat} (h1 : (10 : ℚ) ^ e ≤ x) (h2 : x < 10 ^ (e + 1))
    (h3 : |x * 10 ^ ((P : Int) - e) - n| < 1 / 2) (h4 : n < 10 ^ (P + 1)) : sciParts P x = (n, e) := by
  have hx : 0 < x := lt_of_lt_of_le (ten_pos e) h1
  have he : Int.log 10 x = e := by
    have a := (Int.zpow_le_iff_le_log (b := 10) (by norm_num) (x := e) hx).mp (by simpa using h1)
    have c := (Int.lt_zpow_iff_log_lt (b := 10) (by norm_num) (x := e + 1) hx).mp (by simpa using h2)
    omega
  unfold sciParts
  simp only [he]
  have hr := roundEven_near (x := x * 10 ^ ((P : Int) - e)) (by have := ten_pos ((P : Int) - e); positivity)
  have hn : roundEven (x * 10 ^ ((P : Int) - e)) = n := by
    have : |((roundEven (x * 10 ^ ((P : Int) - e)) : ℤ) - (n : ℤ))| < 1 := by
      have : |((roundEven (x * 10 ^ ((P : Int) - e)) : ℚ) - (n : ℚ))| < 1 := by
        calc |((roundEven (x * 10 ^ ((P : Int) - e)) : ℚ) - (n : ℚ))|
            ≤ |(roundEven (x * 10 ^ ((P : Int) - e)) : ℚ) - x * 10 ^ ((P : Int) - e)| +
              |x * 10 ^ ((P : Int) - e) - n| := abs_sub_le _ _ _
          _ < 1 := by rw [abs_sub_comm] at hr; linarith
      exact_mod_cast this
    rw [abs_lt] at this
    omega
  rw [hn, if_neg (by omega)]

/-- With the default precision of `float` (8 significant digits) two different numbers are printed alike, so
no way of reading can restore both. -/
theorem C76_float_lossy : ∃ x y, Rep 24 (-149) x ∧ Rep 24 (-149) y ∧ x ≠ y ∧
    showFloat true (defaultPrecision 24) x = showFloat true (defaultPrecision 24) y := by
  have hP : defaultPrecision 24 = 7 := by
    unfold defaultPrecision digits10
    rw [show Nat.log 10 (2 ^ (24 - 1)) = 6 from (Nat.log_eq_iff (by norm_num)).mpr (by norm_num)]
  refine ⟨1000 + 1 / 2 ^ 14, 1000 + 1 / 2 ^ 13, ⟨16384001, -14, by norm_num, by norm_num, by norm_num⟩,
    ⟨8192001, -13, by norm_num, by norm_num, by norm_num⟩, by norm_num, ?_⟩
  have ex : sciParts 7 (1000 + 1 / 2 ^ 14) = (10000001, 3) :=
    sciParts_eq (by norm_num) (by norm_num) (by norm_num [abs_lt]) (by norm_num)
  have ey : sciParts 7 (1000 + 1 / 2 ^ 13) = (10000001, 3) :=
    sciParts_eq (by norm_num) (by norm_num) (by norm_num [abs_lt]) (by norm_num)
  rw [hP]
  unfold showFloat showSci
  rw [abs_of_pos (by norm_num : (0 : ℚ) < 1000 + 1 / 2 ^ 14), abs_of_pos (by norm_num : (0 : ℚ) < 1000 + 1 / 2 ^ 13),
    ex, ey, if_neg (by norm_num : ¬ (1000 + 1 / 2 ^ 14 : ℚ) = 0), if_neg (by norm_num : ¬ (1000 + 1 / 2 ^ 13 : ℚ) = 0),
    if_neg (by norm_num : ¬ (1000 + 1 / 2 ^ 14 : ℚ) = 0), if_neg (by norm_num : ¬ (1000 + 1 / 2 ^ 13 : ℚ) = 0),
    if_neg (by norm_num : ¬ (1000 + 1 / 2 ^ 14 : ℚ) < 0), if_neg (by norm_num : ¬ (1000 + 1 / 2 ^ 13 : ℚ) < 0), if_pos rfl, if_pos rfl]

/-- The same for `long double` with 64 significant bits (20 decimal digits). -/
theorem C76_long_double_lossy : ∃ x y, Rep 64 (-16445) x ∧ Rep 64 (-16445) y ∧ x ≠ y ∧
    showFloat true (defaultPrecision 64) x = showFloat true (defaultPrecision 64) y := by
  have hP : defaultPrecision 64 = 19 := by
    unfold defaultPrecision digits10
    rw [show Nat.log 10 (2 ^ (64 - 1)) = 18 from (Nat.log_eq_iff (by norm_num)).mpr (by norm_num)]
  refine ⟨1000 + 1 / 2 ^ 54, 1000 + 1 / 2 ^ 53, ⟨1000 * 2 ^ 54 + 1, -54, by norm_num, by norm_num, by norm_num⟩,
    ⟨1000 * 2 ^ 53 + 1, -53, by norm_num, by norm_num, by norm_num⟩, by norm_num, ?_⟩
  have ex : sciParts 19 (1000 + 1 / 2 ^ 54) = (10000000000000000001, 3) :=
    sciParts_eq (by norm_num) (by norm_num) (by norm_num [abs_lt]) (by norm_num)
  have ey : sciParts 19 (1000 + 1 / 2 ^ 53) = (10000000000000000001, 3) :=
    sciParts_eq (by norm_num) (by norm_num) (by norm_num [abs_lt]) (by norm_num)
  rw [hP]
  unfold showFloat showSci
  rw [abs_of_pos (by norm_num : (0 : ℚ) < 1000 + 1 / 2 ^ 54), abs_of_pos (by norm_num : (0 : ℚ) < 1000 + 1 / 2 ^ 53),
    ex, ey, if_neg (by norm_num : ¬ (1000 + 1 / 2 ^ 54 : ℚ) = 0), if_neg (by norm_num : ¬ (1000 + 1 / 2 ^ 53 : ℚ) = 0),
    if_neg (by norm_num : ¬ (1000 + 1 / 2 ^ 54 : ℚ) = 0), if_neg (by norm_num : ¬ (1000 + 1 / 2 ^ 53 : ℚ) = 0),
    if_neg (by norm_num : ¬ (1000 + 1 / 2 ^ 54 : ℚ) < 0), if_neg (by norm_num : ¬ (1000 + 1 / 2 ^ 53 : ℚ) < 0), if_pos rfl, if_pos rfl]

/-- And for `float128` with its precision of 33. -/
theorem C76_quad_lossy : ∃ x y, Rep 113 (-16494) x ∧ Rep 113 (-16494) y ∧ x ≠ y ∧
    showFloat true quadPrecision x = showFloat true quadPrecision y := by
  refine ⟨1000, 1000 + 1 / 2 ^ 103, ⟨1000, 0, by norm_num, by norm_num, by norm_num⟩,
    ⟨1000 * 2 ^ 103 + 1, -103, by norm_num, by norm_num, by norm_num⟩, by norm_num, ?_⟩
  have ex : sciParts 33 1000 = (10 ^ 33, 3) :=
    sciParts_eq (by norm_num) (by norm_num) (by norm_num) (by norm_num)
  have ey : sciParts 33 (1000 + 1 / 2 ^ 103) = (10 ^ 33, 3) :=
    sciParts_eq (by norm_num) (by norm_num) (by norm_num [abs_lt]) (by norm_num)
  unfold showFloat showSci quadPrecision
  rw [abs_of_pos (by norm_num : (0 : ℚ) < 1000), abs_of_pos (by norm_num : (0 : ℚ) < 1000 + 1 / 2 ^ 103),
    ex, ey, if_neg (by norm_num : ¬ (1000 : ℚ) = 0), if_neg (by norm_num : ¬ (1000 + 1 / 2 ^ 103 : ℚ) = 0),
    if_neg (by norm_num : ¬ (1000 : ℚ) = 0), if_neg (by norm_num : ¬ (1000 + 1 / 2 ^ 103 : ℚ) = 0),
    if_neg (by norm_num : ¬ (1000 : ℚ) < 0), if_neg (by norm_num : ¬ (1000 + 1 / 2 ^ 103 : ℚ) < 0), if_pos rfl, if_pos rfl]

/-- More digits repair this: with precision 8 for `float`, 20 for `long double` and 35 for `float128` every
number is restored. -/
theorem C76_enough_digits (b : Build) (rs : Bool) (digit : Int → Int) {p P : Nat}
    (hp : (p, P) ∈ [(24, 8), (53, 16), (64, 20), (113, 35)]) {emin : Int} {rn : ℚ → ℚ} (h : Nearest p emin rn)
    {vs : List ℚ} (hvs : ∀ v ∈ vs, Rep p emin v) {un : Int → Res ℚ}
    (hun : ∀ i (h : i < vs.length), un i = .ok vs[i]) (hsz : vs.length < 2 ^ 61) (A : List ℚ) :
    ∃ text, print1 ⟨false, rs⟩ digit (showFloat true P) [] vs.length un = .ok text ∧
      read1 b (scanFloat rn) (.ofText text, A) = (.ok (), (.ofText [], vs)) := by
  refine C76_read_back b rs digit h ?_ hvs hun hsz A
  simp only [List.mem_cons, Prod.mk.injEq, List.not_mem_nil, or_false] at hp
  rcases hp with ⟨rfl, rfl⟩ | ⟨rfl, rfl⟩ | ⟨rfl, rfl⟩ | ⟨rfl, rfl⟩ <;> norm_num

/-! Examples -/

/-- The text of -20 with two digits after the point. -/
example : showFloat true 2 (-20) = "-2.00e+01".toList := by
  have e : sciParts 2 20 = (200, 1) := sciParts_eq (by norm_num) (by norm_num) (by norm_num) (by norm_num)
  unfold showFloat showSci
  rw [show |(-20 : ℚ)| = 20 by norm_num, e]
  simp only [show ¬ (-20 : ℚ) = 0 by norm_num, show (-20 : ℚ) < 0 by norm_num, if_true, if_false, twoDigits, digits_eq]
  decide +kernel

/-- Two doubles, printed and read back. -/
example (b : Build) : ∃ rn, Nearest 53 (-1074) rn ∧ ∃ text,
    print1 ⟨false, false⟩ (fun _ => 0) (showFloat true (defaultPrecision 53)) [] [1 / 2, -3].length
      (fun i => .ok (1 / 2 - 7 / 2 * i)) = .ok text ∧
    read1 b (scanFloat rn) (.ofText text, [1]) = (.ok (), (.ofText [], [1 / 2, -3])) := by
  obtain ⟨rn, hr⟩ := exists_nearest (p := 53) (by norm_num) (-1074)
  refine ⟨rn, hr, C76_double b false (fun _ => 0) hr (vs := [1 / 2, -3]) ?_ ?_ (by simp) [1]⟩
  · intro v hv
    simp only [List.mem_cons, List.not_mem_nil, or_false] at hv
    rcases hv with rfl | rfl
    · exact ⟨1, -1, by norm_num, by norm_num, by norm_num⟩
    · exact ⟨-3, 0, by norm_num, by norm_num, by norm_num⟩
  · intro i h
    have : i = 0 ∨ i = 1 := by simp at h; omega
    rcases this with rfl | rfl
    · simp
    · simp; norm_num

end Spp.Props
