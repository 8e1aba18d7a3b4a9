import Verif.Lemmas.Interchange
import Verif.Lemmas.Mixed

/- Lemmas for C134: two-dimensional arrays. -/

set_option linter.unusedSectionVars false

namespace Spp
open Spec Props

variable {α : Type} [Inhabited α]

theorem use2_rejects {s : Store α} {i : Nat} {u : Use2} {t : Tm α .two} (h : ¬ t.Valid s) : Rejects s (.use2 i u t) := by
  intro k0 r s' hd
  cases hd with
  | use2 hV => exact absurd hV h
  | use2Rejected hV => exact absurd hV h
  | use2Invalid _ _ => exact ⟨rfl, _, rfl⟩

/-- A call against `resize_and_assign` of an expression. -/
theorem mat_interchange {s : Store α} (hs : s.Moderate) {i : Nat} {c : Call2 α} (hc : c.Moderate) {t : Tm α .two}
    (hF : (EStmt.use2 i .resizeAndAssign t).Fits s)
    (h : (∃ M', (theMat (s.a2 i)).call c = some M' ∧ (M'.m = 0 ↔ M'.n = 0) ∧ t.Valid s ∧ IsTable (t.meaning s) M') ∨
      ((theMat (s.a2 i)).call c = none ∧ ¬ t.Valid s)) :
    Interchangeable s (.mat (.call i c)) (.use2 i .resizeAndAssign t) := by
  have hFc : (EStmt.mat (.call i c)).Fits s := ⟨hs, hc, fun _ _ h => nomatch h⟩
  rcases h with ⟨M', h1, hz, hV, hT⟩ | ⟨h1, hV⟩
  · have ha := flat_isMat hz
    refine interchange hFc hF (.inl ⟨{ s with a2 := upd s.a2 i ⟨M'.m, M'.n, M'.flat⟩ }, ?_, ?_⟩)
    · refine .mat (S' := upd (fun j => theMat (s.a2 j)) i M') (theMats hs) ?_ fun j => ?_
      · show Option.map _ _ = _
        rw [h1]; rfl
      · by_cases hj : j = i
        · subst hj; simpa only [upd, if_true] using ha
        · simpa only [upd, if_neg hj] using theMats hs j
    · exact .use2 hV (theMats hs i) hT rfl ha
  · refine .inr fun b hb => ⟨?_, ?_⟩
    · rcases C34_invalid_statement hb (theMats hs) (mats_moderate hs (theMats hs)) (c := .call i c) hc
        (show Option.map _ _ = none by rw [h1]; rfl) with e | ⟨_, _, e, _⟩
      · exact ⟨b.kind, by simp only [estmtRun, onMats, e]⟩
      · cases e
    · obtain ⟨e, k, e'⟩ := use2_rejects hV _ _ _ (does_of_run hb hF)
      exact ⟨k, Prod.ext e' e⟩

theorem array2_table {s : Store α} {i : Nat} (h : Shape (s.a2 i)) :
    IsTable ((array2 i : Tm α .two).meaning s) (theMat (s.a2 i)) := by
  refine ⟨rfl, rfl, fun p q hp hq => ?_⟩
  have e := (theMat_is h).el p q hp hq
  show s.read (.two i (p * (s.a2 i).cols.toNat + q)) = _
  show rd (s.a2 i).data ((p * (s.a2 i).cols.toNat + q : Nat) : Int) = _
  have hlt : p * (s.a2 i).cols.toNat + q < (s.a2 i).data.length := by
    rcases Nat.lt_or_ge (p * (s.a2 i).cols.toNat + q) (s.a2 i).data.length with h' | h'
    · exact h'
    · rw [show (theMat (s.a2 i)).n = (s.a2 i).cols.toNat from rfl, List.getElem?_eq_none h'] at e
      cases e
  rw [show (theMat (s.a2 i)).n = (s.a2 i).cols.toNat from rfl, List.getElem?_eq_getElem hlt] at e
  rw [rd_nat hlt]
  exact congrArg Res.ok (Option.some.inj e)

/-- The listed rows of a matrix. -/
def rowsOf (M : Mat α) (ks : List Nat) : Mat α :=
  ⟨ks.length, if ks.length = 0 then 0 else M.n, fun i j => M.el (ks.getD i 0) j⟩

/-- The listed columns. -/
def colsOf (M : Mat α) (ks : List Nat) : Mat α :=
  ⟨if ks.length = 0 then 0 else M.m, ks.length, fun i j => M.el i (ks.getD j 0)⟩

theorem table_same {X : Mat (Res α)} {M N : Mat α} (h : IsTable X M) (hs : M.Same N) : IsTable X N := by
  refine ⟨h.1.trans hs.1, h.2.1.trans hs.2.1, fun i j hi hj => ?_⟩
  rw [← hs.1] at hi; rw [← hs.2.1] at hj
  rw [h.2.2 i j hi hj, hs.2.2 i j hi hj]

theorem upto_ne_nil {n : Nat} (h : n ≠ 0) : upto (n : Int) ≠ [] := by
  intro e
  have := congrArg List.length e
  simp [upto] at this
  exact h this

theorem upto_at {n j : Nat} (h : j < n) : (upto (n : Int)).getD j 0 = j := by
  simp [upto, List.getD, h]

theorem upto_len (n : Nat) : (upto (n : Int)).length = n := by simp [upto]

theorem getD_ofNat {ks : List Nat} {i : Nat} (h : i < ks.length) : (ks.map Int.ofNat).getD i 0 = (ks.getD i 0 : Nat) := by
  simp [List.getD, h]

theorem cross_rows_table {X : Mat (Res α)} {M : Mat α} (hX : IsTable X M) (hz : M.m = 0 ↔ M.n = 0) {ks : List Nat}
    (hk : ∀ k ∈ ks, k < M.m) : IsTable (X.cross (ks.map Int.ofNat) (upto (M.n : Int))) (rowsOf M ks) := by
  unfold Mat.cross
  by_cases h : ks = []
  · subst h
    rw [if_pos (.inl rfl)]
    exact ⟨rfl, rfl, fun i j hi _ => absurd hi (Nat.not_lt_zero _)⟩
  · have hl : ks.length ≠ 0 := fun e => h (List.length_eq_zero_iff.1 e)
    have hn : M.n ≠ 0 := by
      obtain ⟨k, l, rfl⟩ := List.exists_cons_of_ne_nil h
      have := hk k (List.mem_cons_self ..)
      omega
    rw [if_neg (fun e => e.elim (fun e => h (List.map_eq_nil_iff.1 e)) (upto_ne_nil hn))]
    refine ⟨by simp [rowsOf], by simp [rowsOf, upto_len, h], fun i j hi hj => ?_⟩
    simp only [rowsOf, if_neg hl] at hi hj ⊢
    have hk' : ks.getD i 0 < M.m := hk _ (by rw [List.getD_eq_getElem?_getD, List.getElem?_eq_getElem hi]; simp)
    rw [getD_ofNat hi, upto_at hj]
    unfold Mat.pick
    rw [if_pos (by rw [hX.1, hX.2.1]; omega)]
    exact hX.2.2 _ _ hk' hj

theorem cross_cols_table {X : Mat (Res α)} {M : Mat α} (hX : IsTable X M) (hz : M.m = 0 ↔ M.n = 0) {ks : List Nat}
    (hk : ∀ k ∈ ks, k < M.n) : IsTable (X.cross (upto (M.m : Int)) (ks.map Int.ofNat)) (colsOf M ks) := by
  unfold Mat.cross
  by_cases h : ks = []
  · subst h
    rw [if_pos (.inr rfl)]
    exact ⟨rfl, rfl, fun i j _ hj => absurd hj (Nat.not_lt_zero _)⟩
  · have hl : ks.length ≠ 0 := fun e => h (List.length_eq_zero_iff.1 e)
    have hm : M.m ≠ 0 := by
      obtain ⟨k, l, rfl⟩ := List.exists_cons_of_ne_nil h
      have := hk k (List.mem_cons_self ..)
      omega
    rw [if_neg (fun e => e.elim (upto_ne_nil hm) (fun e => h (List.map_eq_nil_iff.1 e)))]
    refine ⟨by simp [colsOf, upto_len, h], by simp [colsOf], fun i j hi hj => ?_⟩
    simp only [colsOf, if_neg hl] at hi hj ⊢
    have hk' : ks.getD j 0 < M.n := hk _ (by rw [List.getD_eq_getElem?_getD, List.getElem?_eq_getElem hj]; simp)
    rw [getD_ofNat hj, upto_at hi]
    unfold Mat.pick
    rw [if_pos (by rw [hX.1, hX.2.1]; omega)]
    exact hX.2.2 _ _ hi hk'

/-- `A(r, all)` with `r` selecting the rows `ks`. -/
theorem rows_table {s : Store α} {i : Nat} (h : Shape (s.a2 i)) {r : SliceReq} {ks : List Nat}
    (hr : selection ((theMat (s.a2 i)).m : Int) r = ks.map Int.ofNat) (hk : ∀ k ∈ ks, k < (theMat (s.a2 i)).m) :
    IsTable (Tm.meaning s (.view (.slice2 r .all) (array2 i))) (rowsOf (theMat (s.a2 i)) ks) := by
  have hX := array2_table h
  have := cross_rows_table hX (theMat_is h).zero hk
  rw [← hr] at this
  exact this

theorem cols_table {s : Store α} {i : Nat} (h : Shape (s.a2 i)) {r : SliceReq} {ks : List Nat}
    (hr : selection ((theMat (s.a2 i)).n : Int) r = ks.map Int.ofNat) (hk : ∀ k ∈ ks, k < (theMat (s.a2 i)).n) :
    IsTable (Tm.meaning s (.view (.slice2 .all r) (array2 i))) (colsOf (theMat (s.a2 i)) ks) := by
  have hX := array2_table h
  have := cross_cols_table hX (theMat_is h).zero hk
  rw [← hr] at this
  exact this

theorem table_elements {X : Mat (Res α)} {N : Mat α} (h : IsTable X N) : ∀ r ∈ X.flat, ∃ x, r = .ok x := by
  intro r hr
  simp only [Mat.flat, Mat.row, List.mem_flatMap, List.mem_map, List.mem_range] at hr
  obtain ⟨p, hp, q, hq, rfl⟩ := hr
  rw [h.1] at hp; rw [h.2.1] at hq
  exact ⟨_, h.2.2 p q hp hq⟩

theorem table_roomy {X : Mat (Res α)} {N : Mat α} (h : IsTable X N) (hz : N.m = 0 ↔ N.n = 0)
    (hs : ((N.m * N.n : Nat) : Int) < 2 ^ 62) : Roomy (d := .two) X := by
  refine ⟨?_, ?_⟩
  · rw [h.1, h.2.1]; exact hs
  · rw [h.1, h.2.1]; exact hz

theorem rowsOf_zero {M : Mat α} (hz : M.m = 0 ↔ M.n = 0) {ks : List Nat} (hk : ∀ k ∈ ks, k < M.m) :
    (rowsOf M ks).m = 0 ↔ (rowsOf M ks).n = 0 := by
  cases ks with
  | nil => simp [rowsOf]
  | cons k l =>
    have := hk k (List.mem_cons_self ..)
    simp only [rowsOf, List.length_cons, if_neg (Nat.succ_ne_zero _)]
    omega

theorem colsOf_zero {M : Mat α} (hz : M.m = 0 ↔ M.n = 0) {ks : List Nat} (hk : ∀ k ∈ ks, k < M.n) :
    (colsOf M ks).m = 0 ↔ (colsOf M ks).n = 0 := by
  cases ks with
  | nil => simp [colsOf]
  | cons k l =>
    have := hk k (List.mem_cons_self ..)
    simp only [colsOf, List.length_cons, if_neg (Nat.succ_ne_zero _)]
    omega

theorem rowsOf_size {M : Mat α} {ks : List Nat} (hk : ks.length ≤ M.m) :
    (rowsOf M ks).m * (rowsOf M ks).n ≤ M.m * M.n := by
  simp only [rowsOf]
  split
  · simp
  · exact Nat.mul_le_mul_right _ hk

theorem colsOf_size {M : Mat α} {ks : List Nat} (hk : ks.length ≤ M.n) :
    (colsOf M ks).m * (colsOf M ks).n ≤ M.m * M.n := by
  simp only [colsOf]
  split
  · simp
  · exact Nat.mul_le_mul_left _ hk

/-- A call that keeps the rows selected by `r`. -/
theorem rows_interchange {s : Store α} (hs : s.Moderate) {i : Nat} {c : Call2 α} (hc : c.Moderate) {r : SliceReq}
    (hr : r.Modest)
    (h : (r.Valid (theMat (s.a2 i)).m ∧ ∃ ks M', selection ((theMat (s.a2 i)).m : Int) r = ks.map Int.ofNat ∧
        (∀ k ∈ ks, k < (theMat (s.a2 i)).m) ∧ ks.length ≤ (theMat (s.a2 i)).m ∧ (theMat (s.a2 i)).call c = some M' ∧
        (rowsOf (theMat (s.a2 i)) ks).Same M') ∨
      ((theMat (s.a2 i)).call c = none ∧ ¬ r.Valid (theMat (s.a2 i)).m)) :
    Interchangeable s (.mat (.call i c)) (.use2 i .resizeAndAssign (.view (.slice2 r .all) (array2 i))) := by
  have hsh := (hs.2 i).1
  have hz := (theMat_is hsh).zero
  rcases h with ⟨hV, ks, M', h1, h2, h3, h4, h5⟩ | ⟨h1, hV⟩
  · have hT := rows_table hsh h1 h2
    have hz' := rowsOf_zero hz h2
    refine mat_interchange hs hc ⟨hs, ⟨trivial, ⟨hr, trivial⟩, fun _ => ?_⟩, trivial, fun _ => table_elements hT⟩
      (.inl ⟨M', h4, ?_, ⟨trivial, hV, trivial⟩, table_same hT h5⟩)
    · refine table_roomy hT hz' ?_
      have k1 := rowsOf_size (M := theMat (s.a2 i)) h3
      have k2 := mats_moderate hs (theMats hs) i
      have k2 : (((theMat (s.a2 i)).m * (theMat (s.a2 i)).n : Nat) : Int) < 2 ^ 61 := by exact_mod_cast k2
      omega
    · rw [← h5.1, ← h5.2.1]; exact hz'
  · exact mat_interchange hs hc ⟨hs, ⟨trivial, ⟨hr, trivial⟩, fun v => absurd v.2.1 hV⟩, trivial,
      fun v => absurd v.2.1 hV⟩ (.inr ⟨h1, fun v => hV v.2.1⟩)

/-- A call that keeps the columns selected by `r`. -/
theorem cols_interchange {s : Store α} (hs : s.Moderate) {i : Nat} {c : Call2 α} (hc : c.Moderate) {r : SliceReq}
    (hr : r.Modest)
    (h : (r.Valid (theMat (s.a2 i)).n ∧ ∃ ks M', selection ((theMat (s.a2 i)).n : Int) r = ks.map Int.ofNat ∧
        (∀ k ∈ ks, k < (theMat (s.a2 i)).n) ∧ ks.length ≤ (theMat (s.a2 i)).n ∧ (theMat (s.a2 i)).call c = some M' ∧
        (colsOf (theMat (s.a2 i)) ks).Same M') ∨
      ((theMat (s.a2 i)).call c = none ∧ ¬ r.Valid (theMat (s.a2 i)).n)) :
    Interchangeable s (.mat (.call i c)) (.use2 i .resizeAndAssign (.view (.slice2 .all r) (array2 i))) := by
  have hsh := (hs.2 i).1
  have hz := (theMat_is hsh).zero
  rcases h with ⟨hV, ks, M', h1, h2, h3, h4, h5⟩ | ⟨h1, hV⟩
  · have hT := cols_table hsh h1 h2
    have hz' := colsOf_zero hz h2
    refine mat_interchange hs hc ⟨hs, ⟨trivial, ⟨trivial, hr⟩, fun _ => ?_⟩, trivial, fun _ => table_elements hT⟩
      (.inl ⟨M', h4, ?_, ⟨trivial, trivial, hV⟩, table_same hT h5⟩)
    · refine table_roomy hT hz' ?_
      have k1 := colsOf_size (M := theMat (s.a2 i)) h3
      have k2 := mats_moderate hs (theMats hs) i
      have k2 : (((theMat (s.a2 i)).m * (theMat (s.a2 i)).n : Nat) : Int) < 2 ^ 61 := by exact_mod_cast k2
      omega
    · rw [← h5.1, ← h5.2.1]; exact hz'
  · exact mat_interchange hs hc ⟨hs, ⟨trivial, ⟨trivial, hr⟩, fun v => absurd v.2.2 hV⟩, trivial,
      fun v => absurd v.2.2 hV⟩ (.inr ⟨h1, fun v => hV v.2.2⟩)

/-! ### What the slices keep -/

theorem complement_selects (m : Nat) (idx : List Int) :
    selection (m : Int) (.complement idx) =
      ((List.range m).filter (fun k : Nat => decide ((k : Int) ∉ idx))).map Int.ofNat := by
  show (upto _).filter _ = _
  unfold upto
  rw [Int.toNat_natCast, List.filter_map]
  rfl

theorem firstN_selects (m : Nat) (k : Int) :
    selection (m : Int) (.firstN k) = ((List.range m).take k.toNat).map Int.ofNat := by
  show (upto _).take _ = _
  unfold upto
  rw [Int.toNat_natCast, List.map_take]

theorem lastN_selects (m : Nat) (k : Int) :
    selection (m : Int) (.lastN k) = ((List.range m).drop (m - k).toNat).map Int.ofNat := by
  show (upto _).drop _ = _
  unfold upto
  rw [Int.toNat_natCast, List.map_drop]

/-- All but `count` numbers from `pos` on. -/
theorem numbers_keeps {m : Nat} {pos count : Int} (h0 : 0 ≤ pos) (h1 : 0 < count) (h2 : pos + count ≤ m) :
    (List.range m).filter (fun k : Nat => decide ((k : Int) ∉ numbers pos count)) =
      List.range pos.toNat ++ (List.range (m - pos.toNat - count.toNat)).map (· + (pos.toNat + count.toNat)) := by
  have hmem : ∀ k : Nat, (k : Int) ∈ numbers pos count ↔ pos ≤ k ∧ (k : Int) < pos + count := by
    intro k
    simp only [numbers, List.mem_map, List.mem_range]
    constructor
    · rintro ⟨a, ha, e⟩; omega
    · rintro ⟨h3, h4⟩
      exact ⟨k - pos.toNat, by omega, by omega⟩
  have e : m = pos.toNat + count.toNat + (m - pos.toNat - count.toNat) := by omega
  rw [e, List.range_add, List.filter_append, List.range_add, List.filter_append]
  rw [show pos.toNat + count.toNat + (m - pos.toNat - count.toNat) - pos.toNat - count.toNat =
    m - pos.toNat - count.toNat by omega]
  have k1 : (List.range pos.toNat).filter (fun k : Nat => decide ((k : Int) ∉ numbers pos count)) =
      List.range pos.toNat := by
    rw [List.filter_eq_self]
    intro k hk
    have := List.mem_range.1 hk
    rw [decide_eq_true_iff, hmem]; omega
  have k2 : ((List.range count.toNat).map (pos.toNat + ·)).filter
      (fun k : Nat => decide ((k : Int) ∉ numbers pos count)) = [] := by
    rw [List.filter_eq_nil_iff]
    intro k hk
    obtain ⟨a, ha, rfl⟩ := List.mem_map.1 hk
    have := List.mem_range.1 ha
    rw [decide_eq_true_iff, hmem]
    intro h; apply h; omega
  have k3 : ((List.range (m - pos.toNat - count.toNat)).map (pos.toNat + count.toNat + ·)).filter
      (fun k : Nat => decide ((k : Int) ∉ numbers pos count)) =
      (List.range (m - pos.toNat - count.toNat)).map (· + (pos.toNat + count.toNat)) := by
    rw [List.filter_eq_self.2]
    · exact List.map_congr_left fun a _ => Nat.add_comm _ _
    · intro k hk
      obtain ⟨a, ha, rfl⟩ := List.mem_map.1 hk
      rw [decide_eq_true_iff, hmem]; omega
  rw [k1, k2, k3, List.append_nil]

theorem numbers_increasing (pos count : Int) : Increasing (numbers pos count) := by
  unfold Increasing numbers
  rw [List.pairwise_map]
  exact List.Pairwise.imp (fun h => by omega) List.pairwise_lt_range

theorem numbers_mem {pos count x : Int} : x ∈ numbers pos count ↔ pos ≤ x ∧ x < pos + count := by
  simp only [numbers, List.mem_map, List.mem_range]
  constructor
  · rintro ⟨a, ha, e⟩; omega
  · rintro ⟨h3, h4⟩
    exact ⟨(x - pos).toNat, by omega, by omega⟩

/-- The numbers left when `c` numbers from `p` on are taken out. -/
def leftOver (m p c : Nat) : List Nat := List.range p ++ (List.range (m - p - c)).map (· + (p + c))

theorem leftOver_length {m p c : Nat} (h : p + c ≤ m) : (leftOver m p c).length = m - c := by
  simp [leftOver]; omega

theorem leftOver_lt {m p c : Nat} (h : p + c ≤ m) : ∀ k ∈ leftOver m p c, k < m := by
  intro k hk
  simp only [leftOver, List.mem_append, List.mem_range, List.mem_map] at hk
  rcases hk with hk | ⟨a, ha, rfl⟩ <;> omega

theorem leftOver_at {m p c i : Nat} (h : p + c ≤ m) (hi : i < m - c) :
    (leftOver m p c).getD i 0 = if i < p then i else i + c := by
  unfold leftOver
  rw [List.getD_eq_getElem?_getD]
  split
  · rw [List.getElem?_append_left (by simpa using ‹i < p›)]
    simp [‹i < p›]
  · rw [List.getElem?_append_right (by simp; omega)]
    simp only [List.length_range, List.getElem?_map]
    rw [List.getElem?_range (by omega)]
    simp; omega

theorem rowsOf_leftOver {M : Mat α} {p c : Nat} (h : p + c ≤ M.m) :
    (rowsOf M (leftOver M.m p c)).Same (M.removeRows p c) := by
  have hl := leftOver_length h
  refine ⟨hl, by simp [rowsOf, Mat.removeRows, hl], fun i j hi _ => ?_⟩
  have hi : i < (leftOver M.m p c).length := hi
  rw [hl] at hi
  simp only [rowsOf, Mat.removeRows, leftOver_at h hi]

theorem colsOf_leftOver {M : Mat α} {p c : Nat} (h : p + c ≤ M.n) :
    (colsOf M (leftOver M.n p c)).Same (M.removeCols p c) := by
  have hl := leftOver_length h
  refine ⟨by simp [colsOf, Mat.removeCols, hl], hl, fun i j _ hj => ?_⟩
  have hj : j < (leftOver M.n p c).length := hj
  rw [hl] at hj
  simp only [colsOf, Mat.removeCols, leftOver_at h hj]

theorem drop_leftOver {m c : Nat} : (List.range m).drop c = leftOver m 0 c := by
  apply List.ext_getElem
  · simp [leftOver]
  · intro i h1 h2
    simp [leftOver]; omega

theorem take_leftOver {m c : Nat} (h : c ≤ m) : (List.range m).take (m - c) = leftOver m (m - c) c := by
  rw [List.take_range, Nat.min_eq_left (Nat.sub_le _ _)]
  simp [leftOver, show m - (m - c) - c = 0 by omega]

theorem theMat_rows {a : Arr2 α} (h : Shape a) : ((theMat a).m : Int) = a.rows := (theMat_is h).rows.symm
theorem theMat_cols {a : Arr2 α} (h : Shape a) : ((theMat a).n : Int) = a.cols := (theMat_is h).cols.symm

/-! ### Inserting rows -/

theorem insertRows_none {M N : Mat α} {pos : Int} (hz : M.m = 0 ↔ M.n = 0) (hN : N.n ≠ 0) :
    M.insertRows? N pos = none ↔ ¬ (0 ≤ pos ∧ pos ≤ M.m ∧ (M.m = 0 ∨ N.n = M.n)) := by
  unfold Mat.insertRows?
  split <;> split <;> simp <;> omega

theorem rows_position_rejects {s : Store α} {i : Nat} {pos : Int} {t : Tm α .two} {N : Mat α}
    (hsh : Shape (s.a2 i)) (hm : IsTable (t.meaning s) N) (h : (theMat (s.a2 i)).insertRows? N pos = none) :
    Rejects s (.use2 i (.insertRows pos) t) := by
  intro k0 r s' hd
  cases hd with
  | use2 hV h1 h2 hu ha =>
    rename_i M N' M' a
    have e1 : M.m = (theMat (s.a2 i)).m := Int.ofNat.inj (h1.rows.symm.trans (theMat_is hsh).rows)
    have e2 : M.n = (theMat (s.a2 i)).n := Int.ofNat.inj (h1.cols.symm.trans (theMat_is hsh).cols)
    have e3 : N'.n = N.n := h2.2.1.symm.trans hm.2.1
    have hu : M.insertRows? N' pos = some M' := hu
    unfold Mat.insertRows? at h hu
    rw [e1, e2, e3] at hu
    split at h
    · rw [if_pos ‹_›] at hu
      split at h
      · cases h
      · rw [if_neg ‹_›] at hu; cases hu
    · rw [if_neg ‹_›] at hu
      split at h
      · cases h
      · rw [if_neg ‹_›] at hu; cases hu
  | use2Rejected hV => exact ⟨rfl, _, rfl⟩
  | use2Invalid _ _ => exact ⟨rfl, _, rfl⟩

theorem above_table {X Y : Mat (Res α)} {M N : Mat α} (hX : IsTable X M) (hY : IsTable Y N) (hM : M.m = 0 ↔ M.n = 0)
    (hN : N.m = 0 ↔ N.n = 0) (h : M.n = 0 ∨ N.n = 0 ∨ M.n = N.n) : IsTable (X.above Y) (M.above N) := by
  refine ⟨by simp only [Mat.above, hX.1, hY.1], by simp only [Mat.above, hX.2.1, hY.2.1], fun i j hi hj => ?_⟩
  simp only [Mat.above] at hi hj ⊢
  rw [hX.1]
  by_cases hlt : i < M.m
  · rw [if_pos hlt, if_pos hlt]
    rw [if_neg (by omega)] at hj
    exact hX.2.2 _ _ hlt hj
  · rw [if_neg hlt, if_neg hlt]
    refine hY.2.2 _ _ (by omega) ?_
    split at hj <;> omega

theorem above_zero {M N : Mat α} (hM : M.m = 0 ↔ M.n = 0) (hN : N.m = 0 ↔ N.n = 0) :
    (M.above N).m = 0 ↔ (M.above N).n = 0 := by
  simp only [Mat.above]
  split <;> omega

theorem firstRows_valid {s : Store α} {i : Nat} {k : Int} :
    (Tm.view (.slice2 (.firstN k) .all) (array2 i) : Tm α .two).Valid s ↔ 0 ≤ k ∧ k ≤ (theMat (s.a2 i)).m :=
  ⟨fun v => v.2.1, fun v => ⟨trivial, v, trivial⟩⟩

theorem lastRows_valid {s : Store α} {i : Nat} {k : Int} :
    (Tm.view (.slice2 (.lastN k) .all) (array2 i) : Tm α .two).Valid s ↔ 0 ≤ k ∧ k ≤ (theMat (s.a2 i)).m :=
  ⟨fun v => v.2.1, fun v => ⟨trivial, v, trivial⟩⟩

theorem leftOver_zero (m p : Nat) : (leftOver m 0 p).length = m - p := by simp [leftOver]

theorem leftOver_zero_lt {m p : Nat} : ∀ k ∈ leftOver m 0 p, k < m := by
  intro k hk
  simp only [leftOver, List.range_zero, List.nil_append, List.mem_range, List.mem_map] at hk
  rcases hk with ⟨a, ha, rfl⟩; omega

theorem leftOver_zero_at {m p i : Nat} (hi : i < m - p) : (leftOver m 0 p).getD i 0 = i + p := by
  have := leftOver_at (m := m) (p := 0) (c := p) (i := i) (by omega) hi
  simpa using this

theorem insertRows_same {M N : Mat α} (hz : M.m = 0 ↔ M.n = 0) (hN : N.n ≠ 0) {p : Nat} (hp : p ≤ M.m)
    (h : M.m ≠ 0) (hn : N.n = M.n) :
    (((rowsOf M (List.range p)).above N).above (rowsOf M (leftOver M.m 0 p))).Same (M.insertRows N p) := by
  have hw : (if (if (rowsOf M (List.range p)).n = 0 then N.n else (rowsOf M (List.range p)).n) = 0
      then (rowsOf M (leftOver M.m 0 p)).n
      else if (rowsOf M (List.range p)).n = 0 then N.n else (rowsOf M (List.range p)).n) = M.n := by
    simp only [rowsOf, List.length_range]
    split <;> split <;> omega
  refine ⟨?_, hw, fun i j hi hj => ?_⟩
  · simp only [Mat.above, rowsOf, Mat.insertRows, List.length_range, leftOver_zero]; omega
  simp only [Mat.above, rowsOf, List.length_range, leftOver_zero] at hi
  simp only [Mat.above, rowsOf, Mat.insertRows, List.length_range]
  by_cases h1 : i < p
  · simp only [if_pos h1, if_pos (show i < p + N.m by omega)]
    simp [List.getD, h1]
  · by_cases h2 : i < p + N.m
    · simp only [if_neg h1, if_pos h2]
    · simp only [if_neg h1, if_neg h2]
      rw [leftOver_zero_at (by omega)]
      congr 1; omega

theorem firstRows_table {s : Store α} {i : Nat} (hsh : Shape (s.a2 i)) {k : Int} (h : k ≤ (theMat (s.a2 i)).m) :
    IsTable (Tm.meaning s (.view (.slice2 (.firstN k) .all) (array2 i)))
      (rowsOf (theMat (s.a2 i)) (List.range k.toNat)) := by
  refine rows_table hsh ?_ fun a ha => ?_
  · rw [firstN_selects, List.take_range, Nat.min_eq_left (by omega)]
  · have := List.mem_range.1 ha
    omega

theorem lastRows_table {s : Store α} {i : Nat} (hsh : Shape (s.a2 i)) {k : Int} :
    IsTable (Tm.meaning s (.view (.slice2 (.lastN ((theMat (s.a2 i)).m - k)) .all) (array2 i)))
      (rowsOf (theMat (s.a2 i)) (leftOver (theMat (s.a2 i)).m 0 k.toNat)) := by
  refine rows_table hsh ?_ leftOver_zero_lt
  rw [lastN_selects, ← drop_leftOver]
  congr 2; omega

theorem range_lt {m p : Nat} (h : p ≤ m) : ∀ k ∈ List.range p, k < m := fun k hk => by
  have := List.mem_range.1 hk
  omega

theorem rowsOf_fits {M : Mat α} {ks : List Nat} (hM : M.m * M.n < 2 ^ 61) (hk : ks.length ≤ M.m) :
    (((rowsOf M ks).m * (rowsOf M ks).n : Nat) : Int) < 2 ^ 62 := by
  have := rowsOf_size (M := M) hk
  omega

/-! ### Inserting cols -/

theorem insertCols_none {M N : Mat α} {pos : Int} (hz : M.m = 0 ↔ M.n = 0) (hN : N.m ≠ 0) :
    M.insertCols? N pos = none ↔ ¬ (0 ≤ pos ∧ pos ≤ M.n ∧ (M.m = 0 ∨ N.m = M.m)) := by
  unfold Mat.insertCols?
  split <;> split <;> simp <;> omega

theorem cols_position_rejects {s : Store α} {i : Nat} {pos : Int} {t : Tm α .two} {N : Mat α}
    (hsh : Shape (s.a2 i)) (hm : IsTable (t.meaning s) N) (h : (theMat (s.a2 i)).insertCols? N pos = none) :
    Rejects s (.use2 i (.insertCols pos) t) := by
  intro k0 r s' hd
  cases hd with
  | use2 hV h1 h2 hu ha =>
    rename_i M N' M' a
    have e1 : M.m = (theMat (s.a2 i)).m := Int.ofNat.inj (h1.rows.symm.trans (theMat_is hsh).rows)
    have e2 : M.n = (theMat (s.a2 i)).n := Int.ofNat.inj (h1.cols.symm.trans (theMat_is hsh).cols)
    have e3 : N'.m = N.m := h2.1.symm.trans hm.1
    have hu : M.insertCols? N' pos = some M' := hu
    unfold Mat.insertCols? at h hu
    rw [e1, e2, e3] at hu
    split at h
    · rw [if_pos ‹_›] at hu
      split at h
      · cases h
      · rw [if_neg ‹_›] at hu; cases hu
    · rw [if_neg ‹_›] at hu
      split at h
      · cases h
      · rw [if_neg ‹_›] at hu; cases hu
  | use2Rejected hV => exact ⟨rfl, _, rfl⟩
  | use2Invalid _ _ => exact ⟨rfl, _, rfl⟩

theorem beside_table {X Y : Mat (Res α)} {M N : Mat α} (hX : IsTable X M) (hY : IsTable Y N) (hM : M.m = 0 ↔ M.n = 0)
    (hN : N.m = 0 ↔ N.n = 0) (h : M.m = 0 ∨ N.m = 0 ∨ M.m = N.m) : IsTable (X.beside Y) (M.beside N) := by
  refine ⟨by simp only [Mat.beside, hX.1, hY.1], by simp only [Mat.beside, hX.2.1, hY.2.1], fun i j hi hj => ?_⟩
  simp only [Mat.beside] at hi hj ⊢
  rw [hX.2.1]
  by_cases hlt : j < M.n
  · rw [if_pos hlt, if_pos hlt]
    rw [if_neg (by omega)] at hi
    exact hX.2.2 _ _ hi hlt
  · rw [if_neg hlt, if_neg hlt]
    refine hY.2.2 _ _ ?_ (by omega)
    split at hi <;> omega

theorem beside_zero {M N : Mat α} (hM : M.m = 0 ↔ M.n = 0) (hN : N.m = 0 ↔ N.n = 0) :
    (M.beside N).m = 0 ↔ (M.beside N).n = 0 := by
  simp only [Mat.beside]
  split <;> omega

theorem firstCols_valid {s : Store α} {i : Nat} {k : Int} :
    (Tm.view (.slice2 .all (.firstN k)) (array2 i) : Tm α .two).Valid s ↔ 0 ≤ k ∧ k ≤ (theMat (s.a2 i)).n :=
  ⟨fun v => v.2.2, fun v => ⟨trivial, trivial, v⟩⟩

theorem lastCols_valid {s : Store α} {i : Nat} {k : Int} :
    (Tm.view (.slice2 .all (.lastN k)) (array2 i) : Tm α .two).Valid s ↔ 0 ≤ k ∧ k ≤ (theMat (s.a2 i)).n :=
  ⟨fun v => v.2.2, fun v => ⟨trivial, trivial, v⟩⟩

theorem insertCols_same {M N : Mat α} (hz : M.m = 0 ↔ M.n = 0) (hN : N.m ≠ 0) {p : Nat} (hp : p ≤ M.n)
    (h : M.m ≠ 0) (hn : N.m = M.m) :
    (((colsOf M (List.range p)).beside N).beside (colsOf M (leftOver M.n 0 p))).Same (M.insertCols N p) := by
  have hw : (if (if (colsOf M (List.range p)).m = 0 then N.m else (colsOf M (List.range p)).m) = 0
      then (colsOf M (leftOver M.n 0 p)).m
      else if (colsOf M (List.range p)).m = 0 then N.m else (colsOf M (List.range p)).m) = M.m := by
    simp only [colsOf, List.length_range]
    (repeat' split) <;> omega
  refine ⟨hw, ?_, fun i j hi hj => ?_⟩
  · simp only [Mat.beside, colsOf, Mat.insertCols, List.length_range, leftOver_zero]; omega
  simp only [Mat.beside, colsOf, List.length_range, leftOver_zero] at hj
  simp only [Mat.beside, colsOf, Mat.insertCols, List.length_range]
  by_cases h1 : j < p
  · simp only [if_pos h1, if_pos (show j < p + N.n by omega)]
    simp [List.getD, h1]
  · by_cases h2 : j < p + N.n
    · simp only [if_neg h1, if_pos h2]
    · simp only [if_neg h1, if_neg h2]
      rw [leftOver_zero_at (by omega)]
      congr 1; omega

theorem firstCols_table {s : Store α} {i : Nat} (hsh : Shape (s.a2 i)) {k : Int} (h : k ≤ (theMat (s.a2 i)).n) :
    IsTable (Tm.meaning s (.view (.slice2 .all (.firstN k)) (array2 i)))
      (colsOf (theMat (s.a2 i)) (List.range k.toNat)) := by
  refine cols_table hsh ?_ fun a ha => ?_
  · rw [firstN_selects, List.take_range, Nat.min_eq_left (by omega)]
  · have := List.mem_range.1 ha
    omega

theorem lastCols_table {s : Store α} {i : Nat} (hsh : Shape (s.a2 i)) {k : Int} :
    IsTable (Tm.meaning s (.view (.slice2 .all (.lastN ((theMat (s.a2 i)).n - k))) (array2 i)))
      (colsOf (theMat (s.a2 i)) (leftOver (theMat (s.a2 i)).n 0 k.toNat)) := by
  refine cols_table hsh ?_ leftOver_zero_lt
  rw [lastN_selects, ← drop_leftOver]
  congr 2; omega

theorem colsOf_fits {M : Mat α} {ks : List Nat} (hM : M.m * M.n < 2 ^ 61) (hk : ks.length ≤ M.n) :
    (((colsOf M ks).m * (colsOf M ks).n : Nat) : Int) < 2 ^ 62 := by
  have := colsOf_size (M := M) hk
  omega

/-! ### A list as a row or a column -/

theorem asRow_table {s : Store α} {t : Tm α .one} {xs : List α} (h : t.meaning s = xs.map Res.ok) (hne : xs ≠ []) :
    IsTable (Tm.meaning s (.view (.view2D .one 1 xs.length) t)) (Mat.ofRow xs) := by
  have hl : xs.length ≠ 0 := fun e => hne (List.length_eq_zero_iff.1 e)
  show IsTable (Mat.laid (t.meaning s) 1 (Int.toNat xs.length)) _
  rw [h]
  unfold Mat.laid
  rw [Int.toNat_natCast, if_neg (by omega)]
  refine ⟨rfl, rfl, fun i j hi hj => ?_⟩
  have hi : i = 0 := Nat.lt_one_iff.1 hi
  have hj : j < xs.length := hj
  show List.getD (xs.map Res.ok) (i * xs.length + j) .ub = .ok (xs.getD j default)
  subst hi
  rw [Nat.zero_mul, Nat.zero_add]
  simp [List.getD, hj]

theorem asCol_table {s : Store α} {t : Tm α .one} {xs : List α} (h : t.meaning s = xs.map Res.ok) (hne : xs ≠ []) :
    IsTable (Tm.meaning s (.view (.view2D .one xs.length 1) t)) (Mat.ofCol xs) := by
  have hl : xs.length ≠ 0 := fun e => hne (List.length_eq_zero_iff.1 e)
  show IsTable (Mat.laid (t.meaning s) (Int.toNat xs.length) 1) _
  rw [h]
  unfold Mat.laid
  rw [Int.toNat_natCast, if_neg (by omega)]
  refine ⟨rfl, rfl, fun i j hi hj => ?_⟩
  have hj : j = 0 := Nat.lt_one_iff.1 hj
  have hi : i < xs.length := hi
  show List.getD (xs.map Res.ok) (i * 1 + j) .ub = .ok (xs.getD i default)
  subst hj
  rw [Nat.mul_one, Nat.add_zero]
  simp [List.getD, hi]

theorem useRow_rejects {s : Store α} {i : Nat} {u : UseRow} {t : Tm α .one} (h : ¬ t.Valid s) :
    Rejects s (.useRow i u t) := by
  intro k0 r s' hd
  cases hd with
  | useRow hV => exact absurd hV h
  | useRowRejected hV => exact absurd hV h
  | useRowInvalid _ _ => exact ⟨rfl, _, rfl⟩

theorem row_position_rejects {s : Store α} {i : Nat} {pos : Int} {t : Tm α .one} {xs : List α}
    (hsh : Shape (s.a2 i)) (hm : t.meaning s = xs.map Res.ok) (h : (theMat (s.a2 i)).insertRow? xs pos = none) :
    Rejects s (.useRow i (.insertRow pos) t) := by
  intro k0 r s' hd
  cases hd with
  | useRow hV h1 h2 hu ha =>
    rename_i M M' ys a
    have e1 : M.m = (theMat (s.a2 i)).m := Int.ofNat.inj (h1.rows.symm.trans (theMat_is hsh).rows)
    have e2 : M.n = (theMat (s.a2 i)).n := Int.ofNat.inj (h1.cols.symm.trans (theMat_is hsh).cols)
    cases res_ok_inj (hm.symm.trans h2)
    have hu : M.insertRow? xs pos = some M' := hu
    unfold Mat.insertRow? Mat.insertRows? at h hu
    rw [e1, e2] at hu
    split at h
    · rw [if_pos ‹_›] at hu; cases hu
    rw [if_neg ‹_›] at hu
    split at h
    · rw [if_pos ‹_›] at hu
      split at h
      · cases h
      · rw [if_neg ‹_›] at hu; cases hu
    · rw [if_neg ‹_›] at hu
      split at h
      · cases h
      · rw [if_neg ‹_›] at hu; cases hu
  | useRowRejected hV => exact ⟨rfl, _, rfl⟩
  | useRowInvalid _ _ => exact ⟨rfl, _, rfl⟩

theorem col_position_rejects {s : Store α} {i : Nat} {pos : Int} {t : Tm α .one} {xs : List α}
    (hsh : Shape (s.a2 i)) (hm : t.meaning s = xs.map Res.ok) (h : (theMat (s.a2 i)).insertCol? xs pos = none) :
    Rejects s (.useRow i (.insertCol pos) t) := by
  intro k0 r s' hd
  cases hd with
  | useRow hV h1 h2 hu ha =>
    rename_i M M' ys a
    have e1 : M.m = (theMat (s.a2 i)).m := Int.ofNat.inj (h1.rows.symm.trans (theMat_is hsh).rows)
    have e2 : M.n = (theMat (s.a2 i)).n := Int.ofNat.inj (h1.cols.symm.trans (theMat_is hsh).cols)
    cases res_ok_inj (hm.symm.trans h2)
    have hu : M.insertCol? xs pos = some M' := hu
    unfold Mat.insertCol? Mat.insertCols? at h hu
    rw [e1, e2] at hu
    split at h
    · rw [if_pos ‹_›] at hu; cases hu
    rw [if_neg ‹_›] at hu
    split at h
    · rw [if_pos ‹_›] at hu
      split at h
      · cases h
      · rw [if_neg ‹_›] at hu; cases hu
    · rw [if_neg ‹_›] at hu
      split at h
      · cases h
      · rw [if_neg ‹_›] at hu; cases hu
  | useRowRejected hV => exact ⟨rfl, _, rfl⟩
  | useRowInvalid _ _ => exact ⟨rfl, _, rfl⟩

end Spp
