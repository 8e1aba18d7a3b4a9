import Verif.Spec.Array2D
import Verif.Lemmas.Array1D

/- Helper lemmas about two-dimensional arrays. -/

set_option linter.unusedSectionVars false

namespace Spp
open Spec

variable {α : Type} [Inhabited α]

theorem flat_lt {m n i j : Nat} (hi : i < m) (hj : j < n) : i * n + j < m * n := by
  have : (i + 1) * n ≤ m * n := Nat.mul_le_mul_right n hi
  rw [Nat.add_mul] at this
  omega

theorem flat_inj {n i j p q : Nat} (hj : j < n) (hq : q < n) (h : i * n + j = p * n + q) :
    i = p ∧ j = q := by
  have h1 : (i * n + j) / n = i := by
    rw [Nat.mul_comm, Nat.mul_add_div (by omega), Nat.div_eq_of_lt hj]; omega
  have h2 : (p * n + q) / n = p := by
    rw [Nat.mul_comm, Nat.mul_add_div (by omega), Nat.div_eq_of_lt hq]; omega
  have : i = p := by rw [← h1, h, h2]
  subst this
  exact ⟨rfl, by omega⟩

theorem flat_div {n i j : Nat} (hj : j < n) : (i * n + j) / n = i := by
  rw [Nat.mul_comm, Nat.mul_add_div (by omega), Nat.div_eq_of_lt hj]; omega

theorem flat_mod {n i j : Nat} (hj : j < n) : (i * n + j) % n = j := by
  rw [Nat.mul_comm, Nat.mul_add_mod, Nat.mod_eq_of_lt hj]

theorem unflat {n k : Nat} : k / n * n + k % n = k := by
  rw [Nat.mul_comm]; exact Nat.div_add_mod k n

theorem unflat_lt {m n k : Nat} (h : k < m * n) : k / n < m ∧ k % n < n := by
  have hn : 0 < n := by
    rcases Nat.eq_zero_or_pos n with h0 | h0
    · subst h0; simp at h
    · exact h0
  exact ⟨(Nat.div_lt_iff_lt_mul hn).2 h, Nat.mod_lt _ hn⟩

namespace Arr2

theorem isMat_ext {a : Arr2 α} {M N : Mat α} (h : IsMat a M) (hmn : M.Same N) : IsMat a N where
  rows := by rw [h.rows, hmn.1]
  cols := by rw [h.cols, hmn.2.1]
  size := by rw [h.size, hmn.1, hmn.2.1]
  zero := by rw [← hmn.1, ← hmn.2.1]; exact h.zero
  el := by
    intro i j hi hj
    rw [← hmn.2.1, h.el i j (by rw [hmn.1]; exact hi) (by rw [hmn.2.1]; exact hj),
      hmn.2.2 i j (by rw [hmn.1]; exact hi) (by rw [hmn.2.1]; exact hj)]

/-- A matrix determines the array. -/
theorem isMat_unique {a c : Arr2 α} {M : Mat α} (h1 : IsMat a M) (h2 : IsMat c M) : a = c := by
  have hd : a.data = c.data := by
    apply List.ext_getElem?
    intro k
    by_cases hk : k < M.m * M.n
    · obtain ⟨u, v⟩ := unflat_lt hk
      have e1 := h1.el _ _ u v
      have e2 := h2.el _ _ u v
      rw [unflat] at e1 e2
      rw [e1, e2]
    · rw [List.getElem?_eq_none (by rw [h1.size]; omega),
        List.getElem?_eq_none (by rw [h2.size]; omega)]
  cases a; cases c
  simp only [mk.injEq]
  exact ⟨h1.rows.trans h2.rows.symm, h1.cols.trans h2.cols.symm, hd⟩

/-- Conversely an array is at most one matrix. -/
theorem isMat_same {a : Arr2 α} {M N : Mat α} (h1 : IsMat a M) (h2 : IsMat a N) : M.Same N := by
  have hm : M.m = N.m := by have := h1.rows; rw [h2.rows] at this; omega
  have hn : M.n = N.n := by have := h1.cols; rw [h2.cols] at this; omega
  refine ⟨hm, hn, fun i j hi hj => ?_⟩
  have e1 := h1.el i j hi hj
  have e2 := h2.el i j (by omega) (by omega)
  rw [← hn, e1] at e2
  exact Option.some.inj e2

theorem shape_of {a : Arr2 α} {M : Mat α} (h : IsMat a M) : Shape a where
  rows := by rw [h.rows]; omega
  cols := by rw [h.cols]; omega
  size := by rw [h.rows, h.cols, h.size]; push_cast; rfl
  zero := by rw [h.rows, h.cols]; have := h.zero; omega

/-- Every array with the shape invariant is a matrix. -/
theorem matOf {a : Arr2 α} (h : Shape a) :
    IsMat a ⟨a.rows.toNat, a.cols.toNat, fun i j => a.data.getD (i * a.cols.toNat + j) default⟩ := by
  have h1 := h.rows
  have h2 := h.cols
  have hs : a.data.length = a.rows.toNat * a.cols.toNat := by
    have := h.size
    have e1 : (a.rows.toNat : Int) = a.rows := by omega
    have e2 : (a.cols.toNat : Int) = a.cols := by omega
    rw [← e1, ← e2] at this
    exact_mod_cast this
  refine ⟨by simp; omega, by simp; omega, hs, ?_, ?_⟩
  · have := h.zero
    simp; omega
  · intro i j hi hj
    simp only at hi hj ⊢
    have : i * a.cols.toNat + j < a.data.length := by rw [hs]; exact flat_lt hi hj
    rw [List.getElem?_eq_getElem this]
    simp [List.getD_eq_getElem?_getD, List.getElem?_eq_getElem this]

theorem isMat_empty : IsMat (empty : Arr2 α) ⟨0, 0, fun _ _ => default⟩ :=
  ⟨rfl, rfl, rfl, by simp, by simp⟩

theorem rd2_ok {a : Arr2 α} {M : Mat α} (h : IsMat a M) {i j : Nat} (hi : i < M.m) (hj : j < M.n) :
    rd2 a i j = .ok (M.el i j) := by
  unfold rd2
  have hlt : i * M.n + j < a.data.length := by rw [h.size]; exact flat_lt hi hj
  rw [show ((i : Int) * a.cols + j) = ((i * M.n + j : Nat) : Int) by rw [h.cols]; push_cast; rfl]
  rw [rd_nat hlt]
  have := h.el i j hi hj
  rw [List.getElem?_eq_getElem hlt] at this
  rw [Option.some.inj this]

theorem rd1_ok {a : Arr2 α} {M : Mat α} (h : IsMat a M) {i j : Nat} (hi : i < M.m) (hj : j < M.n) :
    rd a.data ((i * M.n + j : Nat) : Int) = .ok (M.el i j) := by
  have hlt : i * M.n + j < a.data.length := by rw [h.size]; exact flat_lt hi hj
  rw [rd_nat hlt]
  have := h.el i j hi hj
  rw [List.getElem?_eq_getElem hlt] at this
  rw [Option.some.inj this]

/-- One element changed. -/
def _root_.Spp.Spec.Mat.set (M : Mat α) (i j : Nat) (x : α) : Mat α :=
  ⟨M.m, M.n, fun p q => if p = i ∧ q = j then x else M.el p q⟩

theorem wr2_ok {a : Arr2 α} {M : Mat α} (h : IsMat a M) {i j : Nat} (hi : i < M.m) (hj : j < M.n)
    (x : α) : ∃ a', wr2 a i j x = .ok a' ∧ IsMat a' (M.set i j x) := by
  have hlt : i * M.n + j < a.data.length := by rw [h.size]; exact flat_lt hi hj
  refine ⟨{ a with data := a.data.set (i * M.n + j) x }, ?_, ?_⟩
  · unfold wr2
    rw [show ((i : Int) * a.cols + j) = ((i * M.n + j : Nat) : Int) by rw [h.cols]; push_cast; rfl]
    rw [wr_ok (by constructor <;> omega)]
    simp only [Res.ok_bind, Res.pure_eq, Int.toNat_natCast]
  · refine ⟨h.rows, h.cols, by simp [Mat.set, h.size], h.zero, ?_⟩
    intro p q hp hq
    simp only [Mat.set] at hp hq ⊢
    rw [List.getElem?_set]
    by_cases he : i * M.n + j = p * M.n + q
    · obtain ⟨e1, e2⟩ := flat_inj hj hq he
      subst e1; subst e2
      simp [hlt]
    · rw [if_neg he, h.el p q hp hq, if_neg]
      rintro ⟨rfl, rfl⟩
      exact he rfl

/-- A rectangular block overwritten. -/
def _root_.Spp.Spec.Mat.block (M : Mat α) (r c m n : Nat) (f : Nat → Nat → α) : Mat α :=
  ⟨M.m, M.n, fun p q =>
    if r ≤ p ∧ p < r + m ∧ c ≤ q ∧ q < c + n then f (p - r) (q - c) else M.el p q⟩

/-- One row of a block. -/
theorem row_loop {body : Nat → Arr2 α → Res (Arr2 α)} {t : Arr2 α} {M : Mat α} (h : IsMat t M)
    {r c n : Nat} {f : Nat → α} (hr : r < M.m) (hc : c + n ≤ M.n)
    (hb : ∀ j t, j < n → body j t = wr2 t r (c + j : Nat) (f j)) :
    ∃ t', foldN n body t = .ok t' ∧ IsMat t' (M.block r c 1 n (fun _ j => f j)) := by
  obtain ⟨t', h1, h2⟩ := foldN_inv (f := body) (init := t)
    (fun k t => IsMat t (M.block r c 1 k (fun _ j => f j))) n
    (isMat_ext h ⟨rfl, rfl, fun i j _ _ => by
      simp only [Mat.block]; rw [if_neg (by omega)]⟩)
    (by
      intro k s hk hs
      rw [hb k s hk]
      obtain ⟨s', e1, e2⟩ := wr2_ok hs (i := r) (j := c + k) hr
        (by simp only [Mat.block]; omega) (f k)
      refine ⟨s', e1, isMat_ext e2 ⟨rfl, rfl, fun i j _ _ => ?_⟩⟩
      simp only [Mat.set, Mat.block]
      by_cases h1 : i = r ∧ j = c + k
      · obtain ⟨rfl, rfl⟩ := h1
        rw [if_pos ⟨rfl, rfl⟩, if_pos (by omega)]
        congr 1; omega
      · rw [if_neg h1]
        by_cases h2 : r ≤ i ∧ i < r + 1 ∧ c ≤ j ∧ j < c + k
        · rw [if_pos h2, if_pos (by omega)]
        · rw [if_neg h2, if_neg (by omega)])
  exact ⟨t', h1, h2⟩

/-- The nested copy loops: a block of the target is overwritten. -/
theorem block_loop {body : Nat → Nat → Arr2 α → Res (Arr2 α)} {t : Arr2 α} {M : Mat α}
    (h : IsMat t M) {r c m n : Nat} {f : Nat → Nat → α} (hr : r + m ≤ M.m) (hc : c + n ≤ M.n)
    (hb : ∀ i j t, i < m → j < n → body i j t = wr2 t (r + i : Nat) (c + j : Nat) (f i j)) :
    ∃ t', foldN m (fun i t => foldN n (body i) t) t = .ok t' ∧ IsMat t' (M.block r c m n f) := by
  obtain ⟨t', h1, h2⟩ := foldN_inv (f := fun i t => foldN n (body i) t) (init := t)
    (fun k t => IsMat t (M.block r c k n f)) m
    (isMat_ext h ⟨rfl, rfl, fun i j _ _ => by
      simp only [Mat.block]; rw [if_neg (by omega)]⟩)
    (by
      intro k s hk hs
      obtain ⟨s', e1, e2⟩ := row_loop (body := body k) hs (r := r + k) (c := c) (n := n)
        (f := f k) (by simp only [Mat.block]; omega) (by simp only [Mat.block]; omega)
        (fun j t hj => hb k j t hk hj)
      refine ⟨s', e1, isMat_ext e2 ⟨rfl, rfl, fun i j _ _ => ?_⟩⟩
      simp only [Mat.block]
      by_cases h1 : r + k ≤ i ∧ i < r + k + 1 ∧ c ≤ j ∧ j < c + n
      · rw [if_pos h1, if_pos (by omega)]
        rw [show i - r = k by omega]
      · rw [if_neg h1]
        by_cases h2 : r ≤ i ∧ i < r + k ∧ c ≤ j ∧ j < c + n
        · rw [if_pos h2, if_pos (by omega)]
        · rw [if_neg h2, if_neg (by omega)])
  exact ⟨t', h1, h2⟩

theorem make_ok (b : Build) {m n : Int} (hm : 0 ≤ m) (hn : 0 ≤ n) (hz : m = 0 ↔ n = 0)
    (hs : m * n < 2 ^ 63) :
    ∃ a, make (α := α) b m n = .ok a ∧ IsMat a (Mat.const m.toNat n.toNat default) := by
  have h0 : 0 ≤ m * n := Int.mul_nonneg hm hn
  have h1 : imul m n = .ok (m * n) := imul_ok (by unfold IsIndex; omega)
  have h2 : semiValid m n = true := by
    unfold semiValid
    by_cases h : m = 0
    · simp [h, hz.1 h]
    · have : n ≠ 0 := fun h' => h (hz.2 h')
      rw [show (m == 0) = false by simpa using h, show (n == 0) = false by simpa using this]; rfl
  refine ⟨⟨m, n, List.replicate (m * n).toNat default⟩, ?_, ?_⟩
  · unfold make
    rw [h1, Res.ok_bind, Arr1.make_ok b h0, Res.ok_bind]
    simp [hm, hn, h2]
  · have e : (m * n).toNat = m.toNat * n.toNat := Int.toNat_mul hm hn
    refine ⟨by simp [Mat.const]; omega, by simp [Mat.const]; omega, by simp [Mat.const, e], ?_, ?_⟩
    · simp only [Mat.const]; omega
    · intro i j hi hj
      simp only [Mat.const] at hi hj ⊢
      rw [e, List.getElem?_replicate, if_pos (flat_lt hi hj)]

/-- Wrong sizes are always reported by the constructor (if the product does not overflow). -/
theorem make_checked {b : Build} (hb : b.Checked) {m n : Int} (hp : IsIndex (m * n))
    (h : m < 0 ∨ n < 0 ∨ ¬ (m = 0 ↔ n = 0)) : make (α := α) b m n = .trap b.kind := by
  unfold make
  rw [imul_ok hp, Res.ok_bind]
  by_cases h0 : m * n < 0
  · rw [Arr1.make_checked hb h0]; rfl
  · rw [Arr1.make_ok b (by omega), Res.ok_bind]
    by_cases h1 : m < 0
    · have : decide (m ≥ 0) = false := by simp; omega
      rw [this, assertDebug_false hb]; rfl
    · have e1 : decide (m ≥ 0) = true := by simp; omega
      rw [e1, assertDebug_true, Res.ok_bind]
      by_cases h2 : n < 0
      · have : decide (n ≥ 0) = false := by simp; omega
        rw [this, assertDebug_false hb]; rfl
      · have e2 : decide (n ≥ 0) = true := by simp; omega
        rw [e2, assertDebug_true, Res.ok_bind]
        have h3 : ¬ (m = 0 ↔ n = 0) := by
          rcases h with h | h | h
          · omega
          · omega
          · exact h
        have : semiValid m n = false := by
          unfold semiValid
          by_cases h4 : m = 0 <;> by_cases h5 : n = 0 <;> simp_all
        rw [this, assertDebug_false hb]; rfl

/-- `M` with its first `k` elements (row-major) replaced by those of `N`. -/
def _root_.Spp.Spec.Mat.upto (M N : Mat α) (k : Nat) : Mat α :=
  ⟨M.m, M.n, fun p q => if p * M.n + q < k then N.el p q else M.el p q⟩

theorem upto_zero (M N : Mat α) : M.Same (M.upto N 0) :=
  ⟨rfl, rfl, fun i j _ _ => by simp [Mat.upto]⟩

theorem upto_all {M N : Mat α} (hm : M.m = N.m) (hn : M.n = N.n) :
    (M.upto N (M.m * M.n)).Same N :=
  ⟨hm, hn, fun i j hi hj => by simp only [Mat.upto] at hi hj ⊢; rw [if_pos (flat_lt hi hj)]⟩

theorem upto_set {M N : Mat α} {i j : Nat} (hj : j < M.n) :
    ((M.upto N (i * M.n + j)).set i j (N.el i j)).Same (M.upto N (i * M.n + j + 1)) := by
  refine ⟨rfl, rfl, fun p q hp hq => ?_⟩
  simp only [Mat.set, Mat.upto] at hp hq ⊢
  by_cases h : p = i ∧ q = j
  · obtain ⟨rfl, rfl⟩ := h
    simp
  · rw [if_neg h]
    by_cases h2 : p * M.n + q < i * M.n + j
    · rw [if_pos h2, if_pos (by omega)]
    · rw [if_neg h2, if_neg]
      intro h3
      exact h (flat_inj hq hj (by omega))

theorem copyTwoIndex_ok {un2 : Arr2 α → Int → Int → Res α} {a : Arr2 α} {M N : Mat α}
    (h : IsMat a M) (hm : M.m = N.m) (hn : M.n = N.n)
    (hr : ∀ (i j : Nat) t, i < M.m → j < M.n → IsMat t (M.upto N (i * M.n + j)) →
      un2 t i j = .ok (N.el i j)) :
    ∃ a', copyTwoIndex N.m N.n un2 a = (.ok (), a') ∧ IsMat a' N := by
  unfold copyTwoIndex
  have key := Op.forN_inv (body := fun i : Nat => Op.forN (N.n : Int).toNat (fun j => do
      let a : Arr2 α ← Op.get
      let v ← Op.lift (un2 a i j)
      let a' ← Op.lift (wr2 a i j v)
      Op.set a')) (s := a) (fun k t => IsMat t (M.upto N (k * M.n))) (N.m : Int).toNat
    (by rw [Nat.zero_mul]; exact isMat_ext h (upto_zero M N)) (by
      intro i t hi ht
      rw [Int.toNat_natCast] at hi
      have inner := Op.forN_inv (body := fun j : Nat => (do
          let a : Arr2 α ← Op.get
          let v ← Op.lift (un2 a i j)
          let a' ← Op.lift (wr2 a i j v)
          Op.set a' : Op (Arr2 α) Unit)) (s := t)
        (fun k t => IsMat t (M.upto N (i * M.n + k))) (N.n : Int).toNat ht (by
          intro j t hj ht
          rw [Int.toNat_natCast] at hj
          obtain ⟨t', e1, e2⟩ := wr2_ok ht (i := i) (j := j)
            (by simp only [Mat.upto]; omega) (by simp only [Mat.upto]; omega) (N.el i j)
          refine ⟨t', ?_, isMat_ext e2 (upto_set (by omega))⟩
          simp only [Op.get_bind, hr i j t (by omega) (by omega) ht, Op.lift_ok_bind, e1,
            Op.set_run])
      obtain ⟨t', e1, e2⟩ := inner
      refine ⟨t', e1, ?_⟩
      rw [Int.toNat_natCast, ← hn] at e2
      rw [Nat.succ_mul]; exact e2)
  obtain ⟨t', e1, e2⟩ := key
  refine ⟨t', e1, isMat_ext e2 ?_⟩
  rw [Int.toNat_natCast, ← hm]
  exact upto_all hm hn

theorem copyLinear_ok {un : Arr2 α → Int → Res α} {a : Arr2 α} {M N : Mat α} {size : Int}
    (h : IsMat a M) (hm : M.m = N.m) (hn : M.n = N.n) (hs : size = (N.m * N.n : Nat))
    (hr : ∀ (i j : Nat) t, i < M.m → j < M.n → IsMat t (M.upto N (i * M.n + j)) →
      un t (i * M.n + j : Nat) = .ok (N.el i j)) :
    ∃ a', copyLinear size un a = (.ok (), a') ∧ IsMat a' N := by
  unfold copyLinear
  have key := Op.forN_inv (body := fun i : Nat => (do
      let a : Arr2 α ← Op.get
      let v ← Op.lift (un a i)
      let a' ← Op.lift (wr1 a i v)
      Op.set a' : Op (Arr2 α) Unit)) (s := a) (fun k t => IsMat t (M.upto N k)) size.toNat
    (isMat_ext h (upto_zero M N)) (by
      intro k t hk ht
      rw [hs, Int.toNat_natCast, ← hm, ← hn] at hk
      obtain ⟨u, v⟩ := unflat_lt hk
      have hk' : k / M.n * M.n + k % M.n = k := unflat
      obtain ⟨t', e1, e2⟩ := wr2_ok ht (i := k / M.n) (j := k % M.n) u v
        (N.el (k / M.n) (k % M.n))
      have hcols : t.cols = M.n := ht.cols
      have e1' : wr1 t k (N.el (k / M.n) (k % M.n)) = .ok t' := by
        rw [← e1]; unfold wr1 wr2
        rw [hcols]
        rw [show (((k / M.n : Nat) : Int) * M.n + ((k % M.n : Nat) : Int)) = (k : Int) by
          exact_mod_cast hk']
      have hread := hr (k / M.n) (k % M.n) t u v (by rw [hk']; exact ht)
      rw [hk'] at hread
      refine ⟨t', ?_, isMat_ext e2 ?_⟩
      · simp only [Op.get_bind, hread, Op.lift_ok_bind, e1', Op.set_run]
      · have := upto_set (M := M) (N := N) (i := k / M.n) v
        rw [hk'] at this
        exact this)
  obtain ⟨t', e1, e2⟩ := key
  refine ⟨t', e1, isMat_ext e2 ?_⟩
  rw [hs, Int.toNat_natCast, ← hm, ← hn]
  exact upto_all hm hn

/-- The in-place copy, with a source that denotes the same matrix at every intermediate state. -/
theorem copy_ok {src : Src2 (Arr2 α) α} {a : Arr2 α} {M N : Mat α} (h : IsMat a M)
    (hm : M.m = N.m) (hn : M.n = N.n)
    (hr : ∀ (i j : Nat) t, i < M.m → j < M.n → IsMat t (M.upto N (i * M.n + j)) →
      src.un2 t i j = .ok (N.el i j) ∧ src.un t (i * M.n + j : Nat) = .ok (N.el i j))
    (h1 : src.rows = N.m) (h2 : src.cols = N.n) :
    ∃ a', copy src a = (.ok (), a') ∧ IsMat a' N := by
  unfold copy
  split
  · exact copyLinear_ok h hm hn (by rw [h1, h2]; push_cast; rfl)
      (fun i j t hi hj ht => (hr i j t hi hj ht).2)
  · rw [h1, h2]
    exact copyTwoIndex_ok h hm hn (fun i j t hi hj ht => (hr i j t hi hj ht).1)

theorem copy_denotes {src : Src2 (Arr2 α) α} {a : Arr2 α} {M N : Mat α} (h : IsMat a M)
    (hm : M.m = N.m) (hn : M.n = N.n) (hd : ∀ s, Denotes2 src s N) :
    ∃ a', copy src a = (.ok (), a') ∧ IsMat a' N :=
  copy_ok h hm hn (fun i j t hi hj _ => ⟨(hd t).un2 i j (by omega) (by omega), by
    rw [hn]; exact (hd t).un i j (by omega) (by omega)⟩) (hd a).rows (hd a).cols

theorem makeFrom_ok (b : Build) {src : Src2 (Arr2 α) α} {N : Mat α} (hd : ∀ s, Denotes2 src s N)
    (hs : (N.m : Int) * N.n < 2 ^ 63) : ∃ a, makeFrom b src = .ok a ∧ IsMat a N := by
  have h1 := (hd empty).rows
  have h2 := (hd empty).cols
  have h3 := (hd empty).zero
  obtain ⟨a, e1, e2⟩ := make_ok (α := α) b (m := src.rows) (n := src.cols) (by omega) (by omega)
    (by omega) (by rw [h1, h2]; exact hs)
  obtain ⟨a', e3, e4⟩ := copy_denotes e2 (N := N) (by simp [Mat.const, h1]) (by simp [Mat.const, h2]) hd
  refine ⟨a', ?_, e4⟩
  unfold makeFrom
  rw [e1, Res.ok_bind, e3]; rfl

theorem denotes_toSrc {σ : Type} {a : Arr2 α} {M : Mat α} (h : IsMat a M) (s : σ) :
    Denotes2 (toSrc a) s M where
  rows := h.rows
  cols := h.cols
  zero := h.zero
  un2 := fun _ _ hi hj => rd2_ok h hi hj
  un := fun _ _ hi hj => rd1_ok h hi hj

/-- `block_loop` where an empty block may lie anywhere. -/
theorem block_loop' {body : Nat → Nat → Arr2 α → Res (Arr2 α)} {t : Arr2 α} {M : Mat α}
    (h : IsMat t M) {r c m n : Nat} {f : Nat → Nat → α}
    (hrc : m = 0 ∨ n = 0 ∨ (r + m ≤ M.m ∧ c + n ≤ M.n))
    (hb : ∀ i j t, i < m → j < n → body i j t = wr2 t (r + i : Nat) (c + j : Nat) (f i j)) :
    ∃ t', foldN m (fun i t => foldN n (body i) t) t = .ok t' ∧ IsMat t' (M.block r c m n f) := by
  by_cases h0 : m = 0 ∨ n = 0
  · have : foldN m (fun i t => foldN n (body i) t) t = .ok t := by
      rcases h0 with h0 | h0
      · subst h0; rfl
      · subst h0
        have := foldN_ok (f := fun i t => foldN 0 (body i) t) (init := t) (fun _ => t) m rfl
          (fun _ _ => rfl)
        exact this
    refine ⟨t, this, isMat_ext h ⟨rfl, rfl, fun i j _ _ => ?_⟩⟩
    simp only [Mat.block]
    rw [if_neg (by omega)]
  · exact block_loop h (by omega) (by omega) hb

theorem copyRows_ok {src : Int → Int → Res α} {t : Arr2 α} {M : Mat α} (h : IsMat t M)
    {cols s1 s2 n : Int} {f : Nat → Nat → α} (h2 : 0 ≤ s2)
    (hrc : n ≤ 0 ∨ (s2 + n ≤ M.m ∧ cols ≤ M.n))
    (hs : ∀ i j : Nat, (i : Int) < n → (j : Int) < cols → src (i + s1) j = .ok (f i j)) :
    ∃ t', copyRows cols src t s1 s2 n = .ok t' ∧
      IsMat t' (M.block s2.toNat 0 n.toNat cols.toNat f) := by
  unfold copyRows
  refine block_loop' h (by omega) ?_
  intro i j t hi hj
  rw [hs i j (by omega) (by omega), Res.ok_bind]
  congr 1
  · omega
  · omega

theorem copyRows0_eq (cols : Int) (src : Int → Int → Res α) (t : Arr2 α) (n : Int) :
    copyRows0 cols src t n = copyRows cols src t 0 0 n := by
  unfold copyRows0 copyRows; simp

theorem copyCols_ok {src : Int → Int → Res α} {t : Arr2 α} {M : Mat α} (h : IsMat t M)
    {rows s1 s2 n : Int} {f : Nat → Nat → α} (h2 : 0 ≤ s2)
    (hrc : n ≤ 0 ∨ (s2 + n ≤ M.n ∧ rows ≤ M.m))
    (hs : ∀ i j : Nat, (i : Int) < rows → (j : Int) < n → src i (j + s1) = .ok (f i j)) :
    ∃ t', copyCols rows src t s1 s2 n = .ok t' ∧
      IsMat t' (M.block 0 s2.toNat rows.toNat n.toNat f) := by
  unfold copyCols
  refine block_loop' h (by omega) ?_
  intro i j t hi hj
  rw [hs i j (by omega) (by omega), Res.ok_bind]
  congr 1
  · omega
  · omega

theorem copyCols0_eq (rows : Int) (src : Int → Int → Res α) (t : Arr2 α) (n : Int) :
    copyCols0 rows src t n = copyCols rows src t 0 0 n := by
  unfold copyCols0 copyCols; simp

end Arr2
end Spp
