import Verif.Spec.Expr
import Verif.Lemmas.Array2D
import Verif.Props.Slice
import Verif.Props.Index

/- Views have the meaning `View.sel`. -/

set_option linter.unusedSectionVars false

namespace Spp
open Spec Props

/-! ### Slices -/

/-- A request accepted by a checked build selects the specified elements, all in range. -/
theorem mkSlice_selects {b : Build} (hb : b.Checked) {n : Int} {r : SliceReq} {sl : Slice}
    (h0 : 0 ≤ n) (hn : n < 2 ^ 63 - 1) (h : mkSlice b n (n == 0) r = .ok sl) :
    Reads sl (selection n r) ∧ ∀ x ∈ selection n r, InRange n x := by
  have hI : IsIndex n := by unfold IsIndex; omega
  obtain ⟨hs, hv⟩ := mkSlice_checked hb h
  obtain ⟨l, hl, hr⟩ := slice_ok_reads hI ⟨hs, hv⟩
  have key : Reads sl (selection n r) := by
    have named : ∀ {r : SliceReq} {L : List Int}, mkSlice b n (n == 0) r = .ok sl →
        (∃ sl, mkSlice b n (n == 0) r = .ok sl ∧ Reads sl L) → Reads sl L := by
      rintro r L h ⟨sl', h1, h2⟩
      rw [h] at h1; cases h1; exact h2
    cases r with
    | seqN s m st => exact (C14_seqN_accepted hb hI h).2.2.1
    | seq f l st =>
      by_cases hcond : (n == 0) = true ∨ ¬ InRange n f ∨ ¬ InRange n l ∨ ¬ Consistent f l st
      · rw [C15_seq_rejected hb hcond] at h; cases h
      · have hc : Consistent f l st := Classical.byContradiction fun hh => hcond (by simp [hh])
        simp only [mkSlice, Res.bind_eq_ok] at h
        obtain ⟨_, _, sl', h2, _, _, h4⟩ := h
        simp only [Res.pure_eq, Res.ok.injEq] at h4; subst h4
        simp only [SliceReq.get, Res.bind_eq_ok] at h2
        obtain ⟨_, _, _, _, h5⟩ := h2
        simp only [selection]
        by_cases hst : st = 0
        · subst hst
          simp only [seqToSlice, ne_eq, not_true_eq_false, if_false] at h5
          have := mkSeqN_eq_ok h5; subst this
          have hr := (seqNValid_eq_ok hv).1 rfl
          simpa using reads_seqN hI (by omega) hr
        · simp only [seqToSlice, ne_eq, hst, not_false_eq_true, if_true, Res.bind_eq_ok] at h5
          obtain ⟨d, h6, q, h7, m, h8, h9⟩ := h5
          have := mkSeqN_eq_ok h9; subst this
          have := isub_eq_ok h6; subst this
          have := iadd_eq_ok h8; subst this
          have hq : q = (l - f).tdiv st := by
            simp only [idiv, SInt.div, Res.bind_eq_ok] at h7
            obtain ⟨_, _, h10⟩ := h7
            simp only [SInt.builtinDiv, hst, if_false] at h10
            unfold IntTy.arith at h10
            rw [if_pos long_signed] at h10
            split at h10
            · simpa using h10.symm
            · cases h10
          subst hq
          have hr := (seqNValid_eq_ok hv).1 rfl
          exact reads_seqN hI hs hr
    | all => exact named h (C16_all_even_odd_reverse b h0 hn (by simp))
    | even => exact named h (C16_all_even_odd_reverse b h0 hn (by simp))
    | odd => exact named h (C16_all_even_odd_reverse b h0 hn (by simp))
    | reverse => exact named h (C16_all_even_odd_reverse b h0 hn (by simp))
    | skipN k =>
      by_cases hk : k ≤ 0
      · rw [(C16_rejected hb).1 hk] at h; cases h
      · have hfit : n + k < 2 ^ 63 := by
          have h' := h
          simp only [mkSlice, SliceReq.get, Res.bind_eq_ok] at h'
          obtain ⟨_, _, sl', ⟨x, h2, _⟩, _⟩ := h'
          rcases iadd_cases n k with ⟨hh, _⟩ | ⟨_, e⟩
          · exact hh.2
          · rw [e] at h2; cases h2
        exact named h (C16_skipN b h0 (by omega) hfit)
    | firstN k =>
      by_cases hk : k < 0 ∨ n < k
      · rw [((C16_rejected hb).2 hk).1] at h; cases h
      · exact named h (C16_firstN_lastN b hI (by omega) (by omega)).1
    | lastN k =>
      by_cases hk : k < 0 ∨ n < k
      · rw [((C16_rejected hb).2 hk).2] at h; cases h
      · exact named h (C16_firstN_lastN b hI (by omega) (by omega)).2
    | vec idx =>
      by_cases hk : ∀ x ∈ idx, InRange n x
      · exact named h ((C14_index_vector hb idx).1 hk)
      · rw [(C14_index_vector hb idx).2 (by simpa using hk)] at h; cases h
    | complement idx =>
      by_cases hk : ¬ Increasing idx ∨ ∃ x ∈ idx, ¬ InRange n x
      · rw [C17_rejected hb hk] at h; cases h
      · have h1 : Increasing idx := Classical.byContradiction fun hh => hk (.inl hh)
        have h2 : ∀ x ∈ idx, InRange n x := fun x hx =>
          Classical.byContradiction fun hh => hk (.inr ⟨x, hx, hh⟩)
        exact named h (C17_complement b h0 _ h1 h2)
  refine ⟨key, ?_⟩
  rw [reads_unique key hl]; exact hr


/-! ### Lists of elements -/

@[simp] theorem pick_nat {β : Type} (l : List (Res β)) (i : Nat) : pick l (i : Int) = l.getD i .ub := by
  simp [pick]

theorem getD_map_lt {β γ : Type} {l : List β} {f : β → γ} {i : Nat} {d : γ} (h : i < l.length) :
    (l.map f).getD i d = f l[i] := by
  simp [List.getD, h]

theorem getD_lt {β : Type} {l : List β} {i : Nat} {d : β} (h : i < l.length) :
    l.getD i d = l[i] := by
  simp [List.getD, h]

theorem getD_range_map {γ : Type} {n i : Nat} {f : Nat → γ} {d : γ} (h : i < n) :
    ((List.range n).map f).getD i d = f i := by
  simp [List.getD, h]

theorem flat_eq {β : Type} (M : Mat β) :
    M.flat = (List.range (M.m * M.n)).map (fun k => M.el (k / M.n) (k % M.n)) := by
  obtain ⟨m, n, el⟩ := M
  simp only [Mat.flat, Mat.row]
  induction m with
  | zero => simp
  | succ m ih =>
    rw [List.range_succ, List.flatMap_append, ih, Nat.add_mul, Nat.one_mul, List.range_add,
      List.map_append, List.map_map]
    congr 1
    simp only [List.flatMap_cons, List.flatMap_nil, List.append_nil]
    apply List.map_congr_left
    intro j hj
    have hj' : j < n := by simpa using hj
    simp [flat_div hj', flat_mod hj']

@[simp] theorem flat_length {β : Type} (M : Mat β) : M.flat.length = M.m * M.n := by
  simp [flat_eq]

theorem flat_getD {β : Type} {M : Mat β} {i j : Nat} {d : β} (hi : i < M.m) (hj : j < M.n) :
    M.flat.getD (i * M.n + j) d = M.el i j := by
  rw [flat_eq, getD_range_map (flat_lt hi hj), flat_div hj, flat_mod hj]

/-! ### Objects -/

section
variable {σ β : Type}

/-- Linear access yields these elements. -/
def LinDen (a : Acc σ β) (s : σ) (l : List (Res β)) : Prop :=
  a.size s = .ok (l.length : Int) ∧ ∀ i : Nat, i < l.length → a.un s i = l.getD i .ub

theorem linDen_of {d : Dim} {a : Acc σ β} {s : σ} {x : Sem β d} (h : Den d a s x) :
    LinDen a s x.flat := by
  cases d with
  | one => exact ⟨h.2.1, h.2.2⟩
  | two =>
    change Mat (Res β) at x
    obtain ⟨h1, h2, h3, h4⟩ := h
    show LinDen a s (Mat.flat x)
    refine ⟨by rw [flat_length]; exact h3, ?_⟩
    intro k hk
    rw [flat_length] at hk
    obtain ⟨u, v⟩ := unflat_lt hk
    have := (h4 _ _ u v).2
    rw [unflat] at this
    rw [this]
    have e := flat_getD (d := Res.ub) u v
    rw [unflat] at e
    exact e.symm

theorem den_slice {a : Acc σ β} {s : σ} {l : List (Res β)} {sl : Slice} {idx : List Int}
    (h : LinDen a s l) (hr : Reads sl idx) (hin : ∀ x ∈ idx, InRange l.length x) :
    Den .one (a.slice sl) s (idx.map (pick l)) := by
  refine ⟨by simp [Acc.slice, Acc.oneD, hr.1], by simp [Acc.slice, Acc.oneD, hr.1], ?_⟩
  intro i hi
  have hi' : i < idx.length := by simpa using hi
  have hx := hin idx[i] (List.getElem_mem hi')
  obtain ⟨k, hk⟩ : ∃ k : Nat, idx[i] = (k : Int) := ⟨idx[i].toNat, by have := hx.1; omega⟩
  show (sl.map i >>= fun j => a.un s j) = _
  rw [hr.2 i hi', Res.ok_bind, getD_map_lt hi', hk, pick_nat]
  exact h.2 k (by have := hx.2; omega)

theorem unflatten_ok (b : Build) {n k : Nat} (hn : 0 < n) (hk : (k : Int) < 2 ^ 63) :
    Elem2.unflatten b n k = .ok (((k / n : Nat) : Int), ((k % n : Nat) : Int)) := by
  have hI : IsIndex (k : Int) := by unfold IsIndex; omega
  simp [Elem2.unflatten, idiv_ok b (by omega) hI (show (0 : Int) < n by omega),
    irem_ok b (by omega) hI (show (0 : Int) < n by omega)]

theorem off_nat {m n i j : Nat} (hi : i < m) (hj : j < n) (h : ((m * n : Nat) : Int) < 2 ^ 63) :
    Elem2.off n i j = .ok ((i * n + j : Nat) : Int) := by
  rw [off_ok (m := m) (by constructor <;> omega) (by constructor <;> omega)
    (by push_cast at h; have := Int.mul_nonneg (Int.natCast_nonneg m) (Int.natCast_nonneg n); unfold IsIndex; omega)]
  push_cast; rfl

theorem den_twoD (b : Build) {m n : σ → Int} {un2 : σ → Int → Int → Res β} {s : σ}
    {M : Mat (Res β)} (hm : m s = M.m) (hn : n s = M.n)
    (hs : ((M.m * M.n : Nat) : Int) < 2 ^ 63)
    (h : ∀ i j : Nat, i < M.m → j < M.n → un2 s i j = M.el i j) :
    Den .two (Acc.twoD b m n un2) s M := by
  have h0 := Int.mul_nonneg (Int.natCast_nonneg M.m) (Int.natCast_nonneg M.n)
  refine ⟨hm, hn, ?_, ?_⟩
  · show imul (m s) (n s) = _
    rw [hm, hn, imul_ok (by push_cast at hs; unfold IsIndex; omega)]
    push_cast; rfl
  · intro i j hi hj
    refine ⟨h i j hi hj, ?_⟩
    show (Elem2.unflatten b (n s) _ >>= _) = _
    have hlt := flat_lt hi hj
    rw [hn, unflatten_ok b (by omega) (by omega), Res.ok_bind, flat_div hj, flat_mod hj]
    exact h i j hi hj

end


/-! ### Slice requests: accepted exactly when valid -/

theorem mkSlice_valid' (b : Build) {n : Int} {r : SliceReq} (h0 : 0 ≤ n) (hn : n < 2 ^ 63 - 1)
    (ha : r.Args) (hv : r.Valid n) :
    ∃ sl, mkSlice b n (n == 0) r = .ok sl ∧ Reads sl (selection n r) := by
  have hI : IsIndex n := by unfold IsIndex; omega
  cases r with
  | seqN s m st => exact C14_seqN_in_range b _ hI hv.1 hv.2.1 ha.2.1 hv.2.2
  | seq f l st =>
    have hne : (n == 0) = false := by
      have := hv.1.1; have := hv.1.2; simp; omega
    obtain ⟨sl, m, h1, h2, h3⟩ := C15_seq_selects b hI ha.2.2 hv.1 hv.2.1 hv.2.2
    rw [hne]
    refine ⟨sl, h1, ?_⟩
    have : m = ((l - f).tdiv st + 1).toNat := by
      by_cases hst : st = 0
      · subst hst; rw [h2.once rfl]; simp
      · exact C15_range_unique h2 (inclusive_tdiv hv.2.2 hst).2.1
    rw [this] at h3; exact h3
  | all => exact C16_all_even_odd_reverse b h0 hn (by simp)
  | even => exact C16_all_even_odd_reverse b h0 hn (by simp)
  | odd => exact C16_all_even_odd_reverse b h0 hn (by simp)
  | reverse => exact C16_all_even_odd_reverse b h0 hn (by simp)
  | skipN k => exact C16_skipN b h0 hv.1 hv.2
  | firstN k => exact (C16_firstN_lastN b hI hv.1 hv.2).1
  | lastN k => exact (C16_firstN_lastN b hI hv.1 hv.2).2
  | vec idx =>
    refine ⟨.vec idx, mkSlice_of rfl rfl ?_, reads_vec idx⟩
    simp only [Slice.valid, Res.ok.injEq, List.all_eq_true]
    exact fun x hx => validIndex_iff.2 (hv x hx)
  | complement idx => exact C17_complement b h0 _ hv.1 hv.2

theorem mkSlice_valid (b : Build) {n : Int} {r : SliceReq} (h0 : 0 ≤ n) (hn : n < 2 ^ 63 - 1)
    (ha : r.Args) (hv : r.Valid n) :
    ∃ sl, mkSlice b n (n == 0) r = .ok sl ∧ Reads sl (selection n r) ∧
      ∀ x ∈ selection n r, InRange n x := by
  obtain ⟨sl, h1, h2⟩ := mkSlice_valid' b h0 hn ha hv
  obtain ⟨sl', h3, _⟩ := mkSlice_valid' ⟨false, true, false⟩ h0 hn ha hv
  exact ⟨sl, h1, h2, (mkSlice_selects (by decide) h0 hn h3).2⟩

theorem mkSlice_only_valid {b : Build} (hb : b.Checked) {n : Int} {r : SliceReq} {sl : Slice}
    (h0 : 0 ≤ n) (hn : n < 2 ^ 63 - 1) (h : mkSlice b n (n == 0) r = .ok sl) : r.Valid n := by
  have hI : IsIndex n := by unfold IsIndex; omega
  cases r with
  | seqN s m st =>
    obtain ⟨a, c, _, d⟩ := C14_seqN_accepted hb hI h
    exact ⟨a, c, d⟩
  | seq f l st =>
    by_cases hcond : (n == 0) = true ∨ ¬ InRange n f ∨ ¬ InRange n l ∨ ¬ Consistent f l st
    · rw [C15_seq_rejected hb hcond] at h; cases h
    · exact ⟨Classical.byContradiction fun hh => hcond (by simp [hh]),
        Classical.byContradiction fun hh => hcond (by simp [hh]),
        Classical.byContradiction fun hh => hcond (by simp [hh])⟩
  | all => trivial
  | even => trivial
  | odd => trivial
  | reverse => trivial
  | skipN k =>
    by_cases hk : k ≤ 0
    · rw [(C16_rejected hb).1 hk] at h; cases h
    · refine ⟨by omega, ?_⟩
      simp only [mkSlice, SliceReq.get, Res.bind_eq_ok] at h
      obtain ⟨_, _, sl', ⟨x, h2, _⟩, _⟩ := h
      rcases iadd_cases n k with ⟨hh, _⟩ | ⟨_, e⟩
      · exact hh.2
      · rw [e] at h2; cases h2
  | firstN k =>
    by_cases hk : k < 0 ∨ n < k
    · rw [((C16_rejected hb).2 hk).1] at h; cases h
    · exact ⟨by omega, by omega⟩
  | lastN k =>
    by_cases hk : k < 0 ∨ n < k
    · rw [((C16_rejected hb).2 hk).2] at h; cases h
    · exact ⟨by omega, by omega⟩
  | vec idx =>
    by_cases hk : ∀ x ∈ idx, InRange n x
    · exact hk
    · rw [(C14_index_vector hb idx).2 (by simpa using hk)] at h; cases h
  | complement idx =>
    by_cases hk : ¬ Increasing idx ∨ ∃ x ∈ idx, ¬ InRange n x
    · rw [C17_rejected hb hk] at h; cases h
    · exact ⟨Classical.byContradiction fun hh => hk (.inl hh), fun x hx =>
        Classical.byContradiction fun hh => hk (.inr ⟨x, hx, hh⟩)⟩

section
variable {σ β : Type}

/-! ### One-dimensional views -/

theorem mkSlice1_ok (b : Build) {a : Acc σ β} {s0 : σ} {n : Nat} {r : SliceReq}
    (hr : a.rows s0 = n) (hn : (n : Int) < 2 ^ 63 - 1) (ha : r.Args) (hv : r.Valid n) :
    ∃ a', View.mkSlice1 b a s0 r = .ok a' ∧
      ∀ s (l : List (Res β)), l.length = n → LinDen a s l →
        Den .one a' s ((selection n r).map (pick l)) := by
  obtain ⟨sl, h1, h2, h3⟩ := mkSlice_valid b (Int.natCast_nonneg n) hn ha hv
  refine ⟨a.slice sl, by simp [View.mkSlice1, hr, h1], ?_⟩
  intro s l hl hd
  exact den_slice hd h2 (by rw [hl]; exact h3)

theorem mkSlice1_only {b : Build} (hb : b.Checked) {a a' : Acc σ β} {s0 : σ} {n : Nat}
    {r : SliceReq} (hr : a.rows s0 = n) (hn : (n : Int) < 2 ^ 63 - 1)
    (h : View.mkSlice1 b a s0 r = .ok a') : r.Valid n := by
  simp only [View.mkSlice1, Res.bind_eq_ok, hr] at h
  obtain ⟨sl, h1, _⟩ := h
  exact mkSlice_only_valid hb (Int.natCast_nonneg n) hn h1

theorem map_pick_upto {l : List (Res β)} {n : Nat} (h : l.length = n) :
    (upto (n : Int)).map (pick l) = l := by
  apply List.ext_getElem
  · simp [h]
  · intro i h1 h2
    simp [upto, List.getD, h2]

/-- `view1D()`. -/
theorem mkView1D_ok (b : Build) {a : Acc σ β} {s0 : σ} {n : Nat}
    (hr : a.size s0 = .ok (n : Int)) (hn : (n : Int) < 2 ^ 63 - 1) :
    ∃ a', View.mkView1D b a s0 = .ok a' ∧ (∀ s, a'.rows s = n) ∧
      ∀ s (l : List (Res β)), l.length = n → LinDen a s l → Den .one a' s l := by
  have hI : IsIndex (n : Int) := by unfold IsIndex; omega
  have hin : (n : Int) ≠ 0 → InRange n 0 ∧ InRange n (0 + 1 * ((n : Int) - 1)) := by
    intro _; unfold InRange; omega
  have hv : (Slice.seqN 0 n 1).valid n = .ok true :=
    seqNValid_of_inRange hI (by omega) hI hin
  refine ⟨a.slice (.seqN 0 n 1), ?_, fun s => rfl, ?_⟩
  · simp [View.mkView1D, hr, mkSeqN_ok b 1 (show (0 : Int) ≤ 0 by omega) (Int.natCast_nonneg n), hv]
  · intro s l hl hd
    have := den_slice hd (reads_seqN hI (Int.natCast_nonneg n) hin) (by
      intro x hx
      obtain ⟨i, hi, rfl⟩ := mem_progression.1 hx
      rw [hl]; unfold InRange; omega)
    rw [← upto_eq_progression, map_pick_upto hl] at this
    exact this

/-! ### Rows, columns, diagonals -/

/-- What an object says about its extents in state `s0`. -/
structure Ext (a : Acc σ β) (s0 : σ) (m n : Nat) : Prop where
  rows : a.rows s0 = m
  cols : a.cols s0 = n
  size : a.size s0 = .ok ((m * n : Nat) : Int)
  small : ((m * n : Nat) : Int) < 2 ^ 63 - 1
  zero : m = 0 ↔ n = 0

theorem Ext.le {a : Acc σ β} {s0 : σ} {m n : Nat} (h : Ext a s0 m n) :
    m ≤ m * n ∧ n ≤ m * n := by
  have hz := h.zero
  by_cases h0 : m = 0
  · have : n = 0 := hz.1 h0
    subst h0; subst this; simp
  · have h1 : 0 < m := by omega
    have h2 : 0 < n := by
      rcases Nat.eq_zero_or_pos n with e | e
      · exact absurd (hz.2 e) h0
      · exact e
    exact ⟨Nat.le_mul_of_pos_right m h2, Nat.le_mul_of_pos_left n h1⟩

theorem prog_flat {M : Mat (Res β)} {start stride : Int} {K : Nat} (p q : Nat → Nat)
    (h : ∀ k, k < K → p k < M.m ∧ q k < M.n ∧
      start + k * stride = ((p k * M.n + q k : Nat) : Int)) :
    (progression start stride K).map (pick M.flat) = (List.range K).map (fun k => M.el (p k) (q k))
    := by
  unfold progression
  rw [List.map_map]
  apply List.map_congr_left
  intro k hk
  obtain ⟨h1, h2, h3⟩ := h k (by simpa using hk)
  simp only [Function.comp]
  rw [h3, pick_nat, flat_getD h1 h2]

/-- One-dimensional slices of `view1D()`. -/
theorem mkLin_ok (b : Build) {a : Acc σ β} {s0 : σ} {m n : Nat} (h : Ext a s0 m n) {r : SliceReq}
    (ha : r.Args) (hv : r.Valid ((m * n : Nat) : Int)) :
    ∃ v a', View.mkView1D b a s0 = .ok v ∧ View.mkSlice1 b v s0 r = .ok a' ∧
      ∀ s (M : Mat (Res β)), M.m = m → M.n = n → LinDen a s M.flat →
        Den .one a' s ((selection ((m * n : Nat) : Int) r).map (pick M.flat)) := by
  obtain ⟨v, h1, h2, h3⟩ := mkView1D_ok b h.size h.small
  obtain ⟨a', h4, h5⟩ := mkSlice1_ok b (h2 s0) h.small ha hv
  refine ⟨v, a', h1, h4, ?_⟩
  intro s M hm hn hd
  have hl : M.flat.length = m * n := by rw [flat_length, hm, hn]
  have := linDen_of (h3 s _ hl hd)
  exact h5 s _ hl this

theorem inRange_nat {n : Nat} {i : Int} (h : InRange n i) : ∃ k : Nat, i = k ∧ k < n :=
  ⟨i.toNat, by have := h.1; omega, by have := h.1; have := h.2; omega⟩

theorem resolve_inRange {n : Nat} {p : Pos} (hn : (n : Int) < 2 ^ 63 - 1)
    (h : InRange n (target n p)) : p.resolve n = .ok (target n p) := by
  apply resolve_ok
  cases p with
  | «at» i => trivial
  | fromLast k =>
    simp only [target, InRange] at h
    unfold NoOverflow IsIndex; omega

theorem mkRow_ok (b : Build) {a : Acc σ β} {s0 : σ} {m n : Nat} (h : Ext a s0 m n) {p : Pos}
    (hv : InRange m (target m p)) :
    ∃ a', View.mkRow b a s0 p = .ok a' ∧
      ∀ s (M : Mat (Res β)), M.m = m → M.n = n → LinDen a s M.flat →
        Den .one a' s (M.row (target m p).toNat) := by
  have hle := h.le
  have hsm := h.small
  have hres := resolve_inRange (by omega) hv
  have hvi := validIndex_iff.2 hv
  obtain ⟨i, hi, hlt⟩ := inRange_nat hv
  rw [hi] at hres hvi ⊢
  have hn0 : 0 < n := by have := h.zero; omega
  have hmul : (i + 1) * n ≤ m * n := Nat.mul_le_mul_right n hlt
  rw [Nat.add_mul, Nat.one_mul] at hmul
  have e1 : imul (i : Int) (n : Int) = .ok ((i * n : Nat) : Int) := by
    rw [imul_ok (by unfold IsIndex; rw [← Int.natCast_mul]; omega)]; push_cast; rfl
  have e2 : iadd ((i * n : Nat) : Int) (n : Int) = .ok (((i * n : Nat) : Int) + n) :=
    iadd_ok (by unfold IsIndex; omega)
  have e3 : isub (((i * n : Nat) : Int) + n) 1 = .ok (((i * n : Nat) : Int) + n - 1) :=
    isub_ok (by unfold IsIndex; omega)
  obtain ⟨v, a', h1, h2, h3⟩ := mkLin_ok b h
    (r := .seq ((i * n : Nat) : Int) (((i * n : Nat) : Int) + n - 1) 1)
    ⟨by unfold IsIndex; omega, by unfold IsIndex; omega, by unfold IsIndex; omega⟩
    ⟨by unfold InRange; omega, by unfold InRange; omega, by unfold Consistent; omega⟩
  refine ⟨a', ?_, ?_⟩
  · simp only [View.mkRow, h.rows, h.cols, hres, Res.ok_bind, hvi, assertDebug_true, e1, h1, e2, e3,
      h2]
  · intro s M hm hn hd
    have := h3 s M hm hn hd
    have hc : ((((i * n : Nat) : Int) + n - 1 - ((i * n : Nat) : Int)).tdiv 1 + 1).toNat = n := by
      rw [Int.tdiv_one]; omega
    simp only [selection, hc] at this
    rw [prog_flat (fun _ => i) (fun k => k) (by
      intro k hk
      refine ⟨by omega, by omega, ?_⟩
      rw [hn]; push_cast; omega)] at this
    simp only [Mat.row, hn, Int.toNat_natCast]
    exact this

theorem mkCol_ok (b : Build) {a : Acc σ β} {s0 : σ} {m n : Nat} (h : Ext a s0 m n) {p : Pos}
    (hv : InRange n (target n p)) :
    ∃ a', View.mkCol b a s0 p = .ok a' ∧
      ∀ s (M : Mat (Res β)), M.m = m → M.n = n → LinDen a s M.flat →
        Den .one a' s (M.col (target n p).toNat) := by
  have hle := h.le
  have hsm := h.small
  have hres := resolve_inRange (by omega) hv
  have hvi := validIndex_iff.2 hv
  obtain ⟨j, hj, hlt⟩ := inRange_nat hv
  rw [hj] at hres hvi ⊢
  have hm0 : 0 < m := by have := h.zero; omega
  obtain ⟨m', rfl⟩ : ∃ m', m = m' + 1 := ⟨m - 1, by omega⟩
  have hmul : (m' + 1) * n = m' * n + n := by rw [Nat.add_mul, Nat.one_mul]
  have e0 : isub ((m' + 1 : Nat) : Int) 1 = .ok (m' : Int) := by
    rw [isub_ok (by unfold IsIndex; omega)]; congr 1; omega
  have e1 : imul (m' : Int) (n : Int) = .ok ((m' * n : Nat) : Int) := by
    rw [imul_ok (by unfold IsIndex; rw [← Int.natCast_mul]; omega)]; push_cast; rfl
  have e2 : iadd (j : Int) ((m' * n : Nat) : Int) = .ok ((j : Int) + ((m' * n : Nat) : Int)) :=
    iadd_ok (by unfold IsIndex; omega)
  obtain ⟨v, a', h1, h2, h3⟩ := mkLin_ok b h
    (r := .seq (j : Int) ((j : Int) + ((m' * n : Nat) : Int)) n)
    ⟨by unfold IsIndex; omega, by unfold IsIndex; omega, by unfold IsIndex; omega⟩
    ⟨by unfold InRange; omega, by unfold InRange; omega, by unfold Consistent; omega⟩
  refine ⟨a', ?_, ?_⟩
  · simp only [View.mkCol, h.rows, h.cols, hres, Res.ok_bind, hvi, assertDebug_true, e0, e1, h1, e2,
      h2]
  · intro s M hm hn hd
    have := h3 s M hm hn hd
    have hc : (((j : Int) + ((m' * n : Nat) : Int) - j).tdiv n + 1).toNat = m' + 1 := by
      rw [show (j : Int) + ((m' * n : Nat) : Int) - j = (m' : Int) * n by push_cast; omega,
        Int.mul_tdiv_cancel _ (by omega)]
      omega
    simp only [selection, hc] at this
    rw [prog_flat (fun k => k) (fun _ => j) (by
      intro k hk
      refine ⟨by omega, by omega, ?_⟩
      rw [hn]; push_cast; omega)] at this
    simp only [Mat.col, hm, Int.toNat_natCast]
    exact this

theorem mkDiagLin_ok (b : Build) {a : Acc σ β} {s0 : σ} {m n : Nat} (h : Ext a s0 m n)
    {r c K : Nat} (hr : r + K ≤ m) (hc : c + K ≤ n) (h0 : r = 0 ∨ c = 0) :
    ∃ v a', View.mkView1D b a s0 = .ok v ∧
      View.mkSlice1 b v s0 (.seqN ((r * n + c : Nat) : Int) (K : Int) ((n : Int) + 1)) = .ok a' ∧
      ∀ s (M : Mat (Res β)), M.m = m → M.n = n → LinDen a s M.flat →
        Den .one a' s ((List.range K).map (fun k => M.el (r + k) (c + k))) := by
  have hle := h.le
  have hsm := h.small
  have hpos : ∀ k : Nat, ((r * n + c : Nat) : Int) + (k : Int) * ((n : Int) + 1)
      = (((r + k) * n + (c + k) : Nat) : Int) := by
    intro k; rw [Nat.add_mul, Int.mul_add]; push_cast; omega
  have hrn : r * n + c ≤ m * n := by
    have h1 : r * n ≤ m * n := Nat.mul_le_mul_right n (by omega)
    rcases h0 with h0 | h0
    · subst h0; simp; omega
    · subst h0; simpa using h1
  obtain ⟨v, a', h1, h2, h3⟩ := mkLin_ok b h
    (r := .seqN ((r * n + c : Nat) : Int) (K : Int) ((n : Int) + 1))
    ⟨by unfold IsIndex; omega, by unfold IsIndex; omega, by unfold IsIndex; omega⟩
    ⟨by omega, by omega, by
      intro i hi1 hi2
      obtain ⟨k, rfl⟩ : ∃ k : Nat, i = k := ⟨i.toNat, by omega⟩
      rw [hpos k]
      have := flat_lt (m := m) (n := n) (i := r + k) (j := c + k) (by omega) (by omega)
      unfold InRange; omega⟩
  refine ⟨v, a', h1, h2, ?_⟩
  intro s M hm hn hd
  have := h3 s M hm hn hd
  simp only [selection, Int.toNat_natCast] at this
  rw [prog_flat (fun k => r + k) (fun k => c + k) (by
    intro k hk
    refine ⟨by omega, by omega, ?_⟩
    rw [hn]; exact hpos k)] at this
  exact this

theorem mkDiag_ok (b : Build) {a : Acc σ β} {s0 : σ} {m n : Nat} (h : Ext a s0 m n) :
    ∃ a', View.mkDiag b a s0 = .ok a' ∧
      ∀ s (M : Mat (Res β)), M.m = m → M.n = n → LinDen a s M.flat →
        Den .one a' s (M.diagonal 0) := by
  have hle := h.le
  have hsm := h.small
  obtain ⟨v, a', h1, h2, h3⟩ := mkDiagLin_ok b h (r := 0) (c := 0) (K := min m n) (by omega)
    (by omega) (by simp)
  have e1 : iadd (n : Int) 1 = .ok ((n : Int) + 1) := iadd_ok (by unfold IsIndex; omega)
  refine ⟨a', ?_, ?_⟩
  · simp only [View.mkDiag, h.rows, h.cols, h1, Res.ok_bind, e1]
    rw [show min (m : Int) (n : Int) = ((min m n : Nat) : Int) by omega]
    simpa using h2
  · intro s M hm hn hd
    have := h3 s M hm hn hd
    simpa [Mat.diagonal, hm, hn] using this

theorem mkDiagK_ok (b : Build) {a : Acc σ β} {s0 : σ} {m n : Nat} (h : Ext a s0 m n) {k : Int}
    (hv : -(m : Int) < k ∧ k < n) :
    ∃ a', View.mkDiagK b a s0 k = .ok a' ∧
      ∀ s (M : Mat (Res β)), M.m = m → M.n = n → LinDen a s M.flat →
        Den .one a' s (M.diagonal k) := by
  have hle := h.le
  have hsm := h.small
  have e1 : iadd (n : Int) 1 = .ok ((n : Int) + 1) := iadd_ok (by unfold IsIndex; omega)
  by_cases hk : 0 ≤ k
  · obtain ⟨c, rfl⟩ : ∃ c : Nat, k = c := ⟨k.toNat, by omega⟩
    obtain ⟨v, a', h1, h2, h3⟩ := mkDiagLin_ok b h (r := 0) (c := c) (K := min m (n - c)) (by omega)
      (by omega) (by simp)
    have e2 : decide ((c : Int) < (n : Int)) = true := by simpa using hv.2
    have e3 : isub (n : Int) (c : Int) = .ok ((n : Int) - c) := isub_ok (by unfold IsIndex; omega)
    refine ⟨a', ?_, ?_⟩
    · simp only [View.mkDiagK, h.rows, h.cols, h1, Res.ok_bind, e1]
      rw [if_pos (by omega), e2, assertDebug_true, Res.ok_bind, e3, Res.ok_bind,
        show min (m : Int) ((n : Int) - c) = ((min m (n - c) : Nat) : Int) by omega]
      simpa using h2
    · intro s M hm hn hd
      have := h3 s M hm hn hd
      simpa [Mat.diagonal, hm, hn, Nat.add_comm] using this
  · obtain ⟨r, rfl⟩ : ∃ r : Nat, k = -(r : Int) := ⟨(-k).toNat, by omega⟩
    obtain ⟨v, a', h1, h2, h3⟩ := mkDiagLin_ok b h (r := r) (c := 0) (K := min (m - r) n) (by omega)
      (by omega) (by simp)
    have e0 : isub 0 (-(r : Int)) = .ok (r : Int) := by
      have e : (0 : Int) - -(r : Int) = r := by omega
      rw [isub_ok (by unfold IsIndex; omega), e]
    have e2 : decide ((r : Int) < (m : Int)) = true := decide_eq_true (by omega)
    have hrn : r * n ≤ m * n := Nat.mul_le_mul_right n (by omega)
    have e3 : imul (r : Int) (n : Int) = .ok ((r * n : Nat) : Int) := by
      rw [imul_ok (by unfold IsIndex; rw [← Int.natCast_mul]; omega)]; push_cast; rfl
    have e4 : isub (m : Int) (r : Int) = .ok ((m : Int) - r) := isub_ok (by unfold IsIndex; omega)
    refine ⟨a', ?_, ?_⟩
    · simp only [View.mkDiagK, h.rows, h.cols, h1, Res.ok_bind, e1]
      rw [if_neg (by omega), e0, Res.ok_bind, e2, assertDebug_true, Res.ok_bind, e3, Res.ok_bind,
        e4, Res.ok_bind,
        show min ((m : Int) - r) (n : Int) = ((min (m - r) n : Nat) : Int) by omega]
      simpa using h2
    · intro s M hm hn hd
      have := h3 s M hm hn hd
      have hr0 : ¬ (0 ≤ -(r : Int)) := hk
      simp only [Mat.diagonal, if_neg hr0, hm, hn, Int.neg_neg, Int.toNat_natCast]
      simpa [Nat.add_comm] using this

/-! ### Two-dimensional views -/

theorem den2_congr {a : Acc σ β} {s : σ} {M N : Mat (Res β)} (h : Den .two a s M)
    (hs : M.Same N) : Den .two a s N := by
  obtain ⟨h1, h2, h3, h4⟩ := h
  obtain ⟨e1, e2, e3⟩ := hs
  refine ⟨by rw [h1, e1], by rw [h2, e2], by rw [h3, e1, e2], ?_⟩
  intro i j hi hj
  obtain ⟨u, v⟩ := h4 i j (by rw [e1]; exact hi) (by rw [e2]; exact hj)
  rw [← e2, u, v, e3 i j (by rw [e1]; exact hi) (by rw [e2]; exact hj)]
  exact ⟨rfl, rfl⟩

theorem mkSlice_parts {b : Build} {n : Int} {emp : Bool} {r : SliceReq} {sl : Slice}
    (h : mkSlice b n emp r = .ok sl) :
    r.construct b = .ok () ∧ r.get b n emp = .ok sl ∧ assertDebugM b (sl.valid n) = .ok () := by
  simp only [mkSlice, Res.bind_eq_ok] at h
  obtain ⟨⟨⟩, h1, sl', h2, ⟨⟩, h3, h4⟩ := h
  simp only [Res.pure_eq, Res.ok.injEq] at h4; subst h4
  exact ⟨h1, h2, h3⟩

theorem default_size (sl : Slice) : sl.default.size = 0 := by cases sl <;> rfl

/-- Rows and columns through a pair of slice objects (with the 0x0 rule). -/
theorem den_cross (b : Build) {a : Acc σ β} {s : σ} {M : Mat (Res β)} {t1 t2 : Slice}
    {rs cs : List Int} (h : ∀ i j : Nat, i < M.m → j < M.n → a.un2 s i j = M.el i j)
    (h1 : Reads t1 rs) (h2 : Reads t2 cs)
    (i1 : ∀ x ∈ rs, InRange M.m x) (i2 : ∀ x ∈ cs, InRange M.n x)
    (hs : ((rs.length * cs.length : Nat) : Int) < 2 ^ 63) {p : Slice × Slice}
    (hp : p = (if t1.size = 0 then (t1, t2.default) else if t2.size = 0 then (t1.default, t2)
      else (t1, t2))) :
    Den .two (a.slice2 b p.1 p.2) s (M.cross rs cs) := by
  by_cases he : rs = [] ∨ cs = []
  · have hz : p.1.size = 0 ∧ p.2.size = 0 := by
      rcases he with he | he
      · have : t1.size = 0 := by rw [h1.1, he]; rfl
        rw [hp, if_pos this]; exact ⟨this, default_size _⟩
      · have : t2.size = 0 := by rw [h2.1, he]; rfl
        rw [hp]
        split
        · rename_i h0; exact ⟨h0, default_size _⟩
        · exact ⟨default_size _, this⟩
    rw [Mat.cross, if_pos he]
    exact den_twoD b hz.1 hz.2 (by simp) (fun i j hi _ => absurd hi (by simp))
  · have hr1 : rs ≠ [] := fun e => he (.inl e)
    have hr2 : cs ≠ [] := fun e => he (.inr e)
    have l1 : 0 < rs.length := List.length_pos_iff.2 hr1
    have l2 : 0 < cs.length := List.length_pos_iff.2 hr2
    have e1 : t1.size ≠ 0 := by rw [h1.1]; omega
    have e2 : t2.size ≠ 0 := by rw [h2.1]; omega
    rw [if_neg e1, if_neg e2] at hp
    subst hp
    rw [Mat.cross, if_neg he]
    refine den_twoD b h1.1 h2.1 hs ?_
    intro i j hi hj
    simp only at hi hj ⊢
    rw [h1.2 i hi, Res.ok_bind, h2.2 j hj, Res.ok_bind, getD_lt hi, getD_lt hj]
    obtain ⟨k, hk, hk'⟩ := inRange_nat (i1 rs[i] (List.getElem_mem hi))
    obtain ⟨q, hq, hq'⟩ := inRange_nat (i2 cs[j] (List.getElem_mem hj))
    rw [hk, hq, h k q hk' hq', Mat.pick, if_pos (by omega)]
    simp

theorem emp_eq {m n : Nat} (h : m = 0 ↔ n = 0) :
    ((((m * n : Nat) : Int)) == 0) = ((m : Int) == 0) ∧
    ((((m * n : Nat) : Int)) == 0) = ((n : Int) == 0) := by
  by_cases h0 : m = 0
  · have := h.1 h0; subst h0; subst this; simp
  · have hn : n ≠ 0 := fun e => h0 (h.2 e)
    have : m * n ≠ 0 := by
      intro e; rcases Nat.mul_eq_zero.1 e with e | e
      · exact h0 e
      · exact hn e
    have e1 : ((((m * n : Nat) : Int)) == 0) = false := beq_eq_false_iff_ne.2 (by omega)
    have e2 : ((m : Int) == 0) = false := beq_eq_false_iff_ne.2 (by omega)
    have e3 : ((n : Int) == 0) = false := beq_eq_false_iff_ne.2 (by omega)
    rw [e1, e2, e3]; exact ⟨rfl, rfl⟩

/-- The constructor's treatment of empty factors. -/
def zeroRule (t1 t2 : Slice) : Slice × Slice :=
  if t1.size = 0 then (t1, t2.default) else if t2.size = 0 then (t1.default, t2) else (t1, t2)

theorem mkSlice2_ok (b : Build) {a : Acc σ β} {s0 : σ} {m n : Nat} (h : Ext a s0 m n)
    {r1 r2 : SliceReq} (ha1 : r1.Args) (ha2 : r2.Args) (hv1 : r1.Valid m) (hv2 : r2.Valid n)
    (hs : (((selection m r1).length * (selection n r2).length : Nat) : Int) < 2 ^ 63) :
    ∃ a', View.mkSlice2 b a s0 r1 r2 = .ok a' ∧
      ∀ s (M : Mat (Res β)), M.m = m → M.n = n → Den .two a s M →
        Den .two a' s (M.cross (selection m r1) (selection n r2)) := by
  have hle := h.le
  have hsm := h.small
  obtain ⟨t1, e1, f1, g1⟩ := mkSlice_valid b (Int.natCast_nonneg m) (by omega) ha1 hv1
  obtain ⟨t2, e2, f2, g2⟩ := mkSlice_valid b (Int.natCast_nonneg n) (by omega) ha2 hv2
  obtain ⟨c1, d1, v1⟩ := mkSlice_parts e1
  obtain ⟨c2, d2, v2⟩ := mkSlice_parts e2
  obtain ⟨em, en⟩ := emp_eq h.zero
  refine ⟨a.slice2 b (zeroRule t1 t2).1 (zeroRule t1 t2).2, ?_, ?_⟩
  · simp only [View.mkSlice2, Acc.empty, h.size, Res.ok_bind, Res.pure_eq, h.rows, h.cols,
      Spp.mkSlice2, c1, c2]
    rw [show r1.get b (m : Int) (((m * n : Nat) : Int) == 0) = .ok t1 by rw [em]; exact d1]
    rw [show r2.get b (n : Int) (((m * n : Nat) : Int) == 0) = .ok t2 by rw [en]; exact d2]
    simp only [Res.ok_bind, v1, v2]
    rfl
  · intro s M hm hn hd
    subst hm; subst hn
    exact den_cross b (fun i j hi hj => (hd.2.2.2 i j hi hj).1) f1 f2 g1 g2 hs rfl

theorem mkSlice2_only {b : Build} (hb : b.Checked) {a a' : Acc σ β} {s0 : σ} {m n : Nat}
    (h : Ext a s0 m n) {r1 r2 : SliceReq} (hok : View.mkSlice2 b a s0 r1 r2 = .ok a') :
    r1.Valid m ∧ r2.Valid n := by
  have hle := h.le
  have hsm := h.small
  obtain ⟨em, en⟩ := emp_eq h.zero
  simp only [View.mkSlice2, Acc.empty, h.size, Res.ok_bind, Res.pure_eq, h.rows, h.cols,
    Res.bind_eq_ok] at hok
  obtain ⟨⟨s1, s2⟩, h1, _⟩ := hok
  obtain ⟨_, _, t1, t2, k1, k2, _⟩ := C42_slice2 hb (m := m) (n := n)
    (by unfold IsIndex; omega) (by unfold IsIndex; omega) h1
  rw [em] at k1; rw [en] at k2
  exact ⟨mkSlice_only_valid hb (by omega) (by omega) k1, mkSlice_only_valid hb (by omega) (by omega) k2⟩

theorem getD_prog {s st : Int} {K i : Nat} (h : i < K) :
    (progression s st K).getD i 0 = s + i * st := by
  rw [getD_lt (by simpa using h)]; simp

/-- Contiguous rows and columns are a block. -/
theorem cross_sub {M : Mat (Res β)} {r c p q : Nat} (hr : p ≠ 0 → r + p ≤ M.m)
    (hc : q ≠ 0 → c + q ≤ M.n) :
    (M.cross (progression r 1 p) (progression c 1 q)).Same (M.sub r c p q) := by
  by_cases he : p = 0 ∨ q = 0
  · have he' : progression (r : Int) 1 p = [] ∨ progression (c : Int) 1 q = [] := by
      rcases he with rfl | rfl
      · exact .inl rfl
      · exact .inr rfl
    rw [Mat.cross, if_pos he', Mat.sub, if_pos he]
    exact ⟨rfl, rfl, fun _ _ _ _ => rfl⟩
  · have he' : ¬ (progression (r : Int) 1 p = [] ∨ progression (c : Int) 1 q = []) := by
      intro hh
      apply he
      rcases hh with hh | hh
      · left; simpa using congrArg List.length hh
      · right; simpa using congrArg List.length hh
    rw [Mat.cross, if_neg he', Mat.sub, if_neg he]
    refine ⟨by simp, by simp, ?_⟩
    intro i j hi hj
    simp only [progression_length] at hi hj
    simp only [getD_prog hi, getD_prog hj, Mat.pick]
    rw [if_pos (by omega)]
    congr 1 <;> omega

theorem cross_upto_right {M : Mat (Res β)} {rs : List Int} :
    M.cross rs (selection M.n .all) = M.cross rs (upto M.n) := rfl

theorem seq1_selection {n f l : Int} : selection n (.seq f l 1) = progression f 1 (l - f + 1).toNat := by
  simp [selection]

theorem seqN1_valid {n s : Int} {p : Int} :
    (SliceReq.seqN s p 1).Valid n ↔ 0 ≤ s ∧ 0 ≤ p ∧ (p ≠ 0 → s + p ≤ n) := by
  constructor
  · rintro ⟨h1, h2, h3⟩
    refine ⟨h1, h2, fun h => ?_⟩
    have := (h3 (p - 1) (by omega) (by omega)).2
    omega
  · rintro ⟨h1, h2, h3⟩
    refine ⟨h1, h2, fun i hi1 hi2 => ?_⟩
    have := h3 (by omega)
    unfold InRange; omega

theorem mkBlock_ok (b : Build) {a : Acc σ β} {s0 : σ} {m n : Nat} (h : Ext a s0 m n)
    {i1 j1 i2 j2 : Pos} (hv : (View.block i1 j1 i2 j2).Valid m n) :
    ∃ a', View.mkBlock b a s0 i1 j1 i2 j2 = .ok a' ∧
      ∀ s (M : Mat (Res β)), M.m = m → M.n = n → Den .two a s M →
        Den .two a' s ((View.block i1 j1 i2 j2).sel (β := β) M) := by
  have hle := h.le
  have hsm := h.small
  obtain ⟨v1, v2, v3, v4, v5, v6⟩ := hv
  have q1 := resolve_inRange (by omega) v1
  have q2 := resolve_inRange (by omega) v2
  have q3 := resolve_inRange (by omega) v3
  have q4 := resolve_inRange (by omega) v4
  obtain ⟨r1, e1, l1⟩ := inRange_nat v1
  obtain ⟨c1, e2, l2⟩ := inRange_nat v2
  obtain ⟨r2, e3, l3⟩ := inRange_nat v3
  obtain ⟨c2, e4, l4⟩ := inRange_nat v4
  have f1 : ((r2 : Int) - r1 + 1).toNat = r2 - r1 + 1 := by omega
  have f2 : ((c2 : Int) - c1 + 1).toNat = c2 - c1 + 1 := by omega
  have hmul : (r2 - r1 + 1) * (c2 - c1 + 1) ≤ m * n := Nat.mul_le_mul (by omega) (by omega)
  have g1 : selection (m : Int) (.seq r1 r2 1) = progression r1 1 (r2 - r1 + 1) := by
    rw [seq1_selection, f1]
  have g2 : selection (n : Int) (.seq c1 c2 1) = progression c1 1 (c2 - c1 + 1) := by
    rw [seq1_selection, f2]
  obtain ⟨a', h1, h2⟩ := mkSlice2_ok b h (r1 := .seq (r1 : Int) r2 1) (r2 := .seq (c1 : Int) c2 1)
    ⟨by unfold IsIndex; omega, by unfold IsIndex; omega, by unfold IsIndex; omega⟩
    ⟨by unfold IsIndex; omega, by unfold IsIndex; omega, by unfold IsIndex; omega⟩
    ⟨by unfold InRange; omega, by unfold InRange; omega, by unfold Consistent; omega⟩
    ⟨by unfold InRange; omega, by unfold InRange; omega, by unfold Consistent; omega⟩
    (by rw [g1, g2, progression_length, progression_length]; omega)
  refine ⟨a', ?_, ?_⟩
  · simp only [View.mkBlock, h.rows, h.cols, q1, q2, q3, q4, Res.ok_bind, e1, e2, e3, e4, h1]
  · intro s M hm hn hd
    have := h2 s M hm hn hd
    rw [g1, g2] at this
    subst hm; subst hn
    simp only [View.sel, e1, e2, e3, e4, f1, f2, Int.toNat_natCast]
    exact den2_congr this (cross_sub (by omega) (by omega))

theorem mkBlockN_ok (b : Build) {a : Acc σ β} {s0 : σ} {m n : Nat} (h : Ext a s0 m n)
    {i1 j1 : Pos} {p q : Int} (ha : IsIndex p ∧ IsIndex q) (hp1 : i1.Args) (hp2 : j1.Args)
    (hv : (View.blockN i1 j1 p q).Valid m n) :
    ∃ a', View.mkBlockN b a s0 i1 j1 p q = .ok a' ∧
      ∀ s (M : Mat (Res β)), M.m = m → M.n = n → Den .two a s M →
        Den .two a' s ((View.blockN i1 j1 p q).sel (β := β) M) := by
  have hle := h.le
  have hsm := h.small
  obtain ⟨o1, o2, v1, v2, v3, v4, v5, v6⟩ := hv
  have q1 := resolve_ok o1
  have q2 := resolve_ok o2
  have hI : ∀ {n : Nat} {p : Pos}, (n : Int) < 2 ^ 63 → p.Args → NoOverflow n p →
      IsIndex (target n p) := by
    intro n p hn hp ho
    cases p with
    | «at» i => exact hp
    | fromLast k =>
      have := ho.2
      simp only [target]; unfold IsIndex at *; omega
  have w1 := hI (by omega) hp1 o1
  have w2 := hI (by omega) hp2 o2
  obtain ⟨r, e1⟩ : ∃ r : Nat, target m i1 = r := ⟨(target m i1).toNat, by omega⟩
  obtain ⟨c, e2⟩ : ∃ c : Nat, target n j1 = c := ⟨(target n j1).toNat, by omega⟩
  obtain ⟨p, rfl⟩ : ∃ k : Nat, p = k := ⟨p.toNat, by omega⟩
  obtain ⟨q, rfl⟩ : ∃ k : Nat, q = k := ⟨q.toNat, by omega⟩
  rw [e1] at v1 v5 w1 q1
  rw [e2] at v2 v6 w2 q2
  have hpm : p ≤ m := by
    rcases Nat.eq_zero_or_pos p with h0 | h0
    · omega
    · have := v5 (by omega); omega
  have hqn : q ≤ n := by
    rcases Nat.eq_zero_or_pos q with h0 | h0
    · omega
    · have := v6 (by omega); omega
  have hmul : p * q ≤ m * n := Nat.mul_le_mul hpm hqn
  obtain ⟨a', h1, h2⟩ := mkSlice2_ok b h (r1 := .seqN (r : Int) p 1) (r2 := .seqN (c : Int) q 1)
    ⟨w1, ha.1, by unfold IsIndex; omega⟩ ⟨w2, ha.2, by unfold IsIndex; omega⟩
    (seqN1_valid.2 ⟨v1, v3, v5⟩) (seqN1_valid.2 ⟨v2, v4, v6⟩)
    (by simp only [selection, progression_length, Int.toNat_natCast]; omega)
  refine ⟨a', ?_, ?_⟩
  · simp only [View.mkBlockN, h.rows, h.cols, q1, q2, Res.ok_bind, h1]
  · intro s M hm hn hd
    have := h2 s M hm hn hd
    subst hm; subst hn
    simp only [View.sel, e1, e2, Int.toNat_natCast]
    simp only [selection, Int.toNat_natCast] at this
    exact den2_congr this (cross_sub (fun h => by have := v5 (by omega); omega)
      (fun h => by have := v6 (by omega); omega))

/-- `view2D`. -/
theorem mkView2D_ok (b : Build) {a : Acc σ β} {s0 : σ} {k p q : Nat}
    (hsz : a.size s0 = .ok (k : Int)) (hk : (k : Int) < 2 ^ 63 - 1) (hpq : p * q = k)
    (hp : IsIndex p) (hq : IsIndex q) :
    ∃ a', View.mkView2D b a s0 p q = .ok a' ∧
      ∀ s (l : List (Res β)), l.length = k → LinDen a s l → Den .two a' s (Mat.laid l p q) := by
  have e1 : imul (p : Int) (q : Int) = .ok (k : Int) := by
    rw [imul_ok (by rw [← Int.natCast_mul, hpq]; unfold IsIndex; omega), ← Int.natCast_mul, hpq]
  have hr : ∀ {n : Nat}, IsIndex (n : Int) → (Slice.seqN 0 n 1).valid n = .ok true ∧
      Reads (.seqN 0 n 1) (upto (n : Int)) := by
    intro n hn
    have hin : (n : Int) ≠ 0 → InRange n 0 ∧ InRange n (0 + 1 * ((n : Int) - 1)) := by
      intro _; unfold InRange; omega
    refine ⟨seqNValid_of_inRange hn (by omega) hn hin, ?_⟩
    have := reads_seqN hn (Int.natCast_nonneg n) hin
    rwa [← upto_eq_progression] at this
  obtain ⟨v1, f1⟩ := hr hp
  obtain ⟨v2, f2⟩ := hr hq
  refine ⟨(a.proxy p q).slice2 b (zeroRule (.seqN 0 p 1) (.seqN 0 q 1)).1
    (zeroRule (.seqN 0 p 1) (.seqN 0 q 1)).2, ?_, ?_⟩
  · simp only [View.mkView2D, e1, hsz, Res.ok_bind, beq_self_eq_true, assertAlways_true,
      mkSeqN_ok b 1 (show (0 : Int) ≤ 0 by omega) (Int.natCast_nonneg p),
      mkSeqN_ok b 1 (show (0 : Int) ≤ 0 by omega) (Int.natCast_nonneg q), v1, v2, assertDebugM_ok,
      assertDebug_true]
    rfl
  · intro s l hl hd
    have hM := den_cross b (a := a.proxy p q) (s := s) (M := ⟨p, q, fun i j => l.getD (i * q + j) .ub⟩)
      (fun i j hi hj => by
        simp only at hi hj ⊢
        show (Elem2.off q i j >>= _) = _
        rw [off_nat hi hj (by rw [hpq]; omega), Res.ok_bind]
        exact hd.2 _ (by rw [hl, ← hpq]; exact flat_lt hi hj)) f1 f2
      (fun x hx => mem_upto.1 hx) (fun x hx => mem_upto.1 hx)
      (by rw [upto_length, upto_length, Int.toNat_natCast, Int.toNat_natCast, hpq]; omega) rfl
    refine den2_congr hM ?_
    by_cases he : p = 0 ∨ q = 0
    · have he' : upto (p : Int) = [] ∨ upto (q : Int) = [] := by
        rcases he with rfl | rfl
        · exact .inl rfl
        · exact .inr rfl
      rw [Mat.cross, if_pos he', Mat.laid, if_pos he]
      exact ⟨rfl, rfl, fun i j hi _ => absurd hi (by simp)⟩
    · have he' : ¬ (upto (p : Int) = [] ∨ upto (q : Int) = []) := by
        intro hh; apply he
        rcases hh with hh | hh
        · left; simpa using congrArg List.length hh
        · right; simpa using congrArg List.length hh
      rw [Mat.cross, if_neg he', Mat.laid, if_neg he]
      refine ⟨by simp, by simp, ?_⟩
      intro i j hi hj
      simp only [upto_length, Int.toNat_natCast] at hi hj
      have x1 : (upto (p : Int)).getD i 0 = i := by rw [getD_lt (by simpa using hi)]; simp
      have x2 : (upto (q : Int)).getD j 0 = j := by rw [getD_lt (by simpa using hj)]; simp
      simp only [x1, x2, Mat.pick]
      rw [if_pos (by omega)]
      simp

/-! ### All views -/

theorem ext_of {a : Acc σ β} {s0 : σ} {M : Mat (Res β)} (h : Den .two a s0 M)
    (hs : Small (d := .two) M) : Ext a s0 M.m M.n :=
  ⟨h.1, h.2.1, h.2.2.1, hs.1, hs.2⟩

theorem cross_small {M : Mat (Res β)} {rs cs : List Int}
    (h : Small (β := β) (d := .two) (M.cross rs cs)) :
    ((rs.length * cs.length : Nat) : Int) < 2 ^ 63 := by
  have h1 := h.1
  by_cases he : rs = [] ∨ cs = []
  · rcases he with rfl | rfl <;> simp
  · rw [Mat.cross, if_neg he] at h1
    exact Int.lt_trans h1 (by omega)

theorem all_args : SliceReq.all.Args := trivial
theorem all_valid (n : Int) : SliceReq.all.Valid n := trivial

/-- A view that makes sense is constructed in every build mode, and is what the specification says,
now and after the elements have changed. -/
theorem View.mk_ok (b : Build) {d d' : Dim} (v : View d d') {a : Acc σ β} {s0 : σ} {x0 : Sem β d}
    (h : Den d a s0 x0) (hs : Small x0) (ha : v.Args) (hv : v.Valid x0.dims.1 x0.dims.2)
    (hS : Small (v.sel x0)) :
    ∃ a', v.mk b a s0 = .ok a' ∧
      ∀ s (x : Sem β d), x.dims = x0.dims → Den d a s x → Den d' a' s (v.sel x) := by
  cases v with
  | slice r =>
    change List (Res β) at x0
    obtain ⟨a', h1, h2⟩ := mkSlice1_ok b h.1 hs ha hv
    refine ⟨a', h1, ?_⟩
    intro s x hx hd
    change List (Res β) at x
    have hl : x.length = x0.length := congrArg Prod.fst hx
    have := h2 s x hl (linDen_of hd)
    show Den .one a' s ((selection x.length r).map (pick x))
    rw [hl]; exact this
  | slice2 r1 r2 =>
    change Mat (Res β) at x0
    obtain ⟨a', h1, h2⟩ := mkSlice2_ok b (ext_of h hs) ha.1 ha.2 hv.1 hv.2 (cross_small hS)
    refine ⟨a', h1, ?_⟩
    intro s x hx hd
    change Mat (Res β) at x
    have hm : x.m = x0.m := congrArg Prod.fst hx
    have hn : x.n = x0.n := congrArg Prod.snd hx
    have := h2 s x hm hn hd
    show Den .two a' s (x.cross (selection x.m r1) (selection x.n r2))
    rw [hm, hn]; exact this
  | rows r =>
    change Mat (Res β) at x0
    obtain ⟨a', h1, h2⟩ := mkSlice2_ok b (ext_of h hs) ha all_args hv (all_valid _) (cross_small hS)
    refine ⟨a', h1, ?_⟩
    intro s x hx hd
    change Mat (Res β) at x
    have hm : x.m = x0.m := congrArg Prod.fst hx
    have hn : x.n = x0.n := congrArg Prod.snd hx
    have := h2 s x hm hn hd
    show Den .two a' s (x.cross (selection x.m r) (upto x.n))
    rw [hm, hn]; exact this
  | cols r =>
    change Mat (Res β) at x0
    obtain ⟨a', h1, h2⟩ := mkSlice2_ok b (ext_of h hs) all_args ha (all_valid _) hv (cross_small hS)
    refine ⟨a', h1, ?_⟩
    intro s x hx hd
    change Mat (Res β) at x
    have hm : x.m = x0.m := congrArg Prod.fst hx
    have hn : x.n = x0.n := congrArg Prod.snd hx
    have := h2 s x hm hn hd
    show Den .two a' s (x.cross (upto x.m) (selection x.n r))
    rw [hm, hn]; exact this
  | row p =>
    change Mat (Res β) at x0
    obtain ⟨a', h1, h2⟩ := mkRow_ok b (ext_of h hs) (p := p) hv
    refine ⟨a', h1, ?_⟩
    intro s x hx hd
    change Mat (Res β) at x
    have hm : x.m = x0.m := congrArg Prod.fst hx
    have hn : x.n = x0.n := congrArg Prod.snd hx
    have := h2 s x hm hn (linDen_of hd)
    show Den .one a' s (x.row (target x.m p).toNat)
    rw [hm]; exact this
  | col p =>
    change Mat (Res β) at x0
    obtain ⟨a', h1, h2⟩ := mkCol_ok b (ext_of h hs) (p := p) hv
    refine ⟨a', h1, ?_⟩
    intro s x hx hd
    change Mat (Res β) at x
    have hm : x.m = x0.m := congrArg Prod.fst hx
    have hn : x.n = x0.n := congrArg Prod.snd hx
    have := h2 s x hm hn (linDen_of hd)
    show Den .one a' s (x.col (target x.n p).toNat)
    rw [hn]; exact this
  | diag =>
    change Mat (Res β) at x0
    obtain ⟨a', h1, h2⟩ := mkDiag_ok b (ext_of h hs)
    refine ⟨a', h1, fun s x hx hd => ?_⟩
    exact h2 s x (congrArg Prod.fst hx) (congrArg Prod.snd hx) (linDen_of hd)
  | diagK k =>
    change Mat (Res β) at x0
    obtain ⟨a', h1, h2⟩ := mkDiagK_ok b (ext_of h hs) (k := k) hv
    refine ⟨a', h1, fun s x hx hd => ?_⟩
    exact h2 s x (congrArg Prod.fst hx) (congrArg Prod.snd hx) (linDen_of hd)
  | block i1 j1 i2 j2 =>
    change Mat (Res β) at x0
    obtain ⟨a', h1, h2⟩ := mkBlock_ok b (ext_of h hs) hv
    refine ⟨a', h1, fun s x hx hd => ?_⟩
    exact h2 s x (congrArg Prod.fst hx) (congrArg Prod.snd hx) hd
  | blockN i1 j1 p q =>
    change Mat (Res β) at x0
    obtain ⟨a', h1, h2⟩ := mkBlockN_ok b (ext_of h hs) ha.2.2 ha.1 ha.2.1 hv
    refine ⟨a', h1, fun s x hx hd => ?_⟩
    exact h2 s x (congrArg Prod.fst hx) (congrArg Prod.snd hx) hd
  | view1D =>
    change Mat (Res β) at x0
    obtain ⟨a', h1, _, h2⟩ := mkView1D_ok b h.2.2.1 hs.1
    refine ⟨a', h1, fun s x hx hd => ?_⟩
    change Mat (Res β) at x
    have hm : x.m = x0.m := congrArg Prod.fst hx
    have hn : x.n = x0.n := congrArg Prod.snd hx
    exact h2 s x.flat (by rw [flat_length, hm, hn]) (linDen_of hd)
  | view2D _ p q =>
    obtain ⟨v1, v2, v3⟩ := hv
    obtain ⟨p, rfl⟩ : ∃ k : Nat, p = k := ⟨p.toNat, by omega⟩
    obtain ⟨q, rfl⟩ : ∃ k : Nat, q = k := ⟨q.toNat, by omega⟩
    have hk : p * q = x0.dims.1 * x0.dims.2 := by
      rw [← Int.natCast_mul] at v3; exact Int.ofNat.inj v3
    have hlen : ∀ x : Sem β d, x.flat.length = x.dims.1 * x.dims.2 := by
      intro x
      cases d with
      | one => show List.length x = List.length x * 1; rw [Nat.mul_one]
      | two => exact flat_length (β := Res β) x
    have hsmall : ((x0.dims.1 * x0.dims.2 : Nat) : Int) < 2 ^ 63 - 1 := by
      cases d with
      | one => show ((List.length x0 * 1 : Nat) : Int) < _; rw [Nat.mul_one]; exact hs
      | two => exact hs.1
    have hsz : a.size s0 = .ok ((x0.dims.1 * x0.dims.2 : Nat) : Int) := by
      rw [(linDen_of h).1, hlen]
    obtain ⟨a', h1, h2⟩ := mkView2D_ok b hsz hsmall hk ha.1 ha.2
    refine ⟨a', h1, fun s x hx hd => ?_⟩
    have := h2 s x.flat (by rw [hlen, hx]) (linDen_of hd)
    simpa [View.sel] using this

theorem resolve_noOverflow {n i : Int} {p : Pos} (h : p.resolve n = .ok i) : NoOverflow n p := by
  cases p with
  | «at» i => trivial
  | fromLast k =>
    simp only [Pos.resolve, Res.bind_eq_ok] at h
    obtain ⟨r, h1, h2⟩ := h
    rcases isub_cases n k with ⟨c1, e1⟩ | ⟨_, e1⟩
    · rw [e1] at h1; cases h1
      rcases isub_cases (n - k) 1 with ⟨c2, e2⟩ | ⟨_, e2⟩
      · exact ⟨c1, c2⟩
      · rw [e2] at h2; cases h2
    · rw [e1] at h1; cases h1

theorem assertAlways_ok_guarded {b : Build} (hb : b.Guarded) {c : Bool}
    (h : assertAlways b c = .ok ()) : c = true := by
  cases c
  · rw [assertAlways_false hb] at h; cases h
  · rfl

/-- A checked build constructs only views that make sense. -/
theorem View.mk_only {b : Build} (hb : b.Checked) {d d' : Dim} (v : View d d') {a a' : Acc σ β}
    {s0 : σ} {x0 : Sem β d} (h : Den d a s0 x0) (hs : Small x0)
    (hm : v.mk b a s0 = .ok a') : v.Valid x0.dims.1 x0.dims.2 := by
  cases v with
  | slice r => exact mkSlice1_only hb h.1 hs hm
  | slice2 r1 r2 => exact mkSlice2_only hb (ext_of h hs) hm
  | rows r => exact (mkSlice2_only hb (ext_of h hs) hm).1
  | cols r => exact (mkSlice2_only hb (ext_of h hs) hm).2
  | row p =>
    simp only [View.mk, View.mkRow, Res.bind_eq_ok] at hm
    obtain ⟨i, h1, _, h2, _⟩ := hm
    rw [h.1] at h1 h2
    have := resolve_eq_ok h1; subst this
    exact validIndex_iff.1 (assertDebug_ok_checked hb h2)
  | col p =>
    simp only [View.mk, View.mkCol, Res.bind_eq_ok] at hm
    obtain ⟨i, h1, _, h2, _⟩ := hm
    rw [h.2.1] at h1 h2
    have := resolve_eq_ok h1; subst this
    exact validIndex_iff.1 (assertDebug_ok_checked hb h2)
  | diag => trivial
  | diagK k =>
    simp only [View.mk, View.mkDiagK, Res.bind_eq_ok] at hm
    obtain ⟨_, _, _, _, h3⟩ := hm
    show -((Mat.m x0 : Nat) : Int) < k ∧ k < (Mat.n x0 : Nat)
    split at h3
    · simp only [Res.bind_eq_ok] at h3
      obtain ⟨_, h4, _⟩ := h3
      have := assertDebug_ok_checked hb h4
      rw [h.2.1] at this
      have h5 : k < (Mat.n x0 : Nat) := by simpa using this
      have hz := hs.2
      omega
    · simp only [Res.bind_eq_ok] at h3
      obtain ⟨q, h4, _, h5, _⟩ := h3
      have := isub_eq_ok h4; subst this
      have := assertDebug_ok_checked hb h5
      rw [h.1] at this
      have h6 : 0 - k < (Mat.m x0 : Nat) := by simpa using this
      omega
  | block i1 j1 i2 j2 =>
    simp only [View.mk, View.mkBlock, Res.bind_eq_ok] at hm
    obtain ⟨r1, h1, c1, h2, r2, h3, c2, h4, h5⟩ := hm
    rw [h.1] at h1 h3; rw [h.2.1] at h2 h4
    have := resolve_eq_ok h1; subst this
    have := resolve_eq_ok h2; subst this
    have := resolve_eq_ok h3; subst this
    have := resolve_eq_ok h4; subst this
    obtain ⟨⟨v1, v2, v3⟩, v4, v5, v6⟩ := mkSlice2_only hb (ext_of h hs) h5
    refine ⟨v1, v4, v2, v5, ?_, ?_⟩
    · unfold Consistent at v3; exact v3.elim (fun h => h.2) (fun h => by omega)
    · unfold Consistent at v6; exact v6.elim (fun h => h.2) (fun h => by omega)
  | blockN i1 j1 p q =>
    simp only [View.mk, View.mkBlockN, Res.bind_eq_ok] at hm
    obtain ⟨r1, h1, c1, h2, h5⟩ := hm
    rw [h.1] at h1; rw [h.2.1] at h2
    have o1 := resolve_noOverflow h1
    have o2 := resolve_noOverflow h2
    have := resolve_eq_ok h1; subst this
    have := resolve_eq_ok h2; subst this
    obtain ⟨v1, v2⟩ := mkSlice2_only hb (ext_of h hs) h5
    have v1 := seqN1_valid.1 v1
    have v2 := seqN1_valid.1 v2
    exact ⟨o1, o2, v1.1, v2.1, v1.2.1, v2.2.1, v1.2.2, v2.2.2⟩
  | view1D => trivial
  | view2D _ p q =>
    simp only [View.mk, View.mkView2D, Res.bind_eq_ok] at hm
    obtain ⟨pq, h1, sz, h2, _, h3, s1, h4, s2, h5, _⟩ := hm
    have := imul_eq_ok h1; subst this
    have hc := assertAlways_ok_guarded hb.2 h3
    have hlen : (x0.flat.length) = x0.dims.1 * x0.dims.2 := by
      cases d with
      | one => show List.length x0 = List.length x0 * 1; rw [Nat.mul_one]
      | two => exact flat_length (β := Res β) x0
    rw [(linDen_of h).1, hlen] at h2
    cases h2
    exact ⟨(mkSeqN_checked hb h4).2.2, (mkSeqN_checked hb h5).2.2, by simpa using hc⟩

end

/-- The extents of a view depend only on the extents of the object. -/
theorem View.sel_dims {β γ : Type} {d d' : Dim} (v : View d d') {x : Sem β d} {y : Sem γ d}
    (h : x.dims = y.dims) : (v.sel x).dims = (v.sel y).dims := by
  have hcross : ∀ {M : Mat (Res β)} {N : Mat (Res γ)} {rs cs : List Int},
      Sem.dims (β := β) (d := .two) (M.cross rs cs) = Sem.dims (β := γ) (d := .two) (N.cross rs cs) := by
    intro M N rs cs
    unfold Mat.cross
    split <;> rfl
  cases v with
  | slice r =>
    have hl : List.length x = List.length y := congrArg Prod.fst h
    show (List.length ((selection (List.length x) r).map (pick x)), 1) =
      (List.length ((selection (List.length y) r).map (pick y)), 1)
    rw [List.length_map, List.length_map, hl]
  | slice2 r1 r2 =>
    have hm : Mat.m x = Mat.m y := congrArg Prod.fst h
    have hn : Mat.n x = Mat.n y := congrArg Prod.snd h
    simp only [View.sel, hm, hn]
    exact hcross
  | rows r =>
    have hm : Mat.m x = Mat.m y := congrArg Prod.fst h
    have hn : Mat.n x = Mat.n y := congrArg Prod.snd h
    simp only [View.sel, hm, hn]
    exact hcross
  | cols r =>
    have hm : Mat.m x = Mat.m y := congrArg Prod.fst h
    have hn : Mat.n x = Mat.n y := congrArg Prod.snd h
    simp only [View.sel, hm, hn]
    exact hcross
  | row p =>
    have hn : Mat.n x = Mat.n y := congrArg Prod.snd h
    show (List.length (Mat.row x _), 1) = (List.length (Mat.row y _), 1)
    simp [Mat.row, hn]
  | col p =>
    have hm : Mat.m x = Mat.m y := congrArg Prod.fst h
    show (List.length (Mat.col x _), 1) = (List.length (Mat.col y _), 1)
    simp [Mat.col, hm]
  | diag =>
    have hm : Mat.m x = Mat.m y := congrArg Prod.fst h
    have hn : Mat.n x = Mat.n y := congrArg Prod.snd h
    show (List.length (Mat.diagonal x _), 1) = (List.length (Mat.diagonal y _), 1)
    unfold Mat.diagonal
    split <;> simp [hm, hn]
  | diagK k =>
    have hm : Mat.m x = Mat.m y := congrArg Prod.fst h
    have hn : Mat.n x = Mat.n y := congrArg Prod.snd h
    show (List.length (Mat.diagonal x _), 1) = (List.length (Mat.diagonal y _), 1)
    unfold Mat.diagonal
    split <;> simp [hm, hn]
  | block i1 j1 i2 j2 =>
    have hm : Mat.m x = Mat.m y := congrArg Prod.fst h
    have hn : Mat.n x = Mat.n y := congrArg Prod.snd h
    simp only [View.sel, hm, hn, Mat.sub]
    split <;> rfl
  | blockN i1 j1 p q =>
    have hm : Mat.m x = Mat.m y := congrArg Prod.fst h
    have hn : Mat.n x = Mat.n y := congrArg Prod.snd h
    simp only [View.sel, hm, hn, Mat.sub]
    split <;> rfl
  | view1D =>
    have hm : Mat.m x = Mat.m y := congrArg Prod.fst h
    have hn : Mat.n x = Mat.n y := congrArg Prod.snd h
    change Mat (Res β) at x
    change Mat (Res γ) at y
    show (List.length (Mat.flat x), 1) = (List.length (Mat.flat y), 1)
    rw [flat_length, flat_length, hm, hn]
  | view2D _ p q =>
    simp only [View.sel, Mat.laid]
    split <;> rfl

end Spp
