import Verif.Lemmas.Sample

/-
C40: rows, columns, diagonals and blocks.  C41: reshaping.

All theorems are about an arbitrary two-dimensional object (an array, a view or an expression) that
is the matrix `M`: that is what `Den .two a s M` says, see Spec/Expr.lean and, for how expressions
come to have a meaning, `C43_accepted`.
-/

set_option linter.unusedSectionVars false

namespace Spp.Props
open Spec

variable {σ β : Type}

/-- C40: `A.row(i)` has `cols()` elements, the elements of row `i` from left to right; positions may
be given from the end. -/
theorem C40_row (b : Build) {a : Acc σ β} {s : σ} {M : Mat (Res β)} (h : Den .two a s M)
    (hs : Small (d := .two) M) {p : Pos} (hp : InRange M.m (target M.m p)) :
    ∃ a', View.mk b a s (.row p) = .ok a' ∧ a'.rows s = M.n ∧
      ∀ j : Nat, j < M.n → a'.un s j = M.el (target M.m p).toNat j := by
  obtain ⟨a', h1, h2⟩ := mkRow_ok b (ext_of h hs) hp
  obtain ⟨e1, _, e3⟩ := h2 s M rfl rfl (linDen_of h)
  refine ⟨a', h1, by rw [e1]; simp [Mat.row], fun j hj => ?_⟩
  rw [e3 j (by simpa [Mat.row] using hj)]
  exact getD_range_map (f := fun j => M.el (target M.m p).toNat j) hj

/-- C40: `A.col(j)` has `rows()` elements, the elements of column `j` from top to bottom. -/
theorem C40_col (b : Build) {a : Acc σ β} {s : σ} {M : Mat (Res β)} (h : Den .two a s M)
    (hs : Small (d := .two) M) {p : Pos} (hp : InRange M.n (target M.n p)) :
    ∃ a', View.mk b a s (.col p) = .ok a' ∧ a'.rows s = M.m ∧
      ∀ i : Nat, i < M.m → a'.un s i = M.el i (target M.n p).toNat := by
  obtain ⟨a', h1, h2⟩ := mkCol_ok b (ext_of h hs) hp
  obtain ⟨e1, _, e3⟩ := h2 s M rfl rfl (linDen_of h)
  refine ⟨a', h1, by rw [e1]; simp [Mat.col], fun i hi => ?_⟩
  rw [e3 i (by simpa [Mat.col] using hi)]
  exact getD_range_map (f := fun i => M.el i (target M.n p).toNat) hi

/-- C40: `A.diag()` has `min(rows, cols)` elements `A(i, i)`; `A.diag(k)` with `0 <= k < cols` has
the elements `A(i, i + k)`, and with `-rows < k < 0` the elements `A(i - k, i)`, as many as there
are. -/
theorem C40_diag (b : Build) {a : Acc σ β} {s : σ} {M : Mat (Res β)} (h : Den .two a s M)
    (hs : Small (d := .two) M) :
    (∃ a', View.mk b a s .diag = .ok a' ∧ a'.rows s = (min M.m M.n : Nat) ∧
      ∀ i : Nat, i < min M.m M.n → a'.un s i = M.el i i) ∧
    (∀ k : Nat, k < M.n → ∃ a', View.mk b a s (.diagK k) = .ok a' ∧
      a'.rows s = (min M.m (M.n - k) : Nat) ∧
      ∀ i : Nat, i < M.m → i + k < M.n → a'.un s i = M.el i (i + k)) ∧
    (∀ k : Nat, 0 < k → k < M.m → ∃ a', View.mk b a s (.diagK (-(k : Int))) = .ok a' ∧
      a'.rows s = (min (M.m - k) M.n : Nat) ∧
      ∀ i : Nat, i + k < M.m → i < M.n → a'.un s i = M.el (i + k) i) := by
  refine ⟨?_, ?_, ?_⟩
  · obtain ⟨a', h1, h2⟩ := mkDiag_ok b (ext_of h hs)
    obtain ⟨e1, _, e3⟩ := h2 s M rfl rfl (linDen_of h)
    have hd : M.diagonal 0 = (List.range (min M.m M.n)).map (fun i => M.el i i) := by
      simp [Mat.diagonal]
    rw [hd] at e1 e3
    refine ⟨a', h1, by rw [e1, List.length_map, List.length_range], fun i hi => ?_⟩
    rw [e3 i (by rw [List.length_map, List.length_range]; exact hi)]
    exact getD_range_map (f := fun i => M.el i i) hi
  · intro k hk
    obtain ⟨a', h1, h2⟩ := mkDiagK_ok b (ext_of h hs) (k := (k : Int))
      (by have := hs.2.1; omega)
    obtain ⟨e1, _, e3⟩ := h2 s M rfl rfl (linDen_of h)
    have hd : M.diagonal (k : Int) = (List.range (min M.m (M.n - k))).map (fun i => M.el i (i + k)) := by
      simp [Mat.diagonal]
    rw [hd] at e1 e3
    refine ⟨a', h1, by rw [e1, List.length_map, List.length_range], fun i hi hj => ?_⟩
    rw [e3 i (by rw [List.length_map, List.length_range]; omega)]
    exact getD_range_map (f := fun i => M.el i (i + k)) (by omega)
  · intro k hk0 hk
    obtain ⟨a', h1, h2⟩ := mkDiagK_ok b (ext_of h hs) (k := -(k : Int)) (by omega)
    obtain ⟨e1, _, e3⟩ := h2 s M rfl rfl (linDen_of h)
    have hd : M.diagonal (-(k : Int)) = (List.range (min (M.m - k) M.n)).map (fun i => M.el (i + k) i) := by
      rw [Mat.diagonal, if_neg (by omega), Int.neg_neg, Int.toNat_natCast]
    rw [hd] at e1 e3
    refine ⟨a', h1, by rw [e1, List.length_map, List.length_range], fun i hi hj => ?_⟩
    rw [e3 i (by rw [List.length_map, List.length_range]; omega)]
    exact getD_range_map (f := fun i => M.el (i + k) i) (by omega)

/-- C40: `A.block(r1, c1, r2, c2)` is the block with corners `(r1, c1)` and `(r2, c2)`, both
included. -/
theorem C40_block (b : Build) {a : Acc σ β} {s : σ} {M : Mat (Res β)} (h : Den .two a s M)
    (hs : Small (d := .two) M) {i1 j1 i2 j2 : Pos} {r1 c1 p q : Nat}
    (h1 : target M.m i1 = r1) (h2 : target M.n j1 = c1)
    (h3 : target M.m i2 = (r1 + p : Nat)) (h4 : target M.n j2 = (c1 + q : Nat))
    (h5 : r1 + p < M.m) (h6 : c1 + q < M.n) :
    ∃ a', View.mk b a s (.block i1 j1 i2 j2) = .ok a' ∧ a'.rows s = (p + 1 : Nat) ∧
      a'.cols s = (q + 1 : Nat) ∧
      ∀ i j : Nat, i ≤ p → j ≤ q → a'.un2 s i j = M.el (r1 + i) (c1 + j) := by
  have hv : (View.block i1 j1 i2 j2).Valid M.m M.n := by
    simp only [View.Valid, h1, h2, h3, h4, InRange]; omega
  obtain ⟨a', k1, k2⟩ := mkBlock_ok b (ext_of h hs) hv
  have k3 := k2 s M rfl rfl h
  simp only [View.sel, h1, h2, h3, h4, Int.toNat_natCast] at k3
  rw [show ((((r1 + p : Nat) : Int)) - r1 + 1).toNat = p + 1 by omega,
    show ((((c1 + q : Nat) : Int)) - c1 + 1).toNat = q + 1 by omega, Mat.sub,
    if_neg (by omega)] at k3
  exact ⟨a', k1, k3.1, k3.2.1, fun i j hi hj => (k3.2.2.2 i j (by show i < p + 1; omega)
    (by show j < q + 1; omega)).1⟩

/-- C40: `A.blockN(r, c, m, n)` is the `m` by `n` block with top left corner `(r, c)`. -/
theorem C40_blockN (b : Build) {a : Acc σ β} {s : σ} {M : Mat (Res β)} (h : Den .two a s M)
    (hs : Small (d := .two) M) {i1 j1 : Pos} {r1 c1 p q : Nat} (ha1 : i1.Args) (ha2 : j1.Args)
    (h1 : target M.m i1 = r1) (h2 : target M.n j1 = c1) (hp : 0 < p) (hq : 0 < q)
    (h5 : r1 + p ≤ M.m) (h6 : c1 + q ≤ M.n) :
    ∃ a', View.mk b a s (.blockN i1 j1 p q) = .ok a' ∧ a'.rows s = p ∧ a'.cols s = q ∧
      ∀ i j : Nat, i < p → j < q → a'.un2 s i j = M.el (r1 + i) (c1 + j) := by
  obtain ⟨b1, b2⟩ := two_of_m hs
  have n1 : NoOverflow M.m i1 := by
    cases i1 with
    | «at» i => trivial
    | fromLast k => simp only [target] at h1; simp only [NoOverflow, IsIndex]; omega
  have n2 : NoOverflow M.n j1 := by
    cases j1 with
    | «at» i => trivial
    | fromLast k => simp only [target] at h2; simp only [NoOverflow, IsIndex]; omega
  have hv : (View.blockN i1 j1 p q).Valid M.m M.n := by
    refine ⟨n1, n2, ?_⟩
    rw [h1, h2]; omega
  obtain ⟨a', k1, k2⟩ := mkBlockN_ok b (ext_of h hs) (p := p) (q := q)
    ⟨by unfold IsIndex; omega, by unfold IsIndex; omega⟩ ha1 ha2 hv
  have k3 := k2 s M rfl rfl h
  simp only [View.sel, h1, h2, Int.toNat_natCast] at k3
  rw [Mat.sub, if_neg (by omega)] at k3
  exact ⟨a', k1, k3.1, k3.2.1, fun i j hi hj => (k3.2.2.2 i j hi hj).1⟩

/-- A row or column request outside the matrix, or an off-diagonal that does not exist, traps in
checked builds.  (`NoOverflow`: subtracting in `last - k` does not overflow `index_t`;
`diag(LONG_MIN)` negates its argument before checking it, which overflows.) -/
theorem C40_line_rejected {b : Build} (hb : b.Checked) {a : Acc σ β} {s : σ} {M : Mat (Res β)}
    (h : Den .two a s M) (hs : Small (d := .two) M) :
    (∀ p : Pos, NoOverflow M.m p → ¬ InRange M.m (target M.m p) →
      View.mk b a s (.row p) = .trap b.kind) ∧
    (∀ p : Pos, NoOverflow M.n p → ¬ InRange M.n (target M.n p) →
      View.mk b a s (.col p) = .trap b.kind) ∧
    (∀ k : Int, IsIndex k → IsIndex (-k) → k ≤ -(M.m : Int) ∧ k < 0 ∨ (M.n : Int) ≤ k →
      View.mk b a s (.diagK k) = .trap b.kind) := by
  obtain ⟨hm, hn⟩ := two_of_m hs
  refine ⟨?_, ?_, ?_⟩
  · intro p ho hp
    simp only [View.mk, View.mkRow, h.1, resolve_ok ho, Res.ok_bind, validIndex_false.2 hp,
      assertDebug_false hb, Res.trap_bind]
  · intro p ho hp
    simp only [View.mk, View.mkCol, h.2.1, resolve_ok ho, Res.ok_bind, validIndex_false.2 hp,
      assertDebug_false hb, Res.trap_bind]
  · intro k hk hk' hr
    obtain ⟨v, h1, _⟩ := mkView1D_ok b h.2.2.1 hs.1
    have e1 : iadd (M.n : Int) 1 = .ok ((M.n : Int) + 1) := iadd_ok (by unfold IsIndex; omega)
    simp only [View.mk, View.mkDiagK, h1, Res.ok_bind, h.2.1, h.1, e1]
    by_cases h0 : k ≥ 0
    · have : decide (k < (M.n : Int)) = false := decide_eq_false (by omega)
      rw [if_pos h0, this, assertDebug_false hb, Res.trap_bind]
    · have e2 : isub 0 k = .ok (-k) := by
        rw [isub_ok (by rw [Int.zero_sub]; exact hk'), Int.zero_sub]
      have : decide (-k < (M.m : Int)) = false := decide_eq_false (by omega)
      rw [if_neg h0, e2, Res.ok_bind, this, assertDebug_false hb, Res.trap_bind]

/-- Constructing a pair of slices traps when one of the two traps and nothing is undefined. -/
theorem mkSlice2_trap {b : Build} {m n : Int} {emp : Bool} {r1 r2 : SliceReq} {k : Kind}
    (h1 : mkSlice b m emp r1 = .trap k ∨ ∃ x, mkSlice b m emp r1 = .ok x)
    (h2 : mkSlice b n emp r2 = .trap k ∨ ∃ x, mkSlice b n emp r2 = .ok x)
    (h : mkSlice b m emp r1 = .trap k ∨ mkSlice b n emp r2 = .trap k) :
    Spp.mkSlice2 b m n emp r1 r2 = .trap k := by
  simp only [mkSlice] at h1 h2 h
  simp only [Spp.mkSlice2]
  cases c1 : r1.construct b <;> simp only [c1, Res.ok_bind, Res.trap_bind, Res.ub_bind] at h1 h ⊢
  all_goals try simp_all
  cases c2 : r2.construct b <;> simp only [c2, Res.ok_bind, Res.trap_bind, Res.ub_bind] at h2 h ⊢
  all_goals try simp_all
  cases c3 : r1.get b m emp <;> simp only [c3, Res.ok_bind, Res.trap_bind, Res.ub_bind] at h1 h ⊢
  all_goals try simp_all
  cases c4 : r2.get b n emp <;> simp only [c4, Res.ok_bind, Res.trap_bind, Res.ub_bind] at h2 h ⊢
  all_goals try simp_all
  rename_i x y
  cases c5 : assertDebugM b (x.valid m) <;>
    simp only [c5, Res.ok_bind, Res.trap_bind, Res.ub_bind] at h1 h ⊢
  all_goals try simp_all
  cases c6 : assertDebugM b (y.valid n) <;>
    simp only [c6, Res.ok_bind, Res.trap_bind, Res.ub_bind] at h ⊢
  all_goals try simp_all

theorem seq_outcome {b : Build} (hb : b.Checked) {n : Nat} (hn : (n : Int) < 2 ^ 63 - 1) {f l : Int} :
    (InRange n f ∧ InRange n l ∧ f ≤ l → ∃ x, mkSlice b n ((n : Int) == 0) (.seq f l 1) = .ok x) ∧
    (¬ (InRange n f ∧ InRange n l ∧ f ≤ l) →
      mkSlice b n ((n : Int) == 0) (.seq f l 1) = .trap b.kind) := by
  constructor
  · rintro ⟨h1, h2, h3⟩
    obtain ⟨sl, h4, _⟩ := mkSlice_valid' b (r := .seq f l 1) (Int.natCast_nonneg n) hn
      (by simp only [SliceReq.Args, IsIndex]; have := h1.1; have := h1.2; have := h2.1; have := h2.2; omega)
      ⟨h1, h2, by unfold Consistent; omega⟩
    exact ⟨sl, h4⟩
  · intro h
    apply C15_seq_rejected hb
    by_cases h1 : InRange n f
    · by_cases h2 : InRange n l
      · right; right; right
        intro hc
        unfold Consistent at hc
        apply h
        refine ⟨h1, h2, ?_⟩
        omega
      · exact .inr (.inr (.inl h2))
    · exact .inr (.inl h1)

theorem mkSlice2_rejected {b : Build} {a : Acc σ β} {s : σ} {m n : Nat}
    (h : Ext a s m n) {r1 r2 : SliceReq}
    (h1 : mkSlice b m ((m : Int) == 0) r1 = .trap b.kind ∨ ∃ x, mkSlice b m ((m : Int) == 0) r1 = .ok x)
    (h2 : mkSlice b n ((n : Int) == 0) r2 = .trap b.kind ∨ ∃ x, mkSlice b n ((n : Int) == 0) r2 = .ok x)
    (h' : mkSlice b m ((m : Int) == 0) r1 = .trap b.kind ∨
      mkSlice b n ((n : Int) == 0) r2 = .trap b.kind) :
    View.mkSlice2 b a s r1 r2 = .trap b.kind := by
  obtain ⟨em, en⟩ := emp_eq h.zero
  rw [← em] at h1 h'
  rw [← en] at h2 h'
  simp only [View.mkSlice2, Acc.empty, h.size, Res.ok_bind, Res.pure_eq, h.rows, h.cols]
  rw [mkSlice2_trap h1 h2 h']; rfl

/-- C40: a block with a corner outside the matrix or with its corners in the wrong order traps in
checked builds. -/
theorem C40_block_rejected {b : Build} (hb : b.Checked) {a : Acc σ β} {s : σ} {M : Mat (Res β)}
    (h : Den .two a s M) (hs : Small (d := .two) M) {i1 j1 i2 j2 : Pos}
    (o1 : NoOverflow M.m i1) (o2 : NoOverflow M.n j1) (o3 : NoOverflow M.m i2)
    (o4 : NoOverflow M.n j2)
    (hv : ¬ (InRange M.m (target M.m i1) ∧ InRange M.n (target M.n j1) ∧
      InRange M.m (target M.m i2) ∧ InRange M.n (target M.n j2) ∧
      target M.m i1 ≤ target M.m i2 ∧ target M.n j1 ≤ target M.n j2)) :
    View.mk b a s (.block i1 j1 i2 j2) = .trap b.kind := by
  obtain ⟨hm, hn⟩ := two_of_m hs
  simp only [View.mk, View.mkBlock, h.1, h.2.1, resolve_ok o1, resolve_ok o2, resolve_ok o3,
    resolve_ok o4, Res.ok_bind]
  obtain ⟨p1, p2⟩ := seq_outcome hb hm (f := target M.m i1) (l := target M.m i2)
  obtain ⟨q1, q2⟩ := seq_outcome hb hn (f := target M.n j1) (l := target M.n j2)
  refine mkSlice2_rejected (ext_of h hs) ?_ ?_ ?_
  · by_cases c : InRange M.m (target M.m i1) ∧ InRange M.m (target M.m i2) ∧
      target M.m i1 ≤ target M.m i2
    · exact .inr (p1 c)
    · exact .inl (p2 c)
  · by_cases c : InRange M.n (target M.n j1) ∧ InRange M.n (target M.n j2) ∧
      target M.n j1 ≤ target M.n j2
    · exact .inr (q1 c)
    · exact .inl (q2 c)
  · by_cases c : InRange M.m (target M.m i1) ∧ InRange M.m (target M.m i2) ∧
      target M.m i1 ≤ target M.m i2
    · by_cases d : InRange M.n (target M.n j1) ∧ InRange M.n (target M.n j2) ∧
        target M.n j1 ≤ target M.n j2
      · exact absurd ⟨c.1, d.1, c.2.1, d.2.1, c.2.2, d.2.2⟩ hv
      · exact .inr (q2 d)
    · exact .inl (p2 c)

theorem seqN_outcome {b : Build} (hb : b.Checked) {n : Nat} (hn : (n : Int) < 2 ^ 63 - 1) {s p : Int}
    (hp : IsIndex p) (hp1 : IsIndex (p - 1)) (ho : IsIndex (s + (p - 1))) :
    (0 ≤ s ∧ 0 ≤ p ∧ (p ≠ 0 → s + p ≤ n) →
      ∃ x, mkSlice b n ((n : Int) == 0) (.seqN s p 1) = .ok x) ∧
    (¬ (0 ≤ s ∧ 0 ≤ p ∧ (p ≠ 0 → s + p ≤ n)) →
      mkSlice b n ((n : Int) == 0) (.seqN s p 1) = .trap b.kind) := by
  constructor
  · intro h
    obtain ⟨sl, h4, _⟩ := C14_seqN_in_range b ((n : Int) == 0) (n := n) (s := s) (m := p) (st := 1)
      (by unfold IsIndex; omega) h.1 h.2.1 hp (seqN1_valid.2 h).2.2
    exact ⟨sl, h4⟩
  · intro h
    apply C14_seqN_rejected hb _ hp (by rw [Int.one_mul]; exact hp1) (by rw [Int.one_mul]; exact ho)
    by_cases h1 : s < 0
    · exact .inl h1
    · by_cases h2 : p < 0
      · exact .inr (.inl h2)
      · right; right
        refine ⟨p - 1, ?_, ?_, ?_⟩
        · omega
        · omega
        · unfold InRange; omega

/-- C40: a `blockN` request that does not fit into the matrix traps in checked builds.  (The last
two hypotheses: computing its last row and column does not overflow `index_t`.) -/
theorem C40_blockN_rejected {b : Build} (hb : b.Checked) {a : Acc σ β} {s : σ} {M : Mat (Res β)}
    (h : Den .two a s M) (hs : Small (d := .two) M) {i1 j1 : Pos} {p q : Int}
    (o1 : NoOverflow M.m i1) (o2 : NoOverflow M.n j1)
    (hp : IsIndex p ∧ IsIndex (p - 1) ∧ IsIndex (target M.m i1 + (p - 1)))
    (hq : IsIndex q ∧ IsIndex (q - 1) ∧ IsIndex (target M.n j1 + (q - 1)))
    (hv : target M.m i1 < 0 ∨ target M.n j1 < 0 ∨ p < 0 ∨ q < 0 ∨
      (p ≠ 0 ∧ (M.m : Int) < target M.m i1 + p) ∨ (q ≠ 0 ∧ (M.n : Int) < target M.n j1 + q)) :
    View.mk b a s (.blockN i1 j1 p q) = .trap b.kind := by
  obtain ⟨hm, hn⟩ := two_of_m hs
  simp only [View.mk, View.mkBlockN, h.1, h.2.1, resolve_ok o1, resolve_ok o2, Res.ok_bind]
  obtain ⟨p1, p2⟩ := seqN_outcome hb hm (s := target M.m i1) hp.1 hp.2.1 hp.2.2
  obtain ⟨q1, q2⟩ := seqN_outcome hb hn (s := target M.n j1) hq.1 hq.2.1 hq.2.2
  refine mkSlice2_rejected (ext_of h hs) ?_ ?_ ?_
  · by_cases c : 0 ≤ target M.m i1 ∧ 0 ≤ p ∧ (p ≠ 0 → target M.m i1 + p ≤ M.m)
    · exact .inr (p1 c)
    · exact .inl (p2 c)
  · by_cases c : 0 ≤ target M.n j1 ∧ 0 ≤ q ∧ (q ≠ 0 → target M.n j1 + q ≤ M.n)
    · exact .inr (q1 c)
    · exact .inl (q2 c)
  · by_cases c : 0 ≤ target M.m i1 ∧ 0 ≤ p ∧ (p ≠ 0 → target M.m i1 + p ≤ M.m)
    · by_cases d : 0 ≤ target M.n j1 ∧ 0 ≤ q ∧ (q ≠ 0 → target M.n j1 + q ≤ M.n)
      · exfalso
        have := c.2.2; have := d.2.2
        omega
      · exact .inr (q2 d)
    · exact .inl (p2 c)

/-- C40 (defect): `A.diag(LONG_MIN)` is undefined behaviour even in checked builds. -/
theorem C40_diag_min_overflows (b : Build) {a : Acc σ β} {s : σ} {M : Mat (Res β)}
    (h : Den .two a s M) (hs : Small (d := .two) M) :
    View.mk b a s (.diagK (-(2 ^ 63))) = .ub := by
  obtain ⟨hm, hn⟩ := two_of_m hs
  obtain ⟨v, h1, _⟩ := mkView1D_ok b h.2.2.1 hs.1
  have e1 : iadd (M.n : Int) 1 = .ok ((M.n : Int) + 1) := iadd_ok (by unfold IsIndex; omega)
  have e2 : isub 0 (-(2 ^ 63)) = .ub := rfl
  simp only [View.mk, View.mkDiagK, h1, Res.ok_bind, h.2.1, h.1, e1]
  rw [if_neg (by omega), e2]; rfl

/-! ### Reshaping -/

/-- C41: in every build in which assertions exist at all, `view2D(m, n)` of an object with `k`
elements traps unless `m * n = k` (as long as `m * n` does not overflow). -/
theorem C41_view2D_size {b : Build} (hb : b.Guarded) {a : Acc σ β} {s : σ} {d : Dim} {k m n : Int}
    (h : a.size s = .ok k) (hmn : IsIndex (m * n)) (hk : m * n ≠ k) :
    View.mk b a s (.view2D d m n) = .trap b.kind := by
  simp only [View.mk, View.mkView2D, imul_ok hmn, h, Res.ok_bind, beq_eq_false_iff_ne.2 hk,
    assertAlways_false hb, Res.trap_bind]

/-- C41: `view2D(m, n)` of a vector `l` with `m * n` elements: element `(i, j)` is `l[i*n + j]`. -/
theorem C41_view2D_vector (b : Build) {a : Acc σ β} {s : σ} {l : List (Res β)} (h : Den .one a s l)
    (hs : Small (d := .one) l) {m n : Nat} (hm : IsIndex m) (hn : IsIndex n) (hl : m * n = l.length)
    (h0 : 0 < l.length) :
    ∃ a', View.mk b a s (.view2D .one m n) = .ok a' ∧ a'.rows s = m ∧ a'.cols s = n ∧
      ∀ i j : Nat, i < m → j < n → a'.un2 s i j = a.un s (i * n + j : Nat) := by
  obtain ⟨a', h1, h2⟩ := mkView2D_ok b h.2.1 hs hl hm hn
  have h3 := h2 s l rfl (linDen_of h)
  have hz : ¬ (m = 0 ∨ n = 0) := by
    rintro (rfl | rfl) <;> simp at hl <;> omega
  rw [Mat.laid, if_neg hz] at h3
  refine ⟨a', h1, h3.1, h3.2.1, fun i j hi hj => ?_⟩
  rw [(h3.2.2.2 i j hi hj).1, h.2.2 _ (by rw [← hl]; exact flat_lt hi hj)]

/-- C41: `view2D(m, n)` of a matrix with `m * n` elements: the elements in row-major order. -/
theorem C41_view2D_matrix (b : Build) {a : Acc σ β} {s : σ} {M : Mat (Res β)} (h : Den .two a s M)
    (hs : Small (d := .two) M) {m n : Nat} (hm : IsIndex m) (hn : IsIndex n) (hl : m * n = M.m * M.n)
    (h0 : 0 < M.m) :
    ∃ a', View.mk b a s (.view2D .two m n) = .ok a' ∧ a'.rows s = m ∧ a'.cols s = n ∧
      (∀ i j : Nat, i < m → j < n → a'.un2 s i j = a.un s (i * n + j : Nat)) ∧
      (∀ i j : Nat, i < m → j < n →
        a'.un2 s i j = M.el ((i * n + j) / M.n) ((i * n + j) % M.n)) := by
  obtain ⟨a', h1, h2⟩ := mkView2D_ok b h.2.2.1 hs.1 hl hm hn
  have h3 := h2 s M.flat (flat_length M) (linDen_of h)
  have hn0 : M.n ≠ 0 := fun e => by have := hs.2.2 e; omega
  have hp : 0 < M.m * M.n := Nat.mul_pos h0 (by omega)
  have hz : ¬ (m = 0 ∨ n = 0) := by
    rintro (rfl | rfl) <;> simp at hl <;> omega
  rw [Mat.laid, if_neg hz] at h3
  have key : ∀ i j : Nat, i < m → j < n →
      a'.un2 s i j = M.el ((i * n + j) / M.n) ((i * n + j) % M.n) := by
    intro i j hi hj
    have hlt : i * n + j < M.m * M.n := by rw [← hl]; exact flat_lt hi hj
    rw [(h3.2.2.2 i j hi hj).1, flat_eq]
    exact getD_range_map (f := fun k => M.el (k / M.n) (k % M.n)) hlt
  refine ⟨a', h1, h3.1, h3.2.1, fun i j hi hj => ?_, key⟩
  have hlt : i * n + j < M.m * M.n := by rw [← hl]; exact flat_lt hi hj
  rw [key i j hi hj]
  have e1 : (i * n + j) / M.n < M.m := Nat.div_lt_of_lt_mul (Nat.lt_of_lt_of_eq hlt (Nat.mul_comm _ _))
  have e2 : (i * n + j) % M.n < M.n := Nat.mod_lt _ (by omega)
  have := (h.2.2.2 _ _ e1 e2).2
  rw [← this, Nat.mul_comm, Nat.div_add_mod]

/-- C41: `view1D()` is the matrix in row-major order: element `i*cols + j` is `A(i, j)`. -/
theorem C41_view1D (b : Build) {a : Acc σ β} {s : σ} {M : Mat (Res β)} (h : Den .two a s M)
    (hs : Small (d := .two) M) :
    ∃ a', View.mk b a s .view1D = .ok a' ∧ a'.rows s = (M.m * M.n : Nat) ∧
      ∀ i j : Nat, i < M.m → j < M.n → a'.un s (i * M.n + j : Nat) = M.el i j := by
  obtain ⟨a', h1, _, h2⟩ := mkView1D_ok b h.2.2.1 hs.1
  have h3 := h2 s M.flat (flat_length M) (linDen_of h)
  refine ⟨a', h1, by rw [h3.1, flat_length], fun i j hi hj => ?_⟩
  rw [h3.2.2 _ (by rw [flat_length]; exact flat_lt hi hj), flat_getD hi hj]

/-- C41: reshaping a matrix to a vector and back gives the same elements at the same positions, and
so does reshaping a vector to a matrix and back. -/
theorem C41_round_trip (b : Build) {a : Acc σ β} {s : σ} :
    (∀ M : Mat (Res β), Den .two a s M → Small (d := .two) M → 0 < M.m →
      ∃ a1 a2, View.mk b a s .view1D = .ok a1 ∧
        View.mk b a1 s (.view2D .one M.m M.n) = .ok a2 ∧ Den .two a2 s M) ∧
    (∀ (l : List (Res β)) (m n : Nat), Den .one a s l → Small (d := .one) l → m * n = l.length →
      0 < l.length → ∃ a1 a2, View.mk b a s (.view2D .one m n) = .ok a1 ∧
        View.mk b a1 s .view1D = .ok a2 ∧ Den .one a2 s l) := by
  constructor
  · intro M h hs h0
    obtain ⟨b1, b2⟩ := two_of_m hs
    obtain ⟨a1, h1, _, h2⟩ := mkView1D_ok b h.2.2.1 hs.1
    have h3 := h2 s M.flat (flat_length M) (linDen_of h)
    obtain ⟨a2, h4, h5⟩ := mkView2D_ok b h3.2.1 (by rw [flat_length]; exact hs.1) (p := M.m)
      (q := M.n) (flat_length M).symm (by unfold IsIndex; omega) (by unfold IsIndex; omega)
    have h6 := h5 s M.flat rfl (linDen_of h3)
    refine ⟨a1, a2, h1, h4, den2_congr h6 ?_⟩
    have hn0 : M.n ≠ 0 := fun e => by have := hs.2.2 e; omega
    rw [Mat.laid, if_neg (by omega)]
    exact ⟨rfl, rfl, fun i j hi hj => flat_getD hi hj⟩
  · intro l m n h hs hl h0
    have hs' : (l.length : Int) < 2 ^ 63 - 1 := hs
    have hz : ¬ (m = 0 ∨ n = 0) := by
      rintro (rfl | rfl) <;> simp at hl <;> omega
    have l1 : n ≤ m * n := Nat.le_mul_of_pos_left _ (by omega)
    have l2 : m ≤ m * n := Nat.le_mul_of_pos_right _ (by omega)
    obtain ⟨a1, h1, h2⟩ := mkView2D_ok b h.2.1 hs hl (by unfold IsIndex; omega)
      (by unfold IsIndex; omega)
    have h3 := h2 s l rfl (linDen_of h)
    rw [Mat.laid, if_neg hz] at h3
    have hsz : a1.size s = .ok ((m * n : Nat) : Int) := h3.2.2.1
    obtain ⟨a2, h4, _, h5⟩ := mkView1D_ok b hsz (by omega)
    have h6 := h5 s _ (flat_length _) (linDen_of h3)
    refine ⟨a1, a2, h1, h4, ?_⟩
    have : Mat.flat (⟨m, n, fun i j => l.getD (i * n + j) .ub⟩ : Mat (Res β)) = l := by
      rw [flat_eq]
      apply List.ext_getElem
      · simp [hl]
      · intro k h7 h8
        simp only [List.getElem_map, List.getElem_range]
        rw [Nat.mul_comm, Nat.div_add_mod, getD_lt h8]
    rw [← this]; exact h6

/-- C41 (note): two negative dimensions whose product is the size pass the size check.  Checked
builds reject them later; release builds with exceptions construct an object with a negative number
of rows. -/
theorem C41_negative_dimensions (e : Bool) {a : Acc σ β} {s : σ} (h : a.size s = .ok 6) :
    View.mk ⟨false, true, e⟩ a s (.view2D .one (-2) (-3)) = .trap .exception ∧
    ∃ a', View.mk ⟨true, true, e⟩ a s (.view2D .one (-2) (-3)) = .ok a' ∧ a'.rows s = -2 := by
  constructor
  · simp only [View.mk, View.mkView2D, h]
    cases e <;> rfl
  · simp only [View.mk, View.mkView2D, h]
    cases e <;> exact ⟨_, rfl, rfl⟩

/-! ### The hypotheses hold for the matrix `[[1,2,3],[4,5,6]]`; the elements are places in its
buffer. -/

open Sample in
example : ∃ a', View.mk ⟨false, true, false⟩ (Lv.acc2 Int 0) store (.row (.fromLast 0)) = .ok a' ∧
    a'.rows store = 3 ∧ a'.un store 1 = .ok (.two 0 4) := by
  obtain ⟨a', h1, h2, h3⟩ := C40_row ⟨false, true, false⟩ A_den A_small (p := .fromLast 0)
    (by unfold InRange; decide)
  exact ⟨a', h1, h2, h3 1 (by decide)⟩

open Sample in
example : ∃ a', View.mk ⟨false, true, false⟩ (Lv.acc2 Int 0) store (.col (.at 1)) = .ok a' ∧
    a'.rows store = 2 ∧ a'.un store 1 = .ok (.two 0 4) := by
  obtain ⟨a', h1, h2, h3⟩ := C40_col ⟨false, true, false⟩ A_den A_small (p := .at 1)
    (by unfold InRange; decide)
  exact ⟨a', h1, h2, h3 1 (by decide)⟩

open Sample in
example : ∃ a', View.mk ⟨false, true, false⟩ (Lv.acc2 Int 0) store (.diagK 1) = .ok a' ∧
    a'.rows store = 2 ∧ a'.un store 1 = .ok (.two 0 5) := by
  obtain ⟨a', h1, h2, h3⟩ := (C40_diag ⟨false, true, false⟩ A_den A_small).2.1 1 (by decide)
  exact ⟨a', h1, h2, h3 1 (by decide) (by decide)⟩

open Sample in
example : ∃ a', View.mk ⟨false, true, false⟩ (Lv.acc2 Int 0) store (.diagK (-1)) = .ok a' ∧
    a'.rows store = 1 ∧ a'.un store 0 = .ok (.two 0 3) := by
  obtain ⟨a', h1, h2, h3⟩ := (C40_diag ⟨false, true, false⟩ A_den A_small).2.2 1 (by decide) (by decide)
  exact ⟨a', h1, h2, h3 0 (by decide) (by decide)⟩

open Sample in
example : ∃ a', View.mk ⟨false, true, false⟩ (Lv.acc2 Int 0) store
    (.block (.at 0) (.at 1) (.fromLast 0) (.at 2)) = .ok a' ∧
    a'.rows store = 2 ∧ a'.cols store = 2 ∧ a'.un2 store 1 0 = .ok (.two 0 4) := by
  obtain ⟨a', h1, h2, h3, h4⟩ := C40_block ⟨false, true, false⟩ A_den A_small (i1 := .at 0)
    (j1 := .at 1) (i2 := .fromLast 0) (j2 := .at 2) (r1 := 0) (c1 := 1) (p := 1) (q := 1)
    (by decide) (by decide) (by decide) (by decide) (by decide) (by decide)
  exact ⟨a', h1, h2, h3, h4 1 0 (by decide) (by decide)⟩

open Sample in
example : ∃ a', View.mk ⟨false, true, false⟩ (Lv.acc2 Int 0) store
    (.blockN (.at 1) (.fromLast 1) 1 2) = .ok a' ∧
    a'.rows store = 1 ∧ a'.cols store = 2 ∧ a'.un2 store 0 1 = .ok (.two 0 5) := by
  obtain ⟨a', h1, h2, h3, h4⟩ := C40_blockN ⟨false, true, false⟩ A_den A_small (i1 := .at 1)
    (j1 := .fromLast 1) (r1 := 1) (c1 := 1) (p := 1) (q := 2)
    (by simp only [Pos.Args]; unfold IsIndex; decide) (by simp only [Pos.Args]; unfold IsIndex; decide)
    (by decide) (by decide) (by decide) (by decide) (by decide) (by decide)
  exact ⟨a', h1, h2, h3, h4 0 1 (by decide) (by decide)⟩

open Sample in
example : View.mk ⟨false, true, false⟩ (Lv.acc2 Int 0) store (.row (.at 2)) = .trap .exception :=
  (C40_line_rejected (b := ⟨false, true, false⟩) (by decide) A_den A_small).1 (.at 2) trivial (by unfold InRange; decide)

open Sample in
example : View.mk ⟨false, true, false⟩ (Lv.acc2 Int 0) store
    (.block (.at 1) (.at 0) (.at 0) (.at 2)) = .trap .exception :=
  C40_block_rejected (b := ⟨false, true, false⟩) (by decide) A_den A_small trivial trivial trivial trivial
    (by unfold InRange; decide)

open Sample in
example : View.mk ⟨false, true, false⟩ (Lv.acc2 Int 0) store
    (.blockN (.at 1) (.at 0) 2 2) = .trap .exception :=
  C40_blockN_rejected (b := ⟨false, true, false⟩) (by decide) A_den A_small trivial trivial (by unfold IsIndex; decide)
    (by unfold IsIndex; decide) (by decide)

open Sample in
example : ∃ a', View.mk ⟨true, true, true⟩ (Lv.acc2 Int 0) store (.view2D .two 3 2) = .ok a' ∧
    a'.un2 store 2 0 = .ok (.two 0 4) := by
  obtain ⟨a', h1, _, _, _, h2⟩ := C41_view2D_matrix ⟨true, true, true⟩ A_den A_small (m := 3) (n := 2)
    (by unfold IsIndex; decide) (by unfold IsIndex; decide) (by decide) (by decide)
  exact ⟨a', h1, h2 2 0 (by decide) (by decide)⟩

open Sample in
example : View.mk ⟨true, true, true⟩ (Lv.acc2 Int 0) store (.view2D .two 4 2) = .trap .exception :=
  C41_view2D_size (b := ⟨true, true, true⟩) (by decide) A_den.2.2.1 (by unfold IsIndex; decide) (by decide)

open Sample in
example : ∃ a', View.mk ⟨true, true, true⟩ (Lv.acc2 Int 0) store .view1D = .ok a' ∧
    a'.un store 5 = .ok (.two 0 5) := by
  obtain ⟨a', h1, _, h2⟩ := C41_view1D ⟨true, true, true⟩ A_den A_small
  exact ⟨a', h1, h2 1 2 (by decide) (by decide)⟩

open Sample in
example : ∃ a1 a2, View.mk ⟨true, true, true⟩ (Lv.acc2 Int 0) store .view1D = .ok a1 ∧
    View.mk ⟨true, true, true⟩ a1 store (.view2D .one 2 3) = .ok a2 ∧
    Den .two a2 store ((Lv.arr2 0).cells store) :=
  (C41_round_trip ⟨true, true, true⟩).1 _ A_den A_small (by decide)

open Sample in
example : ∃ a', View.mk ⟨true, true, true⟩ (Lv.acc1 Int 0) store (.view2D .one 3 1) = .ok a' ∧
    a'.rows store = 3 := by
  obtain ⟨a', h1, h2, _⟩ := C41_view2D_vector ⟨true, true, true⟩ (acc1_den store 0)
    (by show (_ : Int) < _; decide) (m := 3) (n := 1)
    (by unfold IsIndex; decide) (by unfold IsIndex; decide) (by decide) (by decide)
  exact ⟨a', h1, h2⟩

end Spp.Props
