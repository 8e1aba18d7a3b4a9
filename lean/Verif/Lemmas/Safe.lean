import Verif.Lemmas.NoUb
import Verif.Props.View
import Verif.Spec.Modest

/- In checked builds every check fails cleanly: what does not make sense traps. -/

set_option linter.unusedSectionVars false

namespace Spp
open Spec Props

theorem Spec.IsIndex.of_modest {x : Int} (h : Spec.Modest x) : IsIndex x := by
  unfold Spec.Modest at h; unfold IsIndex; omega

theorem modest_mul {x y : Int} (hx : Spec.Modest x) (hy : Spec.Modest y) :
    -2 ^ 62 ≤ x * y ∧ x * y ≤ 2 ^ 62 := by
  obtain ⟨a, c⟩ := hx
  obtain ⟨e, f⟩ := hy
  have h1 : x.natAbs ≤ 2 ^ 31 := by omega
  have h2 : y.natAbs ≤ 2 ^ 31 := by omega
  have h3 : (x * y).natAbs ≤ 2 ^ 31 * 2 ^ 31 := by
    rw [Int.natAbs_mul]; exact Nat.mul_le_mul h1 h2
  omega

theorem modest_mul_pred {x y : Int} (hx : Spec.Modest x) (hy : Spec.Modest y) :
    -(2 ^ 62 + 2 ^ 31) ≤ x * (y - 1) ∧ x * (y - 1) ≤ 2 ^ 62 + 2 ^ 31 := by
  have := modest_mul hx hy
  obtain ⟨a, c⟩ := hx
  have : x * (y - 1) = x * y - x := by rw [Int.mul_sub, Int.mul_one]
  omega

theorem Pos.Modest.args {p : Pos} (h : p.Modest) : p.Args := by
  cases p <;> exact IsIndex.of_modest h

theorem Pos.Modest.noOverflow {p : Pos} (h : p.Modest) {n : Nat} (hn : (n : Int) < 2 ^ 62) :
    NoOverflow n p := by
  cases p with
  | «at» i => trivial
  | fromLast k =>
    have : Spec.Modest k := h
    unfold Spec.Modest at this
    simp only [NoOverflow, IsIndex]; omega

theorem Pos.Modest.target {p : Pos} (h : p.Modest) {n : Nat} (hn : (n : Int) < 2 ^ 62) :
    -2 ^ 32 ≤ target n p ∧ target n p ≤ 2 ^ 62 + 2 ^ 31 := by
  cases p with
  | «at» i =>
    have : Spec.Modest i := h
    unfold Spec.Modest at this
    simp only [Spec.target]; omega
  | fromLast k =>
    have : Spec.Modest k := h
    unfold Spec.Modest at this
    simp only [Spec.target]; omega

theorem SliceReq.Modest.args {r : SliceReq} (h : r.Modest) : r.Args := by
  cases r with
  | seqN s m st => exact ⟨.of_modest h.1, .of_modest h.2.1, .of_modest h.2.2⟩
  | seq f l st => exact ⟨.of_modest h.1, .of_modest h.2.1, .of_modest h.2.2⟩
  | skipN k => exact IsIndex.of_modest h
  | firstN k => exact IsIndex.of_modest h
  | lastN k => exact IsIndex.of_modest h
  | vec idx => exact fun i hi => .of_modest (h i hi)
  | complement idx => exact fun i hi => .of_modest (h i hi)
  | _ => trivial

theorem View.Modest.args {d d' : Dim} {v : View d d'} (h : v.Modest) : v.Args := by
  cases v with
  | slice r => exact SliceReq.Modest.args h
  | slice2 r1 r2 => exact ⟨h.1.args, h.2.args⟩
  | rows r => exact SliceReq.Modest.args h
  | cols r => exact SliceReq.Modest.args h
  | row p => exact Pos.Modest.args h
  | col p => exact Pos.Modest.args h
  | diagK k => exact IsIndex.of_modest h
  | block i1 j1 i2 j2 => exact ⟨h.1.args, h.2.1.args, h.2.2.1.args, h.2.2.2.args⟩
  | blockN i1 j1 m n =>
    exact ⟨h.1.args, h.2.1.args, .of_modest h.2.2.1, .of_modest h.2.2.2⟩
  | view2D _ m n => exact ⟨.of_modest h.1, .of_modest h.2⟩
  | _ => trivial

theorem Spec.Roomy.small {β : Type} {d : Dim} {x : Sem β d} (h : Roomy x) : Small x := by
  cases d with
  | one => have : (List.length x : Int) < 2 ^ 62 := h
           show (List.length x : Int) < 2 ^ 63 - 1
           omega
  | two => exact ⟨by have := h.1; omega, h.2⟩

theorem Store.Roomy.ok {α : Type} {s : Store α} (h : s.Roomy) : Store.Ok s :=
  ⟨fun id => by have := h.1 id; omega, fun id => ⟨(h.2 id).1, by have := (h.2 id).2; omega⟩⟩

theorem Spec.Roomy.congr {β γ : Type} {d : Dim} {x : Sem β d} {y : Sem γ d} (h : x.dims = y.dims)
    (hs : Roomy x) : Roomy y := by
  cases d with
  | one =>
    have h1 : List.length x = List.length y := congrArg Prod.fst h
    show (List.length y : Int) < 2 ^ 62
    rw [← h1]; exact hs
  | two =>
    have h1 : Mat.m x = Mat.m y := congrArg Prod.fst h
    have h2 : Mat.n x = Mat.n y := congrArg Prod.snd h
    show ((Mat.m y * Mat.n y : Nat) : Int) < 2 ^ 62 ∧ (Mat.m y = 0 ↔ Mat.n y = 0)
    rw [← h1, ← h2]; exact hs

/-- What happens to a request. -/
theorem mkSlice_outcome {b : Build} (hb : b.Checked) {n : Nat} (hn : (n : Int) < 2 ^ 62)
    {r : SliceReq} (hr : r.Modest) :
    (r.Valid n → ∃ x, mkSlice b n ((n : Int) == 0) r = .ok x) ∧
    (¬ r.Valid n → mkSlice b n ((n : Int) == 0) r = .trap b.kind) := by
  refine ⟨fun hv => ?_, fun hv => ?_⟩
  · obtain ⟨x, h, _⟩ := mkSlice_valid' b (Int.natCast_nonneg n) (by omega) hr.args hv
    exact ⟨x, h⟩
  cases r with
  | seqN s m st =>
    obtain ⟨h1, h2, h3⟩ := hr
    have h4 := modest_mul_pred h3 h2
    have h5 := h1.1; have h6 := h1.2
    refine C14_seqN_rejected hb _ (.of_modest h2) (by unfold IsIndex; omega)
      (by unfold IsIndex; omega) ?_
    by_cases c1 : s < 0
    · exact .inl c1
    by_cases c2 : m < 0
    · exact .inr (.inl c2)
    right; right
    refine Classical.byContradiction fun hne => hv ⟨by omega, by omega, fun i h0 h1 => ?_⟩
    exact Classical.byContradiction fun h => hne ⟨i, h0, h1, h⟩
  | seq f l st =>
    refine C15_seq_rejected hb ?_
    by_cases c1 : InRange n f
    · by_cases c2 : InRange n l
      · exact .inr (.inr (.inr fun c3 => hv ⟨c1, c2, c3⟩))
      · exact .inr (.inr (.inl c2))
    · exact .inr (.inl c1)
  | skipN k =>
    have : Spec.Modest k := hr
    unfold Spec.Modest at this
    refine (C16_rejected hb).1 ?_
    refine Classical.byContradiction fun h => hv ⟨by omega, by omega⟩
  | firstN k =>
    refine ((C16_rejected hb).2 ?_).1
    refine Classical.byContradiction fun h => hv ⟨by omega, by omega⟩
  | lastN k =>
    refine ((C16_rejected hb).2 ?_).2
    refine Classical.byContradiction fun h => hv ⟨by omega, by omega⟩
  | vec idx =>
    refine (C14_index_vector hb idx).2 ?_
    refine Classical.byContradiction fun h => hv fun i hi => ?_
    exact Classical.byContradiction fun h' => h ⟨i, hi, h'⟩
  | complement idx =>
    refine C17_rejected hb ?_
    by_cases c : Increasing idx
    · right
      refine Classical.byContradiction fun h => hv ⟨c, fun i hi => ?_⟩
      exact Classical.byContradiction fun h' => h ⟨i, hi, h'⟩
    · exact .inl c
  | _ => exact absurd trivial hv

section
variable {σ β : Type}

theorem roomy_extents {M : Mat (Res β)} (h : Roomy (d := .two) M) :
    (M.m : Int) < 2 ^ 62 ∧ (M.n : Int) < 2 ^ 62 := by
  obtain ⟨h1, h2⟩ := h
  by_cases hm : M.m = 0
  · have := h2.1 hm; omega
  · have hn : M.n ≠ 0 := fun e => hm (h2.2 e)
    have a1 : M.m ≤ M.m * M.n := Nat.le_mul_of_pos_right _ (by omega)
    have a2 : M.n ≤ M.m * M.n := Nat.le_mul_of_pos_left _ (by omega)
    omega

theorem mkSlice2_outcome {b : Build} (hb : b.Checked) {a : Acc σ β} {s : σ} {M : Mat (Res β)}
    (h : Den .two a s M) (hs : Roomy (d := .two) M) {r1 r2 : SliceReq} (h1 : r1.Modest)
    (h2 : r2.Modest) (hv : ¬ (r1.Valid M.m ∧ r2.Valid M.n)) :
    View.mkSlice2 b a s r1 r2 = .trap b.kind := by
  obtain ⟨hm, hn⟩ := roomy_extents hs
  obtain ⟨p1, p2⟩ := mkSlice_outcome hb hm h1
  obtain ⟨q1, q2⟩ := mkSlice_outcome hb hn h2
  refine mkSlice2_rejected (ext_of h hs.small) ?_ ?_ ?_
  · by_cases c : r1.Valid M.m
    · exact .inr (p1 c)
    · exact .inl (p2 c)
  · by_cases c : r2.Valid M.n
    · exact .inr (q1 c)
    · exact .inl (q2 c)
  · by_cases c : r1.Valid M.m
    · exact .inr (q2 fun d => hv ⟨c, d⟩)
    · exact .inl (p2 c)

/-- A view that does not make sense traps. -/
theorem View.mk_traps {b : Build} (hb : b.Checked) {d d' : Dim} (v : View d d') {a : Acc σ β}
    {s : σ} {x : Sem β d} (h : Den d a s x) (hs : Roomy x) (hm : v.Modest)
    (hv : ¬ v.Valid x.dims.1 x.dims.2) : v.mk b a s = .trap b.kind := by
  cases v with
  | slice r =>
    have h1 : a.rows s = (List.length x : Int) := h.1
    simp only [View.mk, View.mkSlice1, h1]
    rw [(mkSlice_outcome hb hs hm).2 hv]; rfl
  | slice2 r1 r2 => exact mkSlice2_outcome hb h hs hm.1 hm.2 hv
  | rows r => exact mkSlice2_outcome hb h hs hm trivial fun c => hv c.1
  | cols r => exact mkSlice2_outcome hb h hs trivial hm fun c => hv c.2
  | row p =>
    obtain ⟨e1, e2⟩ := roomy_extents hs
    exact (C40_line_rejected hb h hs.small).1 p (Pos.Modest.noOverflow hm e1) hv
  | col p =>
    obtain ⟨e1, e2⟩ := roomy_extents hs
    exact (C40_line_rejected hb h hs.small).2.1 p (Pos.Modest.noOverflow hm e2) hv
  | diag => exact absurd trivial hv
  | diagK k =>
    have hk : Spec.Modest k := hm
    refine (C40_line_rejected hb h hs.small).2.2 k (.of_modest hk)
      (by unfold Spec.Modest at hk; unfold IsIndex; omega) ?_
    have hv' : ¬ (-((Mat.m x : Nat) : Int) < k ∧ k < (Mat.n x : Nat)) := hv
    have hz : Mat.m x = 0 ↔ Mat.n x = 0 := hs.2
    omega
  | block i1 j1 i2 j2 =>
    obtain ⟨e1, e2⟩ := roomy_extents hs
    exact C40_block_rejected hb h hs.small (hm.1.noOverflow e1) (hm.2.1.noOverflow e2)
      (hm.2.2.1.noOverflow e1) (hm.2.2.2.noOverflow e2) hv
  | blockN i1 j1 p q =>
    obtain ⟨e1, e2⟩ := roomy_extents hs
    obtain ⟨m1, m2, m3, m4⟩ := hm
    have t1 := m1.target e1
    have t2 := m2.target e2
    have u3 := m3; have u4 := m4
    unfold Spec.Modest at u3 u4
    refine C40_blockN_rejected hb h hs.small (m1.noOverflow e1) (m2.noOverflow e2)
      (by simp only [IsIndex]; omega) (by simp only [IsIndex]; omega) ?_
    have hv' : ¬ (NoOverflow (Mat.m x) i1 ∧ NoOverflow (Mat.n x) j1 ∧ 0 ≤ target (Mat.m x) i1 ∧
      0 ≤ target (Mat.n x) j1 ∧ 0 ≤ p ∧ 0 ≤ q ∧ (p ≠ 0 → target (Mat.m x) i1 + p ≤ (Mat.m x)) ∧
      (q ≠ 0 → target (Mat.n x) j1 + q ≤ (Mat.n x))) := hv
    refine Classical.byContradiction fun hne => hv' ⟨m1.noOverflow e1, m2.noOverflow e2, ?_⟩
    simp only [not_or] at hne
    omega
  | view1D => exact absurd trivial hv
  | view2D _ p q =>
    obtain ⟨m1, m2⟩ := hm
    have hpq := modest_mul m1 m2
    have hI : IsIndex (p * q) := by unfold IsIndex; omega
    have hlen : x.flat.length = x.dims.1 * x.dims.2 := by
      cases d with
      | one => show List.length x = List.length x * 1; rw [Nat.mul_one]
      | two => exact flat_length (β := Res β) x
    have hsz := (linDen_of h).1
    rw [hlen] at hsz
    by_cases c : p * q = ((x.dims.1 * x.dims.2 : Nat) : Int)
    · have hneg : p < 0 ∨ q < 0 := by
        refine Classical.byContradiction fun hne => hv ⟨by omega, by omega, c⟩
      have hbeq : (p * q == ((x.dims.1 * x.dims.2 : Nat) : Int)) = true := beq_iff_eq.2 c
      simp only [View.mk, View.mkView2D, imul_ok hI, hsz, Res.ok_bind, hbeq, assertAlways_true]
      by_cases c1 : p < 0
      · have e : decide (p > -1) = false := decide_eq_false (by omega)
        have e0 : decide ((0 : Int) > -1) = true := by decide
        simp only [mkSeqN, e, e0, assertDebug_true, assertDebug_false hb, Res.ok_bind, Res.trap_bind]
      · have c2 : q < 0 := by omega
        have e : decide (q > -1) = false := decide_eq_false (by omega)
        have e1 : decide (p > -1) = true := decide_eq_true (by omega)
        have e0 : decide ((0 : Int) > -1) = true := by decide
        simp only [mkSeqN, e, e0, e1, assertDebug_true, assertDebug_false hb, Res.ok_bind,
          Res.trap_bind, Res.pure_eq]
    · exact C41_view2D_size hb.2 hsz hI c

end

variable {α : Type}

theorem Lv.roomy_cells {s : Store α} (hs : s.Roomy) {d : Dim} (l : Lv d) (hM : l.Modest s)
    (hV : l.Valid s) : Roomy (l.cells s) := by
  cases l with
  | arr1 id =>
    show (List.length (List.map _ _) : Int) < 2 ^ 62
    rw [List.length_map, List.length_range]; exact hs.1 id
  | arr2 id =>
    have := Lv.main (α := α) ⟨false, true, false⟩ hs.ok (.arr2 id) trivial trivial
    obtain ⟨⟨_, hz⟩, _⟩ := this
    refine ⟨?_, hz⟩
    have hl := (hs.2 id).2
    have sh := (hs.2 id).1
    have := sh.size
    have := sh.rows
    have := sh.cols
    have e : (((Lv.arr2 id).cells s : Mat (Res Loc)).m * ((Lv.arr2 id).cells s : Mat (Res Loc)).n : Nat)
        = (s.a2 id).data.length := by
      show (s.a2 id).rows.toNat * (s.a2 id).cols.toNat = _
      have h1 : ((s.a2 id).rows.toNat : Int) = (s.a2 id).rows := Int.toNat_of_nonneg sh.rows
      have h2 : ((s.a2 id).cols.toNat : Int) = (s.a2 id).cols := Int.toNat_of_nonneg sh.cols
      apply Int.ofNat.inj
      show (((s.a2 id).rows.toNat * (s.a2 id).cols.toNat : Nat) : Int) = ((s.a2 id).data.length : Int)
      rw [Int.natCast_mul, h1, h2, sh.size]
    rw [e]; exact hl
  | view v l => exact hM.2.2 hV

theorem Lv.modest_sound {s : Store α} {d : Dim} (l : Lv d) (hM : l.Modest s)
    (hV : l.Valid s) : l.Sound s := by
  induction l with
  | arr1 id => trivial
  | arr2 id => trivial
  | view v l ih => exact ⟨ih hM.1 hV.1, hM.2.1.args, (hM.2.2 hV).small⟩

/-- A view of an array that does not make sense traps. -/
theorem Lv.traps {b : Build} (hb : b.Checked) {s : Store α} (hs : s.Roomy) {d : Dim} (l : Lv d)
    (hM : l.Modest s) (hV : ¬ l.Valid s) : l.build b s = .trap b.kind := by
  induction l with
  | arr1 id => exact absurd trivial hV
  | arr2 id => exact absurd trivial hV
  | view v l ih =>
    by_cases h : l.Valid s
    · obtain ⟨_, a, e, hd⟩ := l.main b hs.ok (l.modest_sound hM.1 h) h
      simp only [Lv.build, e, Res.ok_bind]
      exact View.mk_traps hb v (hd s (SameSizes.refl s)) (l.roomy_cells hs hM.1 h) hM.2.1
        fun hv => hV ⟨h, hv⟩
    · simp only [Lv.build, ih hM.1 h, Res.trap_bind]

theorem roomy_range {β : Type} {n : Nat} {f : Nat → Res β} (h : (n : Int) < 2 ^ 62) :
    Roomy (d := .one) ((List.range n).map f) := by
  show (List.length (List.map _ _) : Int) < 2 ^ 62
  rw [List.length_map, List.length_range]; exact h

theorem removed_le {β : Type} (l : List β) (p c : Nat) : (removed l p c).length ≤ l.length := by
  unfold removed; simp; omega

theorem dropLast_le {β : Type} (l : List β) : l.dropLast.length ≤ l.length := by
  rw [List.length_dropLast]; omega

/-- An expression that makes sense is sound, and its value has fewer than 2^62 elements. -/
theorem Tm.modest_sound {s : Store α} (hs : s.Roomy) {d : Dim} (t : Tm α d) :
    t.Modest s → t.Valid s → t.Sound s ∧ Roomy (t.meaning s) := by
  induction t with
  | lv l =>
    intro hM hV
    exact ⟨l.modest_sound hM hV, (l.roomy_cells hs hM hV).congr (map_dims _ _).symm⟩
  | view v t ih =>
    intro hM hV
    exact ⟨⟨(ih hM.1 hV.1).1, hM.2.1.args, (hM.2.2 hV).small⟩, hM.2.2 hV⟩
  | unary f t ih =>
    intro hM hV
    exact ⟨(ih hM hV).1, (ih hM hV).2.congr (map_dims _ _).symm⟩
  | binary f t1 t2 ih1 ih2 =>
    intro hM hV
    exact ⟨⟨(ih1 hM.1 hV.1).1, (ih2 hM.2 hV.2.1).1⟩,
      (ih1 hM.1 hV.1).2.congr (zip_dims_left _ hV.2.2).symm⟩
  | scalarL f x t ih =>
    intro hM hV
    exact ⟨(ih hM hV).1, (ih hM hV).2.congr (map_dims _ _).symm⟩
  | scalarR f t x ih =>
    intro hM hV
    exact ⟨(ih hM hV).1, (ih hM hV).2.congr (map_dims _ _).symm⟩
  | sequence ar n x y =>
    intro hM hV
    have h1 : Spec.Modest n := hM
    unfold Spec.Modest at h1
    exact ⟨by show n < 2 ^ 63 - 1; omega, roomy_range (by omega)⟩
  | linspace ar n x y =>
    intro hM hV
    have h1 : Spec.Modest n := hM
    unfold Spec.Modest at h1
    exact ⟨by show n < 2 ^ 63 - 1; omega, roomy_range (by omega)⟩
  | eUnit ar k n =>
    intro hM hV
    have h1 : Spec.Modest n := hM.2
    unfold Spec.Modest at h1
    exact ⟨by show n < 2 ^ 63 - 1; omega, roomy_range (by omega)⟩
  | const1D n x =>
    intro hM hV
    have h1 : Spec.Modest n := hM
    unfold Spec.Modest at h1
    refine ⟨by show n < 2 ^ 63 - 1; omega, ?_⟩
    show (List.length (List.replicate _ _) : Int) < 2 ^ 62
    rw [List.length_replicate]; omega
  | const2D m n x =>
    intro hM hV
    obtain ⟨h1, h2, h3⟩ := hV
    have hm := hM.2.2
    refine ⟨by show m * n < 2 ^ 63 - 1; omega, ?_⟩
    show ((m.toNat * n.toNat : Nat) : Int) < 2 ^ 62 ∧ (m.toNat = 0 ↔ n.toNat = 0)
    refine ⟨?_, by omega⟩
    rw [Int.natCast_mul, Int.toNat_of_nonneg h1, Int.toNat_of_nonneg h2]; exact hm
  | identity ar n =>
    intro hM hV
    have h0 : 0 ≤ n := hV
    have hm := hM.2
    refine ⟨by show n * n < 2 ^ 63 - 1; omega, ?_⟩
    show ((n.toNat * n.toNat : Nat) : Int) < 2 ^ 62 ∧ (n.toNat = 0 ↔ n.toNat = 0)
    refine ⟨?_, Iff.rfl⟩
    rw [Int.natCast_mul, Int.toNat_of_nonneg h0]; exact hm
  | merge t1 t2 ih1 ih2 =>
    intro hM hV
    have hr := hM.2.2 hV
    refine ⟨⟨(ih1 hM.1 hV.1).1, (ih2 hM.2.1 hV.2).1, ?_⟩, hr⟩
    have : (List.length (List.append (t1.meaning s) (t2.meaning s)) : Int) < 2 ^ 62 := hr
    rw [show List.length (List.append (t1.meaning s) (t2.meaning s)) = List.length (t1.meaning s) +
      List.length (t2.meaning s) from List.length_append] at this
    show ((List.length (t1.meaning s) : Nat) : Int) + (List.length (t2.meaning s) : Nat) < 2 ^ 63 - 1
    omega
  | append t x ih =>
    intro hM hV
    have hr := hM.2 hV
    refine ⟨⟨(ih hM.1 hV).1, ?_⟩, hr⟩
    have : (List.length (List.append (t.meaning s) [Res.ok x]) : Int) < 2 ^ 62 := hr
    rw [show List.length (List.append (t.meaning s) [Res.ok x]) = List.length (t.meaning s) +
      1 from List.length_append] at this
    show ((List.length (t.meaning s) : Nat) : Int) + 1 < 2 ^ 63 - 1
    omega
  | prepend x t ih =>
    intro hM hV
    have hr := hM.2 hV
    refine ⟨⟨(ih hM.1 hV).1, ?_⟩, hr⟩
    have : (List.length (List.cons (Res.ok x) (t.meaning s)) : Int) < 2 ^ 62 := hr
    have e : List.length (List.cons (Res.ok x) (t.meaning s)) = List.length (t.meaning s) + 1 := rfl
    show ((List.length (t.meaning s) : Nat) : Int) + 1 < 2 ^ 63 - 1
    omega
  | exclude t p c ih =>
    intro hM hV
    obtain ⟨h1, h2⟩ := ih hM.1 hV.1
    refine ⟨⟨h1, .of_modest hM.2.1, .of_modest hM.2.2⟩, ?_⟩
    have h2' : (List.length (t.meaning s) : Int) < 2 ^ 62 := h2
    show (List.length (removed (t.meaning s) p.toNat c.toNat) : Int) < 2 ^ 62
    have : List.length (removed (t.meaning s) p.toNat c.toNat) ≤ List.length (t.meaning s) :=
      removed_le _ _ _
    omega
  | excludeLast t k ih =>
    intro hM hV
    obtain ⟨h1, h2⟩ := ih hM hV.1
    refine ⟨h1, ?_⟩
    have h2' : (List.length (t.meaning s) : Int) < 2 ^ 62 := h2
    have : List.length (List.dropLast (t.meaning s)) ≤ List.length (t.meaning s) := dropLast_le _
    show (List.length (List.dropLast (t.meaning s)) : Int) < 2 ^ 62
    omega
  | reduce rw' g t ih =>
    intro hM hV
    obtain ⟨h1, h2⟩ := ih hM hV
    have e := roomy_extents h2
    refine ⟨h1, ?_⟩
    cases rw' with
    | true => exact roomy_range e.1
    | false => exact roomy_range e.2
  | matvec ar t x ih1 ih2 =>
    intro hM hV
    obtain ⟨h1, h2⟩ := ih1 hM.1 hV.1
    have e := roomy_extents h2
    exact ⟨⟨h1, (ih2 hM.2 hV.2.1).1⟩, roomy_range e.1⟩
  | bcast rw' t ih =>
    intro hM hV
    exact ⟨⟨(ih hM.1 hV).1, (hM.2 hV).small⟩, hM.2 hV⟩
  | tensor ar t1 t2 ih1 ih2 =>
    intro hM hV
    exact ⟨⟨(ih1 hM.1 hV.1).1, (ih2 hM.2.1 hV.2).1, (hM.2.2 hV).small⟩, hM.2.2 hV⟩
  | transpose t ih =>
    intro hM hV
    obtain ⟨h1, h2⟩ := ih hM hV
    refine ⟨h1, ?_⟩
    obtain ⟨h3, h4⟩ := h2
    refine ⟨?_, h4.symm⟩
    show ((Mat.n (t.meaning s) * Mat.m (t.meaning s) : Nat) : Int) < 2 ^ 62
    rw [Nat.mul_comm]; exact h3
  | mergeH t1 t2 ih1 ih2 =>
    intro hM hV
    exact ⟨⟨(ih1 hM.1 hV.1).1, (ih2 hM.2.1 hV.2.1).1, (hM.2.2 hV).small⟩, hM.2.2 hV⟩
  | mergeV t1 t2 ih1 ih2 =>
    intro hM hV
    exact ⟨⟨(ih1 hM.1 hV.1).1, (ih2 hM.2.1 hV.2.1).1, (hM.2.2 hV).small⟩, hM.2.2 hV⟩

theorem not_ub_trap {γ : Type} {r : Res γ} (h1 : ∀ x, r ≠ .ok x) (h2 : r ≠ .ub) :
    ∃ k, r = .trap k := by
  cases r with
  | ok x => exact absurd rfl (h1 x)
  | trap k => exact ⟨k, rfl⟩
  | ub => exact absurd rfl h2

theorem gt_neg_one_false {n : Int} (h : ¬ 0 ≤ n) : decide (n > -1) = false :=
  decide_eq_false (by omega)

theorem gt_neg_one_true {n : Int} (h : 0 ≤ n) : decide (n > -1) = true :=
  decide_eq_true (by omega)

theorem mkExclude_traps {σ : Type} {b : Build} (hb : b.Checked) {a : Acc σ α} {s : σ} {n : Nat}
    (hr : a.rows s = n) {p c : Int} (hp : IsIndex (p + c)) (hp' : IsIndex (p + c - 1))
    (hv : ¬ (0 ≤ p ∧ 0 < c ∧ p + c ≤ n)) : Tm.mkExclude b a s p c = .trap b.kind := by
  simp only [Tm.mkExclude]
  by_cases c1 : c > 0
  · rw [decide_eq_true c1, assertDebug_true, Res.ok_bind]
    by_cases c2 : InRange n p
    · rw [hr, validIndex_iff.2 c2, assertDebug_true, Res.ok_bind]
      have : validIndex (n : Int) (p + c - 1) = false := by
        rw [validIndex_false]
        unfold InRange at c2 ⊢
        omega
      simp only [iadd_ok hp, isub_ok hp', Res.ok_bind, Res.pure_eq, this]
      rw [assertDebugM_ok, assertDebug_false hb, Res.trap_bind]
    · rw [hr, validIndex_false.2 c2, assertDebug_false hb, Res.trap_bind]
  · rw [decide_eq_false c1, assertDebug_false hb, Res.trap_bind]

theorem mkMerge_traps {σ : Type} {b : Build} (hb : b.Checked) {a1 a2 : Acc σ α} {s0 : σ}
    {M N : Mat (Res α)} {m1 m2 : Nat} {f : Acc σ α → Int}
    (h1 : Den .two a1 s0 M) (h2 : Den .two a2 s0 N)
    (e1 : f a1 = m1) (e2 : f a2 = m2)
    (z1 : M.m * M.n = 0 ↔ m1 = 0) (z2 : N.m * N.n = 0 ↔ m2 = 0) {k : Bool → Bool → Res (Acc σ α)}
    (hv : ¬ (m1 = 0 ∨ m2 = 0 ∨ m1 = m2)) :
    (do
      let x1 ← a1.empty s0
      let x2 ← a2.empty s0
      if !x1 && !x2 then assertDebug b (f a1 == f a2) else .ok ()
      k x1 x2) = .trap b.kind := by
  have c1 : m1 ≠ 0 := fun h => hv (.inl h)
  have c2 : m2 ≠ 0 := fun h => hv (.inr (.inl h))
  have c3 : m1 ≠ m2 := fun h => hv (.inr (.inr h))
  have n1 : (((M.m * M.n : Nat) : Int) == 0) = false := beq_eq_false_iff_ne.2 (by omega)
  have n2 : (((N.m * N.n : Nat) : Int) == 0) = false := beq_eq_false_iff_ne.2 (by omega)
  have n3 : ((m1 : Int) == (m2 : Int)) = false := beq_eq_false_iff_ne.2 (by omega)
  simp only [Acc.empty, h1.2.2.1, h2.2.2.1, Res.ok_bind, Res.pure_eq, n1, n2, Bool.not_false,
    Bool.and_self, if_true, e1, e2, n3, assertDebug_false hb, Res.trap_bind]

/-- An expression that does not make sense traps. -/
theorem Tm.traps {b : Build} (hb : b.Checked) {s : Store α} (hs : s.Roomy) {d : Dim} (t : Tm α d) :
    t.Modest s → t.Total → ¬ t.Valid s → ∃ k, t.build b s = .trap k := by
  have rf := SameSizes.refl s
  induction t with
  | lv l =>
    intro hM _ hV
    exact ⟨b.kind, by simp only [Tm.build, l.traps hb hs hM hV, Res.trap_bind]⟩
  | view v t ih =>
    intro hM hT hV
    by_cases h : t.Valid s
    · obtain ⟨hS, hR⟩ := t.modest_sound hs hM.1 h
      obtain ⟨_, a, e, hd⟩ := t.main b hs.ok hS h
      refine ⟨b.kind, ?_⟩
      simp only [Tm.build, e, Res.ok_bind]
      exact View.mk_traps hb v (hd s rf) hR hM.2.1 fun hv => hV ⟨h, hv⟩
    · obtain ⟨k, e⟩ := ih hM.1 hT h
      exact ⟨k, by simp only [Tm.build, e, Res.trap_bind]⟩
  | unary f t ih =>
    intro hM hT hV
    obtain ⟨k, e⟩ := ih hM hT.2 hV
    exact ⟨k, by simp only [Tm.build, e, Res.trap_bind]⟩
  | @binary d' f t1 t2 ih1 ih2 =>
    intro hM hT hV
    by_cases c1 : t1.Valid s
    · obtain ⟨hS1, _⟩ := t1.modest_sound hs hM.1 c1
      obtain ⟨_, a1, e1, d1⟩ := t1.main b hs.ok hS1 c1
      by_cases c2 : t2.Valid s
      · obtain ⟨hS2, _⟩ := t2.modest_sound hs hM.2 c2
        obtain ⟨_, a2, e2, d2⟩ := t2.main b hs.ok hS2 c2
        have : Acc.sameSize d' a1 a2 s = false := by
          rw [← Bool.not_eq_true, sameSize_iff (d1 s rf) (d2 s rf)]
          exact fun h => hV ⟨c1, c2, h⟩
        exact ⟨b.kind, by simp only [Tm.build, e1, e2, Res.ok_bind, Tm.mkBinary, this,
          assertDebug_false hb, Res.trap_bind]⟩
      · obtain ⟨k, e⟩ := ih2 hM.2 hT.2.2 c2
        exact ⟨k, by simp only [Tm.build, e1, Res.ok_bind, e, Res.trap_bind]⟩
    · obtain ⟨k, e⟩ := ih1 hM.1 hT.2.1 c1
      exact ⟨k, by simp only [Tm.build, e, Res.trap_bind]⟩
  | scalarL f x t ih =>
    intro hM hT hV
    obtain ⟨k, e⟩ := ih hM hT.2 hV
    exact ⟨k, by simp only [Tm.build, e, Res.trap_bind]⟩
  | scalarR f t x ih =>
    intro hM hT hV
    obtain ⟨k, e⟩ := ih hM hT.2 hV
    exact ⟨k, by simp only [Tm.build, e, Res.trap_bind]⟩
  | sequence ar n x y =>
    intro hM hT hV
    exact ⟨b.kind, by simp only [Tm.build, Tm.mkSequence, gt_neg_one_false hV, assertDebug_false hb,
      Res.trap_bind]⟩
  | linspace ar n x y =>
    intro hM hT hV
    have hn : Spec.Modest n := hM
    have har : Tm.Total.ArTotal ar := hT
    refine not_ub_trap (fun a h => ?_) ?_
    · exact hV (Tm.only hb hs.ok (.linspace ar n x y)
        (by unfold Spec.Modest at hn; show n < 2 ^ 63 - 1; omega) h)
    · simp only [Tm.build]
      by_cases h0 : n > 0
      · have e : isub n 1 = .ok (n - 1) :=
          isub_ok (by unfold Spec.Modest at hn; unfold IsIndex; omega)
        rw [decide_eq_true h0, assertDebug_true, Res.ok_bind]
        refine bind_ne_ub (har.2.1 _ _) fun diff => ?_
        rw [e, Res.ok_bind]
        refine bind_ne_ub (har.2.2.2.2 _) fun c => ?_
        refine bind_ne_ub (har.2.2.2.1 _ _) fun incr => ?_
        simp only [Tm.mkSequence, gt_neg_one_true (show 0 ≤ n by omega), assertDebug_true, Res.ok_bind]
        intro h; cases h
      · rw [decide_eq_false h0, assertDebug_false hb, Res.trap_bind]
        intro h; cases h
  | eUnit ar k n =>
    intro hM hT hV
    refine ⟨b.kind, ?_⟩
    simp only [Tm.build]
    by_cases c : 0 ≤ k
    · have : decide (n > k) = false := decide_eq_false fun h => hV ⟨c, h⟩
      simp only [gt_neg_one_true c, this, assertDebug_true, assertDebug_false hb, Res.ok_bind,
        Res.trap_bind]
    · simp only [gt_neg_one_false c, assertDebug_false hb, Res.trap_bind]
  | const1D n x =>
    intro hM hT hV
    exact ⟨b.kind, by simp only [Tm.build, Tm.mkConst1D, gt_neg_one_false hV, assertDebug_false hb,
      Res.trap_bind]⟩
  | const2D m n x =>
    intro hM hT hV
    refine ⟨b.kind, ?_⟩
    simp only [Tm.build, Tm.mkConst2D]
    by_cases c1 : 0 ≤ m
    · by_cases c2 : 0 ≤ n
      · have : semiValid m n = false := by
          rw [← Bool.not_eq_true, semiValid_iff]
          exact fun h => hV ⟨c1, c2, h⟩
        simp only [gt_neg_one_true c1, gt_neg_one_true c2, this, assertDebug_true,
          assertDebug_false hb, Res.ok_bind, Res.trap_bind]
      · simp only [gt_neg_one_true c1, gt_neg_one_false c2, assertDebug_true,
          assertDebug_false hb, Res.ok_bind, Res.trap_bind]
    · simp only [gt_neg_one_false c1, assertDebug_false hb, Res.trap_bind]
  | identity ar n =>
    intro hM hT hV
    exact ⟨b.kind, by simp only [Tm.build, gt_neg_one_false hV, assertDebug_false hb, Res.trap_bind]⟩
  | merge t1 t2 ih1 ih2 =>
    intro hM hT hV
    by_cases c1 : t1.Valid s
    · obtain ⟨hS1, _⟩ := t1.modest_sound hs hM.1 c1
      obtain ⟨_, a1, e1, d1⟩ := t1.main b hs.ok hS1 c1
      obtain ⟨k, e⟩ := ih2 hM.2.1 hT.2 fun c2 => hV ⟨c1, c2⟩
      exact ⟨k, by simp only [Tm.build, e1, Res.ok_bind, e, Res.trap_bind]⟩
    · obtain ⟨k, e⟩ := ih1 hM.1 hT.1 c1
      exact ⟨k, by simp only [Tm.build, e, Res.trap_bind]⟩
  | append t x ih =>
    intro hM hT hV
    obtain ⟨k, e⟩ := ih hM.1 hT hV
    exact ⟨k, by simp only [Tm.build, e, Res.trap_bind]⟩
  | prepend x t ih =>
    intro hM hT hV
    obtain ⟨k, e⟩ := ih hM.1 hT hV
    exact ⟨k, by simp only [Tm.build, e, Res.trap_bind]⟩
  | exclude t p c ih =>
    intro hM hT hV
    by_cases c1 : t.Valid s
    · obtain ⟨hS1, _⟩ := t.modest_sound hs hM.1 c1
      obtain ⟨_, a1, e1, d1⟩ := t.main b hs.ok hS1 c1
      have h1 := hM.2.1; have h2 := hM.2.2
      unfold Spec.Modest at h1 h2
      exact ⟨b.kind, by
        simp only [Tm.build, e1, Res.ok_bind]
        exact mkExclude_traps hb (d1 s rf).1 (by unfold IsIndex; omega) (by unfold IsIndex; omega)
          fun h => hV ⟨c1, h⟩⟩
    · obtain ⟨k, e⟩ := ih hM.1 hT c1
      exact ⟨k, by simp only [Tm.build, e, Res.trap_bind]⟩
  | excludeLast t j ih =>
    intro hM hT hV
    by_cases c1 : t.Valid s
    · obtain ⟨hS1, hR⟩ := t.modest_sound hs hM c1
      obtain ⟨_, a1, e1, d1⟩ := t.main b hs.ok hS1 c1
      have hr : a1.rows s = (List.length (t.meaning s) : Int) := (d1 s rf).1
      have hR' : (List.length (t.meaning s) : Int) < 2 ^ 62 := hR
      have h0 : ¬ 0 < List.length (t.meaning s) := fun h => hV ⟨c1, h⟩
      exact ⟨b.kind, by
        simp only [Tm.build, e1, Res.ok_bind, hr,
          isub_ok (show IsIndex ((List.length (t.meaning s) : Int) - 1) by unfold IsIndex; omega)]
        exact mkExclude_traps hb hr (by unfold IsIndex; omega) (by unfold IsIndex; omega)
          fun h => by omega⟩
    · obtain ⟨k, e⟩ := ih hM hT c1
      exact ⟨k, by simp only [Tm.build, e, Res.trap_bind]⟩
  | reduce rw' g t ih =>
    intro hM hT hV
    obtain ⟨k, e⟩ := ih hM hT.2 hV
    exact ⟨k, by simp only [Tm.build, e, Res.trap_bind]⟩
  | matvec ar t x ih1 ih2 =>
    intro hM hT hV
    by_cases c1 : t.Valid s
    · obtain ⟨hS1, _⟩ := t.modest_sound hs hM.1 c1
      obtain ⟨_, a1, e1, d1⟩ := t.main b hs.ok hS1 c1
      by_cases c2 : x.Valid s
      · obtain ⟨hS2, _⟩ := x.modest_sound hs hM.2 c2
        obtain ⟨_, a2, e2, d2⟩ := x.main b hs.ok hS2 c2
        have h1 : a1.cols s = (Mat.n (t.meaning s) : Int) := (d1 s rf).2.1
        have h2 : a2.rows s = (List.length (x.meaning s) : Int) := (d2 s rf).1
        have : (a1.cols s == a2.rows s) = false := by
          rw [h1, h2]
          refine beq_eq_false_iff_ne.2 fun h => hV ⟨c1, c2, ?_⟩
          show Mat.n (t.meaning s) = List.length (x.meaning s)
          omega
        exact ⟨b.kind, by simp only [Tm.build, e1, e2, Res.ok_bind, this, assertDebug_false hb,
          Res.trap_bind]⟩
      · obtain ⟨k, e⟩ := ih2 hM.2 hT.2.2 c2
        exact ⟨k, by simp only [Tm.build, e1, Res.ok_bind, e, Res.trap_bind]⟩
    · obtain ⟨k, e⟩ := ih1 hM.1 hT.2.1 c1
      exact ⟨k, by simp only [Tm.build, e, Res.trap_bind]⟩
  | bcast rw' t ih =>
    intro hM hT hV
    obtain ⟨k, e⟩ := ih hM.1 hT hV
    exact ⟨k, by simp only [Tm.build, e, Res.trap_bind]⟩
  | tensor ar t1 t2 ih1 ih2 =>
    intro hM hT hV
    by_cases c1 : t1.Valid s
    · obtain ⟨hS1, _⟩ := t1.modest_sound hs hM.1 c1
      obtain ⟨_, a1, e1, d1⟩ := t1.main b hs.ok hS1 c1
      obtain ⟨k, e⟩ := ih2 hM.2.1 hT.2.2 fun c2 => hV ⟨c1, c2⟩
      exact ⟨k, by simp only [Tm.build, e1, Res.ok_bind, e, Res.trap_bind]⟩
    · obtain ⟨k, e⟩ := ih1 hM.1 hT.2.1 c1
      exact ⟨k, by simp only [Tm.build, e, Res.trap_bind]⟩
  | transpose t ih =>
    intro hM hT hV
    obtain ⟨k, e⟩ := ih hM hT hV
    exact ⟨k, by simp only [Tm.build, e, Res.trap_bind]⟩
  | mergeH t1 t2 ih1 ih2 =>
    intro hM hT hV
    by_cases c1 : t1.Valid s
    · obtain ⟨hS1, _⟩ := t1.modest_sound hs hM.1 c1
      obtain ⟨s1, a1, e1, d1⟩ := t1.main b hs.ok hS1 c1
      by_cases c2 : t2.Valid s
      · obtain ⟨hS2, _⟩ := t2.modest_sound hs hM.2.1 c2
        obtain ⟨s2, a2, e2, d2⟩ := t2.main b hs.ok hS2 c2
        refine ⟨b.kind, ?_⟩
        simp only [Tm.build, e1, e2, Res.ok_bind]
        exact mkMerge_traps hb (f := fun a => a.rows s) (d1 s rf) (d2 s rf) (d1 s rf).1
          (d2 s rf).1 (mul_zero_iff s1.2).1 (mul_zero_iff s2.2).1 fun h => hV ⟨c1, c2, h⟩
      · obtain ⟨k, e⟩ := ih2 hM.2.1 hT.2 c2
        exact ⟨k, by simp only [Tm.build, e1, Res.ok_bind, e, Res.trap_bind]⟩
    · obtain ⟨k, e⟩ := ih1 hM.1 hT.1 c1
      exact ⟨k, by simp only [Tm.build, e, Res.trap_bind]⟩
  | mergeV t1 t2 ih1 ih2 =>
    intro hM hT hV
    by_cases c1 : t1.Valid s
    · obtain ⟨hS1, _⟩ := t1.modest_sound hs hM.1 c1
      obtain ⟨s1, a1, e1, d1⟩ := t1.main b hs.ok hS1 c1
      by_cases c2 : t2.Valid s
      · obtain ⟨hS2, _⟩ := t2.modest_sound hs hM.2.1 c2
        obtain ⟨s2, a2, e2, d2⟩ := t2.main b hs.ok hS2 c2
        refine ⟨b.kind, ?_⟩
        simp only [Tm.build, e1, e2, Res.ok_bind]
        exact mkMerge_traps hb (f := fun a => a.cols s) (d1 s rf) (d2 s rf) (d1 s rf).2.1
          (d2 s rf).2.1 (mul_zero_iff s1.2).2 (mul_zero_iff s2.2).2 fun h => hV ⟨c1, c2, h⟩
      · obtain ⟨k, e⟩ := ih2 hM.2.1 hT.2 c2
        exact ⟨k, by simp only [Tm.build, e1, Res.ok_bind, e, Res.trap_bind]⟩
    · obtain ⟨k, e⟩ := ih1 hM.1 hT.1 c1
      exact ⟨k, by simp only [Tm.build, e, Res.trap_bind]⟩

end Spp
