import Verif.Lemmas.Kept
import Verif.Lemmas.Indep
import Verif.Props.Expr

/-
Views and expressions that are kept in variables while the arrays change (C129).  `s0` are the arrays when the object
is made, `s1` when it is used: between the two anything may have happened to the arrays.
-/

set_option linter.unusedSectionVars false

namespace Spp.Props
open Spec

variable {α : Type} [Inhabited α]

/-- C129: as long as the arrays keep their sizes, a kept view or expression is the same list or matrix as one made
anew. -/
theorem C129_same_sizes (b : Build) {s0 s1 : Store α} (hs : Store.Ok s0) {d : Dim} {t : Tm α d} (hS : t.Sound s0)
    (hV : t.Valid s0) (h : SameSizes s0 s1) :
    ∃ kept fresh, t.build b s0 = .ok kept ∧ t.build b s1 = .ok fresh ∧
      Den d kept s1 (t.meaning s1) ∧ Den d fresh s1 (t.meaning s1) := by
  obtain ⟨_, _, a, h1, h2⟩ := C43_reads b hs hS hV
  obtain ⟨_, _, a', h3, h4⟩ := C43_reads b (ok_same h hs) (Tm.sound_same h hS) (Tm.valid_same h hV)
  exact ⟨a, a', h1, h3, h2 s1 h, h4 s1 (SameSizes.refl s1)⟩

/-- C129: changes of an array which a view or expression does not mention, of its elements or of its size, make no
difference to it: kept in a variable or made anew it is the list or matrix it was before. -/
theorem C129_unrelated (b : Build) {s0 s1 : Store α} (hs : Store.Ok s0) {d : Dim} {t : Tm α d} (hS : t.Sound s0)
    (hV : t.Valid s0) {x : Dim × Nat} (hx : ¬ t.Mentions x) (h : ∀ y, y ≠ x → SameArray s0 s1 y) :
    ∃ kept, t.build b s0 = .ok kept ∧ t.build b s1 = .ok kept ∧ Den d kept s1 (t.meaning s0) := by
  obtain ⟨_, _, a, h1, h2⟩ := C43_reads b hs hS hV
  have hI := t.build_indep b h hx
  have ha := hI.2 a h1
  have hd := h2 s0 (SameSizes.refl s0)
  refine ⟨a, h1, hI.1 ▸ h1, ?_⟩
  cases d with
  | one =>
    obtain ⟨d1, d2, d3⟩ := hd
    exact ⟨ha.rows ▸ d1, ha.size ▸ d2, fun i hi => (ha.un i).1 ▸ d3 i hi⟩
  | two =>
    obtain ⟨d1, d2, d3, d4⟩ := hd
    exact ⟨ha.rows ▸ d1, ha.cols ▸ d2, ha.size ▸ d3,
      fun i j hi hj => ⟨(ha.un2 i j).1 ▸ (d4 i j hi hj).1, (ha.un _).1 ▸ (d4 i j hi hj).2⟩⟩

/-- C129: a view keeps its size and refers to the elements it selected when it was made, whatever has happened to the
arrays: elements that do not exist any more make every access to them undefined, in every build. -/
theorem C129_view (b : Build) {s0 : Store α} (hs : Store.Ok s0) {d : Dim} {l : Lv d} (hl : l.isView = true)
    (hS : l.Sound s0) (hV : l.Valid s0) :
    ∃ a, l.build b s0 = .ok a ∧ ∀ s1, Store.Ok s1 → Den d a s1 (l.kept s0 s1) := by
  obtain ⟨a, h1, h2⟩ := kept_main b hs l hl hS hV
  exact ⟨a, h1, fun s1 k => h2 s1 k true⟩

/-- C129: reading a kept view gives the current values of these elements. -/
theorem C129_read (b : Build) {s0 : Store α} (hs : Store.Ok s0) {d : Dim} {l : Lv d} (hl : l.isView = true)
    (hS : l.Sound s0) (hV : l.Valid s0) :
    ∃ a, (Tm.lv (α := α) l).build b s0 = .ok a ∧
      ∀ s1, Store.Ok s1 → Den d a s1 ((l.kept s0 s1).map s1.read) := by
  obtain ⟨a, h1, h2⟩ := C129_view b hs hl hS hV
  refine ⟨a.deref Store.read, ?_, fun s1 k => den_deref Store.read (h2 s1 k)⟩
  simp only [Tm.build, h1, Res.ok_bind]
  rfl

/-- C129: at the time it is made the view refers to the elements it selects. -/
theorem C129_fresh {s0 : Store α} (hs : Store.Ok s0) {d : Dim} {l : Lv d} (hl : l.isView = true)
    (hS : l.Sound s0) (hV : l.Valid s0) : (l.kept s0 s0).flat = (l.cells s0).flat := by
  obtain ⟨a, h1, h2⟩ := C129_view ⟨false, true, false⟩ hs hl hS hV
  obtain ⟨_, a', h3, h4⟩ := l.main ⟨false, true, false⟩ hs hS hV
  rw [h1] at h3; cases h3
  have e1 := linDen_of (h2 s0 hs)
  have e2 := linDen_of (h4 s0 (SameSizes.refl s0))
  have hlen : (l.kept s0 s0).flat.length = (l.cells s0).flat.length := by
    have := e1.1.symm.trans e2.1
    injection this with this
    omega
  refine List.ext_getElem hlen fun i hi hj => ?_
  rw [← getD_lt (d := Res.ub) hi, ← getD_lt (d := Res.ub) hj, ← e1.2 i hi, ← e2.2 i hj]

/-- C129: the check of a subscript uses the size of the view, not that of the array: an index inside the view is never
rejected, also if the element does not exist any more; then the access is undefined. -/
theorem C129_subscript {b : Build} (hb : b.Checked) {s0 : Store α} (hs : Store.Ok s0) {l : Lv .one}
    (hl : l.isView = true) (hS : l.Sound s0) (hV : l.Valid s0) :
    ∃ a, l.build b s0 = .ok a ∧ ∀ s1, Store.Ok s1 → ∀ i : Int,
      (0 ≤ i ∧ i < (l.cells s0).dims.1 → a.sub b s1 i = List.getD (l.kept s0 s1) i.toNat .ub) ∧
      (¬ (0 ≤ i ∧ i < (l.cells s0).dims.1) → a.sub b s1 i = .trap b.kind) := by
  obtain ⟨a, h1, h2⟩ := C129_view b hs hl hS hV
  refine ⟨a, h1, fun s1 k1 i => ?_⟩
  have hd := h2 s1 k1
  have hdim : List.length (l.kept s0 s1) = (l.cells s0).dims.1 := congrArg Prod.fst (seen_dims (s0 := s0) s1 l true)
  have hr : a.rows s1 = ((l.cells s0).dims.1 : Int) := by rw [hd.1, hdim]
  constructor
  · intro hi
    obtain ⟨k, rfl⟩ := Int.eq_ofNat_of_zero_le hi.1
    have e : validIndex (a.rows s1) (k : Int) = true := by rw [hr]; simp [validIndex]; omega
    simp only [Acc.sub, e, assertDebug_true, Res.ok_bind, Int.toNat_natCast]
    exact hd.2.2 k (by omega)
  · intro hi
    have e : validIndex (a.rows s1) i = false := by rw [hr]; simp [validIndex]; omega
    simp only [Acc.sub, e, assertDebug_false hb]
    rfl

/-- C129: `auto v = A(all)`, then `A` gets another length: `v` has the old length; the elements that both lengths have
are the current elements of `A`, the access to the others passes the check and is undefined. -/
theorem C129_shrunk (b : Build) {s0 : Store α} (hs : Store.Ok s0) (id : Nat) :
    ∃ a, (Lv.view (.slice .all) (.arr1 id)).build b s0 = .ok a ∧ ∀ s1, Store.Ok s1 →
      a.rows s1 = (s0.a1 id).length ∧ ∀ k : Nat, k < (s0.a1 id).length →
        a.sub b s1 k = if k < (s1.a1 id).length then .ok (.one id k) else .ub := by
  have hS : (Lv.view (.slice .all) (.arr1 id)).Sound s0 := by
    refine ⟨trivial, trivial, ?_⟩
    have := hs.1 id
    simpa [Small, View.sel, Lv.cells, selection, selected, upto] using this
  obtain ⟨a, h1, h2⟩ := C129_view b hs (l := Lv.view (.slice .all) (.arr1 id)) rfl hS ⟨trivial, trivial⟩
  refine ⟨a, h1, fun s1 k1 => ?_⟩
  have hd := h2 s1 k1
  have e : (Lv.view (.slice .all) (.arr1 id)).kept s0 s1 = (List.range (s0.a1 id).length).map (place1 s1 id) := by
    simp only [Lv.kept, Lv.seen, View.sel, selection, selected]
    have := map_pick_upto (l := (List.range (s0.a1 id).length).map (place1 s1 id)) (n := (s0.a1 id).length) (by simp)
    simp only [List.length_map, List.length_range] at this ⊢
    exact this
  rw [e] at hd
  have hr : a.rows s1 = (s0.a1 id).length := by rw [hd.1]; simp
  refine ⟨hr, fun k hk => ?_⟩
  have e : validIndex (a.rows s1) (k : Int) = true := by rw [hr]; simp [validIndex]; omega
  simp only [Acc.sub, e, assertDebug_true, Res.ok_bind]
  rw [hd.2.2 k (by simpa using hk), getD_range_map hk]
  rfl

/-- C129: `auto r = A.row(i)`, then `A` gets another shape: `r` refers to the elements whose numbers in row-major order
were those of row `i`, which in general is not row `i` any more. -/
theorem C129_row (b : Build) {s0 : Store α} (hs : Store.Ok s0) (id i : Nat) (hi : i < (s0.a2 id).rows.toNat) :
    ∃ a, (Lv.view (.row (.at i)) (.arr2 id)).build b s0 = .ok a ∧ ∀ s1, Store.Ok s1 →
      a.rows s1 = (s0.a2 id).cols ∧ ∀ j : Nat, j < (s0.a2 id).cols.toNat →
        a.un s1 j = place2 s1 id (i * (s0.a2 id).cols.toNat + j) := by
  obtain ⟨e1, e2, hz⟩ := pin_size hs id
  have hlen := (hs.2 id).2
  have hle : (s0.a2 id).cols.toNat ≤ (s0.a2 id).rows.toNat * (s0.a2 id).cols.toNat := Nat.le_mul_of_pos_left _ (by omega)
  have hle2 : (s0.a2 id).rows.toNat ≤ (s0.a2 id).data.length ∨ (s0.a2 id).cols.toNat = 0 := by
    rcases Nat.eq_zero_or_pos (s0.a2 id).cols.toNat with h | h
    · exact .inr h
    · exact .inl (by rw [hz]; exact Nat.le_mul_of_pos_right _ h)
  have h0 := (hs.2 id).1.zero
  have hi63 : (i : Int) < 2 ^ 63 := by
    rcases hle2 with h | h
    · omega
    · omega
  have hS : (Lv.view (.row (.at i)) (.arr2 id)).Sound s0 := by
    refine ⟨trivial, ?_, ?_⟩
    · simp only [View.Args, Pos.Args, IsIndex]; omega
    · simp only [Small, View.sel, Lv.cells, Mat.row]
      simp only [List.length_map, List.length_range]
      omega
  have hV : (Lv.view (.row (.at i)) (.arr2 id)).Valid s0 := by
    refine ⟨trivial, ?_⟩
    show InRange _ (i : Int)
    simp only [InRange, Lv.cells, Sem.dims]; omega
  obtain ⟨a, h1, h2⟩ := C129_view b hs (l := Lv.view (.row (.at i)) (.arr2 id)) rfl hS hV
  refine ⟨a, h1, fun s1 k1 => ?_⟩
  have hd := h2 s1 k1
  have e : (Lv.view (.row (.at i)) (.arr2 id)).kept s0 s1 =
      (List.range (s0.a2 id).cols.toNat).map (fun j => place2 s1 id (i * (s0.a2 id).cols.toNat + j)) := by
    simp only [Lv.kept, Lv.seen, View.sel, Mat.row, View.byNumber, if_true]
    rfl
  rw [e] at hd
  refine ⟨by rw [hd.1]; simp [e2], fun j hj => ?_⟩
  rw [hd.2.2 j (by simpa using hj), getD_range_map hj]

/-- C129: `auto v = A(slice, slice)` and the other two-dimensional views of an array keep the positions of their
elements: rows and columns, not numbers. -/
theorem C129_block (b : Build) {s0 : Store α} (hs : Store.Ok s0) {id : Nat} {v : View .two .two}
    (hv : v.byNumber = false) (hS : (Lv.view v (.arr2 id)).Sound s0) (hV : (Lv.view v (.arr2 id)).Valid s0) :
    ∃ a, (Lv.view v (.arr2 id)).build b s0 = .ok a ∧ ∀ s1, Store.Ok s1 →
      Den .two a s1 (v.sel (show Sem Loc .two from ⟨(s0.a2 id).rows.toNat, (s0.a2 id).cols.toNat, fun i j =>
        place2 s1 id (i * (s1.a2 id).cols.toNat + j)⟩)) := by
  obtain ⟨a, h1, h2⟩ := C129_view b hs (l := Lv.view v (.arr2 id)) rfl hS hV
  refine ⟨a, h1, fun s1 k1 => ?_⟩
  have := h2 s1 k1
  simp only [Lv.kept, Lv.seen, hv] at this
  exact this

/-- C129: assigning a value to a kept view writes it to the elements the view refers to and nowhere else if they all
exist; if one of them does not exist any more the assignment is undefined. -/
theorem C129_fill (b : Build) {s0 : Store α} (hs : Store.Ok s0) {d : Dim} {l : Lv d} (hl : l.isView = true)
    (hS : l.Sound s0) (hV : l.Valid s0) (x : α) :
    ∃ a, l.build b s0 = .ok a ∧ ∀ s1, Store.Ok s1 →
      (∀ cs : List Loc, (l.kept s0 s1).flat = cs.map Res.ok →
        Writes cs (cs.map fun _ => Res.ok x) s1 (fillTo a x s1)) ∧
      (Res.ub ∈ (l.kept s0 s1).flat → (fillTo a x s1).1 = .ub) := by
  obtain ⟨a, h1, h2⟩ := C129_view b hs hl hS hV
  refine ⟨a, h1, fun s1 k1 => ?_⟩
  refine fill_kept (x := l.kept s0 s1) (fun s h => ?_) (all_flat (kept_all hs s1 l hS hV true)) x
  have := h2 s (ok_same h k1)
  rwa [Lv.kept, seen_same h l true] at this

/-- C129: a kept sum (or other operation) of two objects has the current size of the first; the sizes are not compared
again. -/
theorem C129_binary (b : Build) {s0 : Store α} {d : Dim} {t1 t2 : Tm α d} {f : α → α → Res α}
    {a1 a2 a : Acc (Store α) α} (h1 : t1.build b s0 = .ok a1) (h2 : t2.build b s0 = .ok a2)
    (h : (Tm.binary f t1 t2).build b s0 = .ok a) (s1 : Store α) :
    a.rows s1 = a1.rows s1 ∧ a.cols s1 = a1.cols s1 ∧ a.size s1 = a1.size s1 ∧
    (∀ i, a.un s1 i = a1.un s1 i >>= fun u => a2.un s1 i >>= fun v => f u v) ∧
    ∀ i j, a.un2 s1 i j = a1.un2 s1 i j >>= fun u => a2.un2 s1 i j >>= fun v => f u v := by
  simp only [Tm.build, h1, h2, Res.ok_bind, Tm.mkBinary, Res.bind_eq_ok] at h
  obtain ⟨_, _, h⟩ := h
  cases h
  exact ⟨rfl, rfl, rfl, fun _ => rfl, fun _ _ => rfl⟩

/-- C129: so a kept `A + B` whose `B` has become shorter than `A` passes the check of the subscript and is undefined. -/
theorem C129_sum_shrunk {b : Build} {s0 : Store α} {i j : Nat} {f : α → α → Res α} {a : Acc (Store α) α}
    (h : (Tm.binary f (.lv (.arr1 i)) (.lv (.arr1 j))).build b s0 = .ok a) (s1 : Store α) {k : Nat}
    (h1 : k < (s1.a1 i).length) (h2 : (s1.a1 j).length ≤ k) : a.sub b s1 k = .ub := by
  obtain ⟨e1, _, _, e4, _⟩ := C129_binary b (t1 := .lv (.arr1 i)) (t2 := .lv (.arr1 j)) rfl rfl h s1
  have hr : a.rows s1 = ((s1.a1 i).length : Int) := e1
  have e : validIndex (a.rows s1) (k : Int) = true := by rw [hr]; simp [validIndex]; omega
  simp only [Acc.sub, e, assertDebug_true, Res.ok_bind, e4]
  have ea : ((Lv.acc1 α i).deref Store.read).un s1 k = .ok (s1.a1 i)[k] := by
    show ((if 0 ≤ (k : Int) ∧ (k : Int) < len (s1.a1 i) then Res.ok (Loc.one i (k : Int).toNat) else .ub) >>= fun l =>
      s1.read l) = _
    rw [if_pos (by unfold len; omega), Res.ok_bind]
    simp only [Store.read, Int.toNat_natCast, rd_nat h1]
  have eb : ((Lv.acc1 α j).deref Store.read).un s1 k = .ub := by
    show ((if 0 ≤ (k : Int) ∧ (k : Int) < len (s1.a1 j) then Res.ok (Loc.one j (k : Int).toNat) else .ub) >>= fun l =>
      s1.read l) = _
    rw [if_neg (by unfold len; omega)]
    rfl
  show (((Lv.acc1 α i).deref Store.read).un s1 k >>= fun u => ((Lv.acc1 α j).deref Store.read).un s1 k >>= fun v =>
    f u v) = _
  rw [ea, Res.ok_bind, eb]
  rfl

/-- C129: a kept `A + x` has the current size of `A`, a kept `x + A` the size `A` had when it was made. -/
theorem C129_scalar (b : Build) {s0 : Store α} {d : Dim} {t : Tm α d} {f : α → α → Res α} {x : α}
    {a ar al : Acc (Store α) α} (h : t.build b s0 = .ok a) (hr : (Tm.scalarR f t x).build b s0 = .ok ar)
    (hl : (Tm.scalarL f x t).build b s0 = .ok al) (s1 : Store α) :
    ar.rows s1 = a.rows s1 ∧ al.rows s1 = a.rows s0 ∧
    (d = .two → ar.cols s1 = a.cols s1 ∧ al.cols s1 = a.cols s0) := by
  simp only [Tm.build, h, Res.ok_bind, Tm.mkBinary, Res.bind_eq_ok] at hr hl
  obtain ⟨c, hc, _, _, hr⟩ := hr
  obtain ⟨c', hc', _, _, hl⟩ := hl
  rw [hc] at hc'
  cases hc'
  cases hr
  cases hl
  refine ⟨rfl, ?_, fun h => ⟨rfl, ?_⟩⟩
  · cases d with
    | one =>
      simp only [Tm.mkConstLike, Tm.mkConst1D, Res.bind_eq_ok] at hc
      obtain ⟨_, _, _, _, hc⟩ := hc
      cases hc
      rfl
    | two =>
      simp only [Tm.mkConstLike, Tm.mkConst2D, Res.bind_eq_ok] at hc
      obtain ⟨_, _, _, _, _, _, _, _, _, _, hc⟩ := hc
      cases hc
      rfl
  · subst h
    simp only [Tm.mkConstLike, Tm.mkConst2D, Res.bind_eq_ok] at hc
    obtain ⟨_, _, _, _, _, _, _, _, _, _, hc⟩ := hc
    cases hc
    rfl

/-! ### The hypotheses can be met -/

namespace KeptEx

/-- five elements; a matrix of two rows and three columns -/
def before : Store Int := ⟨fun _ => [1, 2, 3, 4, 5], fun _ => ⟨2, 3, [1, 2, 3, 4, 5, 6]⟩⟩
/-- three elements; a matrix of three rows and two columns -/
def after : Store Int := ⟨fun _ => [10, 20, 30], fun _ => ⟨3, 2, [1, 2, 3, 4, 5, 6]⟩⟩

theorem before_ok : Store.Ok before := by
  refine ⟨fun _ => ?_, fun _ => ⟨⟨?_, ?_, ?_, ?_⟩, ?_⟩⟩ <;> simp [before]

theorem after_ok : Store.Ok after := by
  refine ⟨fun _ => ?_, fun _ => ⟨⟨?_, ?_, ?_, ?_⟩, ?_⟩⟩ <;> simp [after]

/-- the kept second row: elements 3, 4, 5 by number, which in the new shape are the second half of the second row and
the third row -/
example : ∃ a, (Lv.view (.row (.at 1)) (.arr2 0)).build ⟨false, true, false⟩ before = .ok a ∧
    (List.range 3).map (fun j : Nat => a.un after j) =
      [.ok (.two 0 3), .ok (.two 0 4), .ok (.two 0 5)] := by
  obtain ⟨a, h1, h2⟩ := C129_row ⟨false, true, false⟩ before_ok 0 1 (by decide)
  obtain ⟨_, h⟩ := h2 after after_ok
  refine ⟨a, h1, ?_⟩
  have e := h 0 (by decide)
  have e' := h 1 (by decide)
  have e'' := h 2 (by decide)
  simp only [List.range, List.range.loop, List.map_cons, List.map_nil, e, e', e'']
  decide

/-- `auto v = A(all)` with five elements, then `A` has three: `v[2]` is `A[2]`, `v[3]` is undefined -/
example : ∃ a, (Lv.view (.slice .all) (.arr1 0)).build ⟨false, true, false⟩ before = .ok a ∧
    a.rows after = 5 ∧ a.sub ⟨false, true, false⟩ after (2 : Nat) = .ok (.one 0 2) ∧
    a.sub ⟨false, true, false⟩ after (3 : Nat) = .ub := by
  obtain ⟨a, h1, h2⟩ := C129_shrunk ⟨false, true, false⟩ before_ok 0
  obtain ⟨hr, h⟩ := h2 after after_ok
  exact ⟨a, h1, hr, (h 2 (by decide)).trans (if_pos (by decide)), (h 3 (by decide)).trans (if_neg (by decide))⟩

/-- `auto e = A + B;`, then a third array `C` gets another size -/
example : ∃ kept, (Tm.binary (fun x y : Int => .ok (x + y)) (.lv (.arr1 0)) (.lv (.arr1 1))).build ⟨false, true, false⟩
      before = .ok kept ∧
    (Tm.binary (fun x y : Int => .ok (x + y)) (.lv (.arr1 0)) (.lv (.arr1 1))).build ⟨false, true, false⟩
      { before with a1 := upd before.a1 2 [7, 7] } = .ok kept ∧
    Den .one kept { before with a1 := upd before.a1 2 [7, 7] } [.ok 2, .ok 4, .ok 6, .ok 8, .ok 10] :=
  C129_unrelated _ before_ok (t := Tm.binary (fun x y : Int => .ok (x + y)) (.lv (.arr1 0)) (.lv (.arr1 1)))
    (by decide) (by decide) (x := (.one, 2)) (show ¬ Tm.Mentions _ _ by decide) fun y hy => by
      rcases y with ⟨_ | _, i⟩
      · exact if_neg fun h => hy (by rw [h])
      · rfl

/-- the hypotheses of the theorems about views hold for every other element of the last three -/
example : (Lv.view (.slice .even) (.view (.slice (.lastN 3)) (.arr1 0))).Sound before ∧
    (Lv.view (.slice .even) (.view (.slice (.lastN 3)) (.arr1 0))).Valid before ∧
    (show List (Res Loc) from (Lv.view (.slice .even) (.view (.slice (.lastN 3)) (.arr1 0))).kept before after) =
      [.ok (.one 0 2), .ub] := by
  refine ⟨⟨⟨trivial, ?_, ?_⟩, trivial, ?_⟩, ⟨⟨trivial, ?_⟩, trivial⟩, ?_⟩ <;> decide

/-- the operations on two arrays and on an array and a value can be built -/
example : (∃ a, (Tm.binary (fun x y : Int => .ok (x + y)) (.lv (.arr1 0)) (.lv (.arr1 1))).build ⟨false, true, false⟩
      before = .ok a) ∧
    (∃ a, (Tm.scalarR (fun x y : Int => .ok (x + y)) (.lv (.arr1 0)) 7).build ⟨false, true, false⟩ before = .ok a) ∧
    (∃ a, (Tm.scalarL (fun x y : Int => .ok (x + y)) 7 (.lv (.arr1 0))).build ⟨false, true, false⟩ before = .ok a) :=
  ⟨⟨_, rfl⟩, ⟨_, rfl⟩, ⟨_, rfl⟩⟩

end KeptEx

end Spp.Props
