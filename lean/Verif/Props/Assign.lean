import Verif.Lemmas.Alias
import Verif.Lemmas.Sample
import Verif.Spec.Decide

/-
C20: assignment to slices.  C30, C31: failing and aliasing assignments, for expressions of any
shape.  C50: compound assignment.

The assigned object `l` is an array or a view of a view of ... an array; `Places l s cs` says that
its elements are the places `cs` (in linear order), `Effect s s' ws` says that `s'` is `s` after the
writes `ws` in order and that nothing else is different (see Spec/Assign.lean).
-/

set_option linter.unusedSectionVars false

namespace Spp.Props
open Spec

variable {α : Type}

/-! ### C20 -/

/-- C20: `l = x` writes `x` to every element of `l` and changes nothing else. -/
theorem C20_fill (b : Build) {s : Store α} (hs : Store.Ok s) {d : Dim} {l : Lv d} (hS : l.Sound s)
    (hV : l.Valid s) (x : α) :
    ∃ cs s', Places l s cs ∧ (AStmt.fill l x).run b s = (.ok (), s') ∧
      Effect s s' (cs.map (fun c => (c, x))) := by
  obtain ⟨_, a, h1, h2⟩ := l.main b hs hS hV
  obtain ⟨cs, hp, _⟩ := l.places hs hS hV
  have hw := fillTo_writes hp h2 x
  have e : cs.map (fun _ => Res.ok x) = (cs.map (fun _ => x)).map Res.ok := by
    rw [List.map_map]; rfl
  rw [e] at hw
  obtain ⟨w1, w2⟩ := writes_ok hw
  refine ⟨cs, (fillTo a x s).2, hp, ?_, ?_⟩
  · simp only [AStmt.run, Op.get_bind, h1, Op.lift_ok_bind]
    exact Prod.ext w1 rfl
  · have : cs.zip (cs.map (fun _ => x)) = cs.map (fun c => (c, x)) := by
      clear hp hw w2 e; rename_i hca; clear hca
      induction cs with
      | nil => rfl
      | cons c cs ih => simp [ih]
    rw [this] at w2
    exact w2

example : ∃ cs s', Places (.view (.slice (.vec [2, 0])) (.arr1 0)) Sample.store cs ∧
    (AStmt.fill (.view (.slice (.vec [2, 0])) (.arr1 0)) (9 : Int)).run ⟨false, true, false⟩
      Sample.store = (.ok (), s') ∧ Effect Sample.store s' (cs.map (fun c => (c, 9))) :=
  C20_fill (l := .view (.slice (.vec [2, 0])) (.arr1 0)) _ Sample.store_ok (by decide) (by decide) 9

/-- C20: `l = {x0, x1, ...}` with as many values as elements writes them in order. -/
theorem C20_list (b : Build) {s : Store α} (hs : Store.Ok s) {l : Lv .one} (hS : l.Sound s)
    (hV : l.Valid s) {xs : List α} (hx : (l.cells s).dims.1 = xs.length) :
    ∃ cs s', Places l s cs ∧ cs.length = xs.length ∧ (AStmt.list l xs).run b s = (.ok (), s') ∧
      Effect s s' (cs.zip xs) := by
  obtain ⟨_, a, h1, h2⟩ := l.main b hs hS hV
  obtain ⟨cs, hp, _⟩ := l.places hs hS hV
  have hl : cs.length = xs.length := by
    have := Places.length hp
    rw [show (l.cells s).dims.2 = 1 from rfl, Nat.mul_one, hx] at this
    exact this
  obtain ⟨w1, w2⟩ := writes_ok (copyList_writes hp h2 hl.symm)
  refine ⟨cs, (copyList a xs s).2, hp, hl, ?_, w2⟩
  have hr : (a.rows s == len xs) = true := by
    have : a.rows s = ((l.cells s).dims.1 : Int) := (h2 s (SameSizes.refl s)).1
    rw [this, hx]; simp [len]
  simp only [AStmt.run, Op.get_bind, h1, Op.lift_ok_bind, hr, assertDebug_true]
  exact Prod.ext w1 rfl

example : ∃ cs s', Places (.view (.slice (.vec [2, 0, 2])) (.arr1 0)) Sample.store cs ∧
    cs.length = 3 ∧
    (AStmt.list (.view (.slice (.vec [2, 0, 2])) (.arr1 0)) [(7 : Int), 8, 9]).run ⟨false, true, false⟩
      Sample.store = (.ok (), s') ∧ Effect Sample.store s' (cs.zip [7, 8, 9]) :=
  C20_list (l := .view (.slice (.vec [2, 0, 2])) (.arr1 0)) (xs := [(7 : Int), 8, 9]) _ Sample.store_ok (by decide) (by decide) rfl

/-- C20: a list of another length is rejected. -/
theorem C20_list_rejected {b : Build} (hb : b.Checked) {s : Store α} (hs : Store.Ok s) {l : Lv .one}
    (hS : l.Sound s) (hV : l.Valid s) {xs : List α} (hx : (l.cells s).dims.1 ≠ xs.length) :
    (AStmt.list l xs).run b s = (.trap b.kind, s) := by
  obtain ⟨_, a, h1, h2⟩ := l.main b hs hS hV
  have hr : (a.rows s == len xs) = false := by
    have : a.rows s = ((l.cells s).dims.1 : Int) := (h2 s (SameSizes.refl s)).1
    rw [this]; exact beq_eq_false_iff_ne.2 (by unfold len; omega)
  simp only [AStmt.run, Op.get_bind, h1, Op.lift_ok_bind, hr, assertDebug_false hb, Op.lift_trap_bind]

/-- C20: the same for `m` by `n` views and nested lists with `m` rows of `n` values. -/
theorem C20_list2 (b : Build) {s : Store α} (hs : Store.Ok s) {l : Lv .two} (hS : l.Sound s)
    (hV : l.Valid s) {L : List (List α)} {m n : Nat} (hL : Rect L m n) (hd : (l.cells s).dims = (m, n)) :
    ∃ cs s', Places l s cs ∧ cs.length = L.flatten.length ∧ (AStmt.list2 l L).run b s = (.ok (), s') ∧
      Effect s s' (cs.zip L.flatten) := by
  obtain ⟨_, a, h1, h2⟩ := l.main b hs hS hV
  obtain ⟨cs, hp, _⟩ := l.places hs hS hV
  obtain ⟨w1, w2⟩ := writes_ok (copyList2_writes hp h2 hL hd)
  obtain ⟨v1, v2⟩ := rect_valid hL
  have h0 := h2 s (SameSizes.refl s)
  have hr : (a.rows s == (m : Int)) = true := by
    have : a.rows s = ((l.cells s).dims.1 : Int) := h0.1
    rw [this, hd]; simp
  have hc : (a.cols s == (n : Int)) = true := by
    have : a.cols s = ((l.cells s).dims.2 : Int) := h0.2.1
    rw [this, hd]; simp
  refine ⟨cs, (copyList2 a L s).2, hp, ?_, ?_, w2⟩
  · rw [Places.length hp, hd]
    rcases hL with ⟨_, rfl, _, h⟩ | ⟨rfl, rfl, h⟩
    · exact (rect_flatten h).1.symm
    · rcases h with h | ⟨h3, h4⟩
      · rw [List.eq_nil_of_length_eq_zero h]; rfl
      · rw [(rect_flatten h4).1]; simp
  · simp only [AStmt.run, Op.get_bind, h1, Op.lift_ok_bind, v1, v2, hr, hc, assertDebug_true]
    exact Prod.ext w1 rfl

example : ∃ cs s', Places (.view (.cols (.firstN 2)) (.arr2 0)) Sample.store cs ∧ cs.length = 4 ∧
    (AStmt.list2 (.view (.cols (.firstN 2)) (.arr2 0)) [[(7 : Int), 8], [9, 10]]).run
      ⟨false, true, false⟩ Sample.store = (.ok (), s') ∧ Effect Sample.store s' (cs.zip [7, 8, 9, 10]) :=
  C20_list2 (l := .view (.cols (.firstN 2)) (.arr2 0)) (L := [[(7 : Int), 8], [9, 10]]) (m := 2) (n := 2) _ Sample.store_ok
    (by decide) (by decide) (by decide) rfl

/-- C20: nested lists of any other shape, ragged ones in particular, are rejected. -/
theorem C20_list2_rejected {b : Build} (hb : b.Checked) {s : Store α} (hs : Store.Ok s) {l : Lv .two}
    (hS : l.Sound s) (hV : l.Valid s) {L : List (List α)}
    (hL : ¬ Rect L (l.cells s).dims.1 (l.cells s).dims.2) :
    (AStmt.list2 l L).run b s = (.trap b.kind, s) := by
  obtain ⟨_, a, h1, h2⟩ := l.main b hs hS hV
  have h0 := h2 s (SameSizes.refl s)
  have hr : a.rows s = ((l.cells s).dims.1 : Int) := h0.1
  have hc : a.cols s = ((l.cells s).dims.2 : Int) := h0.2.1
  simp only [AStmt.run, Op.get_bind, h1, Op.lift_ok_bind]
  cases hv : Arr2.validList L with
  | false => simp only [assertDebug_false hb, Op.lift_trap_bind]
  | true =>
    obtain ⟨m, n, hm⟩ := valid_rect hv
    rw [(rect_valid hm).2]
    simp only [assertDebug_true, Op.lift_ok_bind]
    by_cases e1 : (l.cells s).dims.1 = m
    · have : (l.cells s).dims.2 ≠ n := by
        intro e2; rw [e1, e2] at hL; exact hL hm
      have x1 : (a.rows s == (m : Int)) = true := by rw [hr, e1]; simp
      have x2 : (a.cols s == (n : Int)) = false := by
        rw [hc]; exact beq_eq_false_iff_ne.2 (by omega)
      simp only [x1, x2, assertDebug_true, Op.lift_ok_bind, assertDebug_false hb, Op.lift_trap_bind]
    · have x1 : (a.rows s == (m : Int)) = false := by
        rw [hr]; exact beq_eq_false_iff_ne.2 (by omega)
      simp only [x1, assertDebug_false hb, Op.lift_trap_bind]

example : (AStmt.list2 (.arr2 0) [[(7 : Int), 8, 9], [9, 10]]).run ⟨false, true, false⟩ Sample.store =
    (.trap .exception, Sample.store) :=
  C20_list2_rejected (l := .arr2 0) (by decide) Sample.store_ok trivial trivial (by
    show ¬ Rect _ 2 3
    decide)

/-- The common part of `C20_assign`, `C31_pointwise`: an assignment in which no overwritten element
is read later computes the elements of the expression in the state before the assignment and writes
them in order, up to the first element that fails. -/
theorem assign_writes (b : Build) {s : Store α} (hs : Store.Ok s) {d : Dim} {l : Lv d} {t : Tm α d}
    (hS : l.Sound s) (hV : l.Valid s) (tS : t.Sound s) (tV : t.Valid s)
    (hd : (l.cells s).dims = (t.meaning s).dims) {cs : List Loc} (hp : Places l s cs)
    (hc : NoClobber t s cs) : Writes cs (t.meaning s).flat s ((AStmt.assign l t).run b s) := by
  obtain ⟨_, a, h1, h2⟩ := l.main b hs hS hV
  obtain ⟨_, e, h3, h4⟩ := t.main b hs tS tV
  have rf := SameSizes.refl s
  simp only [AStmt.run, Op.get_bind, h3, h1, Op.lift_ok_bind,
    (sameSize_iff (h2 s rf) (h4 s rf)).2 hd, assertDebug_true]
  have hlen : (t.meaning s).flat.length = cs.length := by rw [flat_dims, ← hd, ← Places.length hp]
  cases d with
  | one => exact copyLin_writes hp h2 h4 hlen hc
  | two =>
    simp only [copyTo]
    split
    · exact copyLin_writes hp h2 h4 hlen hc
    · exact copyTwo_writes hp h2 h4 hd hc

/-- C20: `l = t`, for an expression `t` of the same size that does not read the array that `l` is a
view of, writes the elements of `t` to the elements of `l` in order.  If computing an element fails,
that is the outcome, and the elements before it have been written. -/
theorem C20_assign (b : Build) {s : Store α} (hs : Store.Ok s) {d : Dim} {l : Lv d} {t : Tm α d}
    (hS : l.Sound s) (hV : l.Valid s) (tS : t.Sound s) (tV : t.Valid s)
    (hd : (l.cells s).dims = (t.meaning s).dims) (ht : ¬ t.Mentions l.array) :
    ∃ cs, Places l s cs ∧ cs.length = (t.meaning s).flat.length ∧
      Writes cs (t.meaning s).flat s ((AStmt.assign l t).run b s) := by
  obtain ⟨cs, hp, ha⟩ := l.places hs hS hV
  exact ⟨cs, hp, by rw [flat_dims, ← hd, ← Places.length hp],
    assign_writes b hs hS hV tS tV hd hp (noClobber_of_not_mentions ht ha)⟩

example : ∃ cs, Places (.view (.slice .reverse) (.arr1 0)) Sample.store cs ∧
    cs.length = ((Tm.scalarR (fun u v => .ok (u * v)) Sample.y 2).meaning Sample.store).flat.length ∧
    Writes cs ((Tm.scalarR (fun u v => .ok (u * v)) Sample.y 2).meaning Sample.store).flat Sample.store
      ((AStmt.assign (.view (.slice .reverse) (.arr1 0))
        (.scalarR (fun u v => .ok (u * v)) Sample.y 2)).run ⟨false, true, false⟩ Sample.store) :=
  C20_assign (l := .view (.slice .reverse) (.arr1 0)) _ Sample.store_ok (by decide) (by decide) trivial trivial
    rfl (by decide)

/-- C20: an expression of another size is rejected and nothing is written. -/
theorem C20_assign_mismatch {b : Build} (hb : b.Checked) {s : Store α} (hs : Store.Ok s) {d : Dim}
    {l : Lv d} {t : Tm α d} (hS : l.Sound s) (hV : l.Valid s) (tS : t.Sound s) (tV : t.Valid s)
    (hd : (l.cells s).dims ≠ (t.meaning s).dims) :
    (AStmt.assign l t).run b s = (.trap b.kind, s) := by
  obtain ⟨_, a, h1, h2⟩ := l.main b hs hS hV
  obtain ⟨_, e, h3, h4⟩ := t.main b hs tS tV
  have rf := SameSizes.refl s
  have : Acc.sameSize d a e s = false := by
    rw [← Bool.not_eq_true, sameSize_iff (h2 s rf) (h4 s rf)]; exact hd
  simp only [AStmt.run, Op.get_bind, h3, h1, Op.lift_ok_bind, this, assertDebug_false hb,
    Op.lift_trap_bind]

example : (AStmt.assign (.view (.slice (.firstN 2)) (.arr1 0)) Sample.y).run ⟨false, false, false⟩
    Sample.store = (.trap .abort, Sample.store) :=
  C20_assign_mismatch (l := .view (.slice (.firstN 2)) (.arr1 0)) (by decide) Sample.store_ok (by decide) (by decide) trivial trivial (by decide)

/-! ### C20 for a slice of an array, in terms of lists -/

theorem slice_places {s : Store α} (hs : Store.Ok s) {id : Nat} {r : SliceReq} (ha : r.Args)
    (hr : r.Valid (s.a1 id).length) {cs : List Loc}
    (hp : Places (.view (.slice r) (.arr1 id)) s cs) :
    cs = (selection (s.a1 id).length r).map (fun i => Loc.one id i.toNat) ∧
      ∀ i ∈ selection (s.a1 id).length r, InRange (s.a1 id).length i := by
  have hin := selection_inRange (hs.1 id) ha hr
  refine ⟨?_, hin⟩
  have h1 : (selection (((Lv.arr1 id).cells s : List (Res Loc)).length : Nat) r).map
      (pick ((Lv.arr1 id).cells s)) = cs.map Res.ok := hp.1
  have hlen : ((Lv.arr1 id).cells s : List (Res Loc)).length = (s.a1 id).length := by
    show ((List.range (s.a1 id).length).map (fun k => Res.ok (Loc.one id k))).length = _
    simp
  rw [hlen] at h1
  refine List.map_inj_right (f := (Res.ok : Loc → Res Loc)) (fun _ _ h => Res.ok.inj h) |>.1 ?_
  rw [← h1, List.map_map]
  apply List.map_congr_left
  intro i hi
  obtain ⟨k, rfl, hk⟩ := inRange_nat (hin i hi)
  show pick ((List.range (s.a1 id).length).map (fun k => Res.ok (Loc.one id k))) (k : Int) = _
  simp only [pick, Int.natCast_nonneg, if_true, Int.toNat_natCast, Function.comp]
  exact getD_range_map (f := fun k => Res.ok (Loc.one id k)) hk

/-- C20 for a slice of a one-dimensional array: assigning the values `xs` sets the selected elements
one after the other, so the last one wins where an element is selected repeatedly; all other
elements and all other arrays are unchanged. -/
theorem C20_slice_of_array (b : Build) {s : Store α} (hs : Store.Ok s) {id : Nat} {r : SliceReq}
    (ha : r.Args) (hr : r.Valid (s.a1 id).length)
    (hl : ((selection (s.a1 id).length r).length : Int) < 2 ^ 63 - 1) {xs : List α}
    (hx : xs.length = (selection (s.a1 id).length r).length) :
    ∃ s', (AStmt.list (.view (.slice r) (.arr1 id)) xs).run b s = (.ok (), s') ∧
      s'.a1 id = ((selection (s.a1 id).length r).zip xs).foldl
        (fun l w => l.set w.1.toNat w.2) (s.a1 id) ∧
      (∀ i, i ≠ id → s'.a1 i = s.a1 i) ∧ ∀ i, s'.a2 i = s.a2 i := by
  have hc : ((Lv.arr1 id).cells s).dims.1 = (s.a1 id).length := by
    show ((List.range (s.a1 id).length).map (fun k => Res.ok (Loc.one id k))).length = _
    simp
  have hsel : (Lv.cells s (.view (.slice r) (.arr1 id)) : List (Res Loc)).length =
      (selection (s.a1 id).length r).length := by
    show List.length (List.map _ _) = _
    rw [List.length_map]
    show (selection (((Lv.arr1 id).cells s : Sem Loc .one).dims.1 : Nat) r).length = _
    rw [hc]
  have hS : (Lv.view (.slice r) (.arr1 id)).Sound s := by
    refine ⟨trivial, ha, ?_⟩
    show ((Lv.cells s (.view (.slice r) (.arr1 id)) : List (Res Loc)).length : Int) < _
    rw [hsel]; exact hl
  have hV : (Lv.view (.slice r) (.arr1 id)).Valid s := ⟨trivial, by
    show r.Valid _
    rw [hc]; exact hr⟩
  obtain ⟨cs, s', hp, _, hrun, he⟩ := C20_list b hs hS hV (xs := xs) (by
    show List.length _ = _
    rw [hsel, hx])
  obtain ⟨rfl, hin⟩ := slice_places hs ha hr hp
  refine ⟨s', hrun, ?_⟩
  have e : ((selection (s.a1 id).length r).map (fun i => Loc.one id i.toNat)).zip xs =
      (((selection (s.a1 id).length r).zip xs).map (fun w => (w.1.toNat, w.2))).map
        (fun w => (Loc.one id w.1, w.2)) := by
    rw [List.map_map, List.zip_map_left]
    rfl
  rw [e] at he
  obtain ⟨e1, e2, e3⟩ := Effect.array he (by
    intro w hw
    rw [List.mem_map] at hw
    obtain ⟨v, hv, rfl⟩ := hw
    have := hin v.1 (List.of_mem_zip hv).1
    unfold InRange at this
    simp only
    omega)
  exact ⟨by rw [e1, List.foldl_map], e2, e3⟩

example : ∃ s', (AStmt.list (.view (.slice (.vec [2, 0, 2])) (.arr1 0)) [(7 : Int), 8, 9]).run
      ⟨false, true, false⟩ Sample.store = (.ok (), s') ∧ s'.a1 0 = [8, 2, 9] ∧
      (∀ i, i ≠ 0 → s'.a1 i = Sample.store.a1 i) ∧ ∀ i, s'.a2 i = Sample.store.a2 i :=
  C20_slice_of_array (r := .vec [2, 0, 2]) (id := 0) (xs := [7, 8, 9]) _ Sample.store_ok (by decide)
    (by decide) (by decide) rfl

/-! ### C31 -/

/-- C31: assigning an element-wise expression over the assigned object itself (and anything that does
not read its array) has the effect of computing all elements in the state before the assignment, then
writing them.  No element of the assigned object may be selected twice. -/
theorem C31_pointwise (b : Build) {s : Store α} (hs : Store.Ok s) {d : Dim} {l : Lv d} {t : Tm α d}
    (hS : l.Sound s) (hV : l.Valid s) (tS : t.Sound s) (tV : t.Valid s)
    (hd : (l.cells s).dims = (t.meaning s).dims) (ht : Pointwise l t) {cs : List Loc}
    (hp : Places l s cs) (hn : cs.Nodup) :
    Writes cs (t.meaning s).flat s ((AStmt.assign l t).run b s) :=
  assign_writes b hs hS hV tS tV hd hp
    (noClobber_of_pointwise ht tV hp.1 hn (Places.array hs hS hV hp))

/-- Owning arrays never select an element twice. -/
theorem C31_arrays_select_once {s : Store α} {cs : List Loc} (id : Nat) :
    (Places (.arr1 id) s cs → cs.Nodup) ∧ (Places (.arr2 id) s cs → cs.Nodup) :=
  ⟨nodup_arr1, nodup_arr2⟩

example : ∃ cs, Places (.arr1 0) Sample.store cs ∧
    Writes cs [.ok (1 + 10), .ok (2 + 10), .ok (3 + 10)] Sample.store
      ((AStmt.assign (.arr1 0) (.binary (fun u v => .ok (u + v)) Sample.x (.const1D 3 10))).run
        ⟨false, true, false⟩ Sample.store) := by
  refine ⟨[.one 0 0, .one 0 1, .one 0 2], ⟨rfl, by decide⟩, ?_⟩
  exact C31_pointwise (l := .arr1 0)
    (t := .binary (fun u v => .ok (u + v)) Sample.x (.const1D 3 10)) _ Sample.store_ok (by decide)
    (by decide) (by decide) (by decide) rfl (.binary .same (.other (by decide))) ⟨rfl, by decide⟩
    (by decide)

theorem lastWrite_mem {ws : List (Loc × α)} {l : Loc} {x : α} (h : lastWrite ws l = some x) :
    (l, x) ∈ ws := by
  induction ws with
  | nil => simp [lastWrite] at h
  | cons w ws ih =>
    obtain ⟨k, y⟩ := w
    simp only [lastWrite] at h
    cases hl : lastWrite ws l with
    | some z => rw [hl] at h; simp at h; subst h; exact List.mem_cons_of_mem _ (ih hl)
    | none =>
      rw [hl] at h
      simp only at h
      split at h
      · rename_i hk; cases h; subst hk; simp
      · cases h

theorem lastWrite_some {ws : List (Loc × α)} {l : Loc} (h : ∃ w ∈ ws, w.1 = l) :
    ∃ x, lastWrite ws l = some x := by
  induction ws with
  | nil => obtain ⟨w, hw, _⟩ := h; simp at hw
  | cons w ws ih =>
    obtain ⟨k, y⟩ := w
    simp only [lastWrite]
    cases hl : lastWrite ws l with
    | some z => exact ⟨z, rfl⟩
    | none =>
      obtain ⟨w, hw, e⟩ := h
      rcases List.mem_cons.1 hw with rfl | hw
      · exact ⟨y, by rw [if_pos e]⟩
      · obtain ⟨x, hx⟩ := ih ⟨w, hw, e⟩
        rw [hx] at hl; cases hl

/-- What was written to distinct places is what is read there. -/
theorem Effect.get {s t : Store α} {cs : List Loc} {xs : List α} (h : Effect s t (cs.zip xs))
    (hn : cs.Nodup) (hl : cs.length = xs.length) {k : Nat} (hk : k < cs.length) :
    t.read cs[k] = .ok (xs[k]'(by omega)) := by
  have hm : (cs[k], xs[k]'(by omega)) ∈ cs.zip xs := by
    rw [List.mem_iff_getElem]
    exact ⟨k, by simp; omega, by simp⟩
  obtain ⟨x, hx⟩ := lastWrite_some ⟨_, hm, rfl⟩
  rw [h.2, hx]
  have hm' := lastWrite_mem hx
  rw [List.mem_iff_getElem] at hm'
  obtain ⟨i, hi, e⟩ := hm'
  simp only [List.getElem_zip, Prod.mk.injEq] at e
  have hik : i = k := by
    rcases Nat.lt_trichotomy i k with h1 | h1 | h1
    · exact absurd e.1 (List.pairwise_iff_getElem.1 hn i k _ hk h1)
    · exact h1
    · exact absurd e.1.symm (List.pairwise_iff_getElem.1 hn k i hk _ h1)
  subst hik
  rw [e.2]

theorem whole_sound (s : Store α) (d : Dim) (id : Nat) :
    (Lv.whole d id).Sound s ∧ (Lv.whole d id).Valid s := by
  cases d <;> exact ⟨trivial, trivial⟩

theorem whole_nodup {s : Store α} {d : Dim} {id : Nat} {cs : List Loc}
    (h : Places (Lv.whole d id) s cs) : cs.Nodup := by
  cases d
  · exact nodup_arr1 h
  · exact nodup_arr2 h

/-- C31: for element-wise expressions, `l = t` gives what the two statements `tmp = t; l = tmp` give
with a temporary array `tmp` of the right size: the same outcome, and after success the same elements
everywhere except in `tmp`. -/
theorem C31_same_as_temporary (b : Build) {s : Store α} (hs : Store.Ok s) {d : Dim} {l : Lv d}
    {t : Tm α d} (hS : l.Sound s) (hV : l.Valid s) (tS : t.Sound s) (tV : t.Valid s)
    (hd : (l.cells s).dims = (t.meaning s).dims) (ht : Pointwise l t) {cs : List Loc}
    (hp : Places l s cs) (hn : cs.Nodup) {id : Nat}
    (hsz : ((Lv.whole d id).cells s).dims = (t.meaning s).dims) (hne : (Lv.whole d id).array ≠ l.array)
    (hun : ¬ t.Mentions (Lv.whole d id).array) :
    let direct := (AStmt.assign l t).run b s
    let detour := AStmt.runAll b [.assign (Lv.whole d id) t, .assign l (.lv (Lv.whole d id))] s
    direct.1 = detour.1 ∧
    (direct.1 = .ok () → ∀ c : Loc, c.array ≠ (Lv.whole d id).array →
      direct.2.read c = detour.2.read c) := by
  intro direct detour
  obtain ⟨wS, wV⟩ := whole_sound s d id
  obtain ⟨ks, kp, ka⟩ := (Lv.whole d id).places hs wS wV
  have w1 := C31_pointwise b hs hS hV tS tV hd ht hp hn
  have w2 := assign_writes b hs wS wV tS tV hsz kp (noClobber_of_not_mentions hun ka)
  have hlc : cs.length = (t.meaning s).flat.length := by rw [flat_dims, ← hd, ← Places.length hp]
  have hlk : ks.length = (t.meaning s).flat.length := by rw [flat_dims, ← hsz, ← Places.length kp]
  have hdet : detour = match (AStmt.assign (Lv.whole d id) t).run b s with
      | (.ok _, u) => (AStmt.assign l (.lv (Lv.whole d id))).run b u
      | (.trap k, u) => (.trap k, u)
      | (.ub, u) => (.ub, u) := by
    show AStmt.runAll b _ s = _
    simp only [AStmt.runAll, Op.bind_run]
    rcases (AStmt.assign (Lv.whole d id) t).run b s with ⟨_ | _ | _, u⟩ <;> simp
    rcases (AStmt.assign l (.lv (Lv.whole d id))).run b u with ⟨_ | _ | _, v⟩ <;> rfl
  obtain ⟨ys, y1, y2⟩ := w2
  rcases hrun : (AStmt.assign (Lv.whole d id) t).run b s with ⟨r, u⟩
  rw [hrun] at hdet y1 y2
  rcases y2 with ⟨y2, y3⟩ | ⟨e, rest, y2, y3, y4⟩
  · simp only at y1 y3
    rw [y2] at w1
    obtain ⟨d1, d2⟩ := writes_ok w1
    subst y3
    simp only at hdet
    have hlen : ks.length = ys.length := by rw [hlk, y2, List.length_map]
    have hu : SameSizes s u := y1.1
    have us : Store.Ok u := ok_same hu hs
    -- what is read back from the temporary
    have hm : (Tm.meaning u (.lv (Lv.whole d id))).flat = ys.map Res.ok := by
      simp only [Tm.meaning, flat_map, (Lv.whole d id).cells_same hu, kp.1, List.map_map]
      apply List.ext_getElem
      · simp [hlen]
      · intro k h1 h2
        simp only [List.length_map] at h1
        simp only [List.getElem_map, Function.comp, Res.ok_bind]
        exact Effect.get y1 (whole_nodup kp) hlen h1
    obtain ⟨lS, lV⟩ : l.Sound u ∧ l.Valid u := ⟨Lv.sound_same hu hS, Lv.valid_same hu hV⟩
    have hp' : Places l u cs := ⟨by rw [l.cells_same hu]; exact hp.1, fun c hc => (hp.2 c hc).same hu⟩
    obtain ⟨uS, uV⟩ := whole_sound u d id
    have w3 := assign_writes b us lS lV (t := .lv (Lv.whole d id)) uS uV
      (by
        rw [l.cells_same hu, hd, ← hsz]
        simp only [Tm.meaning, map_dims, (Lv.whole d id).cells_same hu]) hp'
      (noClobber_of_not_mentions (t := (.lv (Lv.whole d id) : Tm α d)) (l := l)
        (by simpa only [Tm.Mentions] using hne) (Places.array us lS lV hp'))
    rw [hm] at w3
    obtain ⟨f1, f2⟩ := writes_ok w3
    rw [hdet]
    refine ⟨d1.trans f1.symm, fun _ c hc => ?_⟩
    show ((AStmt.assign l t).run b s).2.read c = _
    rw [d2.2 c, f2.2 c]
    cases lastWrite (cs.zip ys) c with
    | some x => rfl
    | none =>
      refine (Effect.frame y1 ?_).symm
      intro w hw e
      have := ka w.1 (List.of_mem_zip hw).1
      rw [e] at this
      exact hc this
  · simp only at y4
    rw [y2] at w1
    obtain ⟨d1, d2⟩ := writes_fail y3 w1
    have h1 : direct.1 = (e >>= fun _ => .ok ()) := d1
    refine ⟨?_, ?_⟩
    · rw [h1, hdet]
      subst y4
      cases e with
      | ok x => exact absurd rfl (y3 x)
      | trap k => rfl
      | ub => rfl
    · intro hok
      rw [h1] at hok
      cases e with
      | ok x => exact absurd rfl (y3 x)
      | trap k => cases hok
      | ub => cases hok

example :
    let direct := (AStmt.assign (.arr1 0) (.scalarR (fun u v => .ok (u * v)) Sample.x 2)).run
      ⟨false, true, false⟩ Sample.store
    let detour := AStmt.runAll ⟨false, true, false⟩
      [.assign (.arr1 1) (.scalarR (fun u v => .ok (u * v)) Sample.x 2), .assign (.arr1 0) (.lv (.arr1 1))]
      Sample.store
    direct.1 = detour.1 ∧ (direct.1 = .ok () → ∀ c : Loc, c.array ≠ (.one, 1) →
      direct.2.read c = detour.2.read c) :=
  C31_same_as_temporary (l := .arr1 0) (t := .scalarR (fun u v => .ok (u * v)) Sample.x 2) (id := 1)
    (cs := [.one 0 0, .one 0 1, .one 0 2]) _ Sample.store_ok (by decide) (by decide) (by decide)
    (by decide) rfl (.scalarR .same) ⟨rfl, by decide⟩ (by decide) rfl (by decide) (by decide)

/-- C31: `A = A(reverse)`, by contrast, does not: `[1, 2, 3]` becomes `[3, 2, 3]`. -/
theorem C31_reverse_statement_smears :
    (((AStmt.assign (.arr1 0) (.view (.slice .reverse) Sample.x)).run ⟨false, true, false⟩
      Sample.store).2.a1 0) = [3, 2, 3] := by decide

/-! ### C30 -/

/-- C30: a statement with an invalid view, an invalid expression or mismatched sizes does not succeed
and writes nothing at all. -/
theorem C30_invalid_assignment {b : Build} (hb : b.Checked) {s : Store α} (hs : Store.Ok s)
    {st : AStmt α} (hS : AStmt.Sound s st) (hV : ¬ AStmt.Valid s st) :
    (st.run b s).1 ≠ .ok () ∧ (st.run b s).2 = s := by
  have nolv : ∀ {d : Dim} {l : Lv d}, l.Sound s → ¬ l.Valid s →
      (∃ k, l.build b s = .trap k) ∨ l.build b s = .ub := by
    intro d l h1 h2
    cases h : l.build b s with
    | ok a => exact absurd (l.only hb hs h1 h) h2
    | trap k => exact .inl ⟨k, rfl⟩
    | ub => exact .inr rfl
  have notm : ∀ {d : Dim} {t : Tm α d}, t.Sound s → ¬ t.Valid s →
      (∃ k, t.build b s = .trap k) ∨ t.build b s = .ub := by
    intro d t h1 h2
    cases h : t.build b s with
    | ok a => exact absurd (t.only hb hs h1 h) h2
    | trap k => exact .inl ⟨k, rfl⟩
    | ub => exact .inr rfl
  have fin : ∀ {st : AStmt α}, (∃ k, st.run b s = (.trap k, s)) ∨ st.run b s = (.ub, s) →
      (st.run b s).1 ≠ .ok () ∧ (st.run b s).2 = s := by
    rintro st (⟨k, h⟩ | h) <;> rw [h] <;> exact ⟨by simp, rfl⟩
  have two : ∀ {d : Dim} (l : Lv d) (t : Tm α d) (st : AStmt α), l.Sound s ∧ t.Sound s →
      (∀ (f : Acc (Store α) α → Acc (Store α) Loc → Op (Store α) Unit), True) →
      (∃ f : Acc (Store α) Loc → Acc (Store α) α → Op (Store α) Unit, st.run b = (do
        let s : Store α ← Op.get
        let src ← Op.lift (t.build b s)
        let dst ← Op.lift (l.build b s)
        Op.lift (assertDebug b (Acc.sameSize d dst src s))
        f dst src)) →
      ¬ (l.Valid s ∧ t.Valid s ∧ (l.cells s).dims = (t.meaning s).dims) →
      (∃ k, st.run b s = (.trap k, s)) ∨ st.run b s = (.ub, s) := by
    intro d l t st hS _ hf hV
    obtain ⟨f, hf⟩ := hf
    rw [hf]
    simp only [Op.get_bind]
    by_cases ht : t.Valid s
    · obtain ⟨_, e, h3, h4⟩ := t.main b hs hS.2 ht
      simp only [h3, Op.lift_ok_bind]
      by_cases hl : l.Valid s
      · obtain ⟨_, a, h1, h2⟩ := l.main b hs hS.1 hl
        simp only [h1, Op.lift_ok_bind]
        have rf := SameSizes.refl s
        have : Acc.sameSize d a e s = false := by
          rw [← Bool.not_eq_true, sameSize_iff (h2 s rf) (h4 s rf)]
          exact fun h => hV ⟨hl, ht, h⟩
        simp only [this, assertDebug_false hb, Op.lift_trap_bind]
        exact .inl ⟨_, rfl⟩
      · rcases nolv hS.1 hl with ⟨k, h⟩ | h
        · simp only [h, Op.lift_trap_bind]; exact .inl ⟨_, rfl⟩
        · simp only [h, Op.lift_ub_bind]; exact .inr trivial
    · rcases notm hS.2 ht with ⟨k, h⟩ | h
      · simp only [h, Op.lift_trap_bind]; exact .inl ⟨_, rfl⟩
      · simp only [h, Op.lift_ub_bind]; exact .inr trivial
  apply fin
  cases st with
  | assign l t => exact two l t _ hS (fun _ => trivial) ⟨_, rfl⟩ hV
  | compound op l t => exact two l t _ hS (fun _ => trivial) ⟨_, rfl⟩ hV
  | fill l x =>
    simp only [AStmt.run, Op.get_bind]
    rcases nolv hS hV with ⟨k, h⟩ | h
    · simp only [h, Op.lift_trap_bind]; exact .inl ⟨_, rfl⟩
    · simp only [h, Op.lift_ub_bind]; exact .inr trivial
  | compoundX op l x =>
    simp only [AStmt.run, Op.get_bind]
    rcases nolv hS hV with ⟨k, h⟩ | h
    · simp only [h, Op.lift_trap_bind]; exact .inl ⟨_, rfl⟩
    · simp only [h, Op.lift_ub_bind]; exact .inr trivial
  | list l xs =>
    by_cases hl : l.Valid s
    · exact .inl ⟨_, C20_list_rejected hb hs hS hl (fun h => hV ⟨hl, h⟩)⟩
    · simp only [AStmt.run, Op.get_bind]
      rcases nolv hS hl with ⟨k, h⟩ | h
      · simp only [h, Op.lift_trap_bind]; exact .inl ⟨_, rfl⟩
      · simp only [h, Op.lift_ub_bind]; exact .inr trivial
  | list2 l L =>
    by_cases hl : l.Valid s
    · exact .inl ⟨_, C20_list2_rejected hb hs hS hl (fun h => hV ⟨hl, h⟩)⟩
    · simp only [AStmt.run, Op.get_bind]
      rcases nolv hS hl with ⟨k, h⟩ | h
      · simp only [h, Op.lift_trap_bind]; exact .inl ⟨_, rfl⟩
      · simp only [h, Op.lift_ub_bind]; exact .inr trivial

example : ((AStmt.fill (.view (.slice (.firstN 4)) (.arr1 0)) (9 : Int)).run ⟨false, true, false⟩
      Sample.store).1 ≠ .ok () ∧
    ((AStmt.fill (.view (.slice (.firstN 4)) (.arr1 0)) (9 : Int)).run ⟨false, true, false⟩
      Sample.store).2 = Sample.store :=
  C30_invalid_assignment (st := .fill (.view (.slice (.firstN 4)) (.arr1 0)) 9) (by decide)
    Sample.store_ok (show Lv.Sound _ _ by decide) (show ¬ Lv.Valid _ _ by decide)

/-- C30: when element number `k` of the assigned expression traps, exactly the elements before it have
been overwritten. -/
theorem C30_element_traps (b : Build) {s : Store α} (hs : Store.Ok s) {d : Dim} {l : Lv d} {t : Tm α d}
    (hS : l.Sound s) (hV : l.Valid s) (tS : t.Sound s) (tV : t.Valid s)
    (hd : (l.cells s).dims = (t.meaning s).dims) (ht : Pointwise l t) {cs : List Loc}
    (hp : Places l s cs) (hn : cs.Nodup) {xs : List α} {k : Kind} {rest : List (Res α)}
    (he : (t.meaning s).flat = xs.map Res.ok ++ .trap k :: rest) :
    ∃ s', (AStmt.assign l t).run b s = (.trap k, s') ∧ Effect s s' (cs.zip xs) := by
  have w := C31_pointwise b hs hS hV tS tV hd ht hp hn
  rw [he] at w
  obtain ⟨h1, h2⟩ := writes_fail (by simp) w
  exact ⟨_, Prod.ext h1 rfl, h2⟩

example : ∃ s', (AStmt.assign (.arr1 0)
      (.unary (fun v => if v = 3 then .trap .exception else .ok (v * 10)) Sample.x)).run
      ⟨false, true, false⟩ Sample.store = (.trap .exception, s') ∧
    Effect Sample.store s' [(.one 0 0, 10), (.one 0 1, 20)] :=
  C30_element_traps (l := .arr1 0) (xs := [10, 20]) (rest := [])
    (t := .unary (fun v => if v = 3 then .trap .exception else .ok (v * 10)) Sample.x)
    (cs := [.one 0 0, .one 0 1, .one 0 2]) _ Sample.store_ok (by decide) (by decide) (by decide)
    (by decide) rfl (.unary .same) ⟨rfl, by decide⟩ (by decide) rfl

/-! ### C50 -/

/-- C50: `l op= t` for a same-sized `t` that is element-wise in `l` (in particular one that does not
read `l`'s array, or `l` itself): every element `u` of `l` becomes `u op v` with the corresponding
element `v` of `t`, in order, up to the first that fails, and nothing else changes. -/
theorem C50_compound (b : Build) (op : α → α → Res α) {s : Store α} (hs : Store.Ok s) {d : Dim}
    {l : Lv d} {t : Tm α d} (hS : l.Sound s) (hV : l.Valid s) (tS : t.Sound s) (tV : t.Valid s)
    (hd : (l.cells s).dims = (t.meaning s).dims) (ht : Pointwise l t) {cs : List Loc}
    (hp : Places l s cs) (hn : cs.Nodup) :
    Writes cs (List.zipWith (fun p q => do let u ← p; let v ← q; op u v) (cs.map s.read)
      (t.meaning s).flat) s ((AStmt.compound op l t).run b s) := by
  obtain ⟨_, a, h1, h2⟩ := l.main b hs hS hV
  obtain ⟨_, e, h3, h4⟩ := t.main b hs tS tV
  have rf := SameSizes.refl s
  have hlen : (t.meaning s).flat.length = cs.length := by rw [flat_dims, ← hd, ← Places.length hp]
  have hcl := noClobber_of_pointwise ht tV hp.1 hn (Places.array hs hS hV hp)
  simp only [AStmt.run, Op.get_bind, h3, h1, Op.lift_ok_bind,
    (sameSize_iff (h2 s rf) (h4 s rf)).2 hd, assertDebug_true]
  refine updateAll_writes hp hn h2 (by simp [hlen]) ?_
  intro k u hk hu hr
  have hk1 : k < (t.meaning s).flat.length := by omega
  have hk2 : k < (t.meaning u).flat.length := by
    rw [flat_dims, t.meaning_dims hu, ← flat_dims]; exact hk1
  have hval : (t.meaning u).flat[k] = (t.meaning s).flat[k] := by
    have := hcl k u hk hu hr
    rw [List.getElem?_eq_getElem hk1, List.getElem?_eq_getElem hk2] at this
    exact Option.some.inj this
  simp only [List.getElem_zipWith, List.getElem_map]
  rw [hr _ (nodup_take hn hk), den_un (h4 u hu) hk2, hval]

example : Writes [.one 0 0, .one 0 1, .one 0 2] [.ok (1 + 1), .ok (2 + 2), .ok (3 + 3)] Sample.store
    ((AStmt.compound (fun u v => .ok (u + v)) (.arr1 0) Sample.x).run ⟨false, true, false⟩ Sample.store) :=
  C50_compound (l := .arr1 0) (t := Sample.x) _ _ Sample.store_ok (by decide) (by decide) (by decide)
    (by decide) rfl .same ⟨rfl, by decide⟩ (by decide)

/-- C50: `l op= x`. -/
theorem C50_compound_scalar (b : Build) (op : α → α → Res α) {s : Store α} (hs : Store.Ok s) {d : Dim}
    {l : Lv d} (hS : l.Sound s) (hV : l.Valid s) (x : α) {cs : List Loc} (hp : Places l s cs)
    (hn : cs.Nodup) :
    Writes cs (cs.map (fun c => do let u ← s.read c; op u x)) s ((AStmt.compoundX op l x).run b s) := by
  obtain ⟨_, a, h1, h2⟩ := l.main b hs hS hV
  simp only [AStmt.run, Op.get_bind, h1, Op.lift_ok_bind]
  refine updateAll_writes hp hn h2 (by simp) ?_
  intro k u hk hu hr
  simp only [List.getElem_map]
  rw [hr _ (nodup_take hn hk)]

example : Writes [.two 0 0, .two 0 4] [.ok (1 * 7), .ok (5 * 7)] Sample.store
    ((AStmt.compoundX (fun u v => .ok (u * v)) (.view .diag (.arr2 0)) 7).run ⟨false, true, false⟩
      Sample.store) :=
  C50_compound_scalar (l := .view .diag (.arr2 0)) _ _ Sample.store_ok (by decide) (by decide) 7
    ⟨rfl, by decide⟩ (by decide)

theorem hits_snoc {cs : List Loc} {ys : List α} {k : Nat} (h1 : k < cs.length) (h2 : k < ys.length)
    (c : Loc) : hits (cs.take (k + 1)) (ys.take (k + 1)) c =
      hits (cs.take k) (ys.take k) c ++ if cs[k] = c then [ys[k]] else [] := by
  unfold hits
  rw [List.take_add_one, List.take_add_one, List.getElem?_eq_getElem h1, List.getElem?_eq_getElem h2,
    List.zip_append (by rw [List.length_take, List.length_take]; omega), List.filter_append, List.map_append]
  congr 1
  by_cases h : cs[k] = c <;> simp [h]

/-- C50 (repeated positions): if `l` selects some elements several times and `t` does not read `l`'s
array, every element `u` of the array becomes `((u op v1) op v2) ...` with the elements `v1`, `v2`, ... of
`t` at the positions where `l` selects it, in order; nothing else changes. -/
theorem C50_repeated (b : Build) (f : α → α → α) {s : Store α} (hs : Store.Ok s) {d : Dim}
    {l : Lv d} {t : Tm α d} (hS : l.Sound s) (hV : l.Valid s) (tS : t.Sound s) (tV : t.Valid s)
    (hd : (l.cells s).dims = (t.meaning s).dims) (ht : ¬ t.Mentions l.array) {cs : List Loc}
    (hp : Places l s cs) {ys : List α} (hy : (t.meaning s).flat = ys.map Res.ok) :
    ∃ s', (AStmt.compound (fun u v => .ok (f u v)) l t).run b s = (.ok (), s') ∧ SameSizes s s' ∧
      ∀ c x, s.read c = .ok x → s'.read c = .ok ((hits cs ys c).foldl f x) := by
  obtain ⟨_, a, h1, h2⟩ := l.main b hs hS hV
  obtain ⟨_, e, h3, h4⟩ := t.main b hs tS tV
  have rf := SameSizes.refl s
  have hlen : ys.length = cs.length := by
    have := congrArg List.length hy
    rw [flat_dims, ← hd, ← Places.length hp, List.length_map] at this
    exact this.symm
  have hcl := Places.array hs hS hV hp
  have hsz : a.size s = .ok (cs.length : Int) := by
    rw [(linDen_of (h2 s rf)).1, hp.1, List.length_map]
  simp only [AStmt.run, Op.get_bind, h3, h1, Op.lift_ok_bind,
    (sameSize_iff (h2 s rf) (h4 s rf)).2 hd, assertDebug_true, updateAll, hsz, Int.toNat_natCast]
  obtain ⟨s', e1, e2, _, e3⟩ := Op.forN_inv (σ := Store α) (s := s)
    (body := fun i => do
      let s : Store α ← Op.get
      let l ← Op.lift (a.un s i)
      let v ← Op.lift (do let u ← s.read l; let v ← e.un s i; .ok (f u v))
      put l v)
    (fun k u => SameSizes s u ∧ (∀ c, c.array ≠ l.array → u.read c = s.read c) ∧
      ∀ c x, s.read c = .ok x → u.read c = .ok ((hits (cs.take k) (ys.take k) c).foldl f x))
    cs.length ⟨rf, fun _ _ => rfl, fun c x h => by simpa [hits] using h⟩ (by
      rintro k u hk ⟨i1, i2, i3⟩
      have hv := hp.2 _ (List.getElem_mem hk)
      obtain ⟨x, hx⟩ := read_valid hv
      have hky : k < ys.length := by omega
      have hm : (t.meaning u).flat = ys.map Res.ok := by
        rw [t.meaning_frame i1 (a := l.array) i2 ht, hy]
      have hun : e.un u k = .ok ys[k] := by
        rw [den_un (h4 u i1) (by rw [hm, List.length_map]; exact hky)]
        simp only [hm, List.getElem_map]
      obtain ⟨u', w1, w2, w3⟩ := write_ok (hv.same i1) (f ((hits (cs.take k) (ys.take k) cs[k]).foldl f x) ys[k])
      refine ⟨u', ?_, SameSizes.trans i1 w2, fun c hc => ?_, fun c y hy => ?_⟩
      · simp only [Op.get_bind, dst_un hp h2 i1 hk, Op.lift_ok_bind, i3 _ _ hx, Res.ok_bind, hun, Spp.put,
          w1, Op.set_run]
      · rw [w3, if_neg, i2 c hc]
        rintro rfl
        exact hc (hcl _ (List.getElem_mem hk))
      · rw [w3, hits_snoc hk hky]
        by_cases hc : cs[k] = c
        · subst hc
          rw [hx] at hy
          cases hy
          simp
        · rw [if_neg hc, if_neg hc, List.append_nil]
          exact i3 c y hy)
  refine ⟨s', e1, e2, fun c x hx => ?_⟩
  have := e3 c x hx
  rwa [List.take_length, ← hlen, List.take_length] at this

/-- `x({0, 0, 2}) += y` adds the first two elements of `y` to the first element of `x`. -/
example : ∃ s', (AStmt.compound (fun u v => .ok (u + v)) (.view (.slice (.vec [0, 0, 2])) (.arr1 0))
      Sample.y).run ⟨false, true, false⟩ Sample.store = (.ok (), s') ∧
      s'.read (.one 0 0) = .ok (1 + 4 + 5) ∧ s'.read (.one 0 1) = .ok 2 := by
  obtain ⟨s', h1, _, h2⟩ := C50_repeated ⟨false, true, false⟩ (fun u v => u + v) Sample.store_ok
    (l := .view (.slice (.vec [0, 0, 2])) (.arr1 0)) (t := Sample.y) (by decide) (by decide) (by decide)
    (by decide) rfl (by decide) (cs := [.one 0 0, .one 0 0, .one 0 2]) ⟨rfl, by decide⟩ (ys := [4, 5, 6]) rfl
  exact ⟨s', h1, h2 _ 1 rfl, h2 _ 2 rfl⟩

/-- C50: the operands must have the same size. -/
theorem C50_mismatch {b : Build} (hb : b.Checked) (op : α → α → Res α) {s : Store α} (hs : Store.Ok s)
    {d : Dim} {l : Lv d} {t : Tm α d} (hS : l.Sound s) (hV : l.Valid s) (tS : t.Sound s)
    (tV : t.Valid s) (hd : (l.cells s).dims ≠ (t.meaning s).dims) :
    (AStmt.compound op l t).run b s = (.trap b.kind, s) := by
  obtain ⟨_, a, h1, h2⟩ := l.main b hs hS hV
  obtain ⟨_, e, h3, h4⟩ := t.main b hs tS tV
  have rf := SameSizes.refl s
  have : Acc.sameSize d a e s = false := by
    rw [← Bool.not_eq_true, sameSize_iff (h2 s rf) (h4 s rf)]; exact hd
  simp only [AStmt.run, Op.get_bind, h3, h1, Op.lift_ok_bind, this, assertDebug_false hb,
    Op.lift_trap_bind]

/-- Programs of assignments of any length keep the size of every array, however they end. -/
theorem C20_sizes_kept (b : Build) (sts : List (AStmt α)) (s : Store α) :
    SameSizes s (AStmt.runAll b sts s).2 := by
  induction sts generalizing s with
  | nil => exact SameSizes.refl s
  | cons st sts ih =>
    simp only [AStmt.runAll, Op.bind_run]
    have := st.keeps b s
    rcases h : st.run b s with ⟨x | k | _, t⟩ <;> rw [h] at this
    · exact SameSizes.trans this (ih t)
    · exact this
    · exact this

end Spp.Props
