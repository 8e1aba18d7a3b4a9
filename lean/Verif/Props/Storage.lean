import Verif.Props.Heap

/- C87: alignment of storage; C88: where pointers to elements stay valid. -/

set_option linter.unusedSectionVars false

namespace Spp.Props
open Spec

variable {α : Type} [Inhabited α]

theorem data_run {h : Heap α} {t : Option Obj} (hi : Inv h t) {i : Nat} {o : Obj} (ho : h.objs i = some o) :
    Heap.data i h = (.ok (o.ptr.map fun p => h.mem.address p (newAlign o.af)), h) := by
  unfold Heap.data
  rw [Op.bind_run, obj_run ho]
  simp only [Op.bind_run, Op.get, Op.pure_run]
  rcases hi.valid (x := some i) ho with ⟨e1, e2⟩ | ⟨p, l, e1, e2, e3, e4, e5⟩
  · simp [e1, e2]
  · have : o.n ≠ 0 := by
      intro h0
      exact e4 (List.length_eq_zero_iff.1 (by omega))
    simp [e1, e5, this]

/-- C87: after any history, `data()` and `blas_data()` of a live array are null exactly if the array is empty; otherwise
they are not null, and a multiple of 64 if the array was declared `Aligned`, as `alignment()` says. -/
theorem C87_aligned {b : Build} {m : Allocator} {h : Heap α} (hm : AllocatorContract m) (hr : Reach b m h) {i : Nat} {o : Obj}
    (ho : h.objs i = some o) :
    ∃ r, Heap.data i h = (.ok r, h) ∧ (r = none ↔ view h i = some []) ∧
      ∀ a, r = some a → a ≠ 0 ∧ 16 ∣ a ∧ (o.af = .aligned → 64 ∣ a) := by
  obtain ⟨hi, hmem⟩ := reach_inv hr
  refine ⟨_, data_run hi ho, ?_, ?_⟩
  · rcases hi.valid (x := some i) ho with ⟨e1, e2⟩ | ⟨p, l, e1, e2, e3, e4, e5⟩
    · simp [e1, view, ho]
    · simp [e1, view, ho, e2, e4]
  · intro a ha
    rw [hmem] at ha
    simp only [Option.map_eq_some_iff] at ha
    obtain ⟨p, _, rfl⟩ := ha
    have h64 := hm.aligned p 64 (by decide)
    refine ⟨hm.nonnull _ _ (by cases o.af <;> decide), ?_, fun haf => ?_⟩
    · cases o.af with
      | aligned => exact Nat.dvd_trans (by decide) h64
      | unaligned => exact hm.aligned p 16 (by decide)
    · rw [haf]; exact h64

/-- C87: `alignment()` is 64 for `Aligned` arrays and 0 for `Unaligned` ones. -/
theorem C87_alignment (af : AlignmentFlag) :
    (af = .aligned → alignmentOf af = 64) ∧ (af = .unaligned → alignmentOf af = 0) := by
  cases af <;> decide

/-- C87: an array has the flag it was declared with, whatever happens to it: resizing, assignment and swapping never give
an `Aligned` array storage that was allocated otherwise. -/
theorem C87_flag {b : Build} {m : Allocator} {h : Heap α} (hr : Reach b m h) {c : HCmd α} (hs : Scoped b h c) :
    (∀ k o o', h.objs k = some o → (c.exec b h).2.objs k = some o' → o'.af = o.af) ∧
    ((c.exec b h).1 = .ok () →
      (∀ i af n g, c = .construct i af n g → ∃ o, (c.exec b h).2.objs i = some o ∧ o.af = af) ∧
      (∀ i af j, c = .copyConstruct i af j → ∃ o, (c.exec b h).2.objs i = some o ∧ o.af = af) ∧
      (∀ i j oj, c = .moveConstruct i j → h.objs j = some oj → ∃ o, (c.exec b h).2.objs i = some o ∧ o.af = oj.af)) := by
  have hi := (reach_inv hr).1
  refine ⟨(step_ok b hi hs).2.2.2.1, fun hk => ⟨?_, ?_, ?_⟩⟩
  · rintro i af n g rfl
    exact ((construct_step b hi (af := af) hs.1 hs.2).2.2.1 hk).1
  · rintro i af j rfl
    exact (copyConstruct_step b hi (af := af) hs.1 hs.2).2.2.2.1 hk
  · rintro i j oj rfl hj
    have := (moveConstruct_step hi hs.1 hs.2).2.1
    exact ⟨oj, this.trans hj, rfl⟩

theorem exampleMem_contract : AllocatorContract exampleMem where
  aligned := fun p a _ => ⟨4096 * (p + 1), by simp [exampleMem, Nat.mul_assoc]⟩
  nonnull := fun p a h => by
    simp only [exampleMem, ne_eq, Nat.mul_eq_zero, not_or]
    omega

/-- A history with an aligned and an unaligned array: the addresses of their elements. -/
example : ∃ h : Heap Int, Reach ⟨false, true, false⟩ exampleMem h ∧ (Heap.data 0 h).1 = .ok (some (64 * 4096)) ∧
    (Heap.data 1 h).1 = .ok (some (16 * 4096 * 2)) ∧ (Heap.data 2 h).1 = .ok none := by
  have r0 := Reach.init (α := Int) (b := ⟨false, true, false⟩) (m := exampleMem)
  have r1 := Reach.step (c := .construct 0 .aligned 2 (fun l => .ok l)) r0
    ⟨rfl, fun l _ => ⟨by simp, fun l' h => by simp at h; rw [h]⟩⟩ rfl
  have r2 := Reach.step (c := .copyConstruct 1 .unaligned 0) r1 ⟨rfl, by decide⟩ rfl
  have r3 := Reach.step (c := .construct 2 .aligned 0 (fun l => .ok l)) r2
    ⟨rfl, fun l _ => ⟨by simp, fun l' h => by simp at h; rw [h]⟩⟩ rfl
  exact ⟨_, r3, rfl, rfl, rfl⟩

/-! ### C88 -/

/-- C88: a statement leaves the pointer to the elements of an array as it is, unless it is the construction,
destruction, resizing, insertion, removal, move or swap of that array; assignment and element-wise modification never
move elements, and neither does any statement that throws. -/
theorem C88_stable {b : Build} {m : Allocator} {h : Heap α} (hr : Reach b m h) {c : HCmd α} (hs : Scoped b h c) {k : Nat}
    (hk : ¬ Replaces c k ∨ (c.exec b h).1 ≠ .ok ()) (hl : h.objs k ≠ none) :
    (Heap.data k (c.exec b h).2).1 = (Heap.data k h).1 := by
  obtain ⟨o, ho⟩ := live_obj hl
  have hi := (reach_inv hr).1
  obtain ⟨_, hi', hm, _, hf, _⟩ := step_ok b hi hs
  have ho' : (c.exec b h).2.objs k = some o := by rw [hf k hk, ho]
  rw [data_run hi ho, data_run hi' ho', hm]

/-- The arrays, allocator and pointers of two states. -/
theorem data_of_objs {h h' : Heap α} (hi : Inv h none) (hi' : Inv h' none) (hm : h'.mem = h.mem) {i j : Nat}
    (he : h'.objs i = h.objs j) (hl : h.objs j ≠ none) : (Heap.data i h').1 = (Heap.data j h).1 := by
  obtain ⟨o, ho⟩ := live_obj hl
  rw [data_run hi ho, data_run hi' (he.trans ho), hm]

theorem data_null {h : Heap α} (hi : Inv h none) {i : Nat} (he : ∃ o, h.objs i = some o ∧ o.ptr = none) :
    (Heap.data i h).1 = .ok none := by
  obtain ⟨o, ho, hp⟩ := he
  rw [data_run hi ho, hp]
  rfl

/-- C88: moves and swaps do not copy elements: the target of a move takes over the pointer of the source, which is left
with a null pointer; `swap` exchanges the pointers. -/
theorem C88_transfer {b : Build} {m : Allocator} {h : Heap α} (hr : Reach b m h) (i j : Nat) :
    (Scoped b h (.moveConstruct i j) →
      (Heap.data i ((HCmd.moveConstruct i j).exec b h).2).1 = (Heap.data j h).1 ∧
      (Heap.data j ((HCmd.moveConstruct i j).exec b h).2).1 = .ok none) ∧
    (Scoped b h (.moveAssign i j) → ((HCmd.moveAssign i j).exec b h).1 = .ok () → i ≠ j →
      (Heap.data i ((HCmd.moveAssign i j).exec b h).2).1 = (Heap.data j h).1 ∧
      (Heap.data j ((HCmd.moveAssign i j).exec b h).2).1 = .ok none) ∧
    (Scoped b h (.resizeAndAssignMove i j) → i ≠ j →
      (Heap.data i ((HCmd.resizeAndAssignMove i j).exec b h).2).1 = (Heap.data j h).1 ∧
      (Heap.data j ((HCmd.resizeAndAssignMove i j).exec b h).2).1 = .ok none) ∧
    (Scoped b h (.swap i j) →
      (Heap.data i ((HCmd.swap i j).exec b h).2).1 = (Heap.data j h).1 ∧
      (Heap.data j ((HCmd.swap i j).exec b h).2).1 = (Heap.data i h).1) := by
  have hi := (reach_inv hr).1
  have st : ∀ {c : HCmd α}, Scoped b h c → Inv (c.exec b h).2 none ∧ (c.exec b h).2.mem = h.mem :=
    fun hs => ⟨(step_ok b hi hs).2.1, (step_ok b hi hs).2.2.1⟩
  have live : ∀ {k : Nat} {o : Obj}, h.objs k = some o → h.objs k ≠ none := by
    intro k o ho hn; rw [ho] at hn; cases hn
  refine ⟨fun hs => ?_, fun hs hk hij => ?_, fun hs hij => ?_, fun hs => ?_⟩
  · obtain ⟨_, e1, e2, _⟩ := moveConstruct_step hi hs.1 hs.2
    exact ⟨data_of_objs hi (st hs).1 (st hs).2 e1 hs.2, data_null (st hs).1 e2⟩
  · obtain ⟨e1, e2⟩ := (moveAssign_step b hi hs).2.2.1 hk hij
    obtain ⟨_, oj, _, hoj, _⟩ := id hs
    exact ⟨data_of_objs hi (st hs).1 (st hs).2 e1 (live hoj), data_null (st hs).1 e2⟩
  · obtain ⟨_, e1, e2, _⟩ := resizeAndAssignMove_step hi hs
    obtain ⟨_, oj, _, hoj, _⟩ := id hs
    exact ⟨data_of_objs hi (st hs).1 (st hs).2 (e1 hij) (live hoj), data_null (st hs).1 e2⟩
  · obtain ⟨oi, oj, hoi, hoj, haf⟩ := id hs
    obtain ⟨h', e1, _, _, e4, e5, _⟩ := swap_run hi hoi hoj haf
    have e : (HCmd.swap i j).exec b h = (.ok (), h') := e1
    have s := st hs
    rw [e] at s ⊢
    exact ⟨data_of_objs hi s.1 s.2 (e4.trans hoj.symm) (live hoj), data_of_objs hi s.1 s.2 (e5.trans hoi.symm) (live hoi)⟩

/-- C88: `resize` to the size the array has keeps the elements where they are. -/
theorem C88_resize_same {b : Build} {m : Allocator} {h : Heap α} (hr : Reach b m h) {i : Nat} {l : List α}
    (hv : view h i = some l) (p : Bool) :
    (Heap.data i ((HCmd.resize i l.length p).exec b h).2).1 = (Heap.data i h).1 := by
  have hi := (reach_inv hr).1
  have hl : h.objs i ≠ none := by intro hn; simp [view, hn] at hv
  have hs : Scoped b h (.resize i l.length p) := hl
  obtain ⟨_, hi', hm, _⟩ := step_ok b hi hs
  obtain ⟨old, v1, st, _⟩ := resize_step b hi (i := i) (n := l.length) (p := p) hl
  rw [hv] at v1; cases v1
  exact data_of_objs hi hi' hm (st.frame i (.inl (fun h => h.2 rfl))) hl

/-- C88: different arrays that are not empty never share their elements. -/
theorem C88_distinct {b : Build} {m : Allocator} {h : Heap α} (hr : Reach b m h) (hd : DistinctBlocks h) {i j : Nat}
    (hij : i ≠ j) {a a' : Nat} (hi : (Heap.data i h).1 = .ok (some a)) (hj : (Heap.data j h).1 = .ok (some a')) : a ≠ a' := by
  have hinv := (reach_inv hr).1
  have get : ∀ {i a}, (Heap.data i h).1 = .ok (some a) → ∃ o p, h.objs i = some o ∧ o.ptr = some p ∧
      h.blocks p ≠ none ∧ a = h.mem.address p (newAlign (h.flag p)) := by
    intro i a hi
    cases ho : h.objs i with
    | none =>
      unfold Heap.data at hi
      rw [Op.bind_run] at hi
      simp [Heap.obj, ho] at hi
    | some o =>
      rw [data_run hinv ho] at hi
      simp only [Res.ok.injEq, Option.map_eq_some_iff] at hi
      obtain ⟨p, h1, h2⟩ := hi
      rcases hinv.valid (x := some i) ho with ⟨e1, _⟩ | ⟨q, l, e1, e2, _, _, e5⟩
      · rw [e1] at h1; cases h1
      · rw [e1] at h1; cases h1
        exact ⟨o, p, rfl, e1, by rw [e2]; simp, by rw [e5]; exact h2.symm⟩
  obtain ⟨oi, p, h1, h2, h3, rfl⟩ := get hi
  obtain ⟨oj, q, h4, h5, h6, rfl⟩ := get hj
  refine hd p q ?_ h3 h6
  rintro rfl
  exact hij (Option.some.inj (hinv.excl (x := some i) (y := some j) h1 h4 h2 h5))

theorem distinct_aligned {b : Build} {m : Allocator} {h : Heap α} (hr : Reach b m h) (hm : m.address = exampleMem.address)
    (ha : ∀ i o, h.objs i = some o → o.af = .aligned) : DistinctBlocks h := by
  have hf : ∀ p, h.blocks p ≠ none → h.flag p = .aligned := by
    intro p hp
    cases hb : h.blocks p with
    | none => exact absurd hb hp
    | some l =>
      obtain ⟨i, o, h1, h2⟩ := (C22_ownership hr).noLeak hb
      rw [(C22_ownership hr).matched h1 h2, ha i o h1]
  intro p q hpq hp hq
  rw [hf p hp, hf q hq, (reach_inv hr).2, hm]
  simp only [exampleMem, newAlign, alignmentOf]
  omega

/-- A history in which storage is swapped, kept by a modification and replaced by `resize`. -/
example : ∃ h : Heap Int, Reach ⟨false, true, false⟩ ⟨fun _ => false, exampleMem.address⟩ h ∧
    (Heap.data 0 h).1 = .ok (some (64 * 4096 * 2)) ∧ (Heap.data 1 h).1 = .ok (some (64 * 4096 * 3)) := by
  have r0 := Reach.init (α := Int) (b := ⟨false, true, false⟩) (m := ⟨fun _ => false, exampleMem.address⟩)
  have r1 := Reach.step (c := .construct 0 .aligned 2 (fun l => .ok l)) r0
    ⟨rfl, fun l _ => ⟨by simp, fun l' h => by simp at h; rw [h]⟩⟩ rfl
  have r2 := Reach.step (c := .copyConstruct 1 .aligned 0) r1 ⟨rfl, by decide⟩ rfl
  have r3 := Reach.step (c := .swap 0 1) r2 ⟨_, _, rfl, rfl, rfl⟩ rfl
  have r4 := Reach.step (c := .modify 0 (fun l => (.ok (), l.map (· + 1)))) r3
    ⟨by decide, fun l => ⟨by simp, by simp⟩⟩ rfl
  have r5 := Reach.step (c := .resize 1 3 true) r4 (by show _ ≠ _; decide) rfl
  exact ⟨_, r5, rfl, rfl⟩

/-- Two arrays that share no elements. -/
example : ∃ h : Heap Int, Reach ⟨false, true, false⟩ exampleMem h ∧ DistinctBlocks h ∧
    (Heap.data 0 h).1 = .ok (some (64 * 4096)) ∧ (Heap.data 1 h).1 = .ok (some (64 * 4096 * 2)) := by
  have r0 := Reach.init (α := Int) (b := ⟨false, true, false⟩) (m := exampleMem)
  have r1 := Reach.step (c := .construct 0 .aligned 2 (fun l => .ok l)) r0
    ⟨rfl, fun l _ => ⟨by simp, fun l' h => by simp at h; rw [h]⟩⟩ rfl
  have r2 := Reach.step (c := .copyConstruct 1 .aligned 0) r1 ⟨rfl, by decide⟩ rfl
  refine ⟨_, r2, distinct_aligned r2 rfl fun i o ho => ?_, rfl, rfl⟩
  by_cases h1 : i = 1
  · subst h1; simp at ho; rw [← ho]
  · by_cases h0 : i = 0
    · subst h0; simp at ho; rw [← ho]
    · simp [h1, h0, Heap.init] at ho

end Spp.Props
