import Verif.Lemmas.HeapSteps

/- C22: ownership of storage through every history of operations. -/

set_option linter.unusedSectionVars false

namespace Spp.Props
open Spec

variable {α : Type} [Inhabited α]

/-- Every well-scoped statement: no undefined behaviour, invariant, effect of a failure, storage of other arrays. -/
theorem step_ok (b : Build) {h : Heap α} (hi : Inv h none) {c : HCmd α} (hs : Scoped b h c) :
    (c.exec b h).1 ≠ .ub ∧ Inv (c.exec b h).2 none ∧ (c.exec b h).2.mem = h.mem ∧
    (∀ k o o', h.objs k = some o → (c.exec b h).2.objs k = some o' → o'.af = o.af) ∧
    (∀ k, ¬ Replaces c k ∨ (c.exec b h).1 ≠ .ok () → (c.exec b h).2.objs k = h.objs k) ∧
    ((∀ i g, c ≠ .modify i g) → (c.exec b h).1 ≠ .ok () → ∀ k, view (c.exec b h).2 k = view h k) := by
  cases c with
  | construct i af n g =>
    obtain ⟨st, st2, _⟩ := construct_step b hi (af := af) hs.1 hs.2
    exact ⟨st.noUb, st.inv, st.mem, st.types, st.frame, fun _ => st2⟩
  | copyConstruct i af j =>
    obtain ⟨st, st2, _⟩ := copyConstruct_step b hi (af := af) hs.1 hs.2
    exact ⟨st.noUb, st.inv, st.mem, st.types, st.frame, fun _ => st2⟩
  | moveConstruct i j =>
    obtain ⟨st0, _, _, st⟩ := moveConstruct_step hi hs.1 hs.2
    exact ⟨st.noUb, st.inv, st.mem, st.types, st.frame, fun _ h => absurd st0 h⟩
  | destroy i =>
    obtain ⟨st0, st⟩ := destroy_step hi hs
    exact ⟨st.noUb, st.inv, st.mem, st.types, st.frame, fun _ h => absurd st0 h⟩
  | modify i g =>
    obtain ⟨l, h', e1, e2, e3, e4, e5, e6⟩ := modify_step hi hs.1 (fun l _ => (hs.2 l).2)
    have e : (HCmd.modify i g).exec b h = ((g l).1, h') := e2
    rw [e]
    exact ⟨(hs.2 l).1, e3, e6, types_eq e5, fun k _ => by rw [e5], fun h => absurd rfl (h i g)⟩
  | copyAssign i j =>
    obtain ⟨st, st2⟩ := copyAssign_step b hi hs.1 hs.2.1 hs.2.2
    exact ⟨st.noUb, st.inv, st.mem, st.types, st.frame, fun _ => st2⟩
  | moveAssign i j =>
    obtain ⟨st, st2, _⟩ := moveAssign_step b hi hs
    exact ⟨st.noUb, st.inv, st.mem, st.types, fun k hk => st.frame k (hk.imp (fun h e => h e.2) id), fun _ => st2⟩
  | swap i j =>
    obtain ⟨oi, oj, hoi, hoj, haf⟩ := hs
    obtain ⟨h', e1, e2, e3, e4, e5, e6, e7, e8⟩ := swap_run hi hoi hoj haf
    have e : (HCmd.swap i j).exec b h = (.ok (), h') := e1
    rw [e]
    refine ⟨by simp, e2, e6, e7, fun k hk => ?_, by simp⟩
    have hk := hk.resolve_right (fun h => h rfl)
    simp only [Replaces, not_or] at hk
    exact e8 k hk.1 hk.2
  | resize i n p =>
    obtain ⟨old, _, st, st2, _⟩ := resize_step b hi (i := i) (n := n) (p := p) hs
    exact ⟨st.noUb, st.inv, st.mem, st.types, fun k hk => st.frame k (hk.imp (fun h e => h e.1) id), fun _ => st2⟩
  | rebuild i n g =>
    obtain ⟨old, _, st, st2, _⟩ := rebuild_step b hi (i := i) (n := n) (g := g) hs.1 hs.2
    exact ⟨st.noUb, st.inv, st.mem, st.types, st.frame, fun _ => st2⟩
  | resizeAndAssignMove i j =>
    obtain ⟨st0, _, _, st⟩ := resizeAndAssignMove_step hi hs
    exact ⟨st.noUb, st.inv, st.mem, st.types, st.frame, fun _ h => absurd st0 h⟩

theorem reach_inv {b : Build} {m : Allocator} {h : Heap α} (hr : Reach b m h) : Inv h none ∧ h.mem = m := by
  induction hr with
  | init => exact ⟨inv_init m, rfl⟩
  | step _ hs he ih =>
    have := step_ok b ih.1 hs
    rw [he] at this
    exact ⟨this.2.1, this.2.2.1.trans ih.2⟩

/-- C22: in every state reachable by any history (including statements that threw because of a failed check, a failing
element computation or lack of memory), every live block has exactly one owner, no array refers to a released block,
nothing is leaked and no block has been released twice. -/
theorem C22_ownership {b : Build} {m : Allocator} {h : Heap α} (hr : Reach b m h) : Owned h := (reach_inv hr).1.owned

/-- C22: no statement of any history releases a block twice or by the wrong form of `delete[]`, uses a released block or
accesses memory outside a block. -/
theorem C22_no_undefined_behaviour {b : Build} {m : Allocator} {h : Heap α} (hr : Reach b m h) {c : HCmd α}
    (hs : Scoped b h c) : (c.exec b h).1 ≠ .ub := (step_ok b (reach_inv hr).1 hs).1

/-- C22: once all arrays are destroyed, every block that was ever allocated has been released
exactly once. -/
theorem C22_everything_released {b : Build} {m : Allocator} {h : Heap α} (hr : Reach b m h)
    (hd : ∀ i, h.objs i = none) (p : Nat) :
    h.blocks p = none ∧ h.released.count p = if p < h.next then 1 else 0 := by
  have ho := C22_ownership hr
  have hb : h.blocks p = none := by
    cases hp : h.blocks p with
    | none => rfl
    | some l =>
      obtain ⟨i, o, h1, _⟩ := ho.noLeak hp
      rw [hd i] at h1; simp at h1
  refine ⟨hb, ?_⟩
  by_cases hlt : p < h.next
  · rw [if_pos hlt]
    have hm := (ho.accounted p hlt).1 hb
    have h1 := List.nodup_iff_count.1 ho.once p
    have h2 := List.count_pos_iff.2 hm
    omega
  · rw [if_neg hlt]
    exact List.count_eq_zero.2 (ho.fresh p (by omega)).2

/-- C22, contents: what each statement that succeeds does to the visible contents of all arrays (`none` = the
array does not exist).  In particular no statement changes an array it does not name. -/
theorem C22_contents {b : Build} {m : Allocator} {h : Heap α} (hr : Reach b m h) (i j : Nat) :
    (h.objs i = none → h.objs j ≠ none →
      (∀ af, ((HCmd.copyConstruct i af j).exec b h).1 = .ok () →
        ∀ k, view ((HCmd.copyConstruct i af j).exec b h).2 k = if k = i then view h j else view h k) ∧
      (∀ k, view ((HCmd.moveConstruct i j).exec b h).2 k =
        if k = i then view h j else if k = j then some [] else view h k)) ∧
    (h.objs i ≠ none →
      (∀ k, view ((HCmd.destroy i).exec b h).2 k = if k = i then none else view h k)) ∧
    (h.objs i ≠ none → h.objs j ≠ none →
      (((HCmd.copyAssign i j).exec b h).1 = .ok () → Scoped b h (.copyAssign i j) →
        ∀ k, view ((HCmd.copyAssign i j).exec b h).2 k = if k = i then view h j else view h k)) ∧
    (SameType h i j →
      (∀ k, view ((HCmd.swap i j).exec b h).2 k =
        if k = j then view h i else if k = i then view h j else view h k) ∧
      (((HCmd.moveAssign i j).exec b h).1 = .ok () →
        ∀ k, view ((HCmd.moveAssign i j).exec b h).2 k =
          if i = j then view h k else if k = j then some [] else if k = i then view h j
          else view h k) ∧
      (∀ k, view ((HCmd.resizeAndAssignMove i j).exec b h).2 k =
        if k = j then some [] else if k = i then view h j else view h k)) := by
  have hi := (reach_inv hr).1
  refine ⟨fun hd hl => ⟨fun af hk => ?_, ?_⟩, fun hl => ?_, fun hli hlj => ?_, fun hs => ⟨?_, ?_, ?_⟩⟩
  · exact (copyConstruct_step b hi hd hl).1.views hk
  · have := moveConstruct_step hi hd hl
    exact this.2.2.2.views this.1
  · have := destroy_step hi hl
    exact this.2.views this.1
  · intro hk hs
    exact (copyAssign_step b hi hli hlj hs.2.2).1.views hk
  · obtain ⟨oi, oj, hoi, hoj, haf⟩ := hs
    obtain ⟨h', e1, e2, e3, _⟩ := swap_run hi hoi hoj haf
    show ∀ k, view (Heap.swap i j h).2 k = _
    rw [e1]; exact e3
  · intro hk
    exact (moveAssign_step b hi hs).1.views hk
  · have := resizeAndAssignMove_step hi hs
    exact this.2.2.2.views this.1

/-- C22, contents of construction, in-place modification and the rebuilding members when they succeed: only the named
array changes, and it holds what was computed. -/
theorem C22_contents_modify {b : Build} {m : Allocator} {h : Heap α} (hr : Reach b m h) (i : Nat) :
    (∀ af n g, Scoped b h (.construct i af n g) → ((HCmd.construct i af n g).exec b h).1 = .ok () →
      ∃ l, g (List.replicate n.toNat default) = .ok l ∧
        ∀ k, view ((HCmd.construct i af n g).exec b h).2 k = if k = i then some l else view h k) ∧
    (∀ g, Scoped b h (.modify i g) → ∃ l, view h i = some l ∧ ((HCmd.modify i g).exec b h).1 = (g l).1 ∧
      ∀ k, view ((HCmd.modify i g).exec b h).2 k = if k = i then some (g l).2 else view h k) ∧
    (∀ n g, Scoped b h (.rebuild i n g) → ((HCmd.rebuild i n g).exec b h).1 = .ok () →
      ∃ old l, view h i = some old ∧ g old (List.replicate n.toNat default) = .ok l ∧
        ∀ k, view ((HCmd.rebuild i n g).exec b h).2 k = if k = i then some l else view h k) ∧
    (∀ n p, Scoped b h (.resize i n p) → ((HCmd.resize i n p).exec b h).1 = .ok () →
      ∃ old, view h i = some old ∧
        ∀ k, view ((HCmd.resize i n p).exec b h).2 k = if k = i then
          some (if n = old.length then old else
            if p then old.take n.toNat ++ List.replicate (n.toNat - old.length) default
            else List.replicate n.toNat default) else view h k) := by
  have hi := (reach_inv hr).1
  refine ⟨fun af n g hs hk => ?_, fun g hs => ?_, fun n g hs hk => ?_, fun n p hs hk => ?_⟩
  · obtain ⟨st, _, st3, _⟩ := construct_step b hi (af := af) hs.1 hs.2
    obtain ⟨_, _, _, l, hl⟩ := st3 hk
    refine ⟨l, hl, fun k => ?_⟩
    have := st.views hk k
    rw [hl] at this
    exact this
  · obtain ⟨l, h', e1, e2, e3, e4, _⟩ := modify_step hi hs.1 (fun l _ => (hs.2 l).2)
    have e : (HCmd.modify i g).exec b h = ((g l).1, h') := e2
    rw [e]
    exact ⟨l, e1, rfl, e4⟩
  · obtain ⟨old, v1, st, _, st3, _⟩ := rebuild_step b hi hs.1 hs.2
    obtain ⟨_, _, l, hl⟩ := st3 hk
    refine ⟨old, l, v1, hl, fun k => ?_⟩
    have := st.views hk k
    rw [hl] at this
    exact this
  · obtain ⟨old, v1, st, _⟩ := resize_step b hi (i := i) (n := n) (p := p) hs
    exact ⟨old, v1, st.views hk⟩

/-- C22: a statement that throws leaves the contents of every array as they were, whatever made it throw (in-place
modification of elements is the exception: it may have changed some elements of its target already). -/
theorem C22_failed_statement {b : Build} {m : Allocator} {h : Heap α} (hr : Reach b m h) {c : HCmd α} (hs : Scoped b h c)
    (hc : ∀ i g, c ≠ .modify i g) (hf : (c.exec b h).1 ≠ .ok ()) (k : Nat) : view (c.exec b h).2 k = view h k :=
  (step_ok b (reach_inv hr).1 hs).2.2.2.2.2 hc hf k

/-- C22: which statements can fail, and when.  Move construction, destruction, `swap` and moving `resize_and_assign`
always succeed; construction and resizing fail for a negative size or if memory is needed and refused, and otherwise
only if the computation of the elements fails. -/
theorem C22_failures {b : Build} {m : Allocator} {h : Heap α} (hr : Reach b m h) (i j : Nat) :
    (∀ af n g, Scoped b h (.construct i af n g) → (((HCmd.construct i af n g).exec b h).1 = .ok () ↔
      0 ≤ n ∧ (n = 0 ∨ ¬ OutOfMemory h) ∧ ∃ l, g (List.replicate n.toNat default) = .ok l)) ∧
    (∀ af, Scoped b h (.copyConstruct i af j) → (((HCmd.copyConstruct i af j).exec b h).1 = .ok () ↔
      view h j = some [] ∨ ¬ OutOfMemory h)) ∧
    (Scoped b h (.moveConstruct i j) → ((HCmd.moveConstruct i j).exec b h).1 = .ok ()) ∧
    (Scoped b h (.destroy i) → ((HCmd.destroy i).exec b h).1 = .ok ()) ∧
    (Scoped b h (.swap i j) → ((HCmd.swap i j).exec b h).1 = .ok ()) ∧
    (Scoped b h (.resizeAndAssignMove i j) → ((HCmd.resizeAndAssignMove i j).exec b h).1 = .ok ()) ∧
    (Scoped b h (.moveAssign i j) → ((HCmd.moveAssign i j).exec b h).1 = .ok () ∨
      ((HCmd.moveAssign i j).exec b h).1 = .trap .abort ∧
        (view h i).map List.length ≠ (view h j).map List.length) ∧
    (∀ n g, Scoped b h (.rebuild i n g) → ∃ old, view h i = some old ∧ (((HCmd.rebuild i n g).exec b h).1 = .ok () ↔
      0 ≤ n ∧ (n = 0 ∨ ¬ OutOfMemory h) ∧ ∃ l, g old (List.replicate n.toNat default) = .ok l)) ∧
    (∀ n p, Scoped b h (.resize i n p) → ∃ old, view h i = some old ∧ (((HCmd.resize i n p).exec b h).1 = .ok () ↔
      n = old.length ∨ 0 ≤ n ∧ (n = 0 ∨ ¬ OutOfMemory h))) := by
  have hi := (reach_inv hr).1
  refine ⟨fun af n g hs => ?_, fun af hs => ?_, fun hs => ?_, fun hs => ?_, fun hs => ?_, fun hs => ?_, fun hs => ?_,
    fun n g hs => ?_, fun n p hs => ?_⟩
  · obtain ⟨_, _, st3, st4⟩ := construct_step b hi (af := af) hs.1 hs.2
    refine ⟨fun hk => (st3 hk).2, fun ⟨h1, h2, l, h3⟩ => Classical.byContradiction fun hne => ?_⟩
    rcases st4 hne with h4 | ⟨h4, h5, _⟩ | ⟨k, h4, _⟩
    · omega
    · exact h2.elim h4 (fun h => h h5)
    · rw [h3] at h4; cases h4
  · exact (copyConstruct_step b hi hs.1 hs.2).2.2.1
  · exact (moveConstruct_step hi hs.1 hs.2).1
  · exact (destroy_step hi hs).1
  · obtain ⟨oi, oj, hoi, hoj, haf⟩ := hs
    obtain ⟨h', e1, _⟩ := swap_run hi hoi hoj haf
    show (Heap.swap i j h).1 = _
    rw [e1]
  · exact (resizeAndAssignMove_step hi hs).1
  · by_cases hk : ((HCmd.moveAssign i j).exec b h).1 = .ok ()
    · exact .inl hk
    · exact .inr ((moveAssign_step b hi hs).2.2.2 hk)
  · obtain ⟨old, v1, _, _, st3, st4⟩ := rebuild_step b hi hs.1 hs.2
    refine ⟨old, v1, st3, fun ⟨h1, h2, l, h3⟩ => Classical.byContradiction fun hne => ?_⟩
    rcases st4 hne with h4 | ⟨h4, h5, _⟩ | ⟨k, h4, _⟩
    · omega
    · exact h2.elim h4 (fun h => h h5)
    · rw [h3] at h4; cases h4
  · obtain ⟨old, v1, _, _, st⟩ := resize_step b hi (i := i) (n := n) (p := p) hs
    exact ⟨old, v1, st⟩

/-- Memory: addresses are multiples of the alignment; the third request is refused. -/
def exampleMem : Allocator := ⟨(· == 2), fun p a => a * 4096 * (p + 1)⟩

/-- A concrete history: construct two arrays, fail to construct a third, move-assign, resize, destroy both. -/
example : ∃ h : Heap Int, Reach ⟨false, true, false⟩ exampleMem h ∧ (∀ i, h.objs i = none) ∧ h.next = 3 ∧
    h.requests = 4 := by
  have r0 := Reach.init (α := Int) (b := ⟨false, true, false⟩) (m := exampleMem)
  have r1 := Reach.step (c := .construct 0 .aligned 2 (fun l => .ok l)) r0
    ⟨rfl, fun l _ => ⟨by simp, fun l' h => by simp at h; rw [h]⟩⟩ rfl
  have r2 := Reach.step (c := .copyConstruct 1 .aligned 0) r1 ⟨rfl, by decide⟩ rfl
  have r2' := Reach.step (c := .copyConstruct 2 .unaligned 0) r2 ⟨rfl, by decide⟩ rfl
  have r3 := Reach.step (c := .moveAssign 0 1) r2' ⟨_, _, rfl, rfl, rfl⟩ rfl
  have r4 := Reach.step (c := .resize 1 4 true) r3 (by show _ ≠ _; decide) rfl
  have r5 := Reach.step (c := .destroy 0) r4 (by show _ ≠ _; decide) rfl
  have r6 := Reach.step (c := .destroy 1) r5 (by show _ ≠ _; decide) rfl
  refine ⟨_, r6, ?_, rfl, rfl⟩
  intro i
  match i with
  | 0 => rfl
  | 1 => rfl
  | _ + 2 => rfl

/-- The third construction of that history fails. -/
example : ((([.construct 0 .aligned 2 (fun l => .ok l), .copyConstruct 1 .aligned 0, .copyConstruct 2 .unaligned 0] :
    List (HCmd Int)).map (HCmd.exec ⟨false, true, false⟩)).foldl (fun (s : Res Unit × Heap Int) f => f s.2)
      (.ok (), Heap.init exampleMem)).1 = .trap .exception := rfl

end Spp.Props
