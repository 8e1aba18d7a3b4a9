import Verif.Lemmas.Program

/- C101: block-structured programs with local arrays and exceptions. -/

namespace Spp.Props
open Spec

variable {α : Type} [Inhabited α]

/-- Every program, of any size and nesting, in every build and for every allocator: it ends as the list program says
(normally, with an exception, or with the process aborted).  Unless it is aborted, exactly the arrays in scope exist
afterwards, they have their types and exactly the elements of the list program, storage is owned properly, and the
number of requests for memory is that of the list program. -/
theorem C101_program (b : Build) (p : Prog α) {Γ : Ctx} {h : Heap α} {st : PState α} (hr : Realises Γ h st)
    (ht : p.Typed Γ) (hm : p.Moderate b h.mem.fails st) :
    (hrun b p h).1 = (p.run b h.mem.fails st).1.res ∧
    ((p.run b h.mem.fails st).1 ≠ .abort → Realises Γ (hrun b p h).2 (p.run b h.mem.fails st).2) :=
  ⟨(hrun_agrees b p hr ht hm).res, (hrun_agrees b p hr ht hm).state⟩

/-- No program is undefined behaviour, whatever the allocator refuses. -/
theorem C101_defined (b : Build) (p : Prog α) {Γ : Ctx} {h : Heap α} {st : PState α} (hr : Realises Γ h st)
    (ht : p.Typed Γ) (hm : p.Moderate b h.mem.fails st) : (hrun b p h).1 ≠ .ub := by
  rw [(C101_program b p hr ht hm).1]
  cases (p.run b h.mem.fails st).1 <;> simp [Exit.res]

/-- The start of a program. -/
theorem C101_start (m : Allocator) (s : Nat → List α) : Realises (fun _ => none) (Heap.init m : Heap α) (0, s) :=
  ⟨(inv_init m).owned, fun _ => rfl, fun _ => rfl, rfl⟩

/-- A whole program, from its start: whether it ends normally or with an exception, no array is left, and every block
that was ever allocated has been released exactly once. -/
theorem C101_nothing_leaked (b : Build) (m : Allocator) (p : Prog α) (ht : p.Typed (fun _ => none))
    (hm : p.Moderate b m.fails (0, fun _ => [])) (he : (hrun b p (Heap.init m)).1 ≠ .trap .abort) :
    (∀ i, (hrun b p (Heap.init m)).2.objs i = none) ∧
    ∀ a, (hrun b p (Heap.init m)).2.blocks a = none ∧
      (hrun b p (Heap.init m)).2.released.count a = if a < (hrun b p (Heap.init m)).2.next then 1 else 0 := by
  obtain ⟨e1, e2⟩ := C101_program b p (C101_start m (fun _ => [])) ht hm
  have hr := e2 (fun h => he (by rw [e1, h]; rfl))
  have hd : ∀ i, (hrun b p (Heap.init m)).2.objs i = none := fun i => by simpa using hr.live i
  refine ⟨hd, fun a => ?_⟩
  have ho := hr.owned
  have hb : (hrun b p (Heap.init m)).2.blocks a = none := by
    cases hp : (hrun b p (Heap.init m)).2.blocks a with
    | none => rfl
    | some l =>
      obtain ⟨i, o, h1, _⟩ := ho.noLeak hp
      rw [hd i] at h1; simp at h1
  refine ⟨hb, ?_⟩
  by_cases hlt : a < (hrun b p (Heap.init m)).2.next
  · rw [if_pos hlt]
    have hm := (ho.accounted a hlt).1 hb
    have h1 := List.nodup_iff_count.1 ho.once a
    have h2 := List.count_pos_iff.2 hm
    omega
  · rw [if_neg hlt]
    exact List.count_eq_zero.2 (ho.fresh a (by omega)).2

theorem meaning_frame {c : Stmt α} {s s' : Nat → List α} (h : c.meaning s = some s') {k : Nat} (hk : k ∉ c.vars) :
    s' k = s k := by
  cases c <;> simp only [Stmt.vars, Stmt.target, List.mem_cons, List.not_mem_nil, or_false, not_or] at hk <;>
    simp only [Stmt.meaning] at h <;> (repeat' split at h) <;>
    cases h <;> simp [upd, hk]

/-- A program leaves alone the arrays it does not mention, however it ends. -/
theorem C101_frame (b : Build) (fails : Nat → Bool) (p : Prog α) (st : PState α) {k : Nat} (hk : ¬ p.Mentions k) :
    (p.run b fails st).2.2 k = st.2 k := by
  induction p generalizing st with
  | skip => rfl
  | throw => rfl
  | stmt c =>
    simp only [Prog.run, Stmt.step]
    cases hv : c.meaning st.2 with
    | none => rfl
    | some s' =>
      have := meaning_frame hv hk
      simp only
      split
      · split
        · rfl
        · exact this
      · exact this
  | seq p q ihp ihq =>
    simp only [Prog.Mentions, not_or] at hk
    have h1 := ihp st hk.1
    simp only [Prog.run]
    rcases e : p.run b fails st with ⟨x, st'⟩
    rw [e] at h1
    cases x with
    | normal => exact (ihq st' hk.2).trans h1
    | exception => exact h1
    | abort => exact h1
  | block i af init body ih =>
    simp only [Prog.Mentions, not_or] at hk
    have h1 : (init.step b fails i st).2.2 k = st.2 k := by
      have hmk : ∀ l, (make fails i l st).2.2 k = st.2 k := by
        intro l
        unfold make
        split
        · simp [upd, hk.1]
        · split
          · rfl
          · simp [upd, hk.1]
      cases init with
      | move j =>
        have := hk.2.1
        simp only [Init.uses, List.mem_singleton] at this
        simp [Init.step, upd, hk.1, this]
      | size n => simp only [Init.step]; split; rfl; exact hmk _
      | fill n x => simp only [Init.step]; split; rfl; exact hmk _
      | _ => exact hmk _
    simp only [Prog.run]
    rcases e : init.step b fails i st with ⟨x, st'⟩
    rw [e] at h1
    cases x with
    | normal => simp only [upd, hk.1, if_false]; exact (ih st' hk.2.2).trans h1
    | exception => exact h1
    | abort => exact h1
  | tryCatch p q ihp ihq =>
    simp only [Prog.Mentions, not_or] at hk
    have h1 := ihp st hk.1
    simp only [Prog.run]
    rcases e : p.run b fails st with ⟨x, st'⟩
    rw [e] at h1
    cases x with
    | exception => exact (ihq st' hk.2).trans h1
    | normal => exact h1
    | abort => exact h1
  | ite i cond p q ihp ihq =>
    simp only [Prog.Mentions, not_or] at hk
    simp only [Prog.run]
    split
    · exact ihp st hk.2.1
    · exact ihq st hk.2.2
  | loop i count p ih =>
    simp only [Prog.Mentions, not_or] at hk
    simp only [Prog.run]
    generalize count (st.2 i) = n
    induction n with
    | zero => rfl
    | succ n ihn =>
      simp only [repeated]
      rcases e : repeated (p.run b fails) n st with ⟨x, st'⟩
      rw [e] at ihn
      cases x with
      | normal => exact (ih st' hk.2).trans ihn
      | exception => exact ihn
      | abort => exact ihn

/-- Work on a copy, then move it back: `{ Array1D<T> At(Ai); body; Ai.resize_and_assign(std::move(At)); }`. -/
def onCopy (i t : Nat) (af : AlignmentFlag) (body : Prog α) : Prog α :=
  .block t af (.copy i) (.seq body (.stmt (.resizeAndAssignMove i t)))

/-- That gives any program the strong guarantee: if an exception leaves it, array `i` has its old elements. -/
theorem C101_strong_guarantee (b : Build) {i t : Nat} (hit : i ≠ t) (af : AlignmentFlag) (body : Prog α)
    (hb : ¬ body.Mentions i) {Γ : Ctx} {h : Heap α} {st : PState α} (hr : Realises Γ h st)
    (ht : (onCopy i t af body).Typed Γ) (hm : (onCopy i t af body).Moderate b h.mem.fails st)
    (he : (hrun b (onCopy i t af body) h).1 = .trap .exception) :
    view (hrun b (onCopy i t af body) h).2 i = view h i := by
  obtain ⟨e1, e2⟩ := C101_program b _ hr ht hm
  have hx : ((onCopy i t af body).run b h.mem.fails st).1 = .exception := by
    rw [he] at e1
    revert e1
    cases ((onCopy i t af body).run b h.mem.fails st).1 <;> simp [Exit.res]
  have hv := (e2 (by rw [hx]; simp)).views i
  rw [hv, hr.views i]
  congr 1
  funext _
  simp only [onCopy, Prog.run, Init.step] at hx ⊢
  have hmk : (make h.mem.fails t (st.2 i) st).2.2 i = st.2 i := by
    unfold make
    split
    · simp [upd, hit]
    · split
      · rfl
      · simp [upd, hit]
  rcases e : make h.mem.fails t (st.2 i) st with ⟨x, st'⟩
  rw [e] at hx hmk
  cases x with
  | exception => exact hmk
  | abort => exact hmk
  | normal =>
    simp only at hx ⊢
    have hf := C101_frame b h.mem.fails body st' hb
    rcases e' : body.run b h.mem.fails st' with ⟨y, st''⟩
    rw [e'] at hx hf
    cases y with
    | exception => simp only [upd, hit, if_false]; exact hf.trans hmk
    | abort => simp only [upd, hit, if_false]; exact hf.trans hmk
    | normal =>
      simp only [Stmt.step, Stmt.meaning, Stmt.allocates, Stmt.rebuilds, Bool.false_and, Bool.false_eq_true,
        if_false] at hx
      exact absurd hx (by simp)

/-- `{ Array1D<T> A0(2, 7); try { Array1D<T> A1(A0); A1.insert_back(1); } catch(...) { A0 = 4; }
for(auto n = A0.size(); n > 0; --n) { A0.insert_back(9); } A0.remove(99); }` -/
def exampleProg : Prog Int :=
  .block 0 .aligned (.fill 2 7)
    (.seq (.tryCatch (.block 1 .unaligned (.copy 0) (.stmt (.insertBack 1 1))) (.stmt (.fill 0 4)))
      (.seq (.loop 0 List.length (.stmt (.insertBack 0 9)))
        (.stmt (.remove 0 99 1))))

/-- Request number 2 is refused. -/
def refuse2 : Allocator := ⟨fun k => k = 2, fun p a => a * 4096 * (p + 1)⟩

/-- The hypotheses hold of it: the inner block is left by an exception, because request number 2 is refused; it is
caught; the loop makes two more requests; and the last statement is invalid, so that the program ends with an
exception.  Four blocks were allocated, and all are released. -/
example : (hrun ⟨false, true, false⟩ exampleProg (Heap.init refuse2)).1 = .trap .exception ∧
    (hrun ⟨false, true, false⟩ exampleProg (Heap.init refuse2)).2.requests = 5 ∧
    ∀ a, (hrun ⟨false, true, false⟩ exampleProg (Heap.init refuse2)).2.blocks a = none := by
  have ht : exampleProg.Typed (fun _ => none) := by
    refine ⟨rfl, trivial, ⟨⟨rfl, ?_, ⟨fun i hi => ?_, trivial⟩⟩, ⟨fun i hi => ?_, trivial⟩⟩,
      ⟨?_, fun i hi => ?_, trivial⟩, fun i hi => ?_, trivial⟩
    all_goals first
      | (cases List.mem_singleton.1 hi; decide)
      | decide
      | exact (by decide : upd (fun _ => none) 0 (some AlignmentFlag.aligned) 0 ≠ none)
  have hm : exampleProg.Moderate ⟨false, true, false⟩ refuse2.fails (0, fun _ => []) := by
    have sizes : ∀ {s : Nat → List Int}, ((s 0).length : Int) < 2 ^ 61 → ((s 1).length : Int) < 2 ^ 61 →
        (∀ n, s (n + 2) = []) → ModerateSizes s := by
      intro s h0 h1 h2 i
      match i with
      | 0 => exact h0
      | 1 => exact h1
      | n + 2 => rw [h2 n]; decide
    have next : ∀ {x : Exit × PState Int} {e : Exit} {P : PState Int → Prop}, P x.2 → ∀ st', x = (e, st') → P st' := by
      rintro _ _ _ hp st' rfl; exact hp
    refine next ?_
    refine ⟨⟨next ⟨sizes ?_ ?_ fun _ => rfl, trivial, ?_⟩, next ⟨sizes ?_ ?_ fun _ => rfl, trivial, ?_⟩⟩, next ⟨?_, next
      ⟨sizes ?_ ?_ fun _ => rfl, by simp [Stmt.Moderate, Stmt.Moderate.Mod], fun _ => ⟨by decide, by simp⟩⟩⟩⟩
    all_goals first
      | decide +kernel
      | (intro h; cases h; done)
      | skip
    intro n hn
    refine next ⟨?_, trivial, fun h => by cases h⟩
    have hn : n < 2 := hn
    match n, hn with
    | 0, _ => exact sizes (by decide +kernel) (by decide +kernel) fun _ => rfl
    | 1, _ => exact sizes (by decide +kernel) (by decide +kernel) fun _ => rfl
  obtain ⟨e1, e2⟩ := C101_program ⟨false, true, false⟩ exampleProg (C101_start refuse2 (fun _ => [])) ht hm
  have hx : (exampleProg.run ⟨false, true, false⟩ refuse2.fails (0, fun _ => [])).1 = .exception := by decide +kernel
  have e1' : (hrun ⟨false, true, false⟩ exampleProg (Heap.init refuse2)).1 = .trap .exception := by
    rw [e1]
    show Exit.res (exampleProg.run ⟨false, true, false⟩ refuse2.fails (0, fun _ => [])).1 = _
    rw [hx]; rfl
  refine ⟨e1', ?_, fun a => ((C101_nothing_leaked _ refuse2 exampleProg ht hm (by rw [e1']; simp)).2 a).1⟩
  have := (e2 (by
    show (exampleProg.run ⟨false, true, false⟩ refuse2.fails (0, fun _ => [])).1 ≠ _
    rw [hx]; simp)).requests
  rw [this]
  show (exampleProg.run ⟨false, true, false⟩ refuse2.fails (0, fun _ => [])).2.1 = 5
  decide +kernel

/-- The hypotheses of the strong guarantee hold: `A0` holds 7, 7; the copy gets 7, 7 and the insertion, request number 2,
is refused. -/
example : ∃ h : Heap Int, view h 0 = some [7, 7] ∧
    (hrun ⟨false, true, false⟩ (onCopy 0 1 .aligned (.stmt (.insertBack 1 1))) h).1 = .trap .exception ∧
    view (hrun ⟨false, true, false⟩ (onCopy 0 1 .aligned (.stmt (.insertBack 1 1))) h).2 0 = some [7, 7] := by
  have hr := (hinit_inits ⟨false, true, false⟩ (C101_start refuse2 (fun _ => [])) (i := 0) rfl (af := .aligned)
    (init := .fill 2 (7 : Int)) trivial).done (by decide +kernel)
  have hv : view (hinit ⟨false, true, false⟩ 0 .aligned (.fill 2 (7 : Int)) (Heap.init refuse2)).2 0 = some [7, 7] := by
    rw [hr.views 0]; decide +kernel
  have next : ∀ {x : Exit × PState Int} {e : Exit} {P : PState Int → Prop}, P x.2 → ∀ st', x = (e, st') → P st' := by
    rintro _ _ _ hp st' rfl; exact hp
  have sizes : ∀ {s : Nat → List Int}, ((s 0).length : Int) < 2 ^ 61 → ((s 1).length : Int) < 2 ^ 61 →
      (∀ n, s (n + 2) = []) → ModerateSizes s := by
    intro s h0 h1 h2 i
    match i with
    | 0 => exact h0
    | 1 => exact h1
    | n + 2 => rw [h2 n]; decide
  have ht : (onCopy 0 1 .aligned (.stmt (.insertBack 1 (1 : Int)))).Typed
      (upd (fun _ => none) 0 (some AlignmentFlag.aligned)) := by
    refine ⟨rfl, ?_, ⟨fun i hi => ?_, trivial⟩, fun i hi => ?_, rfl⟩
    · exact (by decide : upd (fun _ => none) 0 (some AlignmentFlag.aligned) 0 ≠ none)
    · cases List.mem_singleton.1 hi; decide
    · simp only [Stmt.vars, List.mem_cons, List.not_mem_nil, or_false] at hi
      rcases hi with rfl | rfl <;> decide
  have he : (hrun ⟨false, true, false⟩ (onCopy 0 1 .aligned (.stmt (.insertBack 1 1)))
      (hinit ⟨false, true, false⟩ 0 .aligned (.fill 2 (7 : Int)) (Heap.init refuse2)).2).1 = .trap .exception := by
    decide +kernel
  refine ⟨_, hv, he, ?_⟩
  rw [C101_strong_guarantee ⟨false, true, false⟩ (by decide) .aligned _ (by simp [Prog.Mentions, Stmt.vars, Stmt.target])
    hr ht ?_ he, hv]
  refine next ⟨⟨sizes ?_ ?_ fun _ => rfl, trivial, fun h => by cases h⟩, next ⟨sizes ?_ ?_ fun _ => rfl, trivial, fun h => by cases h⟩⟩
  all_goals decide +kernel

end Spp.Props
