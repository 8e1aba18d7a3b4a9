import Verif.Lemmas.Mixed
import Verif.Props.Program

/- C128: programs with arrays of one and two dimensions. -/

namespace Spp.Props
open Spec

variable {α : Type} [Inhabited α]

/-- Every program with arrays of one and two dimensions, of any size and nesting, in every build and for every
allocator: it ends as the program on lists and matrices says (normally, with an exception, or with the process aborted).
Unless it is aborted, exactly the arrays in scope exist afterwards, they have their types, their dimensions and exactly
their elements, storage is owned properly, and the number of requests for memory is that of the specification. -/
theorem C128_program (b : Build) (p : MProg α) {Γ : MCtx} {h : MHeap α} {st : MState α} (hr : MRealises Γ h st)
    (ht : p.Typed Γ) (hm : p.Moderate b h.heap.mem.fails st) :
    (mrun b p h).1 = (p.run b h.heap.mem.fails st).1.res ∧
    ((p.run b h.heap.mem.fails st).1 ≠ .abort → MRealises Γ (mrun b p h).2 (p.run b h.heap.mem.fails st).2) :=
  ⟨(mrun_agrees b p hr ht hm).res, (mrun_agrees b p hr ht hm).state⟩

/-- No program is undefined behaviour, whatever the allocator refuses. -/
theorem C128_defined (b : Build) (p : MProg α) {Γ : MCtx} {h : MHeap α} {st : MState α} (hr : MRealises Γ h st)
    (ht : p.Typed Γ) (hm : p.Moderate b h.heap.mem.fails st) : (mrun b p h).1 ≠ .ub := by
  rw [(C128_program b p hr ht hm).1]
  cases (p.run b h.heap.mem.fails st).1 <;> simp [Exit.res]

/-- The start of a program. -/
theorem C128_start (m : Allocator) :
    MRealises (fun _ => none) (MHeap.init m : MHeap α) (0, fun _ => .vec []) :=
  ⟨(inv_init m).owned, fun _ => rfl, fun _ => rfl, fun _ _ => ⟨rfl, rfl⟩, fun _ h => by simp [MCtx.Is] at h,
    fun _ h => by simp [MCtx.Is] at h, rfl⟩

/-- A whole program, from its start: whether it ends normally or with an exception, no array is left, and every block
that was ever allocated has been released exactly once. -/
theorem C128_nothing_leaked (b : Build) (m : Allocator) (p : MProg α) (ht : p.Typed (fun _ => none))
    (hm : p.Moderate b m.fails (0, fun _ => .vec [])) (he : (mrun b p (MHeap.init m)).1 ≠ .trap .abort) :
    (∀ i, (mrun b p (MHeap.init m)).2.heap.objs i = none) ∧
    ∀ a, (mrun b p (MHeap.init m)).2.heap.blocks a = none ∧
      (mrun b p (MHeap.init m)).2.heap.released.count a =
        if a < (mrun b p (MHeap.init m)).2.heap.next then 1 else 0 := by
  obtain ⟨e1, e2⟩ := C128_program b p (C128_start m) ht hm
  have hr := e2 (fun h => he (by rw [e1, h]; rfl))
  have hd : ∀ i, (mrun b p (MHeap.init m)).2.heap.objs i = none := fun i => by simpa using hr.live i
  refine ⟨hd, fun a => ?_⟩
  have ho := hr.owned
  have hb : (mrun b p (MHeap.init m)).2.heap.blocks a = none := by
    cases hp : (mrun b p (MHeap.init m)).2.heap.blocks a with
    | none => rfl
    | some l =>
      obtain ⟨i, o, h1, _⟩ := ho.noLeak hp
      rw [hd i] at h1; simp at h1
  refine ⟨hb, ?_⟩
  by_cases hlt : a < (mrun b p (MHeap.init m)).2.heap.next
  · rw [if_pos hlt]
    have hm := (ho.accounted a hlt).1 hb
    have h1 := List.nodup_iff_count.1 ho.once a
    have h2 := List.count_pos_iff.2 hm
    omega
  · rw [if_neg hlt]
    exact List.count_eq_zero.2 (ho.fresh a (by omega)).2

/-- A program leaves alone the arrays it does not mention, however it ends. -/
theorem C128_frame (b : Build) (fails : Nat → Bool) (p : MProg α) (st : MState α) {k : Nat} (hk : ¬ p.Mentions k) :
    (p.run b fails st).2.2 k = st.2 k := by
  induction p generalizing st with
  | skip => rfl
  | throw => rfl
  | stmt c =>
    simp only [MProg.Mentions] at hk
    simp [MProg.run, MState.change, hk]
  | stmt2 c =>
    simp only [MProg.Mentions] at hk
    have h1 : (Stmt2.step.next b c st).2 k = st.2 k := by
      unfold Stmt2.step.next
      cases c.meaning st.mats <;> simp [hk]
    simp only [MProg.run, Stmt2.step]
    split
    · split
      · rfl
      · exact h1
    · exact h1
  | seq p q ihp ihq =>
    simp only [MProg.Mentions, not_or] at hk
    have h1 := ihp st hk.1
    simp only [MProg.run]
    rcases e : p.run b fails st with ⟨x, st'⟩
    rw [e] at h1
    cases x with
    | normal => exact (ihq st' hk.2).trans h1
    | exception => exact h1
    | abort => exact h1
  | block i af init body ih =>
    simp only [MProg.Mentions, not_or] at hk
    have h1 : (st.change (i :: init.uses) (init.step b fails i st.lists)).2.2 k = st.2 k := by
      simp [MState.change, hk.1, hk.2.1]
    simp only [MProg.run]
    rcases e : st.change (i :: init.uses) (init.step b fails i st.lists) with ⟨x, st'⟩
    rw [e] at h1
    cases x with
    | normal => simp only [upd, hk.1, if_false]; exact (ih st' hk.2.2).trans h1
    | exception => exact h1
    | abort => exact h1
  | block2 i af init body ih =>
    simp only [MProg.Mentions, not_or] at hk
    have h1 : (init.step b fails i st).2.2 k = st.2 k := by
      have hn : ∀ asks M, (newMat b fails i asks M st).2.2 k = st.2 k := by
        intro asks M
        unfold newMat
        split
        · rfl
        · cases M <;> simp [upd, hk.1]
      cases init with
      | move j =>
        have := hk.2.1
        simp only [Init2.uses, List.mem_singleton] at this
        simp [Init2.step, upd, hk.1, this]
      | _ => exact hn _ _
    simp only [MProg.run]
    rcases e : init.step b fails i st with ⟨x, st'⟩
    rw [e] at h1
    cases x with
    | normal => simp only [upd, hk.1, if_false]; exact (ih st' hk.2.2).trans h1
    | exception => exact h1
    | abort => exact h1
  | tryCatch p q ihp ihq =>
    simp only [MProg.Mentions, not_or] at hk
    have h1 := ihp st hk.1
    simp only [MProg.run]
    rcases e : p.run b fails st with ⟨x, st'⟩
    rw [e] at h1
    cases x with
    | exception => exact (ihq st' hk.2).trans h1
    | normal => exact h1
    | abort => exact h1
  | read i f ih =>
    simp only [MProg.Mentions, not_or, not_exists] at hk
    exact ih _ _ st (hk.2 _ _)
  | loop n p ih =>
    simp only [MProg.Mentions] at hk
    simp only [MProg.run]
    induction n with
    | zero => rfl
    | succ n ihn =>
      simp only [mrepeated]
      rcases e : mrepeated (p.run b fails) n st with ⟨x, st'⟩
      rw [e] at ihn
      cases x with
      | normal => exact (ih st' hk).trans ihn
      | exception => exact ihn
      | abort => exact ihn

/-- Work on a copy, then move it back: `{ Array2D<T> At(Ai); body; Ai.resize_and_assign(std::move(At)); }`. -/
def onCopy2 (i t : Nat) (af : AlignmentFlag) (body : MProg α) : MProg α :=
  .block2 t af (.copy i) (.seq body (.stmt2 (.resizeAndAssignMove i t)))

/-- That gives any program the strong guarantee: if an exception leaves it, array `i` has its old dimensions and
elements. -/
theorem C128_strong_guarantee (b : Build) {i t : Nat} (hit : i ≠ t) (af : AlignmentFlag) (body : MProg α)
    (hb : ¬ body.Mentions i) {Γ : MCtx} {h : MHeap α} {st : MState α} (hr : MRealises Γ h st)
    (ht : (onCopy2 i t af body).Typed Γ) (hm : (onCopy2 i t af body).Moderate b h.heap.mem.fails st)
    (he : (mrun b (onCopy2 i t af body) h).1 = .trap .exception) :
    view (mrun b (onCopy2 i t af body) h).2.heap i = view h.heap i ∧
      (mrun b (onCopy2 i t af body) h).2.dims i = h.dims i := by
  obtain ⟨e1, e2⟩ := C128_program b _ hr ht hm
  have hx : ((onCopy2 i t af body).run b h.heap.mem.fails st).1 = .exception := by
    rw [he] at e1
    revert e1
    cases ((onCopy2 i t af body).run b h.heap.mem.fails st).1 <;> simp [Exit.res]
  have hr' := e2 (by rw [hx]; simp)
  have same : ((onCopy2 i t af body).run b h.heap.mem.fails st).2.2 i = st.2 i := by
    simp only [onCopy2, MProg.run, Init2.step] at hx ⊢
    have hmk : (newMat b h.heap.mem.fails t (decide ((st.2 i).matrix.m ≠ 0)) (some (st.2 i).matrix) st).2.2 i = st.2 i := by
      unfold newMat
      split
      · rfl
      · simp [upd, hit]
    rcases e : newMat b h.heap.mem.fails t (decide ((st.2 i).matrix.m ≠ 0)) (some (st.2 i).matrix) st with ⟨x, st'⟩
    rw [e] at hx hmk
    cases x with
    | exception => exact hmk
    | abort => exact hmk
    | normal =>
      simp only at hx ⊢
      have hf := C128_frame b h.heap.mem.fails body st' hb
      rcases e' : body.run b h.heap.mem.fails st' with ⟨y, st''⟩
      rw [e'] at hx hf
      cases y with
      | exception => simp only [upd, hit, if_false]; exact hf.trans hmk
      | abort => simp only [upd, hit, if_false]; exact hf.trans hmk
      | normal =>
        simp only [Stmt2.step, Stmt2.asks, Stmt2.step.next, Stmt2.meaning, Stmt2.rebuilds, Bool.false_and,
          Bool.false_eq_true, if_false] at hx
        exact absurd hx (by simp)
  refine ⟨by rw [hr'.elems i, hr.elems i, same], ?_⟩
  have hi : Γ.Is .matrix i := ht.2.1
  obtain ⟨M, m1, _, m2⟩ := hr.matrix i hi
  obtain ⟨M', m1', _, m2'⟩ := hr'.matrix i hi
  rw [same, m1] at m1'
  cases m1'
  rw [m2, m2']

/-- `{ Array2D<T> A0{{1, 2}, {3, 4}}; Array1D<T> A1(2, 7); A0.insert_row(1, A1);
try { Array2D<T, Unaligned> A2(A0); A2.insert_cols_back(A0); } catch(...) { A1 = 5; }
A1.resize(A0.rows()); A0.remove_rows(9, 1); }` -/
def exampleMixed : MProg Int :=
  .block2 0 .aligned (.list [[1, 2], [3, 4]])
    (.block 1 .aligned (.fill 2 7)
      (.seq (.read 1 fun _ l => .stmt2 (.call 0 (.insertRow 1 l)))
        (.seq (.tryCatch (.block2 2 .unaligned (.copy 0) (.stmt2 (.callArr 2 0 .insertColsBack))) (.stmt (.fill 1 5)))
          (.seq (.read 0 fun d _ => .stmt (.resize 1 (d.getD (0, 0)).1 true))
            (.stmt2 (.call 0 (.removeRows 9 1)))))))

/-- Request number 4 is refused. -/
def refuse4 : Allocator := ⟨fun k => k = 4, fun p a => a * 4096 * (p + 1)⟩

theorem exampleMixed_typed : exampleMixed.Typed (fun _ => none) := by
  refine ⟨rfl, trivial, rfl, ⟨trivial, fun j hj => by cases hj⟩, ⟨?_, fun d l => ⟨fun i hi => ?_, trivial⟩⟩,
    ⟨⟨rfl, ?_, ⟨fun i hi => ?_, trivial⟩⟩, ⟨⟨fun i hi => ?_, trivial⟩, fun i hi => ?_⟩⟩,
    ⟨?_, fun d l => ⟨⟨fun i hi => ?_, trivial⟩, fun i hi => ?_⟩⟩, fun i hi => ?_, trivial⟩
  all_goals first
    | (cases List.mem_singleton.1 hi; decide +kernel)
    | (obtain rfl : i = 1 := List.mem_singleton.1 hi
       first | decide +kernel | (unfold MCtx.Is; decide +kernel))
    | (simp only [Stmt2.vars, List.mem_cons, List.not_mem_nil, or_false] at hi
       rcases hi with rfl | rfl <;> (unfold MCtx.Is; decide +kernel))
    | (cases List.mem_singleton.1 hi; unfold MCtx.Is; decide +kernel)
    | decide +kernel
    | (unfold Init2.Typed MCtx.Is; decide +kernel)

theorem exampleMixed_moderate : exampleMixed.Moderate ⟨false, true, false⟩ refuse4.fails (0, fun _ => .vec []) := by
  have sizes : ∀ {st : MState Int}, (st.lists.2 0).length < 100 → (st.lists.2 1).length < 100 →
      (st.lists.2 2).length < 100 → (∀ n, st.2 (n + 3) = .vec []) → ModerateSizes st.lists.2 := by
    intro st h0 h1 h2 h3 i
    match i with
    | 0 => exact (by omega : ((st.lists.2 0).length : Int) < 2 ^ 61)
    | 1 => exact (by omega : ((st.lists.2 1).length : Int) < 2 ^ 61)
    | 2 => exact (by omega : ((st.lists.2 2).length : Int) < 2 ^ 61)
    | n + 3 =>
      show (((st.2 (n + 3)).list).length : Int) < 2 ^ 61
      rw [h3 n]; decide
  have sizes2 : ∀ {st : MState Int}, (st.mats 0).m * (st.mats 0).n < 100 → (st.mats 1).m * (st.mats 1).n < 100 →
      (st.mats 2).m * (st.mats 2).n < 100 → (∀ n, st.2 (n + 3) = .vec []) → ModerateSizes2 st.mats := by
    intro st h0 h1 h2 h3 i
    rw [← Int.natCast_mul]
    match i with
    | 0 => omega
    | 1 => omega
    | 2 => omega
    | n + 3 =>
      unfold MState.mats
      rw [h3 n]; decide
  have next : ∀ {x : Exit × MState Int} {e : Exit} {P : MState Int → Prop}, P x.2 → ∀ st', x = (e, st') → P st' := by
    rintro _ _ _ hp st' rfl; exact hp
  have bad : ∀ {P : Prop}, (⟨false, true, false⟩ : Build).Checked ∧ (P → (⟨false, true, false⟩ : Build).ndebug = false) :=
    ⟨by decide, fun _ => rfl⟩
  refine ⟨⟨by decide, fun _ => by decide⟩, next (next ⟨⟨sizes2 ?_ ?_ ?_ fun _ => rfl, ?_, by simp, fun _ => bad⟩,
    next ⟨⟨⟨?_, next ⟨sizes2 ?_ ?_ ?_ fun _ => rfl, ?_, by simp, fun _ => bad⟩⟩,
      next ⟨sizes ?_ ?_ ?_ fun _ => rfl, trivial, fun _ => bad⟩⟩,
    next ⟨⟨sizes ?_ ?_ ?_ fun _ => rfl, ?_, fun _ => bad⟩,
      next ⟨sizes2 ?_ ?_ ?_ fun _ => rfl, ?_, by simp, fun _ => bad⟩⟩⟩⟩)⟩
  all_goals first
    | decide +kernel
    | (unfold Init2.Moderate; decide +kernel)
    | exact trivial
    | (simp only [Stmt2.Moderate, Call2.Moderate, Call2.Moderate.Mod]; decide +kernel)
    | (simp only [Stmt.Moderate, Stmt.Moderate.Mod]; decide +kernel)

/-- The hypotheses hold of it: the inner block is left by an exception, because request number 4 is refused; it is
caught; `A1` is resized to the three rows of `A0`; and the last statement is invalid, so that the program ends with an
exception.  Six requests were made, and everything is released. -/
example : (mrun ⟨false, true, false⟩ exampleMixed (MHeap.init refuse4)).1 = .trap .exception ∧
    (mrun ⟨false, true, false⟩ exampleMixed (MHeap.init refuse4)).2.heap.requests = 6 ∧
    ∀ a, (mrun ⟨false, true, false⟩ exampleMixed (MHeap.init refuse4)).2.heap.blocks a = none := by
  obtain ⟨e1, e2⟩ := C128_program ⟨false, true, false⟩ exampleMixed (C128_start refuse4) exampleMixed_typed
    exampleMixed_moderate
  have hx : (exampleMixed.run ⟨false, true, false⟩ refuse4.fails (0, fun _ => .vec [])).1 = .exception := by decide +kernel
  have e1' : (mrun ⟨false, true, false⟩ exampleMixed (MHeap.init refuse4)).1 = .trap .exception := by
    rw [e1]
    show Exit.res (exampleMixed.run ⟨false, true, false⟩ refuse4.fails (0, fun _ => .vec [])).1 = _
    rw [hx]; rfl
  refine ⟨e1', ?_, fun a => ((C128_nothing_leaked _ refuse4 exampleMixed exampleMixed_typed exampleMixed_moderate
    (by rw [e1']; simp)).2 a).1⟩
  have := (e2 (by
    show (exampleMixed.run ⟨false, true, false⟩ refuse4.fails (0, fun _ => .vec [])).1 ≠ _
    rw [hx]; simp)).requests
  rw [this]
  show (exampleMixed.run ⟨false, true, false⟩ refuse4.fails (0, fun _ => .vec [])).2.1 = 6
  decide +kernel

/-- Just before its last statement, `A0` is `{{1, 2}, {7, 7}, {3, 4}}` and `A1` is `{5, 5, 0}`. -/
example : ∃ st' : MState Int, (MProg.run ⟨false, true, false⟩ refuse4.fails
      (.seq (.read 1 fun _ l => .stmt2 (.call 0 (.insertRow 1 l)))
        (.seq (.tryCatch (.block2 2 .unaligned (.copy 0) (.stmt2 (.callArr 2 0 .insertColsBack))) (.stmt (.fill 1 5)))
          (.read 0 fun d _ => .stmt (.resize 1 (d.getD (0, 0)).1 true))))
      (2, upd (upd (fun _ => .vec []) 0 (.mat (Mat.ofLists [[1, 2], [3, 4]]))) 1 (.vec [7, 7]))) = (.normal, st') ∧
    (st'.2 0).dims = some (3, 2) ∧ (st'.2 0).list = [1, 2, 7, 7, 3, 4] ∧ (st'.2 1).list = [5, 5, 0] :=
  ⟨_, rfl, by decide +kernel⟩

/-- The hypotheses of the strong guarantee hold: `A0` is 2×2; its copy gets request 1 and then the insertion of a row,
request number 2, is refused. -/
example : ∃ h : MHeap Int, view h.heap 0 = some [7, 7, 7, 7] ∧ h.dims 0 = some (2, 2) ∧
    (mrun ⟨false, true, false⟩ (onCopy2 0 1 .aligned (.stmt2 (.call 1 (.insertRowBack [1, 2])))) h).1 = .trap .exception ∧
    view (mrun ⟨false, true, false⟩ (onCopy2 0 1 .aligned (.stmt2 (.call 1 (.insertRowBack [1, 2])))) h).2.heap 0 =
      some [7, 7, 7, 7] ∧
    (mrun ⟨false, true, false⟩ (onCopy2 0 1 .aligned (.stmt2 (.call 1 (.insertRowBack [1, 2])))) h).2.dims 0 =
      some (2, 2) := by
  have hr := (hinit2_inits ⟨false, true, false⟩ (C128_start refuse2) (i := 0) rfl (af := .aligned)
    (init := .fill 2 2 (7 : Int)) trivial ⟨by decide, by decide, fun _ => by decide⟩).done (by decide +kernel)
  have hv : view (hinit2 ⟨false, true, false⟩ 0 .aligned (.fill 2 2 (7 : Int)) (MHeap.init refuse2)).2.heap 0 =
      some [7, 7, 7, 7] := by
    rw [hr.elems 0]; decide +kernel
  have hd : (hinit2 ⟨false, true, false⟩ 0 .aligned (.fill 2 2 (7 : Int)) (MHeap.init refuse2)).2.dims 0 =
      some (2, 2) := by decide +kernel
  have next : ∀ {x : Exit × MState Int} {e : Exit} {P : MState Int → Prop}, P x.2 → ∀ st', x = (e, st') → P st' := by
    rintro _ _ _ hp st' rfl; exact hp
  have sizes2 : ∀ {st : MState Int}, (st.mats 0).m * (st.mats 0).n < 100 → (st.mats 1).m * (st.mats 1).n < 100 →
      (∀ n, st.2 (n + 2) = .vec []) → ModerateSizes2 st.mats := by
    intro st h0 h1 h3 i
    rw [← Int.natCast_mul]
    match i with
    | 0 => omega
    | 1 => omega
    | n + 2 =>
      unfold MState.mats
      rw [h3 n]; decide
  have ht : (onCopy2 0 1 .aligned (.stmt2 (.call 1 (.insertRowBack [1, (2 : Int)])))).Typed
      (upd (fun _ => none) 0 (some (.matrix, .aligned))) := by
    refine ⟨rfl, ?_, ⟨fun i hi => ?_, trivial⟩, fun i hi => ?_, rfl⟩
    · unfold Init2.Typed MCtx.Is; decide +kernel
    · obtain rfl : i = 1 := List.mem_singleton.1 hi
      unfold MCtx.Is; decide +kernel
    · simp only [Stmt2.vars, List.mem_cons, List.not_mem_nil, or_false] at hi
      rcases hi with rfl | rfl <;> (unfold MCtx.Is; decide +kernel)
  have he : (mrun ⟨false, true, false⟩ (onCopy2 0 1 .aligned (.stmt2 (.call 1 (.insertRowBack [1, (2 : Int)]))))
      (hinit2 ⟨false, true, false⟩ 0 .aligned (.fill 2 2 (7 : Int)) (MHeap.init refuse2)).2).1 = .trap .exception := by
    decide +kernel
  have hm : (onCopy2 0 1 .aligned (.stmt2 (.call 1 (.insertRowBack [1, (2 : Int)])))).Moderate ⟨false, true, false⟩
      (hinit2 ⟨false, true, false⟩ 0 .aligned (.fill 2 2 (7 : Int)) (MHeap.init refuse2)).2.heap.mem.fails
      ((Init2.fill 2 2 (7 : Int)).step ⟨false, true, false⟩ refuse2.fails 0 (0, fun _ => .vec [])).2 := by
    refine ⟨?_, next ⟨⟨sizes2 ?_ ?_ fun _ => rfl, ?_, by simp, fun _ => ⟨by decide, fun _ => rfl⟩⟩,
      next ⟨sizes2 ?_ ?_ fun _ => rfl, ?_, by simp, fun _ => ⟨by decide, fun _ => rfl⟩⟩⟩⟩
    all_goals first
      | decide +kernel
      | (unfold Init2.Moderate; decide +kernel)
      | exact trivial
        | (simp only [Stmt2.Moderate, Call2.Moderate, Call2.Moderate.Mod]; decide +kernel)
  have g := C128_strong_guarantee ⟨false, true, false⟩ (by decide) .aligned _ (by simp [MProg.Mentions, Stmt2.vars]) hr ht hm he
  exact ⟨_, hv, hd, he, g.1.trans hv, g.2.trans hd⟩

end Spp.Props
