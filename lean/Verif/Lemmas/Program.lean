import Verif.Model.Program
import Verif.Props.Memory

/- Simulation of block-structured programs by lists. -/

set_option linter.unusedSectionVars false

namespace Spp
open Spec Props

variable {α : Type} [Inhabited α]

/-- The run `z` of the program from the heap `h` agrees with the list meaning `r`. -/
structure Agrees (Γ : Ctx) (h : Heap α) (z : Res Unit × Heap α) (r : Exit × PState α) : Prop where
  res : z.1 = r.1.res
  state : r.1 ≠ .abort → Realises Γ z.2 r.2
  mem : z.2.mem = h.mem

theorem Spec.Realises.inv {Γ : Ctx} {h : Heap α} {st : PState α} (hr : Realises Γ h st) : Inv h none := owned_inv hr.owned

theorem Spec.Realises.dead {Γ : Ctx} {h : Heap α} {st : PState α} (hr : Realises Γ h st) {i : Nat} (hi : Γ i = none) :
    h.objs i = none := by
  have := hr.live i
  rw [hi] at this
  simpa using this

theorem Spec.Realises.alive {Γ : Ctx} {h : Heap α} {st : PState α} (hr : Realises Γ h st) {i : Nat} (hi : Γ i ≠ none) :
    h.objs i ≠ none := by
  intro e
  have := hr.live i
  rw [e] at this
  exact hi this.symm

theorem Spec.Realises.holds {Γ : Ctx} {h : Heap α} {st : PState α} (hr : Realises Γ h st) : Holds h st.2 := by
  intro i l hl
  rw [hr.views i] at hl
  cases hg : Γ i with
  | none => rw [hg] at hl; cases hl
  | some _ => rw [hg] at hl; exact (Option.some.inj hl).symm

theorem Spec.Realises.wellTyped {Γ : Ctx} {h : Heap α} {st : PState α} (hr : Realises Γ h st) {c : Stmt α}
    (hc : c.Typed Γ) : c.WellTyped h := by
  have same : ∀ i j, Γ i ≠ none → Γ i = Γ j → SameType h i j := by
    intro i j hi e
    obtain ⟨oi, h1⟩ := live_obj (hr.alive hi)
    obtain ⟨oj, h2⟩ := live_obj (hr.alive (e ▸ hi))
    refine ⟨oi, oj, h1, h2, ?_⟩
    have l1 := hr.live i
    have l2 := hr.live j
    rw [h1] at l1; rw [h2] at l2; rw [e, ← l2] at l1
    exact Option.some.inj l1
  refine ⟨fun i hi => hr.alive (hc.1 i hi), ?_⟩
  have h1 := hc.1
  have h2 := hc.2
  cases c <;> first | trivial | exact same _ _ (h1 _ (by simp [Stmt.vars])) h2

theorem Agrees.ofViews {Γ : Ctx} {h : Heap α} {st : PState α} (hr : Realises Γ h st) {h' : Heap α} (hi : Owned h')
    (hl : ∀ k, h'.objs k = none ↔ h.objs k = none)
    (ht : ∀ k o o', h.objs k = some o → h'.objs k = some o' → o'.af = o.af) {s : Nat → List α} {n : Nat}
    (hv : ∀ k, view h' k = if h.objs k = none then none else some (s k)) (hq : h'.requests = n) :
    Realises Γ h' (n, s) := by
  refine ⟨hi, fun i => ?_, fun i => ?_, hq⟩
  · rw [← hr.live i]
    cases e : h.objs i with
    | none => rw [(hl i).2 e]
    | some o =>
      cases e' : h'.objs i with
      | none => rw [(hl i).1 e'] at e; cases e
      | some o' => simp [ht i o o' e e']
  · rw [hv i]
    have := hr.live i
    cases e : h.objs i with
    | none => rw [e] at this; simp [← this]
    | some o => rw [e] at this; simp [← this]

/-- One statement. -/
theorem stmt_agrees (b : Build) {Γ : Ctx} {h : Heap α} {st : PState α} (hr : Realises Γ h st) {c : Stmt α}
    (hc : c.Typed Γ) (hm : (Prog.stmt c).Moderate b h.mem.fails st) :
    Agrees Γ h (hexec b c h) (c.step b h.mem.fails st) := by
  obtain ⟨m1, m2, m3⟩ := hm
  have hw := hr.wellTyped hc
  have hs := hr.holds
  have hnub : (exec b c st.2).1 ≠ .ub := by
    cases hv : c.meaning st.2 with
    | some s' => rw [C23_valid_statement b m1 m2 hv]; simp
    | none =>
      obtain ⟨hb, hn⟩ := m3 hv
      rcases C30_invalid_statement hb m1 m2 hv with e | ⟨i, j, e, e'⟩
      · rw [e]; simp
      · rw [e' (hn ⟨i, j, e⟩)]; simp
  obtain ⟨q, m, mq⟩ := hexec_mem b hr.inv hw hs hnub
  have same : ∀ k, view h k = if h.objs k = none then none else some (st.2 k) :=
    fun k => (congrFun (puts_same hr.inv hs) k).symm
  cases hv : c.meaning st.2 with
  | none =>
    obtain ⟨hb, hn⟩ := m3 hv
    have gen : ∀ k, exec b c st.2 = (.trap k, st.2) → Agrees Γ h (hexec b c h) (.ofKind k, st) := by
      intro k he
      rw [he] at m mq
      have hq : q = false := by
        cases q with
        | false => rfl
        | true => have := (mq.1 rfl).1; simp at this
      subst hq
      obtain ⟨e1, e2⟩ := m.done (by simp)
      refine ⟨by rw [e1]; cases k <;> rfl, fun _ => ?_, m.mem⟩
      exact Agrees.ofViews hr m.inv.owned m.live m.types e2 (by rw [m.reqs]; exact hr.requests)
    by_cases hmv : ∃ i j, c = .moveAssign i j
    · obtain ⟨i, j, rfl⟩ := hmv
      simp only [Stmt.step, hv]
      refine gen .abort ?_
      simp only [Stmt.meaning] at hv
      split at hv
      · simp at hv
      · split at hv
        · simp at hv
        · rename_i h2
          exact C29_move_assign_rejected hb.1 (hn ⟨i, j, rfl⟩) st.2 h2
    · have : c.step b h.mem.fails st = (.ofKind b.kind, st) := by
        unfold Stmt.step
        rw [hv]
        cases c <;> first | rfl | exact absurd ⟨_, _, rfl⟩ hmv
      rw [this]
      rcases C30_invalid_statement hb m1 m2 hv with e | ⟨i, j, e, _⟩
      · exact gen _ e
      · exact absurd ⟨i, j, e⟩ hmv
  | some s' =>
    obtain ⟨e1, e2, e3⟩ := C99_valid_statement b hr.owned hw hs m1 m2 hv
    have hq := hr.requests
    by_cases ha : c.allocates st.2 s' = true
    · by_cases hf : OutOfMemory h
      · obtain ⟨f1, f2⟩ := e2 ⟨ha, hf⟩
        have hf' : h.mem.fails st.1 = true := by rw [← hq]; exact hf
        have : c.step b h.mem.fails st = (.exception, st.1 + 1, st.2) := by simp [Stmt.step, hv, ha, hf']
        rw [this]
        exact ⟨f1, fun _ => Agrees.ofViews hr f2.owned m.live m.types (fun k => by rw [f2.views k]; exact same k)
          (by rw [e1, if_pos ha, hq]), m.mem⟩
      · obtain ⟨f1, f2, f3⟩ := e3 (fun h1 => hf h1.2)
        have hf' : ¬ h.mem.fails st.1 = true := by rw [← hq]; exact hf
        have : c.step b h.mem.fails st = (.normal, st.1 + 1, s') := by simp [Stmt.step, hv, ha, hf']
        rw [this]
        exact ⟨f1, fun _ => Agrees.ofViews hr f2 m.live m.types f3 (by rw [e1, if_pos ha, hq]), m.mem⟩
    · obtain ⟨f1, f2, f3⟩ := e3 (fun h1 => ha h1.1)
      have : c.step b h.mem.fails st = (.normal, st.1, s') := by simp [Stmt.step, hv, ha]
      rw [this]
      exact ⟨f1, fun _ => Agrees.ofViews hr f2 m.live m.types f3 (by rw [e1, if_neg ha, hq]; rfl), m.mem⟩

/-! ### Local arrays -/

theorem Realises_make {Γ : Ctx} {h : Heap α} {st : PState α} (hr : Realises Γ h st) {i : Nat} {af : AlignmentFlag}
    {h' : Heap α} {s : Nat → List α} {n : Nat} (ho : Owned h')
    (hl : ∀ k, (h'.objs k).map Obj.af = if k = i then some af else (h.objs k).map Obj.af)
    (hv : ∀ k, view h' k = if k = i then some (s i) else (view h k).map fun _ => s k) (hq : h'.requests = n) :
    Realises (upd Γ i (some af)) h' (n, s) := by
  refine ⟨ho, fun k => ?_, fun k => ?_, hq⟩
  · rw [hl k]
    unfold upd
    split
    · rfl
    · exact hr.live k
  · rw [hv k]
    unfold upd
    split
    · rename_i e; subst e; rfl
    · rw [hr.views k]; cases Γ k <;> rfl

theorem Realises_view {Γ : Ctx} {h : Heap α} {st : PState α} (hr : Realises Γ h st) {j : Nat} (hj : Γ j ≠ none) :
    view h j = some (st.2 j) := by
  rw [hr.views j]
  cases e : Γ j with
  | none => exact absurd e hj
  | some _ => rfl

/-- The run `z` of an initialisation agrees with the list meaning `r`. -/
structure Inits (Γ : Ctx) (h : Heap α) (i : Nat) (af : AlignmentFlag) (z : Res Unit × Heap α) (r : Exit × PState α) :
    Prop where
  res : z.1 = r.1.res
  done : r.1 = .normal → Realises (upd Γ i (some af)) z.2 r.2
  failed : r.1 = .exception → Realises Γ z.2 r.2
  mem : z.2.mem = h.mem

theorem construct_inits (b : Build) {Γ : Ctx} {h : Heap α} {st : PState α} (hr : Realises Γ h st) {i : Nat}
    (hi : Γ i = none) (af : AlignmentFlag) {n : Int} {g : List α → Res (List α)} {l : List α} (hl : (l.length : Int) = n)
    (hg : ∀ l0 : List α, (l0.length : Int) = n → ∃ l1, g l0 = .ok l1 ∧ l1.length = l.length)
    (hdef : g (List.replicate n.toNat default) = .ok l) :
    Inits Γ h i af (Heap.construct b i af n g h) (make h.mem.fails i l st) := by
  have hd := hr.dead hi
  obtain ⟨t1, t2, t3, t4⟩ := construct_step b hr.inv (i := i) (af := af) (n := n) (g := g) hd
    (fun l0 h0 => by
      obtain ⟨l1, g1, g2⟩ := hg l0 h0
      refine ⟨by rw [g1]; simp, fun l' h' => ?_⟩
      rw [g1] at h'; simp only [Res.ok.injEq] at h'; subst h'; omega)
  have hq : (Heap.construct b i af n g h).2.requests = st.1 + (decide (0 < n)).toNat := by
    unfold Heap.construct
    rw [Op.bind_run]
    have := ctorFill_requests b af n g h
    rw [hr.requests] at this
    rcases hh : Heap.ctorFill b af n g h with ⟨o | _ | _, h'⟩ <;> rw [hh] at this <;> simp only at this ⊢
    · rw [noReq_setObj, this]
    · exact this
    · exact this
  have hooM : OutOfMemory h ↔ h.mem.fails st.1 = true := by rw [← hr.requests]; rfl
  generalize Heap.construct b i af n g h = z at t1 t2 t3 t4 hq ⊢
  have ok : z.1 = .ok () → Realises (upd Γ i (some af)) z.2 (st.1 + (decide (0 < n)).toNat, upd st.2 i l) := by
    intro he
    obtain ⟨⟨o, h1, h2⟩, _⟩ := t3 he
    refine Realises_make hr t1.inv.owned (fun k => ?_) (fun k => ?_) hq
    · by_cases hk : k = i
      · subst hk; rw [h1, if_pos rfl]; simp [h2]
      · rw [t1.frame k (.inl hk), if_neg hk]
    · rw [t1.views he k, hdef]
      by_cases hk : k = i
      · subst hk; simp [upd]
      · simp only [hk, if_false, upd]
        rw [hr.views k]; cases Γ k <;> rfl
  have bad : z.1 ≠ .ok () → Realises Γ z.2 (st.1 + (decide (0 < n)).toNat, st.2) := by
    intro he
    refine ⟨t1.inv.owned, fun k => ?_, fun k => ?_, hq⟩
    · rw [t1.frame k (.inr he)]; exact hr.live k
    · rw [t2 he k]; exact hr.views k
  unfold make
  by_cases hnil : l = []
  · have hn : n = 0 := by rw [hnil] at hl; simpa using hl.symm
    rw [if_pos hnil]
    have he : z.1 = .ok () := by
      by_cases he : z.1 = .ok ()
      · exact he
      · rcases t4 he with e | e | ⟨k, e, _⟩
        · omega
        · exact absurd hn e.1
        · rw [hdef] at e; cases e
    refine ⟨he, fun _ => ?_, by simp, t1.mem⟩
    have := ok he
    simpa [hn] using this
  · have hn : 0 < n := by
      cases l with
      | nil => exact absurd rfl hnil
      | cons a l => simp at hl; omega
    rw [if_neg hnil]
    have hdn : (decide (0 < n)).toNat = 1 := by simp [hn]
    rw [hdn] at ok bad
    by_cases hf : OutOfMemory h
    · rw [if_pos (hooM.1 hf)]
      have he : z.1 ≠ .ok () := by
        intro he
        rcases (t3 he).2.2.1 with e | e
        · omega
        · exact e hf
      refine ⟨?_, by simp, fun _ => bad he, t1.mem⟩
      rcases t4 he with e | e | ⟨k, e, _⟩
      · omega
      · exact e.2.2
      · rw [hdef] at e; cases e
    · rw [if_neg (fun e => hf (hooM.2 e))]
      have he : z.1 = .ok () := by
        by_cases he : z.1 = .ok ()
        · exact he
        · rcases t4 he with e | e | ⟨k, e, _⟩
          · omega
          · exact absurd e.2.1 hf
          · rw [hdef] at e; cases e
      exact ⟨he, fun _ => ok he, by simp, t1.mem⟩

theorem construct_negative (b : Build) {Γ : Ctx} {h : Heap α} {st : PState α} (hr : Realises Γ h st) {i : Nat}
    (af : AlignmentFlag) {n : Int} (g : List α → Res (List α)) (hn : n < 0) :
    Inits Γ h i af (Heap.construct b i af n g h) (Init.step.bad b, st) := by
  have h1 : decide (n > -1) = false := by simp; omega
  have h0 : ¬ n = 0 := by omega
  have e : Heap.construct b i af n g h = ((Init.step.bad b).res, h) := by
    unfold Heap.construct Heap.ctorFill Heap.ctor
    rw [Op.bind_run, Op.bind_run, h1]
    unfold Init.step.bad
    by_cases hb : b.Checked
    · rw [assertDebug_false hb, if_pos hb]
      cases b.kind <;> rfl
    · rw [if_neg hb]
      have : assertDebug b false = .trap .exception ∨ assertDebug b false = .ok () := by
        revert hb
        rcases b with ⟨_ | _, _ | _, _ | _⟩ <;> simp [Build.Checked, assertDebug, Build.Guarded, assertAlways]
      rcases this with e | e
      · rw [e]; rfl
      · rw [e]; simp [h0, hn, Op.bind_run, Op.lift, Exit.res]
  rw [e]
  exact ⟨rfl, fun e => by
    exfalso
    revert e
    unfold Init.step.bad
    split
    · cases b.kind <;> simp [Exit.ofKind]
    · simp, fun _ => hr, rfl⟩

theorem hinit_inits (b : Build) {Γ : Ctx} {h : Heap α} {st : PState α} (hr : Realises Γ h st) {i : Nat}
    (hi : Γ i = none) {af : AlignmentFlag} {init : Init α} (ht : init.Typed Γ af) :
    Inits Γ h i af (hinit b i af init h) (init.step b h.mem.fails i st) := by
  cases init with
  | empty =>
    have e : Heap.setObj i (some (Obj.empty af)) h = Heap.construct b i af 0 .ok h := by
      unfold Heap.construct Heap.ctorFill Heap.ctor
      simp [Op.bind_run, Heap.onTrap, Heap.contents, Heap.store, Obj.empty, Heap.setObj, Op.lift]
    simp only [hinit, Init.step, e]
    exact construct_inits b hr hi af rfl (fun l0 h0 => ⟨l0, rfl, by simpa using h0⟩) rfl
  | size n =>
    simp only [hinit, Init.step]
    by_cases hn : n < 0
    · rw [if_pos hn]; exact construct_negative b hr af _ hn
    · rw [if_neg hn]
      exact construct_inits b hr hi af (by simp; omega) (fun l0 h0 => ⟨l0, rfl, by simp; omega⟩) rfl
  | fill n x =>
    simp only [hinit, Init.step]
    by_cases hn : n < 0
    · rw [if_pos hn]; exact construct_negative b hr af _ hn
    · rw [if_neg hn]
      refine construct_inits b hr hi af (by simp; omega) (fun l0 h0 => ⟨List.replicate l0.length x, ?_, by simp; omega⟩) ?_
      · rw [Arr1.fill_ok]; rfl
      · rw [Arr1.fill_ok]; simp
  | list xs =>
    simp only [hinit, Init.step]
    refine construct_inits b hr hi af rfl (fun l0 h0 => ⟨xs, ?_, rfl⟩) ?_
    · rw [Arr1.copy_denotes (xs := xs) (by simp [len] at h0; omega) (fun s => Arr1.denotes_ofList xs s)]
      rfl
    · rw [Arr1.copy_denotes (xs := xs) (by simp [len]) (fun s => Arr1.denotes_ofList xs s)]
      rfl
  | copy j =>
    simp only [hinit, Init.step]
    obtain ⟨o, ho⟩ := live_obj (hr.alive ht)
    obtain ⟨l, v1, v2, v3⟩ := view_of hr.inv ho
    rw [Realises_view hr ht] at v1
    cases v1
    unfold Heap.copyConstruct
    rw [Op.bind_run, obj_run ho]
    simp only
    rw [Op.bind_run, v2]
    exact construct_inits b hr hi af v3 (fun _ _ => ⟨_, rfl, rfl⟩) rfl
  | move j =>
    simp only [hinit, Init.step]
    have hj : Γ j ≠ none := by rw [show Γ j = some af from ht]; simp
    obtain ⟨t1, t2, ⟨o, t3, t4⟩, t5⟩ := moveConstruct_step hr.inv (hr.dead hi) (hr.alive hj)
    have hq : (Heap.moveConstruct i j h).2.requests = st.1 := by
      have hn : NoReq (Heap.moveConstruct i j : Op (Heap α) Unit) :=
        (noReq_obj j).bind fun _ => (noReq_setObj _ _).bind fun _ => noReq_setObj _ _
      rw [hn h, hr.requests]
    refine ⟨t1, fun _ => Realises_make hr t5.inv.owned (fun k => ?_) (fun k => ?_) hq, by simp, t5.mem⟩
    · by_cases hk : k = i
      · subst hk; rw [t2, if_pos rfl, hr.live j]; exact ht
      · rw [if_neg hk]
        by_cases hkj : k = j
        · subst hkj
          obtain ⟨o', ho'⟩ := live_obj (hr.alive hj)
          rw [t3, ho']; simp [t5.types k o' o ho' t3]
        · rw [t5.frame k (.inl (by simp [hk, hkj]))]
    · rw [t5.views t1 k]
      by_cases hk : k = i
      · subst hk; simp [upd, Realises_view hr hj]
      · simp only [hk, if_false, upd]
        by_cases hkj : k = j
        · subst hkj; simp [Realises_view hr hj]
        · simp only [hkj, if_false]
          rw [hr.views k]; cases Γ k <;> rfl

/-- The end of a block. -/
theorem destroy_realises {Γ : Ctx} {h : Heap α} {st : PState α} {i : Nat} {af : AlignmentFlag} (hi : Γ i = none)
    (hr : Realises (upd Γ i (some af)) h st) :
    (Heap.destroy i h).1 = .ok () ∧ Realises Γ (Heap.destroy i h).2 (st.1, upd st.2 i []) ∧
      (Heap.destroy i h).2.mem = h.mem := by
  obtain ⟨t1, t2⟩ := destroy_step hr.inv (hr.alive (i := i) (by simp [upd]))
  have hd : (Heap.destroy i h).2.objs i = none := by
    rw [← view_none_iff t2.inv, t2.views t1 i, if_pos rfl]
  refine ⟨t1, ⟨t2.inv.owned, fun k => ?_, fun k => ?_, ?_⟩, t2.mem⟩
  · by_cases hk : k = i
    · subst hk; rw [hd, hi]; rfl
    · rw [t2.frame k (.inl hk), hr.live k]; simp [upd, hk]
  · rw [t2.views t1 k]
    by_cases hk : k = i
    · subst hk; simp [hi]
    · rw [if_neg hk, hr.views k]; simp [upd, hk]
  · have hn : NoReq (Heap.destroy i : Op (Heap α) Unit) :=
      (noReq_obj i).bind fun o => (noReq_free _ _).bind fun _ => noReq_setObj _ _
    rw [hn h]
    exact hr.requests

theorem exit_cases (e : Exit) : e = .normal ∨ e = .exception ∨ e = .abort := by cases e <;> simp

/-- The simulation. -/
theorem hrun_agrees (b : Build) (p : Prog α) {Γ : Ctx} {h : Heap α} {st : PState α} (hr : Realises Γ h st)
    (ht : p.Typed Γ) (hm : p.Moderate b h.mem.fails st) : Agrees Γ h (hrun b p h) (p.run b h.mem.fails st) := by
  induction p generalizing Γ h st with
  | skip => exact ⟨rfl, fun _ => hr, rfl⟩
  | throw => exact ⟨rfl, fun _ => hr, rfl⟩
  | stmt c => exact stmt_agrees b hr ht hm
  | seq p q ihp ihq =>
    have a := ihp hr ht.1 hm.1
    simp only [hrun, Prog.run]
    rw [Op.bind_run]
    obtain ⟨a1, a2, a3⟩ := a
    rcases e : p.run b h.mem.fails st with ⟨x, st'⟩
    rw [e] at a1 a2
    rcases e' : hrun b p h with ⟨r, h'⟩
    rw [e'] at a1 a2 a3
    simp only at a1 a2 a3
    subst a1
    cases x with
    | normal =>
      have := ihq (a2 (by simp)) ht.2 (by rw [a3]; exact hm.2 st' e)
      rw [a3] at this
      exact ⟨this.res, this.state, this.mem.trans a3⟩
    | exception => exact ⟨rfl, a2, a3⟩
    | abort => exact ⟨rfl, a2, a3⟩
  | block i af init body ih =>
    obtain ⟨t1, t2, t3⟩ := ht
    obtain ⟨a1, a2, a2', a3⟩ := hinit_inits b hr t1 t2
    simp only [hrun, Prog.run]
    rw [Op.bind_run]
    rcases e : init.step b h.mem.fails i st with ⟨x, st'⟩
    rw [e] at a1 a2 a2'
    rcases e' : hinit b i af init h with ⟨r, h'⟩
    rw [e'] at a1 a2 a2' a3
    simp only at a1 a2 a2' a3
    subst a1
    cases x with
    | exception => exact ⟨rfl, fun _ => a2' rfl, a3⟩
    | abort => exact ⟨rfl, fun h => absurd rfl h, a3⟩
    | normal =>
      obtain ⟨c1, c2, c3⟩ := ih (a2 rfl) t3 (by rw [a3]; exact hm st' e)
      rw [a3] at c1 c2 c3
      simp only [Exit.res]
      unfold withLocal
      rcases f : body.run b h.mem.fails st' with ⟨y, st''⟩
      rw [f] at c1 c2
      rcases f' : hrun b body h' with ⟨r, h''⟩
      rw [f'] at c1 c2 c3
      simp only at c1 c2 c3
      subst c1
      cases y with
      | normal =>
        obtain ⟨d1, d2, d3⟩ := destroy_realises t1 (c2 (by simp))
        exact ⟨d1, fun _ => d2, d3.trans c3⟩
      | exception =>
        obtain ⟨d1, d2, d3⟩ := destroy_realises t1 (c2 (by simp))
        simp only [Exit.res]
        rcases g : Heap.destroy i h'' with ⟨r, h3⟩
        rw [g] at d1 d2 d3
        simp only at d1 d2 d3
        subst d1
        exact ⟨rfl, fun _ => d2, d3.trans c3⟩
      | abort => exact ⟨rfl, fun h => absurd rfl h, c3⟩
  | tryCatch p q ihp ihq =>
    obtain ⟨a1, a2, a3⟩ := ihp hr ht.1 hm.1
    simp only [hrun, Prog.run]
    unfold tryCatch
    rcases e : p.run b h.mem.fails st with ⟨x, st'⟩
    rw [e] at a1 a2
    rcases e' : hrun b p h with ⟨r, h'⟩
    rw [e'] at a1 a2 a3
    simp only at a1 a2 a3
    subst a1
    cases x with
    | normal => exact ⟨rfl, a2, a3⟩
    | exception =>
      have := ihq (a2 (by simp)) ht.2 (by rw [a3]; exact hm.2 st' e)
      rw [a3] at this
      exact ⟨this.res, this.state, this.mem.trans a3⟩
    | abort => exact ⟨rfl, a2, a3⟩
  | ite i cond p q ihp ihq =>
    obtain ⟨o, ho⟩ := live_obj (hr.alive ht.1)
    obtain ⟨l, v1, v2, v3⟩ := view_of hr.inv ho
    rw [Realises_view hr ht.1] at v1
    cases v1
    simp only [hrun, Prog.run]
    rw [Op.bind_run, obj_run ho]
    simp only
    rw [Op.bind_run, v2]
    simp only
    simp only [Prog.Moderate] at hm
    by_cases hc : cond (st.2 i) = true
    · rw [if_pos hc] at hm
      simp only [hc, if_true]
      exact ihp hr ht.2.1 hm
    · rw [if_neg hc] at hm
      simp only [hc]
      exact ihq hr ht.2.2 hm
  | loop i count p ih =>
    obtain ⟨o, ho⟩ := live_obj (hr.alive ht.1)
    obtain ⟨l, v1, v2, v3⟩ := view_of hr.inv ho
    rw [Realises_view hr ht.1] at v1
    cases v1
    simp only [hrun, Prog.run]
    rw [Op.bind_run, obj_run ho]
    simp only
    rw [Op.bind_run, v2]
    simp only
    simp only [Prog.Moderate] at hm
    generalize count (st.2 i) = n at hm
    induction n with
    | zero => exact ⟨rfl, fun _ => hr, rfl⟩
    | succ n ihn =>
      obtain ⟨a1, a2, a3⟩ := ihn (fun k hk => hm k (by omega))
      rw [Op.forN_succ]
      simp only [repeated]
      have hm' := hm n (by omega)
      rcases e : repeated (p.run b h.mem.fails) n st with ⟨x, st'⟩
      rw [e] at a1 a2
      rcases e' : Op.forN n (fun _ => hrun b p) h with ⟨r, h'⟩
      rw [e'] at a1 a2 a3
      simp only at a1 a2 a3
      subst a1
      cases x with
      | normal =>
        have := ih (a2 (by simp)) ht.2 (by rw [a3]; exact hm' st' e)
        rw [a3] at this
        exact ⟨this.res, this.state, this.mem.trans a3⟩
      | exception => exact ⟨rfl, a2, a3⟩
      | abort => exact ⟨rfl, a2, a3⟩

end Spp
