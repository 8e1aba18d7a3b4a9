import Verif.Spec.MixedState
import Verif.Lemmas.Program
import Verif.Props.Memory2
import Verif.Props.Fixed

/- Simulation of programs with arrays of one and two dimensions by lists and matrices. -/

set_option linter.unusedSectionVars false

namespace Spp
open Spec Props

variable {α : Type} [Inhabited α]

/-! ### Lists and matrices -/

theorem flat_get (M : Mat α) {i j : Nat} (hi : i < M.m) (hj : j < M.n) : M.flat[i * M.n + j]? = some (M.el i j) := by
  have : ∀ (m : Nat) (f : Nat → List α), (∀ i, (f i).length = M.n) → ∀ i < m,
      ((List.range m).flatMap f)[i * M.n + j]? = (f i)[j]? ∧ ((List.range m).flatMap f).length = m * M.n := by
    intro m f hf i hi
    induction m generalizing i with
    | zero => omega
    | succ m ih =>
      have hl : ((List.range m).flatMap f).length = m * M.n := by
        clear ih
        clear hi
        induction m with
        | zero => simp
        | succ m ih => rw [List.range_succ, List.flatMap_append, List.length_append, ih]; simp [hf, Nat.succ_mul]
      rw [List.range_succ, List.flatMap_append, List.length_append, hl]
      refine ⟨?_, by simp [hf, Nat.succ_mul]⟩
      by_cases h : i < m
      · rw [List.getElem?_append_left (by rw [hl]; exact flat_lt h hj)]
        exact (ih i h).1
      · have : i = m := by omega
        subst this
        rw [List.getElem?_append_right (by rw [hl]; omega), hl]
        simp
  have h1 := (this M.m M.row (fun i => by simp [Mat.row]) i hi).1
  unfold Mat.flat
  rw [h1]
  simp [Mat.row, hj]

theorem flat_len (M : Mat α) : M.flat.length = M.m * M.n := by
  unfold Mat.flat
  generalize M.m = m
  induction m with
  | zero => simp
  | succ m ih => rw [List.range_succ, List.flatMap_append, List.length_append, ih]; simp [Mat.row, Nat.succ_mul]

theorem flat_isMat {M : Mat α} (hz : M.m = 0 ↔ M.n = 0) : IsMat ⟨M.m, M.n, M.flat⟩ M :=
  ⟨rfl, rfl, flat_len M, hz, fun _ _ hi hj => flat_get M hi hj⟩

theorem isMat_eq {a : Arr2 α} {M : Mat α} (h : IsMat a M) : a = ⟨M.m, M.n, M.flat⟩ :=
  Arr2.isMat_unique h (flat_isMat h.zero)

theorem isMat_flat {a : Arr2 α} {M : Mat α} (h : IsMat a M) : a.data = M.flat := by rw [isMat_eq h]

theorem ofCol_isMat {l : List α} (hl : l ≠ []) : IsMat ⟨len l, 1, l⟩ (Mat.ofCol l) := by
  have : l.length ≠ 0 := by simpa using hl
  refine ⟨rfl, rfl, by simp [Mat.ofCol], by simp [Mat.ofCol, hl], fun i j hi hj => ?_⟩
  simp only [Mat.ofCol] at hi hj ⊢
  have : j = 0 := by omega
  subst this
  simp [hi]

theorem empty_isMat : IsMat (⟨0, 0, []⟩ : Arr2 α) Mat.empty := ⟨rfl, rfl, rfl, by simp [Mat.empty], by simp [Mat.empty]⟩

theorem Spec.Val.matrix_flat (v : Val α) : v.matrix.flat = v.list := by
  match v with
  | .vec [] => rfl
  | .vec (x :: l) => exact (isMat_flat (ofCol_isMat (l := x :: l) (by simp))).symm
  | .mat M => rfl

/-! ### The parts of a state -/

section
variable {Γ : MCtx} {h : MHeap α} {st : MState α}

theorem Spec.MRealises.flat (hr : MRealises Γ h st) : Realises Γ.flags h.heap st.lists := by
  refine ⟨hr.owned, hr.live, fun i => ?_, hr.requests⟩
  rw [hr.elems i]
  unfold MCtx.flags
  cases Γ i <;> rfl

theorem Spec.MCtx.cases (Γ : MCtx) (i : Nat) : Γ i = none ∨ Γ.Is .vector i ∨ Γ.Is .matrix i := by
  unfold MCtx.Is
  rcases Γ i with _ | ⟨_ | _, _⟩ <;> simp

theorem Spec.MCtx.Is.some {Γ : MCtx} {r : Rank} {i : Nat} (h : Γ.Is r i) : ∃ af, Γ i = some (r, af) := by
  unfold MCtx.Is at h
  rcases e : Γ i with _ | ⟨r', af⟩
  · rw [e] at h; cases h
  · rw [e] at h; exact ⟨af, by cases h; rfl⟩

theorem Spec.MCtx.Is.ne {Γ : MCtx} {i : Nat} (h1 : Γ.Is .vector i) (h2 : Γ.Is .matrix i) : False := by
  obtain ⟨_, e1⟩ := h1.some
  obtain ⟨_, e2⟩ := h2.some
  rw [e1] at e2; cases e2

theorem Spec.MRealises.holds2 (hr : MRealises Γ h st) : Holds2 ⟨h.heap, h.dims2⟩ st.mats := by
  intro i
  unfold view2 MState.mats
  simp only
  rw [hr.elems i]
  rcases Γ.cases i with hi | hi | hi
  · rw [hi, (hr.gone i hi).1]; exact empty_isMat
  · obtain ⟨⟨l, hl⟩, hd⟩ := hr.vector i hi
    obtain ⟨af, e⟩ := hi.some
    rw [hl, e]
    simp only [Option.map_some, Option.getD_some, Val.list]
    have hv := hr.elems i
    rw [e, hl] at hv
    simp only [Option.map_some, Val.list] at hv
    obtain ⟨o, ho⟩ := live_obj (h := h.heap) (i := i) (by rw [ne_eq, ← view_none_iff (owned_inv hr.owned), hv]; simp)
    obtain ⟨l', v1, v2, v3⟩ := view_of (owned_inv hr.owned) ho
    rw [hv] at v1; cases v1
    have hd2 : h.dims2 i = if o.n = 0 then (0, 0) else (o.n, 1) := by
      unfold MHeap.dims2; rw [hd, ho]; rfl
    rw [hd2, ← v3]
    cases l with
    | nil => exact empty_isMat
    | cons x l =>
      rw [if_neg (by simp; omega)]
      exact ofCol_isMat (by simp)
  · obtain ⟨M, hM, hz, hd⟩ := hr.matrix i hi
    obtain ⟨af, e⟩ := hi.some
    rw [hM, e]
    have hd2 : h.dims2 i = ((M.m : Int), (M.n : Int)) := by unfold MHeap.dims2; rw [hd]; rfl
    rw [hd2]
    exact flat_isMat hz

theorem Spec.MRealises.wellTyped2 (hr : MRealises Γ h st) {c : Stmt2 α} (hc : c.Typed Γ) :
    c.WellTyped ⟨h.heap, h.dims2⟩ := by
  have al : ∀ i, Γ.Is .matrix i → h.heap.objs i ≠ none := by
    intro i hi
    obtain ⟨af, e⟩ := hi.some
    exact hr.flat.alive (by unfold MCtx.flags; rw [e]; simp)
  have same : ∀ i j, Γ.Is .matrix i → Γ i = Γ j → SameType h.heap i j := by
    intro i j hi e
    obtain ⟨oi, h1⟩ := live_obj (al i hi)
    obtain ⟨oj, h2⟩ := live_obj (al j (by unfold MCtx.Is; rw [← e]; exact hi))
    refine ⟨oi, oj, h1, h2, ?_⟩
    have l1 := hr.live i
    have l2 := hr.live j
    rw [h1] at l1; rw [h2] at l2; rw [e, ← l2] at l1
    exact Option.some.inj l1
  refine ⟨fun i hi => al i (hc.1 i hi), ?_⟩
  have h1 := hc.1
  have h2 := hc.2
  cases c <;> first | trivial | exact same _ _ (h1 _ (by simp [Stmt2.vars])) h2

/-- The state after some of the matrices changed. -/
theorem Spec.MRealises.after2 (hr : MRealises Γ h st) {h2 : Heap2 α} (ho : Owned h2.heap)
    (hl : ∀ k, h2.heap.objs k = none ↔ h.heap.objs k = none)
    (ht : ∀ k o o', h.heap.objs k = some o → h2.heap.objs k = some o' → o'.af = o.af) {S : Nat → Mat α}
    (hS : Holds2 h2 S) {ks : List Nat} (hks : ∀ k ∈ ks, Γ.Is .matrix k) (hother : ∀ k, k ∉ ks → S k = st.mats k) {n : Nat}
    (hq : h2.heap.requests = n) :
    MRealises Γ ⟨h2.heap, fun i => (h.dims i).map fun _ => h2.dims i⟩
      (n, fun k => if k ∈ ks then .mat (S k) else st.2 k) := by
  have live : ∀ i, (h2.heap.objs i).map Obj.af = (Γ i).map Prod.snd := by
    intro i
    rw [← hr.live i]
    cases e : h.heap.objs i with
    | none => rw [(hl i).2 e]
    | some o =>
      cases e' : h2.heap.objs i with
      | none => rw [(hl i).1 e'] at e; cases e
      | some o' => simp [ht i o o' e e']
  have vw : ∀ i, Γ i ≠ none → ∃ d, view h2.heap i = some d ∧ IsMat ⟨(h2.dims i).1, (h2.dims i).2, d⟩ (S i) := by
    intro i hi
    have h1 : h2.heap.objs i ≠ none := by
      intro e
      have := live i
      rw [e] at this
      cases e' : Γ i with
      | none => exact hi e'
      | some _ => rw [e'] at this; cases this
    obtain ⟨o, ho'⟩ := live_obj h1
    obtain ⟨l, v1, v2, v3⟩ := view_of (owned_inv ho) ho'
    have h3 := hS i
    unfold view2 at h3
    rw [v1] at h3
    exact ⟨l, v1, h3⟩
  refine ⟨ho, live, fun i => ?_, fun i hi => ?_, fun i hi => ?_, fun i hi => ?_, hq⟩
  · cases e : Γ i with
    | none =>
      have := live i
      rw [e] at this
      rw [(view_none_iff (owned_inv ho) i).2 (by simpa using this)]; rfl
    | some _ =>
      obtain ⟨d, v1, v2⟩ := vw i (by rw [e]; simp)
      rw [v1]
      simp only [Option.map_some]
      congr 1
      have := isMat_flat v2
      simp only at this
      rw [this]
      split
      · rfl
      · rename_i hk
        rw [hother i hk]; exact Val.matrix_flat _
  · have hk : i ∉ ks := fun hk => by
      obtain ⟨af, e⟩ := (hks i hk).some
      rw [hi] at e; cases e
    simp only [hk, if_false]
    obtain ⟨h1, h3⟩ := hr.gone i hi
    exact ⟨h1, by simp [h3]⟩
  · have hk : i ∉ ks := fun hk => hi.ne (hks i hk)
    simp only [hk, if_false]
    obtain ⟨h1, h3⟩ := hr.vector i hi
    exact ⟨h1, by simp [h3]⟩
  · obtain ⟨M, hM, hz, hd⟩ := hr.matrix i hi
    obtain ⟨af, e⟩ := hi.some
    obtain ⟨d, v1, v2⟩ := vw i (by rw [e]; simp)
    have r1 := v2.rows
    have r2 := v2.cols
    simp only at r1 r2
    by_cases hk : i ∈ ks
    · refine ⟨S i, by simp [hk], v2.zero, ?_⟩
      simp only [hd, Option.map_some, ← r1, ← r2]
    · have hSi : S i = M := by rw [hother i hk]; unfold MState.mats; rw [hM]; rfl
      rw [hSi] at r1 r2
      refine ⟨M, by simp [hk, hM], hz, ?_⟩
      simp only [hd, Option.map_some, ← r1, ← r2]

/-- Nothing changed but the number of requests. -/
theorem Spec.MRealises.unchanged2 (hr : MRealises Γ h st) {h2 : Heap2 α}
    (hl : ∀ k, h2.heap.objs k = none ↔ h.heap.objs k = none)
    (ht : ∀ k o o', h.heap.objs k = some o → h2.heap.objs k = some o' → o'.af = o.af)
    (hu : Unchanged2 ⟨h.heap, h.dims2⟩ h2) {n : Nat} (hq : h2.heap.requests = n) :
    MRealises Γ ⟨h2.heap, fun i => (h.dims i).map fun _ => h2.dims i⟩ (n, st.2) := by
  have := hr.after2 hu.owned hl ht (holds2_unchanged hr.holds2 hu) (ks := []) (by simp) (fun _ _ => rfl) hq
  simpa using this

end

theorem moveAssign2_rejected {b : Build} (hb : b.Checked) (hn : b.ndebug = false) {s : Vars2 α} {S : Nat → Mat α}
    (h : AreMats s S) {i j : Nat} (hij : i ≠ j) (hm : (Stmt2.moveAssign i j).meaning S = none) :
    exec2 b (.moveAssign i j) s = (.trap .abort, s) := by
  simp only [Stmt2.meaning, ite_eq_right_iff, reduceCtorEq, imp_false] at hm
  have h1 := (h i).rows; have h2 := (h i).cols; have h3 := (h j).rows; have h4 := (h j).cols
  have c1 : ((s i).rows == (s j).rows && (s i).cols == (s j).cols) = false := by
    rw [← Bool.not_eq_true]
    intro hcc
    simp at hcc
    exact hm ⟨hij, by omega, by omega⟩
  simp only [exec2, Vars2.moveAssign, Op.get_bind]
  rw [c1]
  simp only [assertNormal, hb.1, hn]
  rfl

/-- The run `z` of the program from the memory `h` agrees with the meaning `r`. -/
structure MAgrees (Γ : MCtx) (h : MHeap α) (z : Res Unit × MHeap α) (r : Exit × MState α) : Prop where
  res : z.1 = r.1.res
  state : r.1 ≠ .abort → MRealises Γ z.2 r.2
  mem : z.2.heap.mem = h.heap.mem

/-- One statement on two-dimensional arrays. -/
theorem stmt2_agrees (b : Build) {Γ : MCtx} {h : MHeap α} {st : MState α} (hr : MRealises Γ h st) {c : Stmt2 α}
    (hc : c.Typed Γ) (hm : (MProg.stmt2 c).Moderate b h.heap.mem.fails st) :
    MAgrees Γ h (MHeap.on2 (hexec2 b c) h) (c.step b h.heap.mem.fails st) := by
  obtain ⟨m1, m2, m0, m3⟩ := hm
  have hw := hr.wellTyped2 hc
  have hs := hr.holds2
  have hi : Inv h.heap none := owned_inv hr.owned
  have hq := hr.requests
  cases hv : c.meaning st.mats with
  | none =>
    obtain ⟨hb, hn⟩ := m3 hv
    by_cases hmv : ∃ i j, c = .moveAssign i j
    · obtain ⟨i, j, rfl⟩ := hmv
      have hij : i ≠ j := by rintro rfl; exact m0 i rfl
      have he := moveAssign2_rejected hb (hn ⟨i, j, rfl⟩) (s := arraysOf ⟨h.heap, h.dims2⟩) hs hij hv
      obtain ⟨q, m, mq⟩ := hexec2_mem b (h := ⟨h.heap, h.dims2⟩) hi hw (arraysOf_holds _) hs (by rw [he]; simp)
      rw [he] at m mq
      have hq0 : q = false := (mq.2 (by simp)).2 hb (by simp)
      subst hq0
      obtain ⟨e1, e2⟩ := m.done (by simp)
      have ha : (Stmt2.moveAssign i j).asks st.mats = false := by rw [asks_of (by simp), hv]
      have hst : (Stmt2.moveAssign i j).step b h.heap.mem.fails st = (.abort, st.1, st.2) := by
        simp [Stmt2.step, Stmt2.step.next, ha, hv]
      rw [hst]
      exact ⟨e1, fun hne => absurd rfl hne, m.mem⟩
    · have hne : ∀ i j, c ≠ .moveAssign i j := fun i j e => hmv ⟨i, j, e⟩
      have he : exec2 b c (arraysOf ⟨h.heap, h.dims2⟩) = (.trap b.kind, arraysOf ⟨h.heap, h.dims2⟩) := by
        rcases C34_invalid_statement hb (s := arraysOf ⟨h.heap, h.dims2⟩) hs m1 m2 hv with e | ⟨i, j, e, _⟩
        · exact e
        · exact absurd e (hne i j)
      obtain ⟨q, m, -⟩ := hexec2_mem b (h := ⟨h.heap, h.dims2⟩) hi hw (arraysOf_holds _) hs (by rw [he]; simp)
      obtain ⟨e1, e2, e3⟩ := C100_invalid_statement hb (h := ⟨h.heap, h.dims2⟩) hr.owned hw hs m1 m2 hv hne
      have hnext : Stmt2.step.next b c st = (.ofKind b.kind, st.2) := by
        unfold Stmt2.step.next
        rw [hv]
        cases c <;> first | rfl | exact absurd rfl (hne _ _)
      have hk : (Exit.ofKind b.kind).res = .trap b.kind := by cases b.kind <;> rfl
      simp only [hq] at e1 e3
      unfold Stmt2.step
      rw [hnext]
      by_cases ha : c.asks st.mats = true
      · rw [if_pos ha] at e3
        rw [if_pos ha]
        by_cases hf : h.heap.mem.fails st.1 = true
        · rw [if_pos ⟨ha, hf⟩] at e1
          rw [if_pos hf]
          exact ⟨e1, fun _ => hr.unchanged2 m.live m.types e2 e3, m.mem⟩
        · rw [if_neg (fun h => hf h.2)] at e1
          rw [if_neg hf]
          exact ⟨e1.trans hk.symm, fun _ => hr.unchanged2 m.live m.types e2 e3, m.mem⟩
      · rw [if_neg ha] at e3
        rw [if_neg ha]
        rw [if_neg (fun h => ha h.1)] at e1
        exact ⟨e1.trans hk.symm, fun _ => hr.unchanged2 m.live m.types e2 e3, m.mem⟩
  | some S' =>
    obtain ⟨v', he, hv'⟩ := C34_valid_statement b (s := arraysOf ⟨h.heap, h.dims2⟩) hs m1 m2 hv
    obtain ⟨q, m, -⟩ := hexec2_mem b (h := ⟨h.heap, h.dims2⟩) hi hw (arraysOf_holds _) hs (by rw [he]; simp)
    obtain ⟨e1, e2, e3⟩ := C100_valid_statement b (h := ⟨h.heap, h.dims2⟩) hr.owned hw hs m1 m2 hv
    have hnext : Stmt2.step.next b c st = (.normal, fun k => if k ∈ c.vars then .mat (S' k) else st.2 k) := by
      unfold Stmt2.step.next
      rw [hv]
    have hoo : OutOfMemory h.heap ↔ h.heap.mem.fails st.1 = true := by rw [← hq]; rfl
    simp only [hq] at e1
    have done : ∀ {n}, ¬ (c.asks st.mats = true ∧ OutOfMemory h.heap) →
        (hexec2 b c ⟨h.heap, h.dims2⟩).2.heap.requests = n →
        MAgrees Γ h (MHeap.on2 (hexec2 b c) h) (.normal, n, fun k => if k ∈ c.vars then .mat (S' k) else st.2 k) := by
      intro n hno hn
      obtain ⟨f1, f2, f3⟩ := e3 hno
      exact ⟨f1, fun _ => hr.after2 f2 m.live m.types f3 hc.1 (fun k hk => meaning2_other hv hk) hn, m.mem⟩
    unfold Stmt2.step
    rw [hnext]
    by_cases ha : c.asks st.mats = true
    · rw [if_pos ha] at e1 ⊢
      by_cases hf : h.heap.mem.fails st.1 = true
      · rw [if_pos hf]
        obtain ⟨f1, f2⟩ := e2 ⟨ha, hoo.2 hf⟩
        exact ⟨f1, fun _ => hr.unchanged2 m.live m.types f2 e1, m.mem⟩
      · rw [if_neg hf]
        exact done (fun h => hf (hoo.1 h.2)) e1
    · rw [if_neg ha] at e1 ⊢
      exact done (fun h => ha h.1) e1

/-! ### One-dimensional statements and local arrays -/

section
variable {Γ : MCtx} {h : MHeap α} {st : MState α}

theorem Spec.MRealises.ofFlat {Γ' : MCtx} {h' : MHeap α} {st' : MState α} (R : Realises Γ'.flags h'.heap st'.lists)
    (h1 : ∀ i, Γ' i = none → st'.2 i = .vec [] ∧ h'.dims i = none)
    (h2 : ∀ i, Γ'.Is .vector i → (∃ l, st'.2 i = .vec l) ∧ h'.dims i = none)
    (h3 : ∀ i, Γ'.Is .matrix i → ∃ M, st'.2 i = .mat M ∧ (M.m = 0 ↔ M.n = 0) ∧
      h'.dims i = some ((M.m : Int), (M.n : Int))) : MRealises Γ' h' st' := by
  refine ⟨R.owned, R.live, fun i => ?_, h1, h2, h3, R.requests⟩
  rw [R.views i]
  unfold MCtx.flags
  cases Γ' i <;> rfl

/-- Some of the lists changed. -/
theorem Spec.MRealises.after1 (hr : MRealises Γ h st) {Γ' : MCtx} {heap' : Heap α} {n : Nat} {s' : Nat → List α}
    (R : Realises Γ'.flags heap' (n, s')) {ks : List Nat}
    (hks : ∀ k ∈ ks, (Γ'.Is .vector k ∨ Γ' k = none ∧ s' k = []) ∧ h.dims k = none)
    (ho : ∀ k, k ∉ ks → s' k = (st.2 k).list ∧ Γ' k = Γ k) :
    MRealises Γ' ⟨heap', h.dims⟩ (n, fun k => if k ∈ ks then .vec (s' k) else st.2 k) := by
  refine .ofFlat ?_ (fun i hi => ?_) (fun i hi => ?_) (fun i hi => ?_)
  · have e : MState.lists (n, fun k => if k ∈ ks then .vec (s' k) else st.2 k) = (n, s') := by
      unfold MState.lists
      congr 1
      funext k
      simp only
      split
      · rfl
      · rename_i hk; exact (ho k hk).1.symm
    rw [e]; exact R
  · by_cases hk : i ∈ ks
    · obtain ⟨h1, h2⟩ := hks i hk
      rcases h1 with h1 | ⟨_, h1⟩
      · obtain ⟨af, e⟩ := h1.some
        rw [hi] at e; cases e
      · simp [hk, h1, h2]
    · simp only [hk, if_false]
      exact hr.gone i (by rw [← (ho i hk).2]; exact hi)
  · by_cases hk : i ∈ ks
    · simp [hk, (hks i hk).2]
    · simp only [hk, if_false]
      exact hr.vector i (by unfold MCtx.Is; rw [← (ho i hk).2]; exact hi)
  · by_cases hk : i ∈ ks
    · obtain ⟨h1, h2⟩ := hks i hk
      rcases h1 with h1 | ⟨h1, _⟩
      · exact absurd hi (fun hi => h1.ne hi)
      · obtain ⟨af, e⟩ := hi.some
        rw [h1] at e; cases e
    · simp only [hk, if_false]
      exact hr.matrix i (by unfold MCtx.Is; rw [← (ho i hk).2]; exact hi)

theorem step_other (b : Build) (fails : Nat → Bool) (c : Stmt α) (st : PState α) {k : Nat} (hk : k ∉ c.vars) :
    (c.step b fails st).2.2 k = st.2 k := by
  unfold Stmt.step
  cases hv : c.meaning st.2 with
  | none => rfl
  | some s' =>
    have : s' k = st.2 k := by
      cases c <;> simp only [Stmt.vars, Stmt.target, List.mem_cons, List.not_mem_nil, or_false, not_or] at hk <;>
        simp only [Stmt.meaning] at hv <;> (repeat' split at hv) <;>
        cases hv <;> simp [upd, hk]
    simp only
    split
    · split
      · rfl
      · exact this
    · exact this

/-- One statement on one-dimensional arrays. -/
theorem stmt1_agrees (b : Build) (hr : MRealises Γ h st) {c : Stmt α} (hc : (MProg.stmt c).Typed Γ)
    (hm : (MProg.stmt c).Moderate b h.heap.mem.fails st) :
    MAgrees Γ h (MHeap.onHeap (hexec b c) h) (st.change c.vars (c.step b h.heap.mem.fails st.lists)) := by
  obtain ⟨a1, a2, a3⟩ := stmt_agrees b hr.flat hc.1 hm
  refine ⟨a1, fun hne => ?_, a3⟩
  exact hr.after1 (a2 hne) (fun k hk => ⟨.inl (hc.2 k hk), (hr.vector k (hc.2 k hk)).2⟩)
    (fun k hk => ⟨step_other b _ c _ hk, rfl⟩)

theorem init_other (b : Build) (fails : Nat → Bool) (i : Nat) (init : Init α) (st : PState α) {k : Nat} (hk : k ≠ i)
    (hu : k ∉ init.uses) : (init.step b fails i st).2.2 k = st.2 k := by
  have hmk : ∀ l, (make fails i l st).2.2 k = st.2 k := by
    intro l
    unfold make
    split
    · simp [upd, hk]
    · split
      · rfl
      · simp [upd, hk]
  cases init with
  | move j =>
    simp only [Init.uses, List.mem_singleton] at hu
    simp [Init.step, upd, hk, hu]
  | size n => simp only [Init.step]; split; rfl; exact hmk _
  | fill n x => simp only [Init.step]; split; rfl; exact hmk _
  | _ => exact hmk _

theorem init_failed (b : Build) (fails : Nat → Bool) (i : Nat) (init : Init α) (st : PState α)
    (hx : (init.step b fails i st).1 ≠ .normal) : (init.step b fails i st).2.2 = st.2 := by
  have hmk : ∀ l, (make fails i l st).1 ≠ .normal → (make fails i l st).2.2 = st.2 := by
    intro l
    unfold make
    split
    · simp
    · split <;> simp
  cases init with
  | move j => simp [Init.step] at hx
  | size n =>
    simp only [Init.step] at hx ⊢
    split
    · rfl
    · rename_i hn; rw [if_neg hn] at hx; exact hmk _ hx
  | fill n x =>
    simp only [Init.step] at hx ⊢
    split
    · rfl
    · rename_i hn; rw [if_neg hn] at hx; exact hmk _ hx
  | empty => exact hmk _ hx
  | list xs => exact hmk _ hx
  | copy j => exact hmk _ hx

theorem flags_upd (Γ : MCtx) (i : Nat) (r : Rank) (af : AlignmentFlag) :
    MCtx.flags (upd Γ i (some (r, af))) = upd Γ.flags i (some af) := by
  funext k
  unfold MCtx.flags upd
  split <;> rfl

/-- The run `z` of an initialisation agrees with the meaning `r`. -/
structure MInits (Γ : MCtx) (h : MHeap α) (i : Nat) (t : Rank × AlignmentFlag) (z : Res Unit × MHeap α)
    (r : Exit × MState α) : Prop where
  res : z.1 = r.1.res
  done : r.1 = .normal → MRealises (upd Γ i (some t)) z.2 r.2
  failed : r.1 = .exception → MRealises Γ z.2 r.2
  mem : z.2.heap.mem = h.heap.mem

/-- A local one-dimensional array. -/
theorem init1_inits (b : Build) (hr : MRealises Γ h st) {i : Nat} (hi : Γ i = none) {af : AlignmentFlag} {init : Init α}
    (ht : init.Typed Γ.flags af) (hu : ∀ j ∈ init.uses, Γ.Is .vector j) :
    MInits Γ h i (.vector, af) (MHeap.onHeap (hinit b i af init) h)
      (st.change (i :: init.uses) (init.step b h.heap.mem.fails i st.lists)) := by
  obtain ⟨a1, a2, a2', a3⟩ := hinit_inits b hr.flat (i := i) (by unfold MCtx.flags; rw [hi]; rfl) ht
  have hdi := hr.gone i hi
  refine ⟨a1, fun hx => ?_, fun hx => ?_, a3⟩
  · have R := a2 hx
    rw [← flags_upd Γ i .vector af] at R
    refine hr.after1 R (fun k hk => ?_) (fun k hk => ?_)
    · by_cases hki : k = i
      · subst hki
        exact ⟨.inl (by simp [MCtx.Is, upd]), hdi.2⟩
      · have hk : k ∈ init.uses := by simpa [hki] using hk
        exact ⟨.inl (by simpa [MCtx.Is, upd, hki] using hu k hk), (hr.vector k (hu k hk)).2⟩
    · simp only [List.mem_cons, not_or] at hk
      exact ⟨init_other b _ i init _ hk.1 hk.2, by simp [upd, hk.1]⟩
  · have R := a2' hx
    have hx' : (init.step b h.heap.mem.fails i st.lists).1 = .exception := hx
    have hs := init_failed b h.heap.mem.fails i init st.lists (by rw [hx']; simp)
    refine hr.after1 R (fun k hk => ?_) (fun k hk => ?_)
    · by_cases hki : k = i
      · subst hki
        refine ⟨.inr ⟨hi, ?_⟩, hdi.2⟩
        rw [hs]
        show (st.2 k).list = []
        rw [hdi.1]; rfl
      · have hk : k ∈ init.uses := by simpa [hki] using hk
        exact ⟨.inl (hu k hk), (hr.vector k (hu k hk)).2⟩
    · rw [hs]; exact ⟨rfl, rfl⟩

/-- The end of a block. -/
theorem mdestroy_realises {i : Nat} {t : Rank × AlignmentFlag} (hi : Γ i = none)
    (hr : MRealises (upd Γ i (some t)) h st) :
    (mdestroy i h).1 = .ok () ∧ MRealises Γ (mdestroy i h).2 (st.1, upd st.2 i (.vec [])) ∧
      (mdestroy i h).2.heap.mem = h.heap.mem := by
  have R := hr.flat
  rw [flags_upd Γ i t.1 t.2] at R
  obtain ⟨d1, d2, d3⟩ := destroy_realises (i := i) (af := t.2) (by unfold MCtx.flags; rw [hi]; rfl) R
  have e : mdestroy i h = (.ok (), ⟨(Heap.destroy i h.heap).2, fun k => if k = i then none else h.dims k⟩) := by
    unfold mdestroy
    rw [Op.bind_run]
    unfold MHeap.onHeap
    rw [d1]
    rfl
  rw [e]
  refine ⟨rfl, .ofFlat ?_ (fun k hk => ?_) (fun k hk => ?_) (fun k hk => ?_), d3⟩
  · have e : MState.lists (st.1, upd st.2 i (.vec [])) = (st.1, upd st.lists.2 i []) := by
      unfold MState.lists
      congr 1
      funext k
      simp only [upd]
      split <;> rfl
    rw [e]; exact d2
  · by_cases hki : k = i
    · subst hki; simp [upd]
    · have := hr.gone k (by simpa [upd, hki] using hk)
      simpa [upd, hki] using this
  · by_cases hki : k = i
    · subst hki
      obtain ⟨af, e⟩ := hk.some
      rw [hi] at e; cases e
    · have := hr.vector k (by simpa [MCtx.Is, upd, hki] using hk)
      simpa [upd, hki] using this
  · by_cases hki : k = i
    · subst hki
      obtain ⟨af, e⟩ := hk.some
      rw [hi] at e; cases e
    · have := hr.matrix k (by simpa [MCtx.Is, upd, hki] using hk)
      simpa [upd, hki] using this

end

/-! ### Local two-dimensional arrays -/

/-- The list part of `newMat`. -/
def newList (b : Build) (fails : Nat → Bool) (i : Nat) (asks : Bool) (r : Option (List α)) (st : PState α) :
    Exit × PState α :=
  if asks ∧ fails st.1 then (.exception, st.1 + 1, st.2)
  else
    match r with
    | none => (.ofKind b.kind, st.1 + asks.toNat, st.2)
    | some l => (.normal, st.1 + asks.toNat, upd st.2 i l)

/-- A refused request. -/
theorem construct_refused (b : Build) {Γ : Ctx} {h : Heap α} {st : PState α} (hr : Realises Γ h st) {i : Nat}
    (hi : Γ i = none) (af : AlignmentFlag) {n : Int} (hn : 0 < n) (hf : OutOfMemory h) {g : List α → Res (List α)} :
    (Heap.construct b i af n g h).1 = .trap .exception := by
  have h1 : decide (n > -1) = true := by simp; omega
  have hf' : h.mem.fails h.requests = true := hf
  unfold Heap.construct Heap.ctorFill Heap.ctor
  simp only [Op.bind_run, h1, assertDebug_true, Op.lift]
  simp [show ¬ n = 0 by omega, show ¬ n < 0 by omega, Op.bind_run, Heap.alloc, hf']

/-- Construction of a one-dimensional array, the last step of which may be an error. -/
theorem construct_checked (b : Build) {Γ : Ctx} {h : Heap α} {st : PState α} (hr : Realises Γ h st) {i : Nat}
    (hi : Γ i = none) (af : AlignmentFlag) {n : Int} (hn : 0 ≤ n) {g : List α → Res (List α)}
    {r : Option (List α)}
    (hg : ∀ l0 : List α, (l0.length : Int) = n → match r with
      | some l => ∃ l1, g l0 = .ok l1 ∧ l1.length = l.length
      | none => g l0 = .trap b.kind)
    (hdef : ∀ l, r = some l → (l.length : Int) = n ∧ g (List.replicate n.toNat default) = .ok l) :
    Inits Γ h i af (Heap.construct b i af n g h)
      (newList b h.mem.fails i (decide (0 < n)) r st) := by
  unfold newList
  have hdec : (decide (0 < n) = true ∧ h.mem.fails st.1 = true) ↔ (0 < n ∧ h.mem.fails st.1 = true) := by simp
  simp only [hdec]
  generalize hk' : b.kind = k at hg
  cases r with
  | some l =>
    obtain ⟨hl, hd⟩ := hdef l rfl
    have := construct_inits b hr hi af hl hg hd
    unfold make at this
    by_cases h0 : l = []
    · have hn0 : ¬ 0 < n := by rw [h0] at hl; simp at hl; omega
      rw [if_pos h0] at this
      rw [if_neg (fun h => hn0 h.1)]
      simpa [hn0] using this
    · have hn0 : 0 < n := by
        cases l with
        | nil => exact absurd rfl h0
        | cons => simp at hl; omega
      rw [if_neg h0] at this
      by_cases hf : h.mem.fails st.1 = true
      · rw [if_pos hf] at this
        rw [if_pos ⟨hn0, hf⟩]
        exact this
      · rw [if_neg hf] at this
        rw [if_neg (fun h => hf h.2)]
        simpa [hn0] using this
  | none =>
    simp only at hg
    obtain ⟨t1, t2, t3, t4⟩ := construct_step b hr.inv (i := i) (af := af) (n := n) (g := g) (hr.dead hi)
      (fun l0 h0 => by rw [hg l0 h0]; simp)
    have hq : (Heap.construct b i af n g h).2.requests = st.1 + (decide (0 < n)).toNat := by
      unfold Heap.construct
      rw [Op.bind_run]
      have := ctorFill_requests b af n g h
      rw [hr.requests] at this
      rcases hh : Heap.ctorFill b af n g h with ⟨o | _ | _, h'⟩ <;> rw [hh] at this <;> simp only at this ⊢
      · rw [noReq_setObj, this]
      · exact this
      · exact this
    have hooM : OutOfMemory h ↔ h.mem.fails st.1 = true := by rw [← hr.requests]; rfl
    have hdf := hg (List.replicate n.toNat default) (by simp; omega)
    have he : (Heap.construct b i af n g h).1 ≠ .ok () := by
      intro he
      obtain ⟨l, e⟩ := (t3 he).2.2.2
      rw [hdf] at e; cases e
    have bad : Realises Γ (Heap.construct b i af n g h).2 (st.1 + (decide (0 < n)).toNat, st.2) := by
      refine ⟨t1.inv.owned, fun k => ?_, fun k => ?_, hq⟩
      · rw [t1.frame k (.inr he)]; exact hr.live k
      · rw [t2 he k]; exact hr.views k
    have hk : (Exit.ofKind k).res = .trap k := by cases k <;> rfl
    by_cases hf : 0 < n ∧ h.mem.fails st.1 = true
    · rw [if_pos hf]
      have hx : (Heap.construct b i af n g h).1 = .trap .exception := by
        rcases construct_refused b hr hi af hf.1 (hooM.2 hf.2) (g := g) with e
        exact e
      refine ⟨hx, by simp, fun _ => ?_, t1.mem⟩
      simpa [hf.1] using bad
    · rw [if_neg hf]
      refine ⟨?_, fun e => ?_, fun _ => bad, t1.mem⟩
      · rcases t4 he with e | e | ⟨k', e1, e2⟩
        · omega
        · exact absurd ⟨by omega, hooM.1 e.2.1⟩ hf
        · rw [hdf] at e1; cases e1
          rw [e2]; exact hk.symm
      · cases k <;> cases e

section
variable {Γ : MCtx} {h : MHeap α} {st : MState α}

theorem Spec.MRealises.sameStore (hr : MRealises Γ h st) {h' : MHeap α} {n : Nat}
    (R : Realises Γ.flags h'.heap (n, st.lists.2)) (hd : h'.dims = h.dims) : MRealises Γ h' (n, st.2) :=
  .ofFlat R (fun i hi => by rw [hd]; exact hr.gone i hi) (fun i hi => by rw [hd]; exact hr.vector i hi)
    (fun i hi => by rw [hd]; exact hr.matrix i hi)

theorem Spec.MRealises.newMatrix (hr : MRealises Γ h st) {i : Nat} {af : AlignmentFlag} {h' : MHeap α} {n : Nat} {M : Mat α}
    (R : Realises (upd Γ.flags i (some af)) h'.heap (n, upd st.lists.2 i M.flat)) (hz : M.m = 0 ↔ M.n = 0)
    (hd : h'.dims = fun k => if k = i then some ((M.m : Int), (M.n : Int)) else h.dims k) :
    MRealises (upd Γ i (some (.matrix, af))) h' (n, upd st.2 i (.mat M)) := by
  refine .ofFlat ?_ (fun k hk => ?_) (fun k hk => ?_) (fun k hk => ?_)
  · have e : MState.lists (n, upd st.2 i (.mat M)) = (n, upd st.lists.2 i M.flat) := by
      unfold MState.lists
      congr 1
      funext k
      simp only [upd]
      split <;> rfl
    rw [e, flags_upd]; exact R
  · by_cases hki : k = i
    · subst hki; simp [upd] at hk
    · rw [hd]; simpa [upd, hki] using hr.gone k (by simpa [upd, hki] using hk)
  · by_cases hki : k = i
    · subst hki; simp [upd, MCtx.Is] at hk
    · rw [hd]; simpa [upd, hki] using hr.vector k (by simpa [upd, hki, MCtx.Is] using hk)
  · by_cases hki : k = i
    · subst hki; exact ⟨M, by simp [upd], hz, by simp [hd]⟩
    · rw [hd]; simpa [upd, hki] using hr.matrix k (by simpa [upd, hki, MCtx.Is] using hk)

theorem new_lift (b : Build) (hr : MRealises Γ h st) {i : Nat} {af : AlignmentFlag} {asks : Bool} {R : Option (Mat α)}
    {d : Option (Int × Int)} {z : Res Unit × Heap α}
    (I : Inits Γ.flags h.heap i af z (newList b h.heap.mem.fails i asks (R.map Mat.flat) st.lists))
    (hR : ∀ M, R = some M → (M.m = 0 ↔ M.n = 0) ∧ d = some ((M.m : Int), (M.n : Int)))
    {z' : Res Unit × MHeap α} (h1 : z'.1 = z.1) (h2 : z'.2.heap = z.2)
    (h3 : z.1 = .ok () → z'.2.dims = fun k => if k = i then d else h.dims k) (h4 : z.1 ≠ .ok () → z'.2.dims = h.dims) :
    MInits Γ h i (.matrix, af) z' (newMat b h.heap.mem.fails i asks R st) := by
  obtain ⟨i1, i2, i3, i4⟩ := I
  have hst : st.lists.1 = st.1 := rfl
  unfold newList at i1 i2 i3
  rw [hst] at i1 i2 i3
  unfold newMat
  by_cases hf : asks = true ∧ h.heap.mem.fails st.1 = true
  · rw [if_pos hf] at i1 i2 i3 ⊢
    refine ⟨h1.trans i1, by simp, fun _ => ?_, by rw [h2]; exact i4⟩
    refine hr.sameStore (by rw [h2]; exact i3 rfl) (h4 (by rw [i1]; simp [Exit.res]))
  · rw [if_neg hf] at i1 i2 i3 ⊢
    cases R with
    | none =>
      simp only [Option.map_none] at i1 i2 i3 ⊢
      refine ⟨h1.trans i1, fun e => ?_, fun e => ?_, by rw [h2]; exact i4⟩
      · cases hk : b.kind <;> rw [hk] at e <;> cases e
      · refine hr.sameStore (by rw [h2]; exact i3 e) (h4 (by rw [i1, show Exit.ofKind b.kind = .exception from e]; simp [Exit.res]))
    | some M =>
      simp only [Option.map_some] at i1 i2 i3 ⊢
      refine ⟨h1.trans i1, fun _ => ?_, by simp, by rw [h2]; exact i4⟩
      obtain ⟨hz, rfl⟩ := hR M rfl
      exact hr.newMatrix (by rw [h2]; exact i2 trivial) hz (h3 i1)

theorem checks_pass (b : Build) {m n : Int} (hd : Dims? m n) {β : Type} (f : Res β) :
    (do
      assertDebug b (decide (m ≥ 0))
      assertDebug b (decide (n ≥ 0))
      assertDebug b (semiValid m n)
      f) = f := by
  have h2 : semiValid m n = true := by
    unfold semiValid
    by_cases h : m = 0
    · simp [h, hd.2.2.1 h]
    · have : n ≠ 0 := fun h' => h (hd.2.2.2 h')
      rw [show (m == 0) = false by simpa using h, show (n == 0) = false by simpa using this]; rfl
  rw [show decide (m ≥ 0) = true by simpa using hd.1, show decide (n ≥ 0) = true by simpa using hd.2.1, h2]
  simp only [assertDebug_true, Res.ok_bind]

theorem checks_fail {b : Build} (hb : b.Checked) {m n : Int} (hd : ¬ Dims? m n) {β : Type} (f : Res β) :
    (do
      assertDebug b (decide (m ≥ 0))
      assertDebug b (decide (n ≥ 0))
      assertDebug b (semiValid m n)
      f) = .trap b.kind := by
  by_cases h1 : 0 ≤ m
  · rw [show decide (m ≥ 0) = true by simpa using h1, assertDebug_true, Res.ok_bind]
    by_cases h2 : 0 ≤ n
    · rw [show decide (n ≥ 0) = true by simpa using h2, assertDebug_true, Res.ok_bind]
      have h3 : semiValid m n = false := by
        have : ¬ (m = 0 ↔ n = 0) := fun h => hd ⟨h1, h2, h⟩
        unfold semiValid
        by_cases hm : m = 0
        · have : n ≠ 0 := fun h => this ⟨fun _ => h, fun _ => hm⟩
          simp [hm, this]
        · have : n = 0 := by omega
          simp [hm, this]
      rw [h3, assertDebug_false hb]; rfl
    · rw [show decide (n ≥ 0) = false by simpa using h2, assertDebug_false hb]; rfl
  · rw [show decide (m ≥ 0) = false by simpa using h1, assertDebug_false hb]; rfl

theorem build_inits (b : Build) (hr : MRealises Γ h st) {i : Nat} (hi : Γ i = none) (af : AlignmentFlag) {m n : Int}
    (hp1 : -(2 ^ 63) ≤ m * n) (hp2 : m * n < 2 ^ 63) {g : Arr2 α → Res (Arr2 α)} {R : Option (Mat α)}
    (hsome : ∀ M, R = some M → (M.m : Int) = m ∧ (M.n : Int) = n ∧
      (∀ t N, IsMat t N → N.m = M.m → N.n = M.n → ∃ t', g t = .ok t' ∧ t'.data.length = t.data.length) ∧
      ∃ t', g ⟨m, n, List.replicate (m * n).toNat default⟩ = .ok t' ∧ IsMat t' M)
    (hnone : R = none → Dims? m n → ∀ t N, IsMat t N → N.m = m.toNat → N.n = n.toNat → g t = .trap b.kind)
    (hbad : ¬ Dims? m n → R = none ∧ b.Checked) :
    MInits Γ h i (.matrix, af) (MHeap.build b i af m n g h) (newMat b h.heap.mem.fails i (decide (0 < m * n)) R st) := by
  have hi' : Γ.flags i = none := by unfold MCtx.flags; rw [hi]; rfl
  have hmul : imul m n = .ok (m * n) := imul_ok (by unfold IsIndex; omega)
  have mat : ∀ {l0 : List α}, Dims? m n → (l0.length : Int) = m * n →
      ∃ N, IsMat (⟨m, n, l0⟩ : Arr2 α) N ∧ N.m = m.toNat ∧ N.n = n.toNat := fun hd hl =>
    ⟨_, Arr2.matOf ⟨hd.1, hd.2.1, hl, hd.2.2⟩, rfl, rfl⟩
  have I : Inits Γ.flags h.heap i af (Heap.construct b i af (m * n) (fun tmp => do
      assertDebug b (decide (m ≥ 0))
      assertDebug b (decide (n ≥ 0))
      assertDebug b (semiValid m n)
      let t ← g ⟨m, n, tmp⟩
      pure t.data) h.heap) (newList b h.heap.mem.fails i (decide (0 < m * n)) (R.map Mat.flat) st.lists) := by
    by_cases hneg : m * n < 0
    · have hd : ¬ Dims? m n := fun hd => by
        have := Int.mul_nonneg hd.1 hd.2.1
        omega
      obtain ⟨rfl, hb⟩ := hbad hd
      have := construct_negative b hr.flat (i := i) af (n := m * n) (fun tmp => do
        assertDebug b (decide (m ≥ 0))
        assertDebug b (decide (n ≥ 0))
        assertDebug b (semiValid m n)
        let t ← g ⟨m, n, tmp⟩
        pure t.data) hneg
      unfold Init.step.bad at this
      rw [if_pos hb] at this
      have h0 : decide (0 < m * n) = false := by simp; omega
      simpa [newList, h0] using this
    · have key := construct_checked b hr.flat hi' af (n := m * n) (by omega) (r := R.map Mat.flat)
        (g := fun tmp => do
          assertDebug b (decide (m ≥ 0))
          assertDebug b (decide (n ≥ 0))
          assertDebug b (semiValid m n)
          let t ← g ⟨m, n, tmp⟩
          pure t.data)
        (fun l0 hl0 => by
          by_cases hd : Dims? m n
          · rw [checks_pass b hd]
            obtain ⟨N, n1, n2, n3⟩ := mat hd hl0
            cases R with
            | none =>
              simp only [Option.map_none]
              rw [hnone rfl hd _ N n1 n2 n3]; rfl
            | some M =>
              simp only [Option.map_some]
              obtain ⟨e1, e2, e3, e4⟩ := hsome M rfl
              obtain ⟨t', g1, g2⟩ := e3 _ N n1 (by omega) (by omega)
              refine ⟨t'.data, by rw [g1]; rfl, ?_⟩
              rw [g2, flat_len]
              have : (l0.length : Int) = (M.m * M.n : Nat) := by rw [hl0, ← e1, ← e2]; push_cast; rfl
              simp only
              omega
          · obtain ⟨rfl, hb⟩ := hbad hd
            exact checks_fail hb hd _)
        (fun l hl => by
          cases R with
          | none => cases hl
          | some M =>
            simp only [Option.map_some, Option.some.injEq] at hl
            obtain ⟨e1, e2, e3, t', g1, g2⟩ := hsome M rfl
            have hd : Dims? m n := Classical.byContradiction fun hd => absurd (hbad hd).1 (by simp)
            rw [checks_pass b hd]
            refine ⟨?_, ?_⟩
            · rw [← hl, flat_len, ← e1, ← e2]; push_cast; rfl
            · rw [g1]
              show Res.ok t'.data = _
              rw [isMat_flat g2, hl])
      exact key
  generalize hG : (fun tmp : List α => (do
      assertDebug b (decide (m ≥ 0))
      assertDebug b (decide (n ≥ 0))
      assertDebug b (semiValid m n)
      let t ← g ⟨m, n, tmp⟩
      pure t.data)) = G at I
  have hz : MHeap.build b i af m n g h = (MHeap.onHeap (Heap.construct b i af (m * n) G) >>= fun _ =>
      MHeap.setDims i (some (m, n))) h := by
    subst hG
    unfold MHeap.build
    rw [hmul, Op.lift_ok_bind]
  rw [hz, Op.bind_run]
  unfold MHeap.onHeap
  refine new_lift b hr I (d := some (m, n)) (fun M hM => ?_) ?_ ?_ ?_ ?_
  · obtain ⟨e1, e2, e3, t', g1, g2⟩ := hsome M hM
    exact ⟨g2.zero, by rw [e1, e2]⟩
  all_goals rcases hc : Heap.construct b i af (m * n) G h.heap with ⟨_ | _ | _, h'⟩ <;> simp [MHeap.setDims]

theorem listSizes_prod (L : List (List α)) :
    (Arr2.listSizes L).1 * (Arr2.listSizes L).2 = (L.length : Int) * (L.getD 0 []).length := by
  cases L with
  | nil => rfl
  | cons r rs =>
    simp only [Arr2.listSizes]
    split
    · rename_i h
      simp [h.2]
    · simp

theorem listMat_some {L : List (List α)} {M : Mat α} (h : listMat L = some M) :
    Rect L M.m M.n ∧ (M.m = 0 ↔ M.n = 0) ∧ ∀ i j, i < M.m → j < M.n → M.el i j = (Mat.ofLists L).el i j := by
  unfold listMat at h
  split at h
  · rename_i hr
    cases h
    refine ⟨hr, ?_, fun _ _ _ _ => rfl⟩
    rcases hr with ⟨h1, h2, h3, h4⟩ | ⟨h1, h2, h3⟩
    · simp only [Mat.ofLists]; omega
    · simp only [Mat.ofLists]; omega
  · split at h
    · rename_i hr
      cases h
      exact ⟨hr, by simp [Mat.empty], by simp [Mat.empty]⟩
    · cases h

theorem listMat_none {L : List (List α)} (h : listMat L = none) (m n : Nat) : ¬ Rect L m n := by
  intro hr
  unfold listMat at h
  split at h
  · cases h
  · rename_i h1
    split at h
    · cases h
    · rename_i h2
      rcases hr with ⟨r1, r2, r3, r4⟩ | ⟨r1, r2, r3⟩
      · apply h1
        left
        have : (L.getD 0 []).length = n := r4 _ (by
          rw [List.getD_eq_getElem?_getD, List.getElem?_eq_getElem (by omega)]
          exact List.getElem_mem _)
        exact ⟨by omega, rfl, by omega, fun r hr => by rw [r4 r hr, this]⟩
      · exact h2 (.inr ⟨rfl, rfl, r3⟩)

theorem const_isMat {m n : Int} (hd : Dims? m n) (x : α) :
    IsMat (⟨m, n, List.replicate (m * n).toNat x⟩ : Arr2 α) (Mat.const m.toNat n.toNat x) := by
  obtain ⟨h1, h2, h3⟩ := hd
  have hp : (m * n).toNat = m.toNat * n.toNat := by
    have e1 : m = (m.toNat : Int) := by omega
    have e2 : n = (n.toNat : Int) := by omega
    generalize m.toNat = a at *
    generalize n.toNat = c at *
    subst e1 e2
    rw [← Int.natCast_mul]; rfl
  refine ⟨by simp [Mat.const]; omega, by simp [Mat.const]; omega, by simp [Mat.const, hp], by simp only [Mat.const]; omega,
    fun i j hi hj => ?_⟩
  simp only [Mat.const] at hi hj ⊢
  rw [hp, List.getElem?_replicate, if_pos]
  calc i * n.toNat + j < i * n.toNat + n.toNat := by omega
    _ = (i + 1) * n.toNat := by rw [Nat.add_mul, Nat.one_mul]
    _ ≤ m.toNat * n.toNat := Nat.mul_le_mul_right _ (by omega)

/-- A local two-dimensional array. -/
theorem hinit2_inits (b : Build) (hr : MRealises Γ h st) {i : Nat} (hi : Γ i = none) {af : AlignmentFlag}
    {init : Init2 α} (ht : init.Typed Γ af) (hm : init.Moderate b st) :
    MInits Γ h i (.matrix, af) (hinit2 b i af init h) (init.step b h.heap.mem.fails i st) := by
  have hi' : Γ.flags i = none := by unfold MCtx.flags; rw [hi]; rfl
  cases init with
  | empty =>
    have e : Heap.setObj i (some (Obj.empty af)) h.heap = Heap.construct b i af 0 .ok h.heap := by
      unfold Heap.construct Heap.ctorFill Heap.ctor
      simp [Op.bind_run, Heap.onTrap, Heap.contents, Heap.store, Obj.empty, Heap.setObj, Op.lift]
    have I := construct_checked b hr.flat hi' af (n := 0) (by omega) (g := .ok) (r := some ([] : List α))
      (fun l0 h0 => ⟨l0, rfl, by simpa using h0⟩) (fun l hl => by cases hl; exact ⟨rfl, rfl⟩)
    simp only [hinit2, Init2.step]
    refine new_lift b hr (d := some (0, 0)) (R := some Mat.empty) (z := Heap.construct b i af 0 .ok h.heap) I
      (fun M hM => ?_) ?_ ?_ ?_ ?_
    · cases hM; exact ⟨by simp [Mat.empty], rfl⟩
    all_goals rw [← e]; simp [Op.bind_run, MHeap.onHeap, MHeap.setDims, Heap.setObj]
  | size m n =>
    obtain ⟨p1, p2, p3⟩ := hm
    simp only [hinit2, Init2.step]
    refine build_inits b hr hi af p1 p2 (fun M hM => ?_) (fun hR hd => ?_) (fun hd => ⟨if_neg hd, p3 hd⟩)
    · by_cases hd : Dims? m n
      · rw [if_pos hd] at hM
        cases hM
        have := const_isMat hd (default : α)
        refine ⟨this.rows.symm, this.cols.symm, fun t N _ _ _ => ⟨t, rfl, rfl⟩, _, rfl, this⟩
      · rw [if_neg hd] at hM; cases hM
    · rw [if_pos hd] at hR; cases hR
  | fill m n x =>
    obtain ⟨p1, p2, p3⟩ := hm
    simp only [hinit2, Init2.step]
    have hv : ∀ t : Arr2 α, (do (Arr2.assignValue x t).1; pure (Arr2.assignValue x t).2 : Res (Arr2 α)) =
        .ok { t with data := List.replicate t.data.length x } := by
      intro t
      simp only [Arr2.assignValue, Op.get_bind, Arr1.fill_ok]
      rfl
    refine build_inits b hr hi af p1 p2 (fun M hM => ?_) (fun hR hd => ?_) (fun hd => ⟨if_neg hd, p3 hd⟩)
    · by_cases hd : Dims? m n
      · rw [if_pos hd] at hM
        cases hM
        have := const_isMat hd x
        refine ⟨this.rows.symm, this.cols.symm, fun t N _ _ _ => ⟨_, hv t, by simp⟩, _, hv _, by simpa using this⟩
      · rw [if_neg hd] at hM; cases hM
    · rw [if_pos hd] at hR; cases hR
  | list L =>
    obtain ⟨p1, p2⟩ := hm
    simp only [hinit2, Init2.step]
    have hp := listSizes_prod L
    have hask : decide (L.length * (L.getD 0 []).length ≠ 0) =
        decide (0 < (Arr2.listSizes L).1 * (Arr2.listSizes L).2) := by
      rw [hp]
      apply decide_eq_decide.2
      rw [← Int.natCast_mul]
      omega
    rw [hask]
    have hp0 : 0 ≤ (L.length : Int) * (L.getD 0 []).length := by rw [← Int.natCast_mul]; omega
    refine build_inits b hr hi af (by omega) (by omega) (fun M hM => ?_) (fun hR hd t N _ _ _ => ?_) (fun hd => ?_)
    · obtain ⟨m1, m2, m3⟩ := listMat_some hM
      obtain ⟨v1, v2⟩ := Props.rect_valid m1
      have key : ∀ t N, IsMat t N → N.m = M.m → N.n = M.n → ∃ t', (do
          assertDebug b (Arr2.validList L)
          Arr2.copyList L t) = .ok t' ∧ IsMat t' M := by
        intro t N hN h1 h2
        obtain ⟨t', c1, c2⟩ := Props.copyList_rect m1 hN h1 h2
        refine ⟨t', by rw [v1, assertDebug_true]; exact c1, ⟨c2.rows, c2.cols, c2.size, m2, fun i j hi hj => ?_⟩⟩
        rw [m3 i j hi hj]; exact c2.el i j hi hj
      refine ⟨by rw [v2], by rw [v2], fun t N hN h1 h2 => ?_, ?_⟩
      · obtain ⟨t', c1, c2⟩ := key t N hN h1 h2
        exact ⟨t', c1, by rw [c2.size, hN.size, h1, h2]⟩
      · have hd : Dims? (Arr2.listSizes L).1 (Arr2.listSizes L).2 := by
          rw [v2]; unfold Dims?; simp only; omega
        exact key _ _ (const_isMat hd default) (by rw [v2]; rfl) (by rw [v2]; rfl)
    · have hn := listMat_none hR
      have hv : Arr2.validList L = false := by
        rw [← Bool.not_eq_true]
        intro hv
        obtain ⟨m, n, hr, _⟩ := Props.validList_rect hv
        exact hn m n hr
      rw [hv, assertDebug_false (p2 hn)]
      rfl
    · have hn : ∀ m n, ¬ Rect L m n := by
        intro m n hR
        obtain ⟨v1, v2⟩ := Props.rect_valid hR
        apply hd
        rw [v2]
        rcases hR with ⟨h1, h2, h3, h4⟩ | ⟨h1, h2, h3⟩ <;> unfold Dims? <;> simp only <;> omega
      refine ⟨?_, p2 hn⟩
      cases hl : listMat L with
      | none => rfl
      | some M => exact absurd (listMat_some hl).1 (hn _ _)
  | copy j =>
    have hj : Γ.Is .matrix j := ht
    obtain ⟨M, e1, e2, e3⟩ := hr.matrix j hj
    have hjΓ : Γ.flags j ≠ none := by
      obtain ⟨af', e⟩ := hj.some
      unfold MCtx.flags; rw [e]; simp
    obtain ⟨o, ho⟩ := live_obj (hr.flat.alive hjΓ)
    obtain ⟨l, v1, v2, v3⟩ := view_of hr.flat.inv ho
    rw [Realises_view hr.flat hjΓ] at v1
    have hl : l = M.flat := by
      have : l = (st.2 j).list := (Option.some.inj v1).symm
      rw [this, e1]; rfl
    subst hl
    have hM : (st.2 j).matrix = M := by rw [e1]; rfl
    simp only [Init2.Moderate, hM] at hm
    simp only [hinit2, Init2.step, hM]
    have hask : decide (M.m ≠ 0) = decide (0 < (M.m : Int) * M.n) := by
      apply decide_eq_decide.2
      rw [← Int.natCast_mul]
      constructor
      · intro h
        have := Nat.mul_pos (Nat.pos_of_ne_zero h) (Nat.pos_of_ne_zero (fun h' => h (e2.2 h')))
        omega
      · intro h h'
        rw [h'] at h; simp at h
    have hlen : (M.flat.length : Int) = (M.m : Int) * M.n := by rw [flat_len]; push_cast; rfl
    rw [Op.get_bind, Op.bind_run]
    have ho' : MHeap.onHeap (Heap.obj j) h = (.ok o, h) := by unfold MHeap.onHeap; rw [obj_run ho]
    rw [ho']
    simp only
    by_cases ha : o.af = af
    · rw [if_pos ha, hask]
      have I := construct_checked b hr.flat hi' af (n := (M.m : Int) * M.n) (by omega) (g := fun _ => .ok M.flat)
        (r := some M.flat) (fun l0 h0 => ⟨_, rfl, rfl⟩) (fun l hl => by cases hl; exact ⟨hlen, rfl⟩)
      have hc : Heap.copyConstruct b i af j h.heap =
          Heap.construct b i af ((M.m : Int) * M.n) (fun _ => .ok M.flat) h.heap := by
        unfold Heap.copyConstruct
        rw [Op.bind_run, obj_run ho]
        simp only
        rw [Op.bind_run, v2]
        simp only
        rw [← v3, hlen]
      refine new_lift b hr (d := h.dims j) (R := some M) I (fun M' hM' => ?_) ?_ ?_ ?_ ?_
      · cases hM'; exact ⟨e2, e3⟩
      all_goals
        rw [Op.bind_run]
        unfold MHeap.onHeap
        rw [hc]
        rcases hcc : Heap.construct b i af ((M.m : Int) * M.n) (fun _ => .ok M.flat) h.heap with ⟨_ | _ | _, h'⟩ <;>
          simp [MHeap.setDims]
    · rw [if_neg ha, hask, e3]
      have hcont : MHeap.onHeap (Heap.contents o) h = (.ok M.flat, h) := by unfold MHeap.onHeap; rw [v2]
      rw [Op.bind_run, hcont]
      simp only [Op.lift_ok_bind]
      have key : ∀ t N, IsMat t N → N.m = M.m → N.n = M.n → ∃ t', (do
          (Arr2.copy (Arr2.toSrc ⟨M.m, M.n, M.flat⟩) t).1
          pure (Arr2.copy (Arr2.toSrc ⟨M.m, M.n, M.flat⟩) t).2 : Res (Arr2 α)) = .ok t' ∧ IsMat t' M := by
        intro t N hN h1 h2
        obtain ⟨t', c1, c2⟩ := Arr2.copy_denotes (src := Arr2.toSrc ⟨M.m, M.n, M.flat⟩) hN h1 h2
          (fun s => Arr2.denotes_toSrc (flat_isMat e2) s)
        exact ⟨t', by rw [c1]; rfl, c2⟩
      refine build_inits b hr hi af (by omega) (by omega) (fun M' hM' => ?_) (by simp) (fun hd => ?_)
      · cases hM'
        refine ⟨rfl, rfl, fun t N hN h1 h2 => ?_, ?_⟩
        · obtain ⟨t', c1, c2⟩ := key t N hN h1 h2
          exact ⟨t', c1, by rw [c2.size, hN.size, h1, h2]⟩
        · exact key _ _ (const_isMat (by unfold Dims?; omega) default) rfl rfl
      · exact absurd (by unfold Dims?; omega) hd
  | move j =>
    have hj : Γ j = some (.matrix, af) := ht
    have hjm : Γ.Is .matrix j := by unfold MCtx.Is; rw [hj]; rfl
    have hij : i ≠ j := by rintro rfl; rw [hi] at hj; cases hj
    obtain ⟨M, e1, e2, e3⟩ := hr.matrix j hjm
    obtain ⟨a1, a2, a2', a3⟩ := hinit_inits b hr.flat (init := .move j) hi' (af := af)
      (by show Γ.flags j = some af; unfold MCtx.flags; rw [hj]; rfl)
    simp only [hinit, Init.step] at a1 a2 a2' a3
    simp only [hinit2, Init2.step]
    have hz : (do
        let h ← Op.get
        MHeap.onHeap (Heap.moveConstruct i j)
        MHeap.setDims i (h.dims j)
        MHeap.setDims j (some (0, 0)) : Op (MHeap α) Unit) h = (.ok (), ⟨(Heap.moveConstruct i j h.heap).2, fun k =>
          if k = j then some (0, 0) else if k = i then some ((M.m : Int), (M.n : Int)) else h.dims k⟩) := by
      rw [Op.get_bind, Op.bind_run]
      unfold MHeap.onHeap
      rw [a1]
      simp only [Exit.res]
      rw [Op.bind_run]
      simp only [MHeap.setDims, e3]
    rw [hz]
    refine ⟨rfl, fun _ => .ofFlat ?_ (fun k hk => ?_) (fun k hk => ?_) (fun k hk => ?_), by simp, a3⟩
    · have := a2 trivial
      rw [flags_upd]
      have e : MState.lists (st.1, upd (upd st.2 j (.mat Mat.empty)) i (.mat (st.2 j).matrix)) =
          (st.lists.1, upd (upd st.lists.2 j []) i (st.lists.2 j)) := by
        unfold MState.lists
        congr 1
        funext k
        simp only [upd]
        by_cases hk : k = i
        · simp only [hk, if_true]; exact Val.matrix_flat _
        · simp only [hk, if_false]
          by_cases hkj : k = j
          · simp only [hkj, if_true]; rfl
          · simp only [hkj, if_false]
      rw [e]; exact this
    · by_cases hki : k = i
      · subst hki; simp [upd] at hk
      · have hk' : Γ k = none := by simpa [upd, hki] using hk
        have hkj : k ≠ j := by rintro rfl; rw [hk'] at hj; cases hj
        simpa [upd, hki, hkj] using hr.gone k hk'
    · by_cases hki : k = i
      · subst hki; simp [upd, MCtx.Is] at hk
      · have hk' : Γ.Is .vector k := by simpa [upd, hki, MCtx.Is] using hk
        have hkj : k ≠ j := by rintro rfl; unfold MCtx.Is at hk'; rw [hj] at hk'; cases hk'
        simpa [upd, hki, hkj] using hr.vector k hk'
    · by_cases hki : k = i
      · subst hki
        exact ⟨M, by simp [upd, e1, Val.matrix], e2, by simp [hij]⟩
      · have hk' : Γ.Is .matrix k := by simpa [upd, hki, MCtx.Is] using hk
        by_cases hkj : k = j
        · subst hkj
          exact ⟨Mat.empty, by simp [upd, hki], by simp [Mat.empty], by simp [Mat.empty]⟩
        · simpa [upd, hki, hkj] using hr.matrix k hk'

end

/-- The end of a block, on both ways out. -/
theorem mwithLocal_agrees {b : Build} {Γ : MCtx} {h h' : MHeap α} {i : Nat} {t : Rank × AlignmentFlag} (hi : Γ i = none)
    {body : MProg α} {r : Exit × MState α} (hmem : h'.heap.mem = h.heap.mem)
    (c : MAgrees (upd Γ i (some t)) h' (mrun b body h') r) :
    MAgrees Γ h (mwithLocal i (mrun b body) h') (r.1, r.2.1, upd r.2.2 i (.vec [])) := by
  obtain ⟨c1, c2, c3⟩ := c
  obtain ⟨y, st''⟩ := r
  unfold mwithLocal
  rcases f' : mrun b body h' with ⟨r, h''⟩
  rw [f'] at c1 c2 c3
  simp only at c1 c2 c3
  subst c1
  cases y with
  | normal =>
    obtain ⟨d1, d2, d3⟩ := mdestroy_realises hi (c2 (by simp))
    exact ⟨d1, fun _ => d2, d3.trans (c3.trans hmem)⟩
  | exception =>
    obtain ⟨d1, d2, d3⟩ := mdestroy_realises hi (c2 (by simp))
    simp only [Exit.res]
    rcases g : mdestroy i h'' with ⟨r, h3⟩
    rw [g] at d1 d2 d3
    simp only at d1 d2 d3
    subst d1
    exact ⟨rfl, fun _ => d2, d3.trans (c3.trans hmem)⟩
  | abort => exact ⟨rfl, fun h => absurd rfl h, c3.trans hmem⟩

/-- The simulation. -/
theorem mrun_agrees (b : Build) (p : MProg α) {Γ : MCtx} {h : MHeap α} {st : MState α} (hr : MRealises Γ h st)
    (ht : p.Typed Γ) (hm : p.Moderate b h.heap.mem.fails st) :
    MAgrees Γ h (mrun b p h) (p.run b h.heap.mem.fails st) := by
  induction p generalizing Γ h st with
  | skip => exact ⟨rfl, fun _ => hr, rfl⟩
  | throw => exact ⟨rfl, fun _ => hr, rfl⟩
  | stmt c => exact stmt1_agrees b hr ht hm
  | stmt2 c => exact stmt2_agrees b hr ht hm
  | seq p q ihp ihq =>
    have a := ihp hr ht.1 hm.1
    simp only [mrun, MProg.run]
    rw [Op.bind_run]
    obtain ⟨a1, a2, a3⟩ := a
    rcases e : p.run b h.heap.mem.fails st with ⟨x, st'⟩
    rw [e] at a1 a2
    rcases e' : mrun b p h with ⟨r, h'⟩
    rw [e'] at a1 a2 a3
    simp only at a1 a2 a3
    subst a1
    cases x with
    | normal =>
      have := ihq (a2 (by simp)) ht.2 (by rw [a3]; exact hm.2 st' e)
      rw [a3] at this
      exact ⟨this.res, this.state, this.mem.trans a3⟩
    | exception => exact ⟨rfl, a2, a3⟩
    | abort => exact ⟨rfl, a2, a3⟩
  | block i af init body ih =>
    obtain ⟨t1, t2, t3⟩ := ht
    obtain ⟨a1, a2, a2', a3⟩ := init1_inits b hr t1 t2.1 t2.2
    simp only [mrun, MProg.run]
    rw [Op.bind_run]
    rcases e : st.change (i :: init.uses) (init.step b h.heap.mem.fails i st.lists) with ⟨x, st'⟩
    rw [e] at a1 a2 a2'
    rcases e' : MHeap.onHeap (hinit b i af init) h with ⟨r, h'⟩
    rw [e'] at a1 a2 a2' a3
    simp only at a1 a2 a2' a3
    subst a1
    cases x with
    | exception => exact ⟨rfl, fun _ => a2' rfl, a3⟩
    | abort => exact ⟨rfl, fun h => absurd rfl h, a3⟩
    | normal =>
      have c := ih (a2 rfl) t3 (by rw [a3]; exact hm st' e)
      rw [a3] at c
      exact mwithLocal_agrees t1 a3 c
  | block2 i af init body ih =>
    obtain ⟨t1, t2, t3⟩ := ht
    obtain ⟨a1, a2, a2', a3⟩ := hinit2_inits b hr t1 t2 hm.1
    simp only [mrun, MProg.run]
    rw [Op.bind_run]
    rcases e : init.step b h.heap.mem.fails i st with ⟨x, st'⟩
    rw [e] at a1 a2 a2'
    rcases e' : hinit2 b i af init h with ⟨r, h'⟩
    rw [e'] at a1 a2 a2' a3
    simp only at a1 a2 a2' a3
    subst a1
    cases x with
    | exception => exact ⟨rfl, fun _ => a2' rfl, a3⟩
    | abort => exact ⟨rfl, fun h => absurd rfl h, a3⟩
    | normal =>
      have c := ih (a2 rfl) t3 (by rw [a3]; exact hm.2 st' e)
      rw [a3] at c
      exact mwithLocal_agrees t1 a3 c
  | tryCatch p q ihp ihq =>
    obtain ⟨a1, a2, a3⟩ := ihp hr ht.1 hm.1
    simp only [mrun, MProg.run]
    unfold mtryCatch
    rcases e : p.run b h.heap.mem.fails st with ⟨x, st'⟩
    rw [e] at a1 a2
    rcases e' : mrun b p h with ⟨r, h'⟩
    rw [e'] at a1 a2 a3
    simp only at a1 a2 a3
    subst a1
    cases x with
    | normal => exact ⟨rfl, a2, a3⟩
    | exception =>
      have := ihq (a2 (by simp)) ht.2 (by rw [a3]; exact hm.2 st' e)
      rw [a3] at this
      exact ⟨this.res, this.state, this.mem.trans a3⟩
    | abort => exact ⟨rfl, a2, a3⟩
  | read i f ih =>
    have hi : Γ.flags i ≠ none := by
      unfold MCtx.flags
      have := ht.1
      cases e : Γ i with
      | none => exact absurd e this
      | some => simp
    obtain ⟨o, ho⟩ := live_obj (hr.flat.alive hi)
    obtain ⟨l, v1, v2, v3⟩ := view_of hr.flat.inv ho
    rw [Realises_view hr.flat hi] at v1
    cases v1
    have hd : h.dims i = (st.2 i).dims := by
      rcases Γ.cases i with hg | hv | hx
      · exact absurd hg ht.1
      · obtain ⟨⟨l, e⟩, e'⟩ := hr.vector i hv
        rw [e, e']; rfl
      · obtain ⟨M, e, _, e'⟩ := hr.matrix i hx
        rw [e, e']; rfl
    simp only [mrun, MProg.run]
    have e1 : MHeap.onHeap (Heap.obj i) h = (.ok o, h) := by unfold MHeap.onHeap; rw [obj_run ho]
    have e2 : MHeap.onHeap (Heap.contents o) h = (.ok (st.lists.2 i), h) := by unfold MHeap.onHeap; rw [v2]
    rw [Op.bind_run, e1]
    simp only
    rw [Op.bind_run, e2]
    simp only
    rw [Op.get_bind, hd]
    exact ih _ _ hr (ht.2 _ _) hm
  | loop n p ih =>
    simp only [mrun, MProg.run]
    simp only [MProg.Moderate] at hm
    induction n with
    | zero => exact ⟨rfl, fun _ => hr, rfl⟩
    | succ n ihn =>
      obtain ⟨a1, a2, a3⟩ := ihn ht (fun k hk => hm k (by omega))
      rw [Op.forN_succ]
      simp only [mrepeated]
      have hm' := hm n (by omega)
      rcases e : mrepeated (p.run b h.heap.mem.fails) n st with ⟨x, st'⟩
      rw [e] at a1 a2
      rcases e' : Op.forN n (fun _ => mrun b p) h with ⟨r, h'⟩
      rw [e'] at a1 a2 a3
      simp only at a1 a2 a3
      subst a1
      cases x with
      | normal =>
        have := ih (a2 (by simp)) ht (by rw [a3]; exact hm' st' e)
        rw [a3] at this
        exact ⟨this.res, this.state, this.mem.trans a3⟩
      | exception => exact ⟨rfl, a2, a3⟩
      | abort => exact ⟨rfl, a2, a3⟩

end Spp
