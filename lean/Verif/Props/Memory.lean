import Verif.Lemmas.HeapStmts
import Verif.Props.History1D
import Verif.Props.Heap

/- C99: programs on one-dimensional arrays when memory can run out. -/

namespace Spp.Props
open Spec

variable {α : Type} [Inhabited α]

theorem owned_inv {h : Heap α} (ho : Owned h) : Inv h none where
  excl := fun {x y ox oy p} h1 h2 h3 h4 => by
    cases x with
    | none => simp [own] at h1
    | some i =>
      cases y with
      | none => simp [own] at h2
      | some j => rw [ho.exclusive (i := i) (j := j) h1 h2 h3 h4]
  valid := fun {x o} h1 => by
    cases x with
    | none => simp [own] at h1
    | some i =>
      rcases ho.valid (i := i) h1 with e | ⟨p, l, e1, e2, e3, e4⟩
      · exact .inl e
      · exact .inr ⟨p, l, e1, e2, e3, e4, ho.matched (i := i) h1 e1⟩
  cover := fun {p l} h1 => by
    obtain ⟨i, o, h2, h3⟩ := ho.noLeak h1
    exact ⟨some i, o, h2, h3⟩
  once := ho.once
  acc := ho.accounted
  fresh := ho.fresh

/-- A valid statement of moderate size, in every build, in every state and for every allocator: if it asks for memory
and the request is refused, it throws and nothing has changed; otherwise it succeeds and the arrays are exactly those
of the list meaning.  One request is made if the statement gives an array new storage that is not empty, none
otherwise. -/
theorem C99_valid_statement (b : Build) {h : Heap α} (ho : Owned h) {s s' : Nat → List α} {c : Stmt α}
    (hw : c.WellTyped h) (hs : Holds h s) (hm : ModerateSizes s) (hc : c.Moderate) (hv : c.meaning s = some s') :
    (hexec b c h).2.requests = h.requests + (if c.allocates s s' then 1 else 0) ∧
    (c.allocates s s' = true ∧ OutOfMemory h →
      (hexec b c h).1 = .trap .exception ∧ Unchanged h (hexec b c h).2) ∧
    (¬ (c.allocates s s' = true ∧ OutOfMemory h) →
      (hexec b c h).1 = .ok () ∧ Owned (hexec b c h).2 ∧
      ∀ k, view (hexec b c h).2 k = if h.objs k = none then none else some (s' k)) := by
  have he := C23_valid_statement b hm hc hv
  obtain ⟨q, m, mq⟩ := hexec_mem b (owned_inv ho) hw hs (by rw [he]; simp)
  rw [he] at m mq
  simp only [true_and] at mq
  refine ⟨?_, fun ⟨h1, h2⟩ => ?_, fun h1 => ?_⟩
  · rw [m.reqs]
    cases q with
    | false =>
      have : ¬ c.allocates s s' = true := fun h1 => by simpa using mq.2 h1
      simp [this]
    | true => simp [mq.1 rfl]
  · obtain ⟨e1, e2⟩ := m.refused (mq.2 h1) h2
    exact ⟨e1, e2, m.inv.owned⟩
  · obtain ⟨e1, e2⟩ := m.done (fun h2 => h1 ⟨mq.1 h2.1, h2.2⟩)
    exact ⟨e1, m.inv.owned, e2⟩

/-- An invalid statement is rejected in debug builds without asking for memory, and nothing has changed. -/
theorem C99_invalid_statement {b : Build} (hb : b.Checked) {h : Heap α} (ho : Owned h) {s : Nat → List α} {c : Stmt α}
    (hw : c.WellTyped h) (hs : Holds h s) (hm : ModerateSizes s) (hc : c.Moderate) (hv : c.meaning s = none)
    (hmv : ∀ i j, c ≠ .moveAssign i j) :
    (hexec b c h).1 = .trap b.kind ∧ Unchanged h (hexec b c h).2 ∧ (hexec b c h).2.requests = h.requests := by
  have he : exec b c s = (.trap b.kind, s) := by
    rcases C30_invalid_statement hb hm hc hv with e | ⟨i, j, e, _⟩
    · exact e
    · exact absurd e (hmv i j)
  obtain ⟨q, m, mq⟩ := hexec_mem b (owned_inv ho) hw hs (by rw [he]; simp)
  rw [he] at m mq
  have hq : q = false := by
    cases q with
    | false => rfl
    | true => have := (mq.1 rfl).1; simp at this
  subst hq
  obtain ⟨e1, e2⟩ := m.done (by simp)
  refine ⟨e1, ⟨fun k => ?_, m.inv.owned⟩, m.reqs⟩
  rw [e2 k]
  exact congrFun (puts_same (owned_inv ho) hs) k

theorem wellTyped_kept {h h' : Heap α} {c : Stmt α} (hw : c.WellTyped h)
    (hl : ∀ k, h'.objs k = none ↔ h.objs k = none)
    (ht : ∀ k o o', h.objs k = some o → h'.objs k = some o' → o'.af = o.af) : c.WellTyped h' := by
  have same : ∀ i j, SameType h i j → SameType h' i j := by
    rintro i j ⟨oi, oj, h1, h2, h3⟩
    obtain ⟨oi', h4⟩ := live_obj (h := h') (i := i) (by rw [ne_eq, hl, h1]; simp)
    obtain ⟨oj', h5⟩ := live_obj (h := h') (i := j) (by rw [ne_eq, hl, h2]; simp)
    exact ⟨oi', oj', h4, h5, by rw [ht i oi oi' h1 h4, ht j oj oj' h2 h5, h3]⟩
  refine ⟨fun i hi => by rw [ne_eq, hl]; exact hw.1 i hi, ?_⟩
  have h2 := hw.2
  cases c <;> first | trivial | exact same _ _ h2

/-- A whole program, of any length, on any number of arrays, with any allocator, in a debug build with exceptions that
the program catches: it is never undefined behaviour, storage is owned properly at the end (nothing leaked, nothing
released twice), the same arrays are live, and their elements are exactly those of the list program in which every
statement whose request for memory is refused is skipped, just as every invalid one. -/
theorem C99_history {b : Build} (hb : b.Checked) (he : b.exceptions = true) {h : Heap α} (ho : Owned h)
    {s : Nat → List α} (hs : Holds h s) (cs : List (Stmt α)) (hw : ∀ c ∈ cs, c.WellTyped h)
    (hm : memModerate h.mem.fails (h.requests, s) cs) :
    ∃ h', hexecAll b h cs = .ok h' ∧ Owned h' ∧ (∀ k, h'.objs k = none ↔ h.objs k = none) ∧
      h'.requests = (memRun h.mem.fails (h.requests, s) cs).1 ∧
      Holds h' (memRun h.mem.fails (h.requests, s) cs).2 := by
  induction cs generalizing h s with
  | nil => exact ⟨h, rfl, ho, fun _ => Iff.rfl, rfl, hs⟩
  | cons c cs ih =>
    obtain ⟨m1, m2, m3⟩ : ModerateSizes s ∧ c.Moderate ∧ ∀ i j, c = .moveAssign i j → c.meaning s ≠ none :=
      hm [] c cs rfl
    have hk : b.kind = .exception := by simp [Build.kind, he]
    have hwc := hw c (by simp)
    -- what the statement does
    have step : ∃ r, (r = .ok () ∨ r = .trap .exception) ∧ (hexec b c h).1 = r ∧ Owned (hexec b c h).2 ∧
        (hexec b c h).2.mem = h.mem ∧ (∀ k, (hexec b c h).2.objs k = none ↔ h.objs k = none) ∧
        (∀ k o o', h.objs k = some o → (hexec b c h).2.objs k = some o' → o'.af = o.af) ∧
        (hexec b c h).2.requests = (memStep h.mem.fails (h.requests, s) c).1 ∧
        Holds (hexec b c h).2 (memStep h.mem.fails (h.requests, s) c).2 := by
      have hnub : (exec b c s).1 ≠ .ub := by
        cases hv : c.meaning s with
        | some s' => rw [C23_valid_statement b m1 m2 hv]; simp
        | none =>
          rcases C30_invalid_statement hb m1 m2 hv with e | ⟨i, j, e, _⟩
          · rw [e]; simp
          · exact absurd hv (m3 i j e)
      obtain ⟨q, m, _⟩ := hexec_mem b (owned_inv ho) hwc hs hnub
      cases hv : c.meaning s with
      | none =>
        obtain ⟨e1, e2, e3⟩ := C99_invalid_statement hb ho hwc hs m1 m2 hv (fun i j e => absurd hv (m3 i j e))
        refine ⟨_, .inr rfl, by rw [e1, hk], e2.owned, m.mem, m.live, m.types, ?_, ?_⟩
        · simp only [memStep, hv]; exact e3
        · simp only [memStep, hv]
          intro k l hkl
          rw [e2.views k] at hkl; exact hs k l hkl
      | some s' =>
        obtain ⟨e1, e2, e3⟩ := C99_valid_statement b ho hwc hs m1 m2 hv
        by_cases ha : c.allocates s s' = true
        · by_cases hf : OutOfMemory h
          · obtain ⟨f1, f2⟩ := e2 ⟨ha, hf⟩
            refine ⟨_, .inr rfl, f1, f2.owned, m.mem, m.live, m.types, ?_, ?_⟩
            · simp only [memStep, hv, ha, if_true]; rw [e1, if_pos ha]
            · have hf' : h.mem.fails h.requests = true := hf
              simp only [memStep, hv, ha, hf', if_true]
              intro k l hkl
              rw [f2.views k] at hkl; exact hs k l hkl
          · obtain ⟨f1, f2, f3⟩ := e3 (fun h1 => hf h1.2)
            refine ⟨_, .inl rfl, f1, f2, m.mem, m.live, m.types, ?_, ?_⟩
            · simp only [memStep, hv, ha, if_true]; rw [e1, if_pos ha]
            · have hf' : ¬ h.mem.fails h.requests = true := hf
              simp only [memStep, hv, ha, hf', if_true]
              intro k l hkl
              rw [f3 k] at hkl
              split at hkl
              · cases hkl
              · simpa using hkl.symm
        · obtain ⟨f1, f2, f3⟩ := e3 (fun h1 => ha h1.1)
          refine ⟨_, .inl rfl, f1, f2, m.mem, m.live, m.types, ?_, ?_⟩
          · simp only [memStep, hv, ha]; rw [e1, if_neg ha]; rfl
          · simp only [memStep, hv, ha]
            intro k l hkl
            rw [f3 k] at hkl
            split at hkl
            · cases hkl
            · simpa using hkl.symm
    obtain ⟨r, hr, e1, e2, e3, e4, e5, e6, e7⟩ := step
    have hst : memStep h.mem.fails (h.requests, s) c = ((hexec b c h).2.requests, (memStep h.mem.fails (h.requests, s) c).2) :=
      Prod.ext e6.symm rfl
    obtain ⟨h', g1, g2, g3, g4, g5⟩ := ih e2 e7
      (fun c' hc' => wellTyped_kept (hw c' (by simp [hc'])) e4 e5) (by
        intro pre c' post hpre
        have := hm (c :: pre) c' post (by rw [hpre]; rfl)
        simp only [memRun, List.foldl_cons] at this
        rw [hst] at this
        rw [e3]
        exact this)
    rw [e3] at g4 g5
    refine ⟨h', ?_, g2, fun k => by rw [g3, e4], ?_, ?_⟩
    · simp only [hexecAll]
      rcases hh : hexec b c h with ⟨x, h1⟩
      rw [hh] at e1 g1
      simp only at e1 g1
      subst e1
      rcases hr with rfl | rfl <;> exact g1
    · simp only [memRun, List.foldl_cons]; rw [hst]; exact g4
    · simp only [memRun, List.foldl_cons]; rw [hst]; exact g5

/-- With an allocator that refuses nothing this is the list program of C23. -/
theorem C99_enough_memory (k : Nat) (s : Nat → List α) (cs : List (Stmt α)) :
    (memRun (fun _ => false) (k, s) cs).2 = meaningOf s cs := by
  induction cs generalizing k s with
  | nil => rfl
  | cons c cs ih =>
    simp only [memRun, List.foldl_cons, meaningOf] at ih ⊢
    cases hv : c.meaning s with
    | none => simp only [memStep, hv, Option.getD_none]; exact ih k s
    | some s' =>
      simp only [memStep, hv, Option.getD_some, Bool.false_eq_true, if_false]
      split
      · exact ih _ s'
      · exact ih _ s'

/-- Assignments of values, lists and arrays, moves, swaps and `resize` to the present size never ask for memory, so they
cannot fail for lack of it. -/
theorem C99_no_request (s s' : Nat → List α) (i j : Nat) (x : α) (xs : List α) (p : Bool) :
    (Stmt.fill i x).allocates s s' = false ∧ (Stmt.assignList i xs).allocates s s' = false ∧
    (Stmt.copyAssign i j : Stmt α).allocates s s' = false ∧ (Stmt.moveAssign i j : Stmt α).allocates s s' = false ∧
    (Stmt.swap i j : Stmt α).allocates s s' = false ∧ (Stmt.resizeAndAssignMove i j : Stmt α).allocates s s' = false ∧
    (Stmt.resize i (s i).length p).allocates s s' = false := by
  simp [Stmt.allocates, Stmt.rebuilds]

theorem memModerate_nil (fails : Nat → Bool) (st : Nat × (Nat → List α)) : memModerate fails st [] ↔ True :=
  ⟨fun _ => trivial, fun _ pre c post h => by simp at h⟩

theorem memModerate_cons (fails : Nat → Bool) (st : Nat × (Nat → List α)) (c : Stmt α) (cs : List (Stmt α)) :
    memModerate fails st (c :: cs) ↔ (ModerateSizes st.2 ∧ c.Moderate ∧
      ∀ i j, c = .moveAssign i j → c.meaning st.2 ≠ none) ∧ memModerate fails (memStep fails st c) cs := by
  constructor
  · intro h
    refine ⟨h [] c cs rfl, fun pre c' post hpre => ?_⟩
    have := h (c :: pre) c' post (by rw [hpre]; rfl)
    simpa [memRun] using this
  · rintro ⟨h1, h2⟩ pre c' post hpre
    cases pre with
    | nil =>
      simp only [List.nil_append, List.cons.injEq] at hpre
      obtain ⟨rfl, _⟩ := hpre
      exact h1
    | cons d pre =>
      simp only [List.cons_append, List.cons.injEq] at hpre
      obtain ⟨rfl, hpre⟩ := hpre
      have := h2 pre c' post hpre
      simpa [memRun] using this

/-- The first of two arrays holds 7, 7; requests number 1, 2 and 5 will be refused. -/
def exampleHeap : Heap Int :=
  ((HCmd.construct 1 .aligned 0 (fun l => .ok l)).exec ⟨false, true, false⟩
    ((HCmd.construct 0 .aligned 2 (fun l => .ok (l.map fun _ => (7 : Int)))).exec ⟨false, true, false⟩
      (Heap.init ⟨fun k => k = 1 || k = 2 || k = 5, fun p a => a * 4096 * (p + 1)⟩)).2).2

theorem exampleHeap_owned : Owned exampleHeap := by
  have r0 := Reach.init (α := Int) (b := ⟨false, true, false⟩)
    (m := ⟨fun k => k = 1 || k = 2 || k = 5, fun p a => a * 4096 * (p + 1)⟩)
  have r1 := Reach.step (c := .construct 0 .aligned 2 (fun l => .ok (l.map fun _ => (7 : Int)))) r0
    ⟨rfl, fun l _ => ⟨by simp, fun l' h => by simp at h; rw [← h]; simp⟩⟩ rfl
  have r2 := Reach.step (c := .construct 1 .aligned 0 (fun l => .ok l)) r1
    ⟨rfl, fun l _ => ⟨by simp, fun l' h => by simp at h; rw [h]⟩⟩ rfl
  exact C22_ownership r2

/-- A program of seven statements, two of which are refused memory and one of which is invalid: `A0.insert_back(1)`
(refused), `A0.resize(3)` (refused), `A0.insert(1, 5)`, `A0.remove(9)` (invalid), `A1.resize_and_assign(A0)`,
`A0 = 4`, `A1.insert_front(A0)` (refused). -/
example : ∃ h', hexecAll ⟨false, true, false⟩ exampleHeap
      [.insertBack 0 1, .resize 0 3 true, .insert 0 1 5, .remove 0 9 1, .resizeAndAssign 1 0, .fill 0 4,
        .insertFrontArr 1 0] = .ok h' ∧ Owned h' ∧ h'.requests = 6 ∧
    view h' 0 = some [4, 4, 4] ∧ view h' 1 = some [7, 5, 7] := by
  have hs : Holds exampleHeap (fun k => if k = 0 then [7, 7] else []) := by
    intro i l hv
    match i, hv with
    | 0, hv => exact (Option.some.inj hv).symm
    | 1, hv => exact (Option.some.inj hv).symm
    | n + 2, hv => cases hv
  obtain ⟨h', e1, e2, e3, e4, e5⟩ := C99_history (b := ⟨false, true, false⟩) (by decide) rfl exampleHeap_owned hs
    [.insertBack 0 1, .resize 0 3 true, .insert 0 1 5, .remove 0 9 1, .resizeAndAssign 1 0, .fill 0 4,
      .insertFrontArr 1 0] (by
      intro c hc
      simp only [List.mem_cons, List.not_mem_nil, or_false] at hc
      have live : ∀ i ∈ [0, 1], exampleHeap.objs i ≠ none := by decide
      rcases hc with rfl | rfl | rfl | rfl | rfl | rfl | rfl <;>
        exact ⟨fun i hi => live i (by simp [Stmt.vars, Stmt.target] at hi; simp; omega), trivial⟩) (by
      simp only [memModerate_cons, memModerate_nil, and_true]
      refine ⟨⟨?_, trivial, by simp⟩, ⟨?_, by simp [Stmt.Moderate, Stmt.Moderate.Mod], by simp⟩,
        ⟨?_, by simp [Stmt.Moderate, Stmt.Moderate.Mod], by simp⟩,
        ⟨?_, by simp [Stmt.Moderate, Stmt.Moderate.Mod], by simp⟩, ⟨?_, trivial, by simp⟩, ⟨?_, trivial, by simp⟩,
        ⟨?_, trivial, by simp⟩⟩ <;> intro i
      all_goals match i with
        | 0 => decide +kernel
        | 1 => decide +kernel
        | n + 2 => exact (by decide : ((([] : List Int).length : Int) < 2 ^ 61)))
  refine ⟨h', e1, e2, by rw [e4]; decide +kernel, ?_, ?_⟩
  · have hl : h'.objs 0 ≠ none := by rw [ne_eq, e3]; decide
    have := holds_view (owned_inv e2) e5 hl
    rw [this]; decide +kernel
  · have hl : h'.objs 1 ≠ none := by rw [ne_eq, e3]; decide
    have := holds_view (owned_inv e2) e5 hl
    rw [this]; decide +kernel

end Spp.Props
