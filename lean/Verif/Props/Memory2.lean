import Verif.Lemmas.HeapExec2
import Verif.Props.History2D
import Verif.Props.Memory

/- C100: programs on two-dimensional arrays when memory can run out. -/

namespace Spp.Props
open Spec

variable {α : Type} [Inhabited α]

theorem meaning2_other {S S' : Nat → Mat α} {c : Stmt2 α} (hm : c.meaning S = some S') {k : Nat}
    (hk : k ∉ c.vars) : S' k = S k := by
  cases c with
  | call i c =>
    simp only [Stmt2.vars, List.mem_cons, List.not_mem_nil, or_false] at hk
    simp only [Stmt2.meaning, Option.map_eq_some_iff] at hm
    obtain ⟨N, _, rfl⟩ := hm
    simp [upd, hk]
  | callArr i j c =>
    simp only [Stmt2.vars, List.mem_cons, List.not_mem_nil, or_false, not_or] at hk
    simp only [Stmt2.meaning, Option.map_eq_some_iff] at hm
    obtain ⟨N, _, rfl⟩ := hm
    simp [upd, hk]
  | copyAssign i j | moveAssign i j =>
    simp only [Stmt2.vars, List.mem_cons, List.not_mem_nil, or_false, not_or] at hk
    simp only [Stmt2.meaning] at hm
    split at hm
    · cases hm; simp [upd, hk]
    · cases hm
  | swap i j | resizeAndAssignMove i j =>
    simp only [Stmt2.vars, List.mem_cons, List.not_mem_nil, or_false, not_or] at hk
    simp only [Stmt2.meaning, Option.some.injEq] at hm
    subst hm; simp [upd, hk]

theorem asks_of {S : Nat → Mat α} {c : Stmt2 α} (hne : ∀ i L, c ≠ .call i (.assignList L)) :
    c.asks S = match c.meaning S with
      | none => false
      | some S' => c.rebuilds S && (S' c.target).m ≠ 0 := by
  unfold Stmt2.asks
  split
  · exact absurd rfl (hne _ _)
  · rfl

/-- The arrays of a heap. -/
def arraysOf (h : Heap2 α) : Vars2 α := fun i => (view2 h i).getD ⟨0, 0, []⟩

theorem arraysOf_holds (h : Heap2 α) : HoldsV h (arraysOf h) := fun i a hv => by simp [arraysOf, hv]

theorem holds2_after {h h' : Heap2 α} (hi : Inv h.heap none) {S S' : Nat → Mat α} {c : Stmt2 α} {v' : Vars2 α}
    (hw : c.WellTyped h) (hs : Holds2 h S) (hm : c.meaning S = some S') (hv : AreMats v' S')
    (he : ∀ k, view2 h' k = puts2 h v' k) : Holds2 h' S' := by
  intro k
  rw [he k]
  unfold puts2
  by_cases hk : h.heap.objs k = none
  · rw [if_pos hk]
    have h1 := hs k
    rw [(view2_none_iff hi k).2 hk] at h1
    rw [meaning2_other hm (fun hk' => hw.1 k hk' hk)]
    exact h1
  · rw [if_neg hk]; exact hv k

/-- What a statement asks for. -/
theorem asked_iff {b : Build} {S S' : Nat → Mat α} {c : Stmt2 α} {q : Bool} {v' : Vars2 α}
    (ha : Asked b S c q (.ok ()) v') (hm : c.meaning S = some S') (hv : AreMats v' S') : q = c.asks S := by
  by_cases hl : ∃ i L, c = .call i (.assignList L)
  · obtain ⟨i, L, rfl⟩ := hl
    exact ha.1 i L rfl
  · have hne : ∀ i L, c ≠ .call i (.assignList L) := fun i L e => hl ⟨i, L, e⟩
    have h1 := (ha.2 hne).1 rfl
    rw [asks_of hne, hm]
    have h2 : (v' c.target).data ≠ [] ↔ (S' c.target).m ≠ 0 := by
      have h3 := hv c.target
      have h4 := h3.zero
      rw [ne_eq, ← List.length_eq_zero_iff, h3.size, Nat.mul_eq_zero]
      omega
    rw [h2] at h1
    rw [Bool.eq_iff_iff, h1]
    simp

/-- A valid statement of moderate size, in every build, in every state and for every allocator: if it asks for memory
and the request is refused, it throws and nothing has changed, neither elements nor dimensions; otherwise it succeeds
and the arrays are exactly the matrices of the meaning. -/
theorem C100_valid_statement (b : Build) {h : Heap2 α} (ho : Owned h.heap) {S S' : Nat → Mat α} {c : Stmt2 α}
    (hw : c.WellTyped h) (hs : Holds2 h S) (hm : ModerateSizes2 S) (hc : c.Moderate) (hv : c.meaning S = some S') :
    (hexec2 b c h).2.heap.requests = h.heap.requests + (if c.asks S then 1 else 0) ∧
    (c.asks S = true ∧ OutOfMemory h.heap →
      (hexec2 b c h).1 = .trap .exception ∧ Unchanged2 h (hexec2 b c h).2) ∧
    (¬ (c.asks S = true ∧ OutOfMemory h.heap) →
      (hexec2 b c h).1 = .ok () ∧ Owned (hexec2 b c h).2.heap ∧ Holds2 (hexec2 b c h).2 S') := by
  obtain ⟨v', he, hv'⟩ := C34_valid_statement b (s := arraysOf h) hs hm hc hv
  obtain ⟨q, m, mq⟩ := hexec2_mem b (owned_inv ho) hw (arraysOf_holds h) hs (by rw [he]; simp)
  rw [he] at m mq
  have hq := asked_iff mq hv hv'
  subst hq
  refine ⟨?_, fun ⟨h1, h2⟩ => ?_, fun h1 => ?_⟩
  · rw [m.reqs]; cases c.asks S <;> rfl
  · obtain ⟨e1, e2⟩ := m.refused h1 h2
    exact ⟨e1, e2, m.inv.owned⟩
  · obtain ⟨e1, e2⟩ := m.done h1
    exact ⟨e1, m.inv.owned, holds2_after (owned_inv ho) hw hs hv hv' e2⟩

/-- An invalid statement is rejected in debug builds and nothing has changed.  Only the assignment of a list may ask for
memory before it is rejected. -/
theorem C100_invalid_statement {b : Build} (hb : b.Checked) {h : Heap2 α} (ho : Owned h.heap) {S : Nat → Mat α}
    {c : Stmt2 α} (hw : c.WellTyped h) (hs : Holds2 h S) (hm : ModerateSizes2 S) (hc : c.Moderate)
    (hv : c.meaning S = none) (hmv : ∀ i j, c ≠ .moveAssign i j) :
    (hexec2 b c h).1 = .trap (if c.asks S = true ∧ h.heap.mem.fails h.heap.requests = true then .exception else b.kind) ∧
    Unchanged2 h (hexec2 b c h).2 ∧
    (hexec2 b c h).2.heap.requests = h.heap.requests + (if c.asks S then 1 else 0) := by
  have he : exec2 b c (arraysOf h) = (.trap b.kind, arraysOf h) := by
    rcases C34_invalid_statement hb (s := arraysOf h) hs hm hc hv with e | ⟨i, j, e, _⟩
    · exact e
    · exact absurd e (hmv i j)
  obtain ⟨q, m, mq⟩ := hexec2_mem b (owned_inv ho) hw (arraysOf_holds h) hs (by rw [he]; simp)
  rw [he] at m mq
  have hq : q = c.asks S := by
    by_cases hl : ∃ i L, c = .call i (.assignList L)
    · obtain ⟨i, L, rfl⟩ := hl
      exact mq.1 i L rfl
    · have hne : ∀ i L, c ≠ .call i (.assignList L) := fun i L e => hl ⟨i, L, e⟩
      rw [(mq.2 hne).2 hb (by simp), asks_of hne, hv]
  subst hq
  have hr : (hexec2 b c h).2.heap.requests = h.heap.requests + (if c.asks S then 1 else 0) := by
    rw [m.reqs]; cases c.asks S <;> rfl
  by_cases hd : c.asks S = true ∧ h.heap.mem.fails h.heap.requests = true
  · obtain ⟨e1, e2⟩ := m.refused hd.1 hd.2
    rw [if_pos hd]
    exact ⟨e1, ⟨e2, m.inv.owned⟩, hr⟩
  · obtain ⟨e1, e2⟩ := m.done hd
    rw [if_neg hd]
    refine ⟨e1, ⟨fun k => ?_, m.inv.owned⟩, hr⟩
    rw [e2 k, puts2_same (owned_inv ho) (arraysOf_holds h)]

theorem wellTyped2_kept {h h' : Heap2 α} {c : Stmt2 α} (hw : c.WellTyped h)
    (hl : ∀ k, h'.heap.objs k = none ↔ h.heap.objs k = none)
    (ht : ∀ k o o', h.heap.objs k = some o → h'.heap.objs k = some o' → o'.af = o.af) : c.WellTyped h' := by
  have same : ∀ i j, SameType h.heap i j → SameType h'.heap i j := by
    rintro i j ⟨oi, oj, h1, h2, h3⟩
    obtain ⟨oi', h4⟩ := live_obj (h := h'.heap) (i := i) (by rw [ne_eq, hl, h1]; simp)
    obtain ⟨oj', h5⟩ := live_obj (h := h'.heap) (i := j) (by rw [ne_eq, hl, h2]; simp)
    exact ⟨oi', oj', h4, h5, by rw [ht i oi oi' h1 h4, ht j oj oj' h2 h5, h3]⟩
  refine ⟨fun i hi => by rw [ne_eq, hl]; exact hw.1 i hi, ?_⟩
  have h2 := hw.2
  cases c <;> first | trivial | exact same _ _ h2

omit [Inhabited α] in
theorem holds2_unchanged {h h' : Heap2 α} {S : Nat → Mat α} (hs : Holds2 h S) (hu : Unchanged2 h h') : Holds2 h' S :=
  fun i => by rw [hu.views i]; exact hs i

/-- A whole program, of any length, on any number of two-dimensional arrays, with any allocator, in a debug build with
exceptions that the program catches: it is never undefined behaviour, nothing is leaked or released twice, the same
arrays are live, and they are exactly the matrices of the program in which every statement whose request for memory is
refused is skipped, just as every invalid one. -/
theorem C100_history {b : Build} (hb : b.Checked) (he : b.exceptions = true) {h : Heap2 α} (ho : Owned h.heap)
    {S : Nat → Mat α} (hs : Holds2 h S) (cs : List (Stmt2 α)) (hw : ∀ c ∈ cs, c.WellTyped h)
    (hm : memModerate2 h.heap.mem.fails (h.heap.requests, S) cs) :
    ∃ h', hexecAll2 b h cs = .ok h' ∧ Owned h'.heap ∧ (∀ k, h'.heap.objs k = none ↔ h.heap.objs k = none) ∧
      h'.heap.requests = (memRun2 h.heap.mem.fails (h.heap.requests, S) cs).1 ∧
      Holds2 h' (memRun2 h.heap.mem.fails (h.heap.requests, S) cs).2 := by
  induction cs generalizing h S with
  | nil => exact ⟨h, rfl, ho, fun _ => Iff.rfl, rfl, hs⟩
  | cons c cs ih =>
    obtain ⟨m1, m2, m3⟩ : ModerateSizes2 S ∧ c.Moderate ∧ ∀ i j, c = .moveAssign i j → c.meaning S ≠ none :=
      hm [] c cs rfl
    have hk : b.kind = .exception := by simp [Build.kind, he]
    have hwc := hw c (by simp)
    have step : ∃ r, (r = .ok () ∨ r = .trap .exception) ∧ (hexec2 b c h).1 = r ∧ Owned (hexec2 b c h).2.heap ∧
        (hexec2 b c h).2.heap.mem = h.heap.mem ∧
        (∀ k, (hexec2 b c h).2.heap.objs k = none ↔ h.heap.objs k = none) ∧
        (∀ k o o', h.heap.objs k = some o → (hexec2 b c h).2.heap.objs k = some o' → o'.af = o.af) ∧
        (hexec2 b c h).2.heap.requests = (memStep2 h.heap.mem.fails (h.heap.requests, S) c).1 ∧
        Holds2 (hexec2 b c h).2 (memStep2 h.heap.mem.fails (h.heap.requests, S) c).2 := by
      have hnub : (exec2 b c (arraysOf h)).1 ≠ .ub := by
        cases hv : c.meaning S with
        | some S' =>
          obtain ⟨v', e, _⟩ := C34_valid_statement b (s := arraysOf h) hs m1 m2 hv
          rw [e]; simp
        | none =>
          rcases C34_invalid_statement hb (s := arraysOf h) hs m1 m2 hv with e | ⟨i, j, e, _⟩
          · rw [e]; simp
          · exact absurd hv (m3 i j e)
      obtain ⟨q, m, _⟩ := hexec2_mem b (owned_inv ho) hwc (arraysOf_holds h) hs hnub
      have hreqs : ∀ x : Nat, (hexec2 b c h).2.heap.requests = h.heap.requests + (if c.asks S then 1 else 0) →
          (hexec2 b c h).2.heap.requests = (memStep2 h.heap.mem.fails (h.heap.requests, S) c).1 := by
        intro _ h1
        rw [h1]; unfold memStep2
        cases c.asks S <;> rfl
      cases hv : c.meaning S with
      | none =>
        obtain ⟨e1, e2, e3⟩ := C100_invalid_statement hb ho hwc hs m1 m2 hv (fun i j e => absurd hv (m3 i j e))
        refine ⟨_, .inr rfl, ?_, e2.owned, m.mem, m.live, m.types, hreqs 0 e3, ?_⟩
        · rw [e1, hk]; simp
        · have : (memStep2 h.heap.mem.fails (h.heap.requests, S) c).2 = S := by
            simp only [memStep2, hv, Option.getD_none]
            repeat' split
            all_goals rfl
          rw [this]
          exact holds2_unchanged hs e2
      | some S' =>
        obtain ⟨e1, e2, e3⟩ := C100_valid_statement b ho hwc hs m1 m2 hv
        by_cases ha : c.asks S = true
        · by_cases hf : OutOfMemory h.heap
          · obtain ⟨f1, f2⟩ := e2 ⟨ha, hf⟩
            refine ⟨_, .inr rfl, f1, f2.owned, m.mem, m.live, m.types, hreqs 0 e1, ?_⟩
            have hf' : h.heap.mem.fails h.heap.requests = true := hf
            simp only [memStep2, ha, hf', if_true]
            exact holds2_unchanged hs f2
          · obtain ⟨f1, f2, f3⟩ := e3 (fun h1 => hf h1.2)
            refine ⟨_, .inl rfl, f1, f2, m.mem, m.live, m.types, hreqs 0 e1, ?_⟩
            have hf' : ¬ h.heap.mem.fails h.heap.requests = true := hf
            simp only [memStep2, ha, hf', if_true, hv, Option.getD_some]
            exact f3
        · obtain ⟨f1, f2, f3⟩ := e3 (fun h1 => ha h1.1)
          refine ⟨_, .inl rfl, f1, f2, m.mem, m.live, m.types, hreqs 0 e1, ?_⟩
          simp only [memStep2, ha, hv, Option.getD_some]
          exact f3
    obtain ⟨r, hr, e1, e2, e3, e4, e5, e6, e7⟩ := step
    have hst : memStep2 h.heap.mem.fails (h.heap.requests, S) c =
        ((hexec2 b c h).2.heap.requests, (memStep2 h.heap.mem.fails (h.heap.requests, S) c).2) :=
      Prod.ext e6.symm rfl
    obtain ⟨h', g1, g2, g3, g4, g5⟩ := ih e2 e7
      (fun c' hc' => wellTyped2_kept (hw c' (by simp [hc'])) e4 e5) (by
        intro pre c' post hpre
        have := hm (c :: pre) c' post (by rw [hpre]; rfl)
        simp only [memRun2, List.foldl_cons] at this
        rw [hst] at this
        rw [e3]
        exact this)
    rw [e3] at g4 g5
    refine ⟨h', ?_, g2, fun k => by rw [g3, e4], ?_, ?_⟩
    · simp only [hexecAll2]
      rcases hh : hexec2 b c h with ⟨x, h1⟩
      rw [hh] at e1 g1
      simp only at e1 g1
      subst e1
      rcases hr with rfl | rfl <;> exact g1
    · simp only [memRun2, List.foldl_cons]; rw [hst]; exact g4
    · simp only [memRun2, List.foldl_cons]; rw [hst]; exact g5

/-- With an allocator that refuses nothing this is the program of C34. -/
theorem C100_enough_memory (k : Nat) (S : Nat → Mat α) (cs : List (Stmt2 α)) :
    (memRun2 (fun _ => false) (k, S) cs).2 = meaningOf2 S cs := by
  induction cs generalizing k S with
  | nil => rfl
  | cons c cs ih =>
    simp only [memRun2, List.foldl_cons, meaningOf2] at ih ⊢
    simp only [memStep2, Bool.false_eq_true, if_false]
    split
    · exact ih _ _
    · exact ih _ _

/-- Assignments of values and arrays, moves, swaps and `resize` to the present shape never ask for memory; without
preserving the elements, neither does `resize` to another shape with the same number of elements.  But assigning a
list does, even of the same shape. -/
theorem C100_requests (S : Nat → Mat α) (i j : Nat) (x : α) (L : List (List α)) (m n : Int) :
    (Stmt2.call i (.fill x)).asks S = false ∧ (Stmt2.callArr i j .assign : Stmt2 α).asks S = false ∧
    (Stmt2.copyAssign i j : Stmt2 α).asks S = false ∧ (Stmt2.moveAssign i j : Stmt2 α).asks S = false ∧
    (Stmt2.swap i j : Stmt2 α).asks S = false ∧ (Stmt2.resizeAndAssignMove i j : Stmt2 α).asks S = false ∧
    (∀ p, (Stmt2.call i (.resize (S i).m (S i).n p) : Stmt2 α).asks S = false) ∧
    (m * n = (S i).m * (S i).n → (Stmt2.call i (.resize m n false) : Stmt2 α).asks S = false) ∧
    (Rect L (S i).m (S i).n → ((Stmt2.call i (.assignList L)).asks S = true ↔ (S i).m ≠ 0)) := by
  have none_of : ∀ c : Stmt2 α, (∀ i L, c ≠ .call i (.assignList L)) → c.rebuilds S = false → c.asks S = false := by
    intro c h1 h2
    rw [asks_of h1]
    cases c.meaning S with
    | none => rfl
    | some S' => simp [h2]
  refine ⟨none_of _ (by simp) rfl, none_of _ (by simp) rfl, none_of _ (by simp) rfl, none_of _ (by simp) rfl,
    none_of _ (by simp) rfl, none_of _ (by simp) rfl, fun p => none_of _ (by simp) ?_, fun h1 => none_of _ (by simp) ?_,
    fun h1 => ?_⟩
  · cases p <;> simp [Stmt2.rebuilds]
  · simp [Stmt2.rebuilds, h1]
  · simp only [Stmt2.asks, decide_eq_true_eq]
    rcases h1 with ⟨h2, h3, h4, h5⟩ | ⟨h2, h3, h4⟩
    · cases L with
      | nil => simp at h3; omega
      | cons r rs =>
        have := h5 r (by simp)
        rw [List.getD_cons_zero, this, h3, ne_eq, Nat.mul_eq_zero]
        omega
    · rw [h2]
      rcases h4 with h4 | ⟨h4, h5⟩
      · simp [h4]
      · cases L with
        | nil => simp at h4
        | cons r rs => simp [h5 r (by simp)]

theorem memModerate2_nil (fails : Nat → Bool) (st : Nat × (Nat → Mat α)) : memModerate2 fails st [] ↔ True :=
  ⟨fun _ => trivial, fun _ pre c post h => by simp at h⟩

theorem memModerate2_cons (fails : Nat → Bool) (st : Nat × (Nat → Mat α)) (c : Stmt2 α) (cs : List (Stmt2 α)) :
    memModerate2 fails st (c :: cs) ↔ (ModerateSizes2 st.2 ∧ c.Moderate ∧
      ∀ i j, c = .moveAssign i j → c.meaning st.2 ≠ none) ∧ memModerate2 fails (memStep2 fails st c) cs := by
  constructor
  · intro h
    refine ⟨h [] c cs rfl, fun pre c' post hpre => ?_⟩
    have := h (c :: pre) c' post (by rw [hpre]; rfl)
    simpa [memRun2] using this
  · rintro ⟨h1, h2⟩ pre c' post hpre
    cases pre with
    | nil =>
      simp only [List.nil_append, List.cons.injEq] at hpre
      obtain ⟨rfl, _⟩ := hpre
      exact h1
    | cons d pre =>
      simp only [List.cons_append, List.cons.injEq] at hpre
      obtain ⟨rfl, hpre⟩ := hpre
      have := h2 pre c' post hpre
      simpa [memRun2] using this

/-- Array 0 is 1×2 with elements 7, 7, array 1 is empty; requests number 1, 2 and 5 will be refused. -/
def exampleHeap2 : Heap2 Int := ⟨exampleHeap, fun k => if k = 0 then (1, 2) else (0, 0)⟩

def exampleMats : Nat → Mat Int := fun k => if k = 0 then Mat.const 1 2 7 else Mat.empty

theorem exampleHeap2_holds : Holds2 exampleHeap2 exampleMats := by
  intro i
  match i with
  | 0 =>
    refine ⟨rfl, rfl, rfl, by decide, fun i j hi hj => ?_⟩
    have hi' : i < 1 := hi
    have hj' : j < 2 := hj
    match i, j, hi', hj' with
    | 0, 0, _, _ => rfl
    | 0, 1, _, _ => rfl
  | 1 => exact ⟨rfl, rfl, rfl, by decide, fun i j hi => absurd hi (Nat.not_lt_zero _)⟩
  | n + 2 => exact ⟨rfl, rfl, rfl, Iff.rfl, fun i j hi => absurd hi (Nat.not_lt_zero _)⟩

/-- A program of seven statements, three of which are refused memory and one of which is invalid:
`A0.insert_row_back({1, 2})` (refused), `A0 = {{3, 4}}` (refused), `A0.insert_row_front({5, 6})`, `A0.remove_rows(9, 1)`
(invalid), `A1.resize_and_assign(A0)`, `A1 = 4`, `A1.insert_cols_front(A0)` (refused). -/
example : ∃ h', hexecAll2 ⟨false, true, false⟩ exampleHeap2
      [.call 0 (.insertRowBack [1, 2]), .call 0 (.assignList [[3, 4]]), .call 0 (.insertRowFront [5, 6]),
        .call 0 (.removeRows 9 1), .callArr 1 0 .resizeAndAssign, .call 1 (.fill 4), .callArr 1 0 .insertColsFront] =
      .ok h' ∧ Owned h'.heap ∧ h'.heap.requests = 6 ∧
    view2 h' 0 = some ⟨2, 2, [5, 6, 7, 7]⟩ ∧ view2 h' 1 = some ⟨2, 2, [4, 4, 4, 4]⟩ := by
  obtain ⟨h', e1, e2, e3, e4, e5⟩ := C100_history (b := ⟨false, true, false⟩) (by decide) rfl
    (h := exampleHeap2) exampleHeap_owned exampleHeap2_holds
    [.call 0 (.insertRowBack [1, 2]), .call 0 (.assignList [[3, 4]]), .call 0 (.insertRowFront [5, 6]),
      .call 0 (.removeRows 9 1), .callArr 1 0 .resizeAndAssign, .call 1 (.fill 4), .callArr 1 0 .insertColsFront] (by
      intro c hc
      simp only [List.mem_cons, List.not_mem_nil, or_false] at hc
      have live : ∀ i ∈ [0, 1], exampleHeap2.heap.objs i ≠ none := by decide
      rcases hc with rfl | rfl | rfl | rfl | rfl | rfl | rfl <;>
        exact ⟨fun i hi => live i (by simp [Stmt2.vars] at hi; simp; omega), trivial⟩) (by
      simp only [memModerate2_cons, memModerate2_nil, and_true]
      refine ⟨⟨?_, by simp [Stmt2.Moderate, Call2.Moderate, Call2.Moderate.Mod], by simp⟩,
        ⟨?_, by simp [Stmt2.Moderate, Call2.Moderate], by simp⟩,
        ⟨?_, by simp [Stmt2.Moderate, Call2.Moderate, Call2.Moderate.Mod], by simp⟩,
        ⟨?_, by simp [Stmt2.Moderate, Call2.Moderate, Call2.Moderate.Mod], by simp⟩,
        ⟨?_, trivial, by simp⟩, ⟨?_, trivial, by simp⟩, ⟨?_, trivial, by simp⟩⟩ <;> intro i
      all_goals match i with
        | 0 => decide +kernel
        | 1 => decide +kernel
        | n + 2 => exact (by decide : ((0 : Nat) : Int) * (0 : Nat) < 2 ^ 61))
  have get : ∀ k a, h'.heap.objs k ≠ none → (∀ M, IsMat ((view2 h' k).getD ⟨0, 0, []⟩) M →
      M = (memRun2 exampleHeap2.heap.mem.fails (exampleHeap2.heap.requests, exampleMats)
        [.call 0 (.insertRowBack [1, 2]), .call 0 (.assignList [[3, 4]]), .call 0 (.insertRowFront [5, 6]),
          .call 0 (.removeRows 9 1), .callArr 1 0 .resizeAndAssign, .call 1 (.fill 4),
          .callArr 1 0 .insertColsFront]).2 k → (view2 h' k).getD ⟨0, 0, []⟩ = a) → view2 h' k = some a := by
    intro k a hl hk
    have h1 := hk _ (e5 k) rfl
    cases hv : view2 h' k with
    | none => rw [view2_none_iff (owned_inv e2)] at hv; exact absurd hv hl
    | some c => rw [hv] at h1; rw [← h1]; rfl
  have four : ∀ (a : Arr2 Int) (M : Mat Int) (x y z w : Int), IsMat a M → M.m = 2 → M.n = 2 → M.el 0 0 = x →
      M.el 0 1 = y → M.el 1 0 = z → M.el 1 1 = w → a = ⟨2, 2, [x, y, z, w]⟩ := by
    intro a M x y z w ha h1 h2 h3 h4 h5 h6
    obtain ⟨r, c, d⟩ := a
    have a1 := ha.rows; have a2 := ha.cols; have a3 := ha.size
    have b1 := ha.el 0 0 (by omega) (by omega)
    have b2 := ha.el 0 1 (by omega) (by omega)
    have b3 := ha.el 1 0 (by omega) (by omega)
    have b4 := ha.el 1 1 (by omega) (by omega)
    rw [h1, h2] at a3
    simp only [h1, h2, h3, h4, h5, h6] at a1 a2 b1 b2 b3 b4
    subst a1 a2
    match d, a3 with
    | [p, q, r, s], _ => simp at b1 b2 b3 b4; simp [b1, b2, b3, b4]
  refine ⟨h', e1, e2, by rw [e4]; decide +kernel, ?_, ?_⟩
  · refine get 0 _ (by rw [ne_eq, e3]; decide) fun M hM he => four _ M _ _ _ _ hM ?_ ?_ ?_ ?_ ?_ ?_ <;> subst he <;>
      decide +kernel
  · refine get 1 _ (by rw [ne_eq, e3]; decide) fun M hM he => four _ M _ _ _ _ hM ?_ ?_ ?_ ?_ ?_ ?_ <;> subst he <;>
      decide +kernel

end Spp.Props
