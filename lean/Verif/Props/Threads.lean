import Verif.Lemmas.Threads
import Verif.Spec.Decide
import Mathlib.Algebra.BigOperators.Fin
import Mathlib.Algebra.Order.BigOperators.Group.Finset
import Mathlib.Data.List.FinRange
import Mathlib.Tactic.Linarith

/-
C121: statements executed by several threads at the same time.
-/

namespace Spp.Props
open Spec Threads

variable {α : Type} {n : Nat}

/-- C121: in every interleaving of threads none of which writes a place that another one uses, a thread that has
ended has ended the way it would have ended alone, and the places it uses hold what they would hold then - while the
other threads are still running, have ended or have failed. -/
theorem C121_isolated (b : Build) {s : Store α} (hs : Store.Ok s) {T : Fin n → List (AStmt α)}
    (hA : AllAccepted s T) (hd : Apart s T) {m : Machine n α} (h : Reaches (Machine.start T s) m) (i : Fin n)
    {r : Res Unit} (hr : (m.thread i).result = some r) :
    (AStmt.runAll b (T i) s).1 = r ∧
    ∀ c, Uses s (T i) c → m.mem.read c = (AStmt.runAll b (T i) s).2.read c := by
  obtain ⟨p, hp⟩ := (inv_reaches b hs hA hd h).own i
  have key : AStmt.runAll b (T i) s = (r, p) := by
    have hl := hp.left
    rcases ht : m.thread i with ⟨_ | ⟨st, rest⟩, k⟩ | q
    · rw [ht] at hr hl
      cases hr; exact hl
    · rw [ht] at hr; exact nomatch hr
    · rw [ht] at hr hl
      cases hr; exact hl
  rw [key]
  exact ⟨rfl, (hp.agree m.mem hp.cur).2⟩

/-- C121: at every moment the arrays have their sizes, and the places that no thread writes have their contents. -/
theorem C121_untouched {s : Store α} (hs : Store.Ok s) {T : Fin n → List (AStmt α)}
    (hA : AllAccepted s T) (hd : Apart s T) {m : Machine n α} (h : Reaches (Machine.start T s) m) :
    SameSizes s m.mem ∧ ∀ c, (∀ i, ¬ Modifies s (T i) c) → m.mem.read c = s.read c :=
  ⟨(inv_reaches ⟨false, true, false⟩ hs hA hd h).sizes, (inv_reaches ⟨false, true, false⟩ hs hA hd h).frame⟩

/-- C121: all complete executions end in the same state, with the same outcome of every thread. -/
theorem C121_same_end {s : Store α} (hs : Store.Ok s) {T : Fin n → List (AStmt α)}
    (hA : AllAccepted s T) (hd : Apart s T) {m m' : Machine n α} (h : Reaches (Machine.start T s) m)
    (h' : Reaches (Machine.start T s) m') (he : m.Ended) (he' : m'.Ended) :
    m.mem = m'.mem ∧ ∀ i, (m.thread i).result = (m'.thread i).result := by
  obtain ⟨s1, f1⟩ := C121_untouched hs hA hd h
  obtain ⟨s2, f2⟩ := C121_untouched hs hA hd h'
  have iso : ∀ i, (m.thread i).result = (m'.thread i).result ∧
      ∀ c, Uses s (T i) c → m.mem.read c = m'.mem.read c := by
    intro i
    obtain ⟨r, hr⟩ := Option.isSome_iff_exists.1 (he i)
    obtain ⟨r', hr'⟩ := Option.isSome_iff_exists.1 (he' i)
    obtain ⟨a1, a2⟩ := C121_isolated ⟨false, true, false⟩ hs hA hd h i hr
    obtain ⟨b1, b2⟩ := C121_isolated ⟨false, true, false⟩ hs hA hd h' i hr'
    refine ⟨by rw [hr, hr', ← a1, ← b1], fun c hc => by rw [a2 c hc, b2 c hc]⟩
  refine ⟨store_ext (SameSizes.trans (SameSizes.symm s1) s2) (fun c => ?_), fun i => (iso i).1⟩
  by_cases hc : ∃ i, Modifies s (T i) c
  · obtain ⟨i, st, h1, h2⟩ := hc
    exact (iso i).2 c ⟨st, h1, .inr h2⟩
  · have hc' : ∀ i, ¬ Modifies s (T i) c := fun i hi => hc ⟨i, hi⟩
    rw [f1 c hc', f2 c hc']

/-- C121: no deadlock: as long as a thread has not ended, a step is possible. -/
theorem C121_progress {s : Store α} (hs : Store.Ok s) {T : Fin n → List (AStmt α)}
    (hA : AllAccepted s T) (hd : Apart s T) {m : Machine n α} (h : Reaches (Machine.start T s) m)
    (he : ¬ m.Ended) : ∃ m', Move m m' := by
  have inv := inv_reaches ⟨false, true, false⟩ hs hA hd h
  unfold Machine.Ended at he
  simp only [not_forall] at he
  obtain ⟨i, hi⟩ := he
  obtain ⟨p, hp⟩ := inv.own i
  rcases ht : m.thread i with ⟨_ | ⟨st, rest⟩, k⟩ | q
  · rw [ht] at hi; exact absurd rfl hi
  · have hl := hp.left
    rw [ht] at hl
    obtain ⟨cs, hpl, hk, _⟩ := hl
    have ho : st.outputs m.mem = cs.map Res.ok := by
      rw [AStmt.outputs_same inv.sizes, AStmt.outputs_eq hpl]
    have hmix : Mixed (m.seen i) m.mem := ⟨⟨m.mem, hp.cur, SameSizes.refl _⟩, fun c => ⟨m.mem, hp.cur, rfl⟩⟩
    rcases Nat.lt_or_ge k cs.length with hlt | hge
    · rcases hv : st.value k m.mem with x | q | _
      · have hcv := (AStmt.places_valid hpl cs[k] (List.getElem_mem hlt)).same inv.sizes
        obtain ⟨u, w1, _, _⟩ := write_ok hcv x
        exact ⟨_, .write ht (by rw [ho, List.getElem?_map, List.getElem?_eq_getElem hlt]; rfl) hmix hv w1⟩
      · exact ⟨_, .fail (r := .trap q) ht (by rw [ho, List.length_map]; exact hlt) hmix (by rw [hv]; rfl)
          (fun h => nomatch h)⟩
      · exact ⟨_, .fail (r := .ub) ht (by rw [ho, List.length_map]; exact hlt) hmix (by rw [hv]; rfl)
          (fun h => nomatch h)⟩
    · exact ⟨_, .next ht (by rw [ho, List.length_map]; omega)⟩
  · rw [ht] at hi; exact absurd rfl hi

/-- One step for every element assigned to, and one for every statement. -/
def work (s : Store α) (sts : List (AStmt α)) : Nat := (sts.map fun st => (st.outputs s).length + 1).sum

/-- The work that is left. -/
def remaining (s : Store α) : Thread α → Nat
  | .run sts k => work s sts - k
  | .stop _ => 0

theorem remaining_step {s : Store α} {m m' : Machine n α} (hz : SameSizes s m.mem) (h : Move m m') :
    ∑ i, remaining s (m'.thread i) < ∑ i, remaining s (m.thread i) := by
  have key : ∀ (i : Fin n) (th : Thread α), remaining s th < remaining s (m.thread i) →
      ∑ j, remaining s (Function.update m.thread i th j) < ∑ j, remaining s (m.thread j) := by
    intro i th hlt
    refine Finset.sum_lt_sum (fun j _ => ?_) ⟨i, Finset.mem_univ i, ?_⟩
    · by_cases hj : j = i
      · subst hj
        rw [Function.update_self]; exact hlt.le
      · rw [Function.update_of_ne hj]
    · rw [Function.update_self]; exact hlt
  cases h with
  | @write i st rest k c w mem' x h1 h2 h3 h4 h5 =>
    refine key i _ ?_
    rw [h1]
    rw [AStmt.outputs_same hz] at h2
    obtain ⟨hk, _⟩ := List.getElem?_eq_some_iff.1 h2
    simp only [remaining, work, List.map_cons, List.sum_cons]
    omega
  | @fail i st rest k w r h1 h2 h3 h4 h5 =>
    refine key i _ ?_
    rw [h1]
    rw [AStmt.outputs_same hz] at h2
    simp only [remaining, work, List.map_cons, List.sum_cons]
    omega
  | @next i st rest k h1 h2 =>
    refine key i _ ?_
    rw [h1]
    rw [AStmt.outputs_same hz] at h2
    simp only [remaining, work, List.map_cons, List.sum_cons]
    omega

/-- C121: every execution is finite: it has at most one step for every element that is assigned to and one for every
statement. -/
theorem C121_finite {s : Store α} (hs : Store.Ok s) {T : Fin n → List (AStmt α)}
    (hA : AllAccepted s T) (hd : Apart s T) (f : Nat → Machine n α) (N : Nat) (h0 : f 0 = Machine.start T s)
    (hf : ∀ j, j < N → Move (f j) (f (j + 1))) :
    N ≤ ∑ i, ((T i).map fun st => (st.outputs s).length + 1).sum := by
  have reach : ∀ j, j ≤ N → Reaches (Machine.start T s) (f j) := by
    intro j
    induction j with
    | zero => intro _; rw [h0]; exact Relation.ReflTransGen.refl
    | succ j ih => intro hj; exact (ih (by omega)).tail (hf j (by omega))
  have bound : ∀ j, j ≤ N → j + ∑ i, remaining s ((f j).thread i) ≤ ∑ i, remaining s ((f 0).thread i) := by
    intro j
    induction j with
    | zero => intro _; simp
    | succ j ih =>
      intro hj
      have h1 := ih (by omega)
      have h2 := remaining_step (s := s) (C121_untouched hs hA hd (reach j (by omega))).1 (hf j (by omega))
      omega
  have := bound N le_rfl
  rw [h0] at this
  have e : ∑ i, remaining s ((Machine.start T s).thread i) =
      ∑ i, ((T i).map fun st => (st.outputs s).length + 1).sum := rfl
  omega

/-- C121: so every execution can be completed. -/
theorem C121_completes {s : Store α} (hs : Store.Ok s) {T : Fin n → List (AStmt α)}
    (hA : AllAccepted s T) (hd : Apart s T) {m : Machine n α} (h : Reaches (Machine.start T s) m) :
    ∃ m', Reaches m m' ∧ m'.Ended := by
  generalize hk : ∑ i, remaining s (m.thread i) = k
  induction k using Nat.strong_induction_on generalizing m with
  | _ k ih =>
    by_cases he : m.Ended
    · exact ⟨m, Relation.ReflTransGen.refl, he⟩
    · obtain ⟨m1, h1⟩ := C121_progress hs hA hd h he
      have hlt := remaining_step (s := s) (C121_untouched hs hA hd h).1 h1
      rw [hk] at hlt
      obtain ⟨m', h2, h3⟩ := ih _ hlt (h.tail h1) rfl
      exact ⟨m', Relation.ReflTransGen.head h1 h2, h3⟩

/-! ### One thread after the other -/

/-- The present memory is among what every thread may see. -/
def Fresh (m : Machine n α) : Prop := ∀ i, m.mem ∈ m.seen i

theorem solo_stmt {s : Store α} {i : Fin n} {st : AStmt α} {rest : List (AStmt α)} {cs : List Loc}
    (hp : AStmt.Places s cs st) (d : Nat) : ∀ (k : Nat) (m : Machine n α), k + d = cs.length →
    SameSizes s m.mem → Fresh m → m.thread i = .run (st :: rest) k →
    ∃ m', Reaches m m' ∧ m'.mem = (stepwise st.value (cs.drop k) k m.mem).2 ∧ SameSizes s m'.mem ∧ Fresh m' ∧
      (∀ j, j ≠ i → m'.thread j = m.thread j) ∧
      ((stepwise st.value (cs.drop k) k m.mem).1 = .ok () → m'.thread i = .run rest 0) ∧
      ((stepwise st.value (cs.drop k) k m.mem).1 ≠ .ok () →
        m'.thread i = .stop (stepwise st.value (cs.drop k) k m.mem).1) := by
  induction d with
  | zero =>
    intro k m hk hz hf ht
    have e : cs.drop k = [] := List.drop_eq_nil_of_le (by omega)
    rw [e]
    refine ⟨_, Relation.ReflTransGen.single (.next ht ?_), rfl, hz, hf, fun j hj => Function.update_of_ne hj _ _,
      fun _ => Function.update_self _ _ _, fun h => absurd rfl h⟩
    rw [AStmt.outputs_same hz, AStmt.outputs_eq hp, List.length_map]; omega
  | succ d ih =>
    intro k m hk hz hf ht
    have hlt : k < cs.length := by omega
    have ho : st.outputs m.mem = cs.map Res.ok := by
      rw [AStmt.outputs_same hz, AStmt.outputs_eq hp]
    have hmix : Mixed (m.seen i) m.mem := ⟨⟨m.mem, hf i, SameSizes.refl _⟩, fun c => ⟨m.mem, hf i, rfl⟩⟩
    have hcv := (AStmt.places_valid hp cs[k] (List.getElem_mem hlt)).same hz
    rw [List.drop_eq_getElem_cons hlt]
    unfold stepwise
    cases hv : st.value k m.mem with
    | ok x =>
      obtain ⟨u, w1, w2, _⟩ := write_ok hcv x
      simp only [w1]
      have step := Move.write ht (by rw [ho, List.getElem?_map, List.getElem?_eq_getElem hlt]; rfl) hmix hv w1
      obtain ⟨m', r1, r2, r3, r4, r5, r6, r7⟩ := ih (k + 1)
        ⟨Function.update m.thread i (.run (st :: rest) (k + 1)), u, fun j => if j = i then [u] else u :: m.seen j⟩
        (by omega) (SameSizes.trans hz w2) (fun j => by by_cases hj : j = i <;> simp [hj])
        (Function.update_self _ _ _)
      refine ⟨m', Relation.ReflTransGen.head step r1, r2, r3, r4, fun j hj => ?_, r6, r7⟩
      rw [r5 j hj]
      exact Function.update_of_ne hj _ _
    | trap q =>
      refine ⟨_, Relation.ReflTransGen.single (.fail (r := .trap q) ht (by rw [ho, List.length_map]; exact hlt) hmix
        (by rw [hv]; rfl) (fun h => nomatch h)), rfl, hz, hf, fun j hj => Function.update_of_ne hj _ _,
        fun h => (nomatch h), fun _ => Function.update_self _ _ _⟩
    | ub =>
      refine ⟨_, Relation.ReflTransGen.single (.fail (r := .ub) ht (by rw [ho, List.length_map]; exact hlt) hmix
        (by rw [hv]; rfl) (fun h => nomatch h)), rfl, hz, hf, fun j hj => Function.update_of_ne hj _ _,
        fun h => (nomatch h), fun _ => Function.update_self _ _ _⟩

/-- A thread that runs while the others wait. -/
theorem solo (b : Build) {s : Store α} (hs : Store.Ok s) {i : Fin n} : ∀ (sts : List (AStmt α)) (m : Machine n α),
    (∀ st ∈ sts, AStmt.Sound s st ∧ AStmt.Valid s st) → SameSizes s m.mem → Fresh m → m.thread i = .run sts 0 →
    ∃ m', Reaches m m' ∧ m'.mem = (AStmt.runAll b sts m.mem).2 ∧ SameSizes s m'.mem ∧ Fresh m' ∧
      (∀ j, j ≠ i → m'.thread j = m.thread j) ∧ (m'.thread i).result = some (AStmt.runAll b sts m.mem).1 := by
  intro sts
  induction sts with
  | nil =>
    intro m _ hz hf ht
    exact ⟨m, Relation.ReflTransGen.refl, rfl, hz, hf, fun _ _ => rfl, by rw [ht]; rfl⟩
  | cons st rest ih =>
    intro m hA hz hf ht
    obtain ⟨hS, hV⟩ := hA st (by simp)
    obtain ⟨cs, hp, _⟩ := AStmt.places_exist hs hS hV
    obtain ⟨m1, r1, r2, r3, r4, r5, r6, r7⟩ := solo_stmt (i := i) (rest := rest) hp cs.length 0 m (by omega) hz hf ht
    have e : st.run b m.mem = stepwise st.value (cs.drop 0) 0 m.mem :=
      C118_in_order b (ok_same hz hs) (AStmt.stays_sound hz hS) (AStmt.stays_valid hz hV) (AStmt.places_same hz hp)
    rw [← e] at r2 r6 r7
    rw [runAll_cons]
    rcases hr : st.run b m.mem with ⟨_ | q | _, u⟩
    · rw [hr] at r2 r6 r7
      obtain ⟨m2, k1, k2, k3, k4, k5, k6⟩ := ih m1 (fun st h => hA st (List.mem_cons_of_mem _ h)) r3 r4 (r6 rfl)
      refine ⟨m2, Relation.ReflTransGen.trans r1 k1, ?_, k3, k4, fun j hj => (k5 j hj).trans (r5 j hj), ?_⟩
      · rw [k2, r2]; rfl
      · rw [k6, r2]; rfl
    · rw [hr] at r2 r6 r7
      exact ⟨m1, r1, r2, r3, r4, r5, by rw [r7 (fun h => nomatch h)]; rfl⟩
    · rw [hr] at r2 r6 r7
      exact ⟨m1, r1, r2, r3, r4, r5, by rw [r7 (fun h => nomatch h)]; rfl⟩

theorem runAll_append (b : Build) (xs ys : List (AStmt α)) (s : Store α) :
    AStmt.runAll b (xs ++ ys) s = andThen (AStmt.runAll b xs s) (AStmt.runAll b ys) := by
  induction xs generalizing s with
  | nil => rfl
  | cons x xs ih =>
    rw [List.cons_append, runAll_cons, runAll_cons]
    rcases x.run b s with ⟨_ | q | _, u⟩
    · exact ih u
    · rfl
    · rfl

/-- C121: the threads all succeed, and the memory holds `s'` when they have, if and only if the program that executes
the statements of the threads one thread after the other succeeds and leaves `s'`. -/
theorem C121_sequential (b : Build) {s s' : Store α} (hs : Store.Ok s) {T : Fin n → List (AStmt α)}
    (hA : AllAccepted s T) (hd : Apart s T) :
    AStmt.runAll b ((List.finRange n).flatMap T) s = (.ok (), s') ↔
      ∀ m, Reaches (Machine.start T s) m → m.Ended →
        m.mem = s' ∧ ∀ i, (m.thread i).result = some (.ok ()) := by
  -- the schedule that runs the threads of `l` one after the other
  have seq : ∀ (l : List (Fin n)) (m : Machine n α), l.Nodup → SameSizes s m.mem → Fresh m →
      (∀ i ∈ l, m.thread i = .run (T i) 0) →
      ∃ m', Reaches m m' ∧ SameSizes s m'.mem ∧ Fresh m' ∧ (∀ j, j ∉ l → m'.thread j = m.thread j) ∧
        ((AStmt.runAll b (l.flatMap T) m.mem).1 = .ok () →
          m'.mem = (AStmt.runAll b (l.flatMap T) m.mem).2 ∧ ∀ i ∈ l, (m'.thread i).result = some (.ok ())) ∧
        ((AStmt.runAll b (l.flatMap T) m.mem).1 ≠ .ok () →
          ∃ i ∈ l, ∃ r, r ≠ .ok () ∧ (m'.thread i).result = some r) := by
    intro l
    induction l with
    | nil =>
      intro m _ hz hf _
      exact ⟨m, Relation.ReflTransGen.refl, hz, hf, fun _ _ => rfl, fun _ => ⟨rfl, fun _ h => absurd h (by simp)⟩,
        fun h => absurd rfl h⟩
    | cons i l ih =>
      intro m hn hz hf ht
      obtain ⟨hi, hn'⟩ := List.nodup_cons.1 hn
      obtain ⟨m1, r1, r2, r3, r4, r5, r6⟩ := solo b hs (T i) m (hA i) hz hf (ht i (by simp))
      obtain ⟨m2, k1, k2, k3, k4, k5, k6⟩ := ih m1 hn' r3 r4 (fun j hj => by
        rw [r5 j (fun e => hi (e ▸ hj))]; exact ht j (List.mem_cons_of_mem _ hj))
      have e2 : m2.thread i = m1.thread i := k4 i hi
      rw [List.flatMap_cons, runAll_append]
      rcases hr : AStmt.runAll b (T i) m.mem with ⟨_ | q | _, u⟩
      · rw [hr] at r2 r6
        rw [r2] at k5 k6
        refine ⟨m2, Relation.ReflTransGen.trans r1 k1, k2, k3, fun j hj => ?_, fun h => ?_, fun h => ?_⟩
        · simp only [List.mem_cons, not_or] at hj
          rw [k4 j hj.2, r5 j hj.1]
        · obtain ⟨a1, a2⟩ := k5 h
          refine ⟨a1, fun j hj => ?_⟩
          rcases List.mem_cons.1 hj with e | e
          · rw [e, e2]; exact r6
          · exact a2 j e
        · obtain ⟨j, hj, r, h1, h2⟩ := k6 h
          exact ⟨j, List.mem_cons_of_mem _ hj, r, h1, h2⟩
      · rw [hr] at r2 r6
        refine ⟨m1, r1, r3, r4, fun j hj => r5 j (fun e => hj (e ▸ List.mem_cons_self ..)), fun h => (nomatch h),
          fun _ => ⟨i, by simp, .trap q, fun h => (nomatch h), r6⟩⟩
      · rw [hr] at r2 r6
        refine ⟨m1, r1, r3, r4, fun j hj => r5 j (fun e => hj (e ▸ List.mem_cons_self ..)), fun h => (nomatch h),
          fun _ => ⟨i, by simp, .ub, fun h => (nomatch h), r6⟩⟩
  obtain ⟨m0, r1, r2, r3, r4, r5, r6⟩ := seq (List.finRange n) (Machine.start T s) (List.nodup_finRange n)
    (SameSizes.refl s) (fun _ => List.mem_cons_self ..) (fun _ _ => rfl)
  have e0 : (Machine.start T s).mem = s := rfl
  rw [e0] at r5 r6
  constructor
  · intro h m hm he
    rw [h] at r5
    obtain ⟨a1, a2⟩ := r5 rfl
    have he0 : m0.Ended := fun i => by rw [a2 i (List.mem_finRange i)]; rfl
    obtain ⟨c1, c2⟩ := C121_same_end hs hA hd hm r1 he he0
    exact ⟨c1.trans a1, fun i => (c2 i).trans (a2 i (List.mem_finRange i))⟩
  · intro h
    by_cases hok : (AStmt.runAll b ((List.finRange n).flatMap T) s).1 = .ok ()
    · obtain ⟨a1, a2⟩ := r5 hok
      have he0 : m0.Ended := fun i => by rw [a2 i (List.mem_finRange i)]; rfl
      refine Prod.ext hok ?_
      rw [← a1]
      exact (h m0 r1 he0).1
    · obtain ⟨i, _, r, h1, h2⟩ := r6 hok
      obtain ⟨m', k1, k2⟩ := C121_completes hs hA hd r1
      have a1 := (C121_isolated b hs hA hd r1 i h2).1
      have a2 := (C121_isolated b hs hA hd (Relation.ReflTransGen.trans r1 k1) i
        ((h m' (Relation.ReflTransGen.trans r1 k1) k2).2 i)).1
      exact absurd (a1.symm.trans a2) h1

/-! ### Threads that use different arrays -/

theorem inputs_mentions {s : Store α} {c : Loc} {d : Dim} (t : Tm α d) :
    Res.ok c ∈ t.inputs s → t.Mentions c.array := by
  induction t with
  | lv l => intro h; exact (all_flatU l s h).symm
  | view v t ih => exact ih
  | unary f t ih => exact ih
  | binary f t1 t2 ih1 ih2 => intro h; exact (List.mem_append.1 h).imp ih1 ih2
  | scalarL f x t ih => exact ih
  | scalarR f t x ih => exact ih
  | sequence ar n x y => intro h; exact absurd h (by simp [Tm.inputs])
  | linspace ar n x y => intro h; exact absurd h (by simp [Tm.inputs])
  | eUnit ar k n => intro h; exact absurd h (by simp [Tm.inputs])
  | const1D n x => intro h; exact absurd h (by simp [Tm.inputs])
  | const2D m n x => intro h; exact absurd h (by simp [Tm.inputs])
  | identity ar n => intro h; exact absurd h (by simp [Tm.inputs])
  | merge t1 t2 ih1 ih2 => intro h; exact (List.mem_append.1 h).imp ih1 ih2
  | append t x ih => exact ih
  | prepend x t ih => exact ih
  | exclude t p c ih => exact ih
  | excludeLast t k ih => exact ih
  | reduce rw g t ih => exact ih
  | matvec ar t x ih1 ih2 => intro h; exact (List.mem_append.1 h).imp ih1 ih2
  | bcast rw t ih => exact ih
  | tensor ar t1 t2 ih1 ih2 => intro h; exact (List.mem_append.1 h).imp ih1 ih2
  | transpose t ih => exact ih
  | mergeH t1 t2 ih1 ih2 => intro h; exact (List.mem_append.1 h).imp ih1 ih2
  | mergeV t1 t2 ih1 ih2 => intro h; exact (List.mem_append.1 h).imp ih1 ih2
where
  all_flatU {d : Dim} (l : Lv d) (s : Store α) {c : Loc} (h : Res.ok c ∈ l.parts s) : c.array = l.array :=
    allU_flat (l.cells_array s) _ h c rfl

/-- C121: threads whose statements are independent - no thread assigns to an array that a statement of another thread
reads or assigns to. -/
theorem C121_arrays {s : Store α} {T : Fin n → List (AStmt α)}
    (h : ∀ i j, i ≠ j → ∀ p ∈ T i, ∀ q ∈ T j, AStmt.Independent p q) : Apart s T := by
  have out : ∀ {st : AStmt α} {c : Loc}, Res.ok c ∈ st.outputs s → c.array = st.dest := by
    intro st c hc
    cases st <;> exact inputs_mentions.all_flatU _ s hc
  have inp : ∀ {st : AStmt α} {c : Loc}, Res.ok c ∈ st.inputs s → st.Reads c.array := by
    intro st c hc
    cases st with
    | assign l t => exact inputs_mentions t hc
    | fill l x => exact absurd hc (by simp [AStmt.inputs])
    | list l xs => exact absurd hc (by simp [AStmt.inputs])
    | list2 l L => exact absurd hc (by simp [AStmt.inputs])
    | compound op l t =>
      exact (List.mem_append.1 hc).imp (fun h => (inputs_mentions.all_flatU _ s h).symm) (inputs_mentions t)
    | compoundX op l x => exact (inputs_mentions.all_flatU _ s hc).symm
  rintro i j hij c ⟨p, hp, hpc⟩ ⟨q, hq, hqc | hqc⟩
  · have := (h i j hij p hp q hq).2.2
    exact this ((out hpc) ▸ inp hqc)
  · exact (h i j hij p hp q hq).1 ((out hpc).symm.trans (out hqc))

/-! ### A matrix shared row by row -/

/-- C121: thread `i` only works on row `i` of a matrix, and on arrays that no thread assigns to. -/
theorem C121_rows {s : Store α} (id : Nat) {T : Fin n → List (AStmt α)}
    (ho : ∀ i, ∀ st ∈ T i, st.outputs s = (Lv.view (.row (.at (i : Nat))) (.arr2 id)).parts s)
    (hi : ∀ i, ∀ st ∈ T i, ∀ c, Res.ok c ∈ st.inputs s → c.array = (.two, id) →
      Res.ok c ∈ (Lv.view (.row (.at (i : Nat))) (.arr2 id)).parts s) : Apart s T := by
  have row : ∀ (i : Fin n) c, Res.ok c ∈ (Lv.view (.row (.at (i : Nat))) (.arr2 id)).parts s →
      ∃ j, j < (s.a2 id).cols.toNat ∧ c = .two id (i * (s.a2 id).cols.toNat + j) := by
    intro i c hc
    have hc' : Res.ok c ∈ (List.range (s.a2 id).cols.toNat).map
        (fun j => Res.ok (Loc.two id ((i : Nat) * (s.a2 id).cols.toNat + j))) := hc
    obtain ⟨j, hj, e⟩ := List.mem_map.1 hc'
    exact ⟨j, List.mem_range.1 hj, (Res.ok.inj e).symm⟩
  have apart : ∀ (i j : Fin n) c, i ≠ j → Res.ok c ∈ (Lv.view (.row (.at (i : Nat))) (.arr2 id)).parts s →
      Res.ok c ∉ (Lv.view (.row (.at (j : Nat))) (.arr2 id)).parts s := by
    intro i j c hij h1 h2
    obtain ⟨p, hp, e1⟩ := row i c h1
    obtain ⟨q, hq, e2⟩ := row j c h2
    rw [e1] at e2
    injection e2 with _ e
    have d1 : ((i : Nat) * (s.a2 id).cols.toNat + p) / (s.a2 id).cols.toNat = i := by
      rw [Nat.mul_comm, Nat.mul_add_div (by omega), Nat.div_eq_of_lt hp, Nat.add_zero]
    have d2 : ((j : Nat) * (s.a2 id).cols.toNat + q) / (s.a2 id).cols.toNat = j := by
      rw [Nat.mul_comm, Nat.mul_add_div (by omega), Nat.div_eq_of_lt hq, Nat.add_zero]
    rw [e, d2] at d1
    exact hij (Fin.ext d1.symm)
  rintro i j hij c ⟨p, hp, hpc⟩ ⟨q, hq, hqc⟩
  rw [ho i p hp] at hpc
  have ha : c.array = (.two, id) := by
    obtain ⟨_, _, e⟩ := row i c hpc
    rw [e]; rfl
  rcases hqc with h | h
  · exact apart i j c hij hpc (hi j q hq c h ha)
  · rw [ho j q hq] at h
    exact apart i j c hij hpc h

/-! ### Examples -/

/-- A way to check `Apart`. -/
theorem apart_of {s : Store α} {T : Fin n → List (AStmt α)}
    (h : ∀ i j, i ≠ j → ∀ p ∈ T i, ∀ q ∈ T j, ∀ r ∈ p.outputs s, r ∉ q.inputs s ∧ r ∉ q.outputs s) : Apart s T := by
  rintro i j hij c ⟨p, hp, hpc⟩ ⟨q, hq, hqc | hqc⟩
  · exact (h i j hij p hp q hq _ hpc).1 hqc
  · exact (h i j hij p hp q hq _ hpc).2 hqc

/-- Two threads that work on different parts of `x = {1, 2, 3}`: `x(firstN(1)) *= 7; x(firstN(1)) += 1` and
`x(lastN(2)) = x(lastN(2)) + y(firstN(2))`, with `y = {4, 5, 6}`. -/
def twoThreads : Fin 2 → List (AStmt Int)
  | 0 => [.compoundX (fun u v => .ok (u * v)) (.view (.slice (.firstN 1)) (.arr1 0)) 7,
          .compoundX (fun u v => .ok (u + v)) (.view (.slice (.firstN 1)) (.arr1 0)) 1]
  | 1 => [.assign (.view (.slice (.lastN 2)) (.arr1 0))
          (.binary (fun u v => .ok (u + v)) (.lv (.view (.slice (.lastN 2)) (.arr1 0)))
            (.lv (.view (.slice (.firstN 2)) (.arr1 1))))]

theorem twoThreads_accepted : AllAccepted Sample.store twoThreads := by
  intro i
  match i with
  | 0 => exact List.forall_mem_cons.2 ⟨⟨show Lv.Sound _ _ by decide, show Lv.Valid _ _ by decide⟩,
      List.forall_mem_cons.2 ⟨⟨show Lv.Sound _ _ by decide, show Lv.Valid _ _ by decide⟩, by simp⟩⟩
  | 1 => exact List.forall_mem_cons.2 ⟨⟨show Lv.Sound _ _ ∧ Tm.Sound _ _ by decide,
      show Lv.Valid _ _ by decide, show Tm.Valid _ _ by decide, rfl⟩, by simp⟩

theorem twoThreads_apart : Apart Sample.store twoThreads := by
  refine apart_of ?_
  intro i j hij
  match i, j with
  | 0, 0 => exact absurd rfl hij
  | 0, 1 =>
    intro p hp q hq
    have hq' : q = _ := List.mem_singleton.1 hq
    subst hq'
    rcases List.mem_cons.1 hp with rfl | hp
    · exact show ∀ r ∈ Lv.parts Sample.store _, r ∉ Tm.inputs Sample.store _ ∧ r ∉ Lv.parts Sample.store _ by decide
    · have hp' : p = _ := List.mem_singleton.1 hp
      subst hp'
      exact show ∀ r ∈ Lv.parts Sample.store _, r ∉ Tm.inputs Sample.store _ ∧ r ∉ Lv.parts Sample.store _ by decide
  | 1, 0 =>
    intro p hp q hq
    have hp' : p = _ := List.mem_singleton.1 hp
    subst hp'
    rcases List.mem_cons.1 hq with rfl | hq
    · exact show ∀ r ∈ Lv.parts Sample.store _, r ∉ Lv.parts Sample.store _ ∧ r ∉ Lv.parts Sample.store _ by decide
    · have hq' : q = _ := List.mem_singleton.1 hq
      subst hq'
      exact show ∀ r ∈ Lv.parts Sample.store _, r ∉ Lv.parts Sample.store _ ∧ r ∉ Lv.parts Sample.store _ by decide
  | 1, 1 => exact absurd rfl hij

/-- Every interleaving ends with `x = {8, 6, 8}`. -/
example : ∀ m, Reaches (Machine.start twoThreads Sample.store) m → m.Ended → m.mem.a1 0 = [8, 6, 8] := by
  intro m h1 h2
  have := (C121_sequential ⟨false, true, false⟩ Sample.store_ok twoThreads_accepted twoThreads_apart).1
    (Prod.ext rfl rfl : AStmt.runAll ⟨false, true, false⟩ ((List.finRange 2).flatMap twoThreads) Sample.store =
      (.ok (), (AStmt.runAll ⟨false, true, false⟩ ((List.finRange 2).flatMap twoThreads) Sample.store).2)) m h1 h2
  rw [this.1]
  decide +kernel

/-- There is such an execution. -/
example : ∃ m, Reaches (Machine.start twoThreads Sample.store) m ∧ m.Ended :=
  C121_completes Sample.store_ok twoThreads_accepted twoThreads_apart Relation.ReflTransGen.refl

/-- `x(firstN(1)) = x(lastN(1))` and `x(lastN(1)) = x(firstN(1))`. -/
def racing (i : Fin 2) : List (AStmt Int) :=
  if i = 0 then [.assign (.view (.slice (.firstN 1)) (.arr1 0)) (.lv (.view (.slice (.lastN 1)) (.arr1 0)))]
  else [.assign (.view (.slice (.lastN 1)) (.arr1 0)) (.lv (.view (.slice (.firstN 1)) (.arr1 0)))]

theorem racing_accepted : AllAccepted Sample.store racing := by
  intro i
  match i with
  | 0 => exact List.forall_mem_cons.2 ⟨⟨show Lv.Sound _ _ ∧ Tm.Sound _ _ by decide,
      show Lv.Valid _ _ by decide, show Tm.Valid _ _ by decide, rfl⟩, by simp⟩
  | 1 => exact List.forall_mem_cons.2 ⟨⟨show Lv.Sound _ _ ∧ Tm.Sound _ _ by decide,
      show Lv.Valid _ _ by decide, show Tm.Valid _ _ by decide, rfl⟩, by simp⟩

/-- C121: the condition is needed: two accepted threads, each of which writes what the other reads, with two
complete executions that leave different contents. -/
theorem C121_race : ∃ T : Fin 2 → List (AStmt Int), AllAccepted Sample.store T ∧
    ∃ m m', Reaches (Machine.start T Sample.store) m ∧ Reaches (Machine.start T Sample.store) m' ∧ m.Ended ∧ m'.Ended ∧
      m.mem.a1 0 = [3, 2, 3] ∧ m'.mem.a1 0 = [1, 2, 1] := by
  have go : ∀ i j : Fin 2, i ≠ j → (AStmt.runAll ⟨false, true, false⟩ (racing i) Sample.store).1 = .ok () →
      (AStmt.runAll ⟨false, true, false⟩ (racing j)
        (AStmt.runAll ⟨false, true, false⟩ (racing i) Sample.store).2).1 = .ok () →
      ∃ m, Reaches (Machine.start racing Sample.store) m ∧ m.Ended ∧
        m.mem = (AStmt.runAll ⟨false, true, false⟩ (racing j)
          (AStmt.runAll ⟨false, true, false⟩ (racing i) Sample.store).2).2 := by
    intro i j hij h1 h2
    obtain ⟨m1, a1, a2, a3, a4, a5, a6⟩ := solo ⟨false, true, false⟩ Sample.store_ok (i := i) (racing i)
      (Machine.start racing Sample.store) (racing_accepted i) (SameSizes.refl _) (fun _ => List.mem_cons_self ..) rfl
    obtain ⟨m2, b1, b2, b3, b4, b5, b6⟩ := solo ⟨false, true, false⟩ Sample.store_ok (i := j) (racing j) m1
      (racing_accepted j) a3 a4 (by rw [a5 j (Ne.symm hij)]; rfl)
    have e : (Machine.start racing Sample.store).mem = Sample.store := rfl
    rw [a2, e] at b2
    refine ⟨m2, Relation.ReflTransGen.trans a1 b1, fun k => ?_, b2⟩
    by_cases hk : k = j
    · rw [hk, b6]; rfl
    · have hki : k = i := by omega
      rw [b5 k hk, hki, a6]; rfl
  obtain ⟨m, h1, h2, h3⟩ := go 0 1 (by decide) (by decide +kernel) (by decide +kernel)
  obtain ⟨m', h1', h2', h3'⟩ := go 1 0 (by decide) (by decide +kernel) (by decide +kernel)
  refine ⟨racing, racing_accepted, m, m', h1, h1', h2, h2', ?_, ?_⟩
  · rw [h3]; decide +kernel
  · rw [h3']; decide +kernel

/-- Thread `i` doubles row `i` of `A` and adds `x` to it. -/
example : Apart Sample.store (n := 2) (fun i =>
    [.compoundX (fun u v => .ok (u * v)) (.view (.row (.at (i : Nat))) (.arr2 0)) 2,
     .compound (fun u v => .ok (u + v)) (.view (.row (.at (i : Nat))) (.arr2 0)) Sample.x]) :=
  C121_rows 0 (fun i => List.forall_mem_cons.2 ⟨rfl, List.forall_mem_cons.2 ⟨rfl, by simp⟩⟩)
    (fun i => List.forall_mem_cons.2 ⟨fun c hc _ => hc, List.forall_mem_cons.2 ⟨fun c hc ha => by
      rcases List.mem_append.1 hc with h | h
      · exact h
      · have hm : Tm.Mentions c.array Sample.x := inputs_mentions _ h
        rw [ha] at hm
        exact absurd hm (by decide), by simp⟩⟩)

/-- `x *= 2` and `A(row 0) = y` use different arrays. -/
example : Apart Sample.store (n := 2) (fun i => if i = 0 then
      [.compoundX (fun u v => .ok (u * v)) (.arr1 0) 2] else
      [.assign (.view (.row (.at 0)) (.arr2 0)) Sample.y]) := by
  refine C121_arrays (fun i j hij => ?_)
  match i, j with
  | 0, 0 => exact absurd rfl hij
  | 1, 1 => exact absurd rfl hij
  | 0, 1 =>
    intro p hp q hq
    rw [List.mem_singleton.1 hp, List.mem_singleton.1 hq]
    exact ⟨by decide, show ¬ _ = _ by decide, show ¬ Tm.Mentions _ _ by decide⟩
  | 1, 0 =>
    intro p hp q hq
    rw [List.mem_singleton.1 hp, List.mem_singleton.1 hq]
    exact ⟨by decide, show ¬ Tm.Mentions _ _ by decide, show ¬ _ = _ by decide⟩

end Spp.Props
