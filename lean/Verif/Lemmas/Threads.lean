import Verif.Spec.Threads
import Verif.Lemmas.Congr
import Verif.Lemmas.Statements
import Verif.Props.Statements

/- What a statement reads. -/

namespace Spp
open Spec TermLaws

variable {α : Type}

theorem Lv.parts_same {s s' : Store α} (h : SameSizes s s') {d : Dim} (l : Lv d) : l.parts s' = l.parts s := by
  unfold Lv.parts; rw [l.cells_same h]

theorem Tm.inputs_same {s s' : Store α} (h : SameSizes s s') {d : Dim} (t : Tm α d) :
    t.inputs s' = t.inputs s := by
  induction t with
  | lv l => exact l.parts_same h
  | view v t ih => exact ih
  | unary f t ih => exact ih
  | binary f t1 t2 ih1 ih2 => simp only [Tm.inputs, ih1, ih2]
  | scalarL f x t ih => exact ih
  | scalarR f t x ih => exact ih
  | sequence ar n x y => rfl
  | linspace ar n x y => rfl
  | eUnit ar k n => rfl
  | const1D n x => rfl
  | const2D m n x => rfl
  | identity ar n => rfl
  | merge t1 t2 ih1 ih2 => simp only [Tm.inputs, ih1, ih2]
  | append t x ih => exact ih
  | prepend x t ih => exact ih
  | exclude t p c ih => exact ih
  | excludeLast t k ih => exact ih
  | reduce rw g t ih => exact ih
  | matvec ar t x ih1 ih2 => simp only [Tm.inputs, ih1, ih2]
  | bcast rw t ih => exact ih
  | tensor ar t1 t2 ih1 ih2 => simp only [Tm.inputs, ih1, ih2]
  | transpose t ih => exact ih
  | mergeH t1 t2 ih1 ih2 => simp only [Tm.inputs, ih1, ih2]
  | mergeV t1 t2 ih1 ih2 => simp only [Tm.inputs, ih1, ih2]

theorem AStmt.outputs_same {s s' : Store α} (h : SameSizes s s') (st : AStmt α) :
    st.outputs s' = st.outputs s := by
  cases st <;> exact Lv.parts_same h _

theorem AStmt.inputs_same {s s' : Store α} (h : SameSizes s s') (st : AStmt α) :
    st.inputs s' = st.inputs s := by
  cases st <;> simp only [AStmt.inputs, Lv.parts_same h, Tm.inputs_same h]

theorem flat_all {β : Type} {P : Res β → Prop} {d : Dim} {x : Sem β d} (h : ∀ r ∈ x.flat, P r) : Sem.All P x := by
  cases d with
  | one => exact h
  | two =>
    intro i j hi hj
    change Mat (Res β) at x
    have hk := flat_lt hi hj
    have : x.el i j ∈ Mat.flat x := by
      rw [flat_eq, List.mem_map]
      refine ⟨i * x.n + j, List.mem_range.2 hk, ?_⟩
      have h1 : (i * x.n + j) / x.n = i := by
        rw [Nat.mul_comm, Nat.mul_add_div (by omega), Nat.div_eq_of_lt hj, Nat.add_zero]
      have h2 : (i * x.n + j) % x.n = j := by
        rw [Nat.mul_comm, Nat.mul_add_mod, Nat.mod_eq_of_lt hj]
      rw [h1, h2]
    exact h _ this

/-- The value of an expression depends only on its inputs. -/
theorem Tm.meaning_inputs {s s' : Store α} (ok : Store.Ok s) (hs : SameSizes s s') {d : Dim} (t : Tm α d) :
    t.Sound s → t.Valid s → (∀ c, Res.ok c ∈ t.inputs s → s.read c = s'.read c) →
      Eqv (t.meaning s) (t.meaning s') := by
  induction t with
  | lv l =>
    intro hS hV h
    simp only [Tm.meaning, l.cells_same hs]
    refine Eqv.map_of_all (P := fun r => r ∈ (l.cells s).flat) (flat_all (fun _ h => h)) ?_
    intro r hr
    cases r with
    | ok c => exact h c hr
    | trap k => rfl
    | ub => rfl
  | view v t ih =>
    intro hS hV h
    exact (ih hS.1 hV.1 h).sel v hS.2.1 hV.2 (t.main ⟨false, true, false⟩ ok hS.1 hV.1).1
  | unary f t ih => intro hS hV h; exact (ih hS hV h).map _
  | binary f t1 t2 ih1 ih2 =>
    intro hS hV h
    exact (ih1 hS.1 hV.1 (fun c hc => h c (List.mem_append_left _ hc))).zip
      (ih2 hS.2 hV.2.1 (fun c hc => h c (List.mem_append_right _ hc))) hV.2.2 _
  | scalarL f x t ih => intro hS hV h; exact (ih hS hV h).map _
  | scalarR f t x ih => intro hS hV h; exact (ih hS hV h).map _
  | sequence ar n x y => intro _ _ _; exact Eqv.refl _
  | linspace ar n x y => intro _ _ _; exact Eqv.refl _
  | eUnit ar k n => intro _ _ _; exact Eqv.refl _
  | const1D n x => intro _ _ _; exact Eqv.refl _
  | const2D m n x => intro _ _ _; exact Eqv.refl _
  | identity ar n => intro _ _ _; exact Eqv.refl _
  | merge t1 t2 ih1 ih2 =>
    intro hS hV h
    have e1 : t1.meaning s = t1.meaning s' := ih1 hS.1 hV.1 (fun c hc => h c (List.mem_append_left _ hc))
    have e2 : t2.meaning s = t2.meaning s' := ih2 hS.2.1 hV.2 (fun c hc => h c (List.mem_append_right _ hc))
    refine Eqv.of_eq ?_
    simp only [Tm.meaning, e1, e2]
    rfl
  | append t x ih =>
    intro hS hV h
    have e : t.meaning s = t.meaning s' := ih hS.1 hV h
    refine Eqv.of_eq ?_
    simp only [Tm.meaning, e]
    rfl
  | prepend x t ih =>
    intro hS hV h
    have e : t.meaning s = t.meaning s' := ih hS.1 hV h
    refine Eqv.of_eq ?_
    simp only [Tm.meaning, e]
    rfl
  | exclude t p c ih =>
    intro hS hV h
    have e : t.meaning s = t.meaning s' := ih hS.1 hV.1 h
    refine Eqv.of_eq ?_
    simp only [Tm.meaning, e]
    rfl
  | excludeLast t k ih =>
    intro hS hV h
    have e : t.meaning s = t.meaning s' := ih hS hV.1 h
    refine Eqv.of_eq ?_
    simp only [Tm.meaning, e]
    rfl
  | reduce rw g t ih => intro hS hV h; exact (ih hS hV h).reduce g
  | matvec ar t x ih1 ih2 =>
    intro hS hV h
    exact (ih1 hS.1 hV.1 (fun c hc => h c (List.mem_append_left _ hc))).matvec ar
      (ih2 hS.2 hV.2.1 (fun c hc => h c (List.mem_append_right _ hc)))
  | bcast rw t ih =>
    intro hS hV h
    have e : t.meaning s = t.meaning s' := ih hS.1 hV h
    refine Eqv.of_eq ?_
    cases rw <;> (simp only [Tm.meaning, e] <;> rfl)
  | tensor ar t1 t2 ih1 ih2 =>
    intro hS hV h
    have e1 : t1.meaning s = t1.meaning s' := ih1 hS.1 hV.1 (fun c hc => h c (List.mem_append_left _ hc))
    have e2 : t2.meaning s = t2.meaning s' := ih2 hS.2.1 hV.2 (fun c hc => h c (List.mem_append_right _ hc))
    refine Eqv.of_eq ?_
    simp only [Tm.meaning, e1, e2]
    rfl
  | transpose t ih => intro hS hV h; exact (ih hS hV h).transposed
  | mergeH t1 t2 ih1 ih2 =>
    intro hS hV h
    exact (ih1 hS.1 hV.1 (fun c hc => h c (List.mem_append_left _ hc))).beside
      (ih2 hS.2.1 hV.2.1 (fun c hc => h c (List.mem_append_right _ hc)))
      (t1.main ⟨false, true, false⟩ ok hS.1 hV.1).1.2 (t2.main ⟨false, true, false⟩ ok hS.2.1 hV.2.1).1.2 hV.2.2
  | mergeV t1 t2 ih1 ih2 =>
    intro hS hV h
    exact (ih1 hS.1 hV.1 (fun c hc => h c (List.mem_append_left _ hc))).above
      (ih2 hS.2.1 hV.2.1 (fun c hc => h c (List.mem_append_right _ hc)))
      (t1.main ⟨false, true, false⟩ ok hS.1 hV.1).1.2 (t2.main ⟨false, true, false⟩ ok hS.2.1 hV.2.1).1.2 hV.2.2

/-- The values of a statement depend only on its inputs. -/
theorem AStmt.value_inputs {s s' : Store α} (ok : Store.Ok s) (hs : SameSizes s s') {st : AStmt α}
    (hS : AStmt.Sound s st) (hV : AStmt.Valid s st) (h : ∀ c, Res.ok c ∈ st.inputs s → s.read c = s'.read c)
    (k : Nat) : st.value k s = st.value k s' := by
  have old : ∀ {d : Dim} (l : Lv d) (f : α → Res α), (∀ c, Res.ok c ∈ l.parts s → s.read c = s'.read c) →
      ((l.cells s).flat.getD k .ub >>= fun c => s.read c >>= f) =
        ((l.cells s).flat.getD k .ub >>= fun c => s'.read c >>= f) := by
    intro d l f hl
    by_cases hk : k < (l.cells s).flat.length
    · cases hr : (l.cells s).flat.getD k .ub with
      | ok c =>
        simp only [Res.ok_bind]
        rw [hl c (by rw [← hr]; exact getD_mem hk)]
      | trap q => rfl
      | ub => rfl
    · simp only [List.getD, List.getElem?_eq_none (by omega : (l.cells s).flat.length ≤ k), Option.getD_none]
      rfl
  cases st with
  | assign l t =>
    show (t.meaning s).flat.getD k .ub = (t.meaning s').flat.getD k .ub
    rw [(t.meaning_inputs ok hs hS.2 hV.2.1 h).flat]
  | fill l x => rfl
  | list l xs => rfl
  | list2 l L => rfl
  | compound op l t =>
    have hm := (t.meaning_inputs ok hs hS.2 hV.2.1 (fun c hc => h c (List.mem_append_right _ hc))).flat
    show ((l.cells s).flat.getD k .ub >>= fun c => s.read c >>= fun x =>
      (t.meaning s).flat.getD k .ub >>= fun y => op x y) = ((l.cells s').flat.getD k .ub >>= fun c =>
        s'.read c >>= fun x => (t.meaning s').flat.getD k .ub >>= fun y => op x y)
    rw [hm, l.cells_same hs]
    exact old l (fun x => (t.meaning s').flat.getD k .ub >>= fun y => op x y)
      (fun c hc => h c (List.mem_append_left _ hc))
  | compoundX op l x =>
    show ((l.cells s).flat.getD k .ub >>= fun c => s.read c >>= fun y => op y x) =
      ((l.cells s').flat.getD k .ub >>= fun c => s'.read c >>= fun y => op y x)
    rw [l.cells_same hs]
    exact old l (fun y => op y x) h

/-- The outputs are the places. -/
theorem AStmt.outputs_eq {s : Store α} {st : AStmt α} {cs : List Loc} (h : AStmt.Places s cs st) :
    st.outputs s = cs.map Res.ok := by
  cases st <;> exact h.1

/-! ### The invariant -/

namespace Threads

/-- Go on unless something failed. -/
def andThen (r : Res Unit × Store α) (f : Store α → Res Unit × Store α) : Res Unit × Store α :=
  match r.1 with
  | .ok _ => f r.2
  | .trap q => (.trap q, r.2)
  | .ub => (.ub, r.2)

theorem runAll_cons (b : Build) (st : AStmt α) (rest : List (AStmt α)) (s : Store α) :
    AStmt.runAll b (st :: rest) s = andThen (st.run b s) (AStmt.runAll b rest) := by
  simp only [AStmt.runAll, Op.bind_run, andThen]
  rcases st.run b s with ⟨x | k | _, u⟩ <;> rfl

/-- What is left to do for a thread whose own view of the memory is `p`. -/
def Left (b : Build) (s : Store α) (p : Store α) (out : Res Unit × Store α) : Thread α → Prop
  | .run [] _ => out = (.ok (), p)
  | .run (st :: rest) k => ∃ cs, AStmt.Places s cs st ∧ k ≤ cs.length ∧
      out = andThen (stepwise st.value (cs.drop k) k p) (AStmt.runAll b rest)
  | .stop r => out = (r, p)

/-- The statements that a thread still has to work on. -/
def todo : Thread α → List (AStmt α)
  | .run sts _ => sts
  | .stop _ => []

/-- Thread and memory, seen from the thread: `p` is what the memory would be if the thread had been alone. -/
structure Own (b : Build) (s : Store α) (sts : List (AStmt α)) (th : Thread α) (seen : List (Store α))
    (mem : Store α) (p : Store α) : Prop where
  sizes : SameSizes s p
  cur : mem ∈ seen
  agree : ∀ v ∈ seen, SameSizes s v ∧ ∀ c, Uses s sts c → v.read c = p.read c
  frame : ∀ c, ¬ Modifies s sts c → p.read c = s.read c
  left : Left b s p (AStmt.runAll b sts s) th
  mine : ∀ st ∈ todo th, st ∈ sts

theorem left_run (b : Build) {s p : Store α} (hs : Store.Ok s) (h : SameSizes s p) {out : Res Unit × Store α}
    {sts : List (AStmt α)} (hS : ∀ st ∈ sts, AStmt.Sound s st ∧ AStmt.Valid s st)
    (ho : out = AStmt.runAll b sts p) : Left b s p out (.run sts 0) := by
  cases sts with
  | nil => exact ho
  | cons st rest =>
    obtain ⟨h1, h2⟩ := hS st (by simp)
    obtain ⟨cs, hp, _⟩ := AStmt.places_exist hs h1 h2
    refine ⟨cs, hp, Nat.zero_le _, ?_⟩
    rw [ho, runAll_cons, Props.C118_in_order b (ok_same h hs) (AStmt.stays_sound h h1) (AStmt.stays_valid h h2)
      (AStmt.places_same h hp)]
    rfl

theorem mixed_agree {s p w : Store α} {seen : List (Store α)} {F : Loc → Prop}
    (h : ∀ v ∈ seen, SameSizes s v ∧ ∀ c, F c → v.read c = p.read c) (hw : Mixed seen w) :
    SameSizes s w ∧ ∀ c, F c → w.read c = p.read c := by
  obtain ⟨⟨v, hv, h1⟩, h2⟩ := hw
  refine ⟨SameSizes.trans (h v hv).1 h1, fun c hc => ?_⟩
  obtain ⟨v', hv', e⟩ := h2 c
  rw [e]; exact (h v' hv').2 c hc

theorem value_mixed {s p w : Store α} (hs : Store.Ok s) {seen : List (Store α)} {sts : List (AStmt α)}
    (hsz : SameSizes s p) (h : ∀ v ∈ seen, SameSizes s v ∧ ∀ c, Uses s sts c → v.read c = p.read c)
    (hw : Mixed seen w) {st : AStmt α} (hm : st ∈ sts) (hS : AStmt.Sound s st) (hV : AStmt.Valid s st) (k : Nat) :
    st.value k p = st.value k w := by
  obtain ⟨w1, w2⟩ := mixed_agree h hw
  refine AStmt.value_inputs (ok_same hsz hs) (SameSizes.trans (SameSizes.symm hsz) w1)
    (AStmt.stays_sound hsz hS) (AStmt.stays_valid hsz hV) (fun c hc => ?_) k
  rw [AStmt.inputs_same hsz] at hc
  exact (w2 c ⟨st, hm, .inl hc⟩).symm

theorem drop_cons {β : Type} {l : List β} {k : Nat} (h : k < l.length) : l.drop k = l[k] :: l.drop (k + 1) :=
  List.drop_eq_getElem_cons h

/-- The thread's own step. -/
theorem own_write (b : Build) {s : Store α} (hs : Store.Ok s) {sts : List (AStmt α)} {st : AStmt α}
    {rest : List (AStmt α)} {k : Nat} {seen : List (Store α)} {mem mem' p w : Store α} {c : Loc} {x : α}
    (hA : ∀ st ∈ sts, AStmt.Sound s st ∧ AStmt.Valid s st)
    (h : Own b s sts (.run (st :: rest) k) seen mem p) (hc : (st.outputs mem)[k]? = some (.ok c))
    (hw : Mixed seen w) (hx : st.value k w = .ok x) (hm : mem.write c x = .ok mem') :
    ∃ p', Own b s sts (.run (st :: rest) (k + 1)) [mem'] mem' p' ∧ Modifies s sts c ∧ SameSizes mem mem' ∧
      ∀ c', c' ≠ c → mem'.read c' = mem.read c' := by
  obtain ⟨ms, ma⟩ := h.agree mem h.cur
  have hst : st ∈ sts := h.mine st (List.mem_cons_self ..)
  obtain ⟨hS, hV⟩ := hA st hst
  obtain ⟨cs, hp, hk, ho⟩ := h.left
  rw [AStmt.outputs_same ms, AStmt.outputs_eq hp] at hc
  rw [List.getElem?_map] at hc
  have hk' : k < cs.length := by
    by_contra hn
    rw [List.getElem?_eq_none (by omega)] at hc
    exact absurd hc (by simp)
  have hck : cs[k] = c := by
    rw [List.getElem?_eq_getElem hk'] at hc
    simpa using hc
  have hcv : c.Valid s := AStmt.places_valid hp c (by rw [← hck]; exact List.getElem_mem hk')
  have hmod : Modifies s sts c := ⟨st, hst, by
    rw [AStmt.outputs_eq hp]; exact List.mem_map.2 ⟨c, by rw [← hck]; exact List.getElem_mem hk', rfl⟩⟩
  obtain ⟨q, w1, w2, w3⟩ := write_ok (hcv.same h.sizes) x
  obtain ⟨q', w1', w2', w3'⟩ := write_ok (hcv.same ms) x
  have e : q' = mem' := by rw [hm] at w1'; cases w1'; rfl
  subst e
  have hv := value_mixed hs h.sizes h.agree hw hst hS hV k
  refine ⟨q, ⟨SameSizes.trans h.sizes w2, List.mem_cons_self .., ?_, ?_, ?_, h.mine⟩, hmod, w2', ?_⟩
  · intro v hv
    rw [List.mem_singleton] at hv
    subst hv
    refine ⟨SameSizes.trans ms w2', fun c' hu => ?_⟩
    rw [w3, w3', ma c' hu]
  · intro c' hn
    have hne : c ≠ c' := fun e => hn (e ▸ hmod)
    rw [w3, if_neg hne, h.frame c' hn]
  · refine ⟨cs, hp, hk', ?_⟩
    have e : stepwise st.value (c :: cs.drop (k + 1)) k p = stepwise st.value (cs.drop (k + 1)) (k + 1) q := by
      rw [stepwise]
      simp only [hv, hx, w1]
    rw [ho, drop_cons hk', hck, e]
  · intro c' hne
    rw [w3', if_neg (Ne.symm hne)]

theorem own_fail (b : Build) {s : Store α} (hs : Store.Ok s) {sts : List (AStmt α)} {st : AStmt α}
    {rest : List (AStmt α)} {k : Nat} {seen : List (Store α)} {mem p w : Store α} {r : Res Unit}
    (hA : ∀ st ∈ sts, AStmt.Sound s st ∧ AStmt.Valid s st)
    (h : Own b s sts (.run (st :: rest) k) seen mem p) (hk : k < (st.outputs mem).length)
    (hw : Mixed seen w) (hx : (do let _ ← st.value k w; Res.ok ()) = r) (hr : r ≠ .ok ()) :
    Own b s sts (.stop r) seen mem p := by
  obtain ⟨ms, ma⟩ := h.agree mem h.cur
  have hst : st ∈ sts := h.mine st (List.mem_cons_self ..)
  obtain ⟨hS, hV⟩ := hA st hst
  obtain ⟨cs, hp, _, ho⟩ := h.left
  rw [AStmt.outputs_same ms, AStmt.outputs_eq hp, List.length_map] at hk
  have hv := value_mixed hs h.sizes h.agree hw hst hS hV k
  refine ⟨h.sizes, h.cur, h.agree, h.frame, ?_, fun _ hm => absurd hm (by simp [todo])⟩
  show _ = _
  rw [ho, drop_cons hk]
  unfold stepwise
  rw [hv]
  cases hq : st.value k w with
  | ok x => rw [hq] at hx; exact absurd hx.symm hr
  | trap q => rw [hq] at hx; rw [← hx]; rfl
  | ub => rw [hq] at hx; rw [← hx]; rfl

theorem own_next (b : Build) {s : Store α} (hs : Store.Ok s) {sts : List (AStmt α)} {st : AStmt α}
    {rest : List (AStmt α)} {k : Nat} {seen : List (Store α)} {mem p : Store α}
    (hA : ∀ st ∈ sts, AStmt.Sound s st ∧ AStmt.Valid s st)
    (h : Own b s sts (.run (st :: rest) k) seen mem p) (hk : k = (st.outputs mem).length) :
    Own b s sts (.run rest 0) seen mem p := by
  obtain ⟨ms, ma⟩ := h.agree mem h.cur
  obtain ⟨cs, hp, _, ho⟩ := h.left
  rw [AStmt.outputs_same ms, AStmt.outputs_eq hp, List.length_map] at hk
  have hmine : ∀ st ∈ rest, st ∈ sts := fun st hm => h.mine st (List.mem_cons_of_mem _ hm)
  refine ⟨h.sizes, h.cur, h.agree, h.frame, ?_, hmine⟩
  refine left_run b hs h.sizes (fun st hm => hA st (hmine st hm)) ?_
  rw [ho, hk, List.drop_length]
  rfl

/-- A step of another thread. -/
theorem own_other (b : Build) {s : Store α} {sts : List (AStmt α)} {th : Thread α}
    {seen : List (Store α)} {mem mem' p : Store α} {c : Loc}
    (h : Own b s sts th seen mem p) (hc : ¬ Uses s sts c) (h1 : SameSizes mem mem')
    (h2 : ∀ c', c' ≠ c → mem'.read c' = mem.read c') : Own b s sts th (mem' :: seen) mem' p := by
  obtain ⟨ms, ma⟩ := h.agree mem h.cur
  refine ⟨h.sizes, List.mem_cons_self .., ?_, h.frame, h.left, h.mine⟩
  intro v hv
  rcases List.mem_cons.1 hv with e | e
  · subst e
    exact ⟨SameSizes.trans ms h1, fun c' hu => by rw [h2 c' (fun e => hc (e ▸ hu)), ma c' hu]⟩
  · exact h.agree v e

/-- The invariant of all threads. -/
structure Inv {n : Nat} (b : Build) (s : Store α) (T : Fin n → List (AStmt α)) (m : Machine n α) : Prop where
  own : ∀ i, ∃ p, Own b s (T i) (m.thread i) (m.seen i) m.mem p
  sizes : SameSizes s m.mem
  frame : ∀ c, (∀ i, ¬ Modifies s (T i) c) → m.mem.read c = s.read c

theorem inv_start {n : Nat} (b : Build) {s : Store α} (hs : Store.Ok s) {T : Fin n → List (AStmt α)}
    (hA : AllAccepted s T) : Inv b s T (Machine.start T s) := by
  refine ⟨fun i => ⟨s, SameSizes.refl s, List.mem_cons_self .., ?_, fun _ _ => rfl, ?_, fun _ h => h⟩, SameSizes.refl s,
    fun _ _ => rfl⟩
  · intro v hv
    rw [show v = s from List.mem_singleton.1 hv]
    exact ⟨SameSizes.refl s, fun _ _ => rfl⟩
  · exact left_run b hs (SameSizes.refl s) (hA i) rfl

theorem inv_step {n : Nat} (b : Build) {s : Store α} (hs : Store.Ok s) {T : Fin n → List (AStmt α)}
    (hA : AllAccepted s T) (hd : Apart s T) {m m' : Machine n α} (h : Inv b s T m) (hm : Move m m') :
    Inv b s T m' := by
  cases hm with
  | @write i st rest k c w mem' x h1 h2 h3 h4 h5 =>
    obtain ⟨p, hp⟩ := h.own i
    rw [h1] at hp
    obtain ⟨p', o1, o2, o3, o4⟩ := own_write b hs (hA i) hp h2 h3 h4 h5
    refine ⟨fun j => ?_, SameSizes.trans h.sizes o3, fun c' hc' => ?_⟩
    · by_cases hj : j = i
      · subst hj
        refine ⟨p', ?_⟩
        simp only [Function.update_self, if_true]
        exact o1
      · obtain ⟨q, hq⟩ := h.own j
        refine ⟨q, ?_⟩
        simp only [Function.update_of_ne hj, if_neg hj]
        exact own_other b hq (hd i j (Ne.symm hj) c o2) o3 o4
    · rw [← h.frame c' hc']
      exact o4 c' (fun e => hc' i (e ▸ o2))
  | @fail i st rest k w r h1 h2 h3 h4 h5 =>
    refine ⟨fun j => ?_, h.sizes, h.frame⟩
    obtain ⟨p, hp⟩ := h.own j
    refine ⟨p, ?_⟩
    by_cases hj : j = i
    · subst hj
      rw [h1] at hp
      simp only [Function.update_self]
      exact own_fail b hs (hA j) hp h2 h3 h4 h5
    · simp only [Function.update_of_ne hj]; exact hp
  | @next i st rest k h1 h2 =>
    refine ⟨fun j => ?_, h.sizes, h.frame⟩
    obtain ⟨p, hp⟩ := h.own j
    refine ⟨p, ?_⟩
    by_cases hj : j = i
    · subst hj
      rw [h1] at hp
      simp only [Function.update_self]
      exact own_next b hs (hA j) hp h2
    · simp only [Function.update_of_ne hj]; exact hp

theorem inv_reaches {n : Nat} (b : Build) {s : Store α} (hs : Store.Ok s) {T : Fin n → List (AStmt α)}
    (hA : AllAccepted s T) (hd : Apart s T) {m : Machine n α} (h : Reaches (Machine.start T s) m) :
    Inv b s T m := by
  induction h with
  | refl => exact inv_start b hs hA
  | tail _ h2 ih => exact inv_step b hs hA hd ih h2

end Threads

end Spp
