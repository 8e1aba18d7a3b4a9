import Verif.Lemmas.Heap

/- What each statement does to the storage. -/

set_option linter.unusedSectionVars false

namespace Spp
open Spec

variable {α : Type} [Inhabited α]

theorem live_obj {h : Heap α} {i : Nat} (hl : h.objs i ≠ none) : ∃ o, h.objs i = some o := by
  cases hh : h.objs i with
  | none => exact absurd hh hl
  | some o => exact ⟨o, rfl⟩

theorem obj_run {h : Heap α} {i : Nat} {o : Obj} (hl : h.objs i = some o) :
    Heap.obj i h = (.ok o, h) := by
  simp [Heap.obj, hl]

/-- Statement-by-statement summary used for all parts of C22, C87 and C88: the statement is not undefined
behaviour, keeps the invariant, and its effect on the visible contents of every array. -/
structure StepOk (h : Heap α) (res : Res Unit × Heap α) (R : Nat → Prop) (eff : Nat → Option (List α)) : Prop where
  noUb : res.1 ≠ .ub
  inv : Inv res.2 none
  views : res.1 = .ok () → ∀ k, view res.2 k = eff k
  mem : res.2.mem = h.mem
  types : ∀ k o o', h.objs k = some o → res.2.objs k = some o' → o'.af = o.af
  frame : ∀ k, ¬ R k ∨ res.1 ≠ .ok () → res.2.objs k = h.objs k

theorem types_eq {h h' : Heap α} (e : h'.objs = h.objs) (k : Nat) (o o' : Obj) (h1 : h.objs k = some o)
    (h2 : h'.objs k = some o') : o'.af = o.af := by
  rw [e, h1] at h2; cases h2; rfl

theorem construct_step (b : Build) {h : Heap α} (hi : Inv h none) {i : Nat} {af : AlignmentFlag} {n : Int}
    {g : List α → Res (List α)} (hd : h.objs i = none)
    (hg : ∀ l : List α, (l.length : Int) = n →
      g l ≠ .ub ∧ ∀ l', g l = .ok l' → l'.length = l.length) :
    StepOk h (Heap.construct b i af n g h) (· = i) (fun k => if k = i then
      (match g (List.replicate n.toNat default) with | .ok l => some l | _ => none)
      else view h k) ∧
    ((Heap.construct b i af n g h).1 ≠ .ok () → ∀ k, view (Heap.construct b i af n g h).2 k = view h k) ∧
    ((Heap.construct b i af n g h).1 = .ok () → (∃ o, (Heap.construct b i af n g h).2.objs i = some o ∧ o.af = af) ∧
      0 ≤ n ∧ (n = 0 ∨ ¬ OutOfMemory h) ∧ ∃ l, g (List.replicate n.toNat default) = .ok l) ∧
    ((Heap.construct b i af n g h).1 ≠ .ok () → n < 0 ∨
      n ≠ 0 ∧ OutOfMemory h ∧ (Heap.construct b i af n g h).1 = .trap .exception ∨
      ∃ k, g (List.replicate n.toNat default) = .trap k ∧ (Heap.construct b i af n g h).1 = .trap k) := by
  unfold Heap.construct
  rw [Op.bind_run]
  rcases ctorFill_inv b hi af n (fun h0 => by
    have := hg (List.replicate n.toNat default) (by simp; omega)
    simpa using this) with ⟨k, h', e1, e2, e3, em, e4, ew⟩ |
    ⟨o, h', l', e1, e2, e3, em, eaf, eoom, e4, e5, e6, e7, e8, e9⟩
  · rw [e1]
    refine ⟨⟨by simp, e2, by simp, em, types_eq e3, fun k _ => by rw [e3]⟩, fun _ k => ?_, by simp, fun _ => ?_⟩
    rotate_left
    · rcases ew with ew | ⟨w1, w2, w3⟩ | ew
      · exact .inl ew
      · exact .inr (.inl ⟨w1, w2, by rw [w3]⟩)
      · exact .inr (.inr ⟨k, ew.2, rfl⟩)
    apply view_congr (by rw [e3])
    intro o p ho hp
    rcases hi.valid (x := some k) ho with ⟨f, _⟩ | ⟨q, l, f1, f2, _⟩
    · rw [f] at hp; simp at hp
    · rw [f1] at hp; have := Option.some.inj hp; subst this
      rw [e4 _ _ f2, f2]
  · rw [e1]
    simp only [Heap.setObj]
    have hd' : h'.objs i = none := by rw [e3]; exact hd
    refine ⟨⟨by simp, bind_tmp e2 hd', fun _ k => ?_, em, fun k o o' h1 h2 => ?_, fun k hk => ?_⟩, by simp,
      fun _ => ⟨⟨o, by simp, eaf⟩, e5, eoom, l', e6⟩, by simp⟩
    rotate_left
    rotate_left
    · replace hk : ¬ k = i := hk.resolve_right (fun h => h rfl)
      simp only [hk, if_false, e3]
    rotate_right
    · by_cases hk : k = i
      · subst hk; rw [hd] at h1; cases h1
      · simp only [hk, if_false, e3, h1] at h2; cases h2; rfl
    by_cases hk : k = i
    · subst hk
      simp only [if_true, e6, view]
      cases hp : o.ptr with
      | none => simp [e9 hp]
      | some p => simp [e8 p hp]
    · simp only [hk, if_false]
      apply view_congr (by simp [hk, e3])
      intro o' p ho hp
      rcases hi.valid (x := some k) ho with ⟨f, _⟩ | ⟨q, l, f1, f2, _⟩
      · rw [f] at hp; simp at hp
      · rw [f1] at hp; have := Option.some.inj hp; subst this
        rw [e4 _ _ f2, f2]

theorem copyConstruct_step (b : Build) {h : Heap α} (hi : Inv h none) {i j : Nat} {af : AlignmentFlag}
    (hd : h.objs i = none) (hl : h.objs j ≠ none) :
    StepOk h (Heap.copyConstruct b i af j h) (· = i) (fun k => if k = i then view h j else view h k) ∧
    ((Heap.copyConstruct b i af j h).1 ≠ .ok () →
      ∀ k, view (Heap.copyConstruct b i af j h).2 k = view h k) ∧
    ((Heap.copyConstruct b i af j h).1 = .ok () ↔ view h j = some [] ∨ ¬ OutOfMemory h) ∧
    ((Heap.copyConstruct b i af j h).1 = .ok () →
      ∃ o, (Heap.copyConstruct b i af j h).2.objs i = some o ∧ o.af = af) ∧
    ((Heap.copyConstruct b i af j h).1 ≠ .ok () → (Heap.copyConstruct b i af j h).1 = .trap .exception) := by
  obtain ⟨o, ho⟩ := live_obj hl
  obtain ⟨l, v1, v2, v3⟩ := view_of hi ho
  unfold Heap.copyConstruct
  rw [Op.bind_run, obj_run ho]
  simp only
  rw [Op.bind_run, v2]
  simp only
  have hg : ∀ l0 : List α, (l0.length : Int) = o.n →
      (fun _ : List α => (.ok l : Res (List α))) l0 ≠ .ub ∧
      ∀ l', (fun _ : List α => (.ok l : Res (List α))) l0 = .ok l' → l'.length = l0.length := by
    intro l0 hl0
    refine ⟨by simp, fun l' h1 => ?_⟩
    simp only [Res.ok.injEq] at h1; subst h1; omega
  obtain ⟨st, st2, st3, st4⟩ := construct_step b hi (i := i) (af := af) (n := o.n) hd hg
  have hnil : view h j = some [] ↔ o.n = 0 := by
    rw [v1]
    constructor
    · intro h1; cases h1; simpa using v3.symm
    · intro h1; rw [List.length_eq_zero_iff.1 (by omega : l.length = 0)]
  refine ⟨⟨st.noUb, st.inv, fun hk k => ?_, st.mem, st.types, st.frame⟩, st2, ⟨fun h1 => ?_, fun h1 => ?_⟩,
    fun h1 => (st3 h1).1, fun h1 => ?_⟩
  · rw [st.views hk k, v1]
  · rw [hnil]; exact (st3 h1).2.2.1
  · refine Classical.byContradiction fun hne => ?_
    rcases st4 hne with h2 | ⟨h2, h3, _⟩ | ⟨k, h2, _⟩
    · omega
    · rw [hnil] at h1; exact h1.elim h2 (fun h => h h3)
    · simp at h2
  · rcases st4 h1 with h2 | ⟨_, _, h3⟩ | ⟨k, h2, _⟩
    · omega
    · exact h3
    · simp at h2

theorem moveConstruct_step {h : Heap α} (hi : Inv h none) {i j : Nat} (hd : h.objs i = none)
    (hl : h.objs j ≠ none) :
    (Heap.moveConstruct i j h).1 = .ok () ∧
    (Heap.moveConstruct i j h).2.objs i = h.objs j ∧
    (∃ o, (Heap.moveConstruct i j h).2.objs j = some o ∧ o.ptr = none) ∧
    StepOk h (Heap.moveConstruct i j h) (fun k => k = i ∨ k = j) (fun k =>
      if k = i then view h j else if k = j then some [] else view h k) := by
  obtain ⟨o, ho⟩ := live_obj hl
  have hij : i ≠ j := by rintro rfl; exact hl hd
  unfold Heap.moveConstruct
  rw [Op.bind_run, obj_run ho]
  simp only [Heap.setObj, Op.bind_run]
  refine ⟨trivial, by simp [ho], ⟨Obj.empty o.af, by simp [Ne.symm hij], rfl⟩, by simp, ?_, fun _ k => ?_, rfl,
    fun k o1 o2 h1 h2 => ?_, fun k hk => ?_⟩
  rotate_right
  · have hk := hk.resolve_right (fun h => h rfl)
    simp only [not_or] at hk
    simp [hk]
  rotate_right
  · by_cases hk : k = i
    · subst hk; rw [hd] at h1; cases h1
    · by_cases hkj : k = j
      · subst hkj
        simp only [hk, if_false, if_true] at h2
        rw [ho] at h1; cases h1; cases h2; rfl
      · simp only [hk, hkj, if_false, h1] at h2; cases h2; rfl
  · have h1 := unbind hi ho (some (Obj.empty o.af)) (.inr ⟨_, rfl⟩)
    have h2 := bind_tmp h1 (i := i) (by simp [hij, hd])
    exact h2
  · by_cases hk : k = i
    · subst hk
      simp [view, ho]
    · by_cases hkj : k = j
      · subst hkj; simp [view, hk, Obj.empty]
      · simp only [hk, hkj, if_false]
        exact view_congr (by simp [hk, hkj]) (fun _ _ _ _ => rfl)

/-- `clear` and `destroy`: the object's block is released. -/
theorem release_step {h : Heap α} (hi : Inv h none) {j : Nat} {o : Obj} (ho : h.objs j = some o)
    (e : Option Obj) (he : e = none ∨ ∃ af, e = some (Obj.empty af)) :
    ∃ h', Heap.free o.af o.ptr ({ h with objs := fun k => if k = j then e else h.objs k } : Heap α) =
        (.ok (), h') ∧ Inv h' none ∧
      (∀ k, view h' k = if k = j then (match e with | none => none | some _ => some []) else view h k)
      ∧ h'.objs = (fun k => if k = j then e else h.objs k) ∧ h'.mem = h.mem := by
  have h1 := unbind hi ho e he
  obtain ⟨h', f1, f2, f3, f3', f4⟩ := free_tmp h1
  refine ⟨h', f1, f2, fun k => ?_, f3, f3'⟩
  by_cases hk : k = j
  · subst hk
    have : h'.objs k = e := by rw [f3]; simp
    simp only [if_true]
    unfold view
    rw [this]
    rcases he with he | ⟨af, he⟩ <;> subst he <;> rfl
  · rw [if_neg hk]
    apply view_congr (by rw [f3]; simp [hk])
    intro o' p h2 h3
    rw [f4 p]
    intro h4
    exact absurd (hi.excl (x := some k) (y := some j) h2 ho h3 h4) (by simpa using hk)

theorem destroy_step {h : Heap α} (hi : Inv h none) {i : Nat} (hl : h.objs i ≠ none) :
    (Heap.destroy i h).1 = .ok () ∧
    StepOk h (Heap.destroy i h) (· = i) (fun k => if k = i then none else view h k) := by
  obtain ⟨o, ho⟩ := live_obj hl
  obtain ⟨h', f1, f2, f3, f4, f5⟩ := release_step hi ho none (.inl rfl)
  -- releasing before or after unbinding the name is the same
  have hcomm : Heap.destroy i h = (.ok (), h') := by
    unfold Heap.destroy
    rw [Op.bind_run, obj_run ho]
    simp only
    rw [Op.bind_run]
    cases hp : o.ptr with
    | none =>
      simp only [hp, Heap.free, Prod.mk.injEq, true_and] at f1
      simp only [Heap.free, Heap.setObj, f1]
    | some p =>
      rcases hi.valid (x := some i) ho with ⟨g, _⟩ | ⟨q, l, g1, g2, _, _, g5⟩
      · rw [g] at hp; simp at hp
      · rw [g1] at hp; have := Option.some.inj hp; subst this
        simp only [g1, Heap.free, g2, g5, if_true, Prod.mk.injEq, true_and] at f1
        simp only [Heap.free, g2, g5, if_true, Heap.setObj, f1]
  rw [hcomm]
  refine ⟨rfl, by simp, f2, fun _ k => f3 k, f5, fun k o1 o2 h1 h2 => ?_, fun k hk => ?_⟩
  rotate_left
  · rw [f4]; simp [hk.resolve_right (fun h => h rfl)]
  simp only [f4] at h2
  by_cases hk : k = i
  · simp [hk] at h2
  · simp only [hk, if_false, h1] at h2; cases h2; rfl

theorem clear_run {h : Heap α} (hi : Inv h none) {j : Nat} {o : Obj} (ho : h.objs j = some o) :
    ∃ h', Heap.clear j h = (.ok (), h') ∧ Inv h' none ∧
      (∀ k, view h' k = if k = j then some [] else view h k) ∧ h'.mem = h.mem ∧
      h'.objs = fun k => if k = j then some (Obj.empty o.af) else h.objs k := by
  obtain ⟨h', f1, f2, f3, f4, f5⟩ := release_step hi ho (some (Obj.empty o.af)) (.inr ⟨_, rfl⟩)
  refine ⟨h', ?_, f2, f3, f5, f4⟩
  unfold Heap.clear
  rw [Op.bind_run, obj_run ho]
  simp only [Heap.setObj, Op.bind_run]
  exact f1

theorem swap_run {h : Heap α} (hi : Inv h none) {i j : Nat} {oi oj : Obj} (hoi : h.objs i = some oi)
    (hoj : h.objs j = some oj) (haf : oi.af = oj.af) :
    ∃ h', Heap.swap i j h = (.ok (), h') ∧ Inv h' none ∧
      (∀ k, view h' k = if k = j then view h i else if k = i then view h j else view h k) ∧
      h'.objs i = some oj ∧ h'.objs j = some oi ∧ h'.mem = h.mem ∧
      (∀ k o1 o2, h.objs k = some o1 → h'.objs k = some o2 → o2.af = o1.af) ∧
      ∀ k, k ≠ i → k ≠ j → h'.objs k = h.objs k := by
  unfold Heap.swap
  rw [Op.bind_run, obj_run hoi]
  simp only
  rw [Op.bind_run, obj_run hoj]
  simp only [Heap.setObj, Op.bind_run]
  refine ⟨_, rfl, ?_, fun k => ?_, ?_, ?_, rfl, fun k o1 o2 h1 h2 => ?_, fun k h1 h2 => by simp [h1, h2]⟩
  · refine hi.permute rfl rfl rfl rfl
      (fun x => if x = some j then some i else if x = some i then some j else x) ?_ ?_ ?_
    · intro x o hx
      right
      cases x with
      | none => simp [own] at hx
      | some k =>
        by_cases h1 : k = j
        · subst h1; simp only [own, if_true] at hx ⊢; rw [hoi]; exact hx
        · by_cases h2 : k = i
          · subst h2; simp only [own, h1, if_true, if_false] at hx ⊢
            simp [own, h1, hoj]; simpa using hx
          · simp only [own, h1, h2, if_false] at hx ⊢
            simpa [own, h1, h2] using hx
    · intro x y ox oy p hx hy _ _ hxy
      cases x with
      | none => simp [own] at hx
      | some k =>
        cases y with
        | none => simp [own] at hy
        | some m =>
          by_cases h1 : k = j <;> by_cases h2 : m = j <;> by_cases h3 : k = i <;>
            by_cases h4 : m = i <;> simp_all
    · intro x o p hx _
      cases x with
      | none => simp [own] at hx
      | some k =>
        by_cases h1 : k = i
        · subst h1
          refine ⟨some j, ?_⟩
          simp only [own, if_true] at hx ⊢; rw [← hx, hoi]
        · by_cases h2 : k = j
          · subst h2
            refine ⟨some i, ?_⟩
            simp only [own] at hx ⊢
            rw [hoj] at hx
            simp [Ne.symm h1, hx]
          · exact ⟨some k, by simpa [own, h1, h2] using hx⟩
  · by_cases h1 : k = j
    · subst h1; simp [view, hoi]
    · by_cases h2 : k = i
      · subst h2; simp [view, h1, hoj]
      · simp only [h1, h2, if_false]
        exact view_congr (by simp [h1, h2]) (fun _ _ _ _ => rfl)
  · by_cases h1 : i = j
    · subst h1; simp only [if_true]; rw [← hoi, hoj]
    · simp [h1]
  · simp
  · by_cases hj : k = j
    · subst hj; simp at h2; rw [hoj] at h1; cases h1; rw [← h2, haf]
    · by_cases hk : k = i
      · subst hk; simp [hj] at h2; rw [hoi] at h1; cases h1; rw [← h2, haf]
      · simp only [hj, hk, if_false, h1] at h2; cases h2; rfl

/-- `A.swap(B)` followed by `B.swap({})`. -/
theorem swap_clear {h : Heap α} (hi : Inv h none) {i j : Nat} {oi oj : Obj} (hoi : h.objs i = some oi)
    (hoj : h.objs j = some oj) (haf : oi.af = oj.af) :
    ∃ h1 h', Heap.swap i j h = (.ok (), h1) ∧ Heap.clear j h1 = (.ok (), h') ∧ Inv h' none ∧
      (∀ k, view h' k = if k = j then some [] else if k = i then view h j else view h k) ∧ h'.mem = h.mem ∧
      (∀ k o1 o2, h.objs k = some o1 → h'.objs k = some o2 → o2.af = o1.af) ∧
      (∀ k, k ≠ i → k ≠ j → h'.objs k = h.objs k) ∧ (i ≠ j → h'.objs i = some oj) ∧
      ∃ o, h'.objs j = some o ∧ o.ptr = none := by
  obtain ⟨h1, f1, f2, f3, f4, f5, f6, f7, f8⟩ := swap_run hi hoi hoj haf
  obtain ⟨h2, g1, g2, g3, g4, g5⟩ := clear_run f2 f5
  refine ⟨h1, h2, f1, g1, g2, fun k => ?_, by rw [g4, f6], fun k o1 o2 a1 a2 => ?_, fun k a1 a2 => ?_, fun a => ?_,
    Obj.empty oi.af, ?_, rfl⟩
  · rw [g3 k, f3 k]
    by_cases hk : k = j <;> simp [hk]
  · rw [g5] at a2
    by_cases hk : k = j
    · subst hk
      rw [hoj] at a1; cases a1
      simp only [if_true, Option.some.injEq] at a2
      rw [← a2, ← haf]; rfl
    · simp only [hk, if_false] at a2
      exact f7 k o1 o2 a1 a2
  · rw [g5]; simp only [a2, if_false]; exact f8 k a1 a2
  · rw [g5]; simp only [a, if_false]; exact f4
  · rw [g5]; simp

theorem modify_step {h : Heap α} (hi : Inv h none) {i : Nat} (hl : h.objs i ≠ none)
    {g : List α → Res Unit × List α} (hg : ∀ l, view h i = some l → (g l).2.length = l.length) :
    ∃ l h', view h i = some l ∧ Heap.modify i g h = ((g l).1, h') ∧ Inv h' none ∧
      (∀ k, view h' k = if k = i then some (g l).2 else view h k) ∧ h'.objs = h.objs ∧ h'.mem = h.mem := by
  obtain ⟨o, ho⟩ := live_obj hl
  obtain ⟨l, v1, v2, v3⟩ := view_of hi ho
  have hl' := hg l v1
  obtain ⟨h', f1, f2, f3, f3', f4, f5⟩ := store_inv hi (x := some i) ho (l := (g l).2) (by rw [hl']; exact v3)
  refine ⟨l, h', v1, ?_, f2, fun k => ?_, f3, f3'⟩
  · unfold Heap.modify
    rw [Op.bind_run, obj_run ho]
    simp only
    rw [Op.bind_run, v2]
    simp only
    rw [Op.bind_run, f1]
    rfl
  · by_cases hk : k = i
    · subst hk
      unfold view
      rw [f3, ho]
      cases hp : o.ptr with
      | none =>
        rcases hi.valid (x := some k) ho with ⟨_, g2⟩ | ⟨q, _, g1, _⟩
        · have : (g l).2 = [] := List.length_eq_zero_iff.1 (by omega)
          simp [this, hp]
        · rw [hp] at g1; simp at g1
      | some p => simp [f4 p hp, hp]
    · rw [if_neg hk]
      apply view_congr (by rw [f3])
      intro o' p h1 h2
      apply f5
      intro h3
      exact absurd (hi.excl (x := some k) (y := some i) h1 ho h2 h3) (by simpa using hk)

theorem copyAssign_step (b : Build) {h : Heap α} (hi : Inv h none) {i j : Nat}
    (hli : h.objs i ≠ none) (hlj : h.objs j ≠ none)
    (hs : b.Checked ∨ (view h i).map List.length = (view h j).map List.length) :
    StepOk h (Heap.copyAssign b i j h) (fun _ => False) (fun k => if k = i then view h j else view h k) ∧
    ((Heap.copyAssign b i j h).1 ≠ .ok () → ∀ k, view (Heap.copyAssign b i j h).2 k = view h k) := by
  unfold Heap.copyAssign
  by_cases hij : i = j
  · subst hij
    simp only [ne_eq, not_true_eq_false, if_false, Op.pure_run]
    refine ⟨⟨by simp, hi, fun _ k => ?_, rfl, types_eq rfl, fun _ _ => rfl⟩, by simp⟩
    by_cases hk : k = i <;> simp [hk]
  · rw [if_pos hij]
    obtain ⟨oi, hoi⟩ := live_obj hli
    obtain ⟨oj, hoj⟩ := live_obj hlj
    obtain ⟨li, v1, v2, v3⟩ := view_of hi hoi
    obtain ⟨lj, w1, w2, w3⟩ := view_of hi hoj
    rw [Op.bind_run, obj_run hoi]
    simp only
    rw [Op.bind_run, obj_run hoj]
    simp only
    by_cases hn : oi.n = oj.n
    · have hc : (oi.n == oj.n) = true := by simpa using hn
      rw [hc, assertDebug_true, Op.lift_ok_bind, Op.bind_run, w2]
      have hlen : lj.length = li.length := by omega
      obtain ⟨l, h', f1, f2, f3, f4, f5, f6⟩ := modify_step hi hli (g := Arr1.copy (Src.ofList lj)) (by
        intro l hl
        rw [v1] at hl; have := Option.some.inj hl; subst this
        rw [Arr1.copy_denotes hlen (fun s => Arr1.denotes_ofList lj s)]; exact hlen)
      rw [v1] at f1; have := Option.some.inj f1; subst this
      rw [Arr1.copy_denotes hlen (fun s => Arr1.denotes_ofList lj s)] at f2 f4
      simp only [f2]
      refine ⟨⟨by simp, f3, fun _ k => ?_, f6, types_eq f5, fun k _ => by rw [f5]⟩, by simp⟩
      rw [f4 k, w1]
    · have hc : (oi.n == oj.n) = false := by simpa using hn
      rcases hs with hb | hs
      · rw [hc, assertDebug_false hb, Op.lift_trap_bind]
        exact ⟨⟨by simp, hi, by simp, rfl, types_eq rfl, fun _ _ => rfl⟩, fun _ _ => rfl⟩
      · rw [v1, w1] at hs
        simp only [Option.map_some, Option.some.injEq] at hs
        omega

theorem assertNormal_not_ub (b : Build) (c : Bool) :
    assertNormal b c = .ok () ∨ assertNormal b c = .trap .abort := by
  rcases b with ⟨_ | _, _ | _, _ | _⟩ <;> cases c <;> simp [assertNormal]

theorem moveAssign_step (b : Build) {h : Heap α} (hi : Inv h none) {i j : Nat} (hs : SameType h i j) :
    StepOk h (Heap.moveAssign b i j h) (fun k => i ≠ j ∧ (k = i ∨ k = j)) (fun k =>
      if i = j then view h k else if k = j then some [] else if k = i then view h j else view h k) ∧
    ((Heap.moveAssign b i j h).1 ≠ .ok () → ∀ k, view (Heap.moveAssign b i j h).2 k = view h k) ∧
    ((Heap.moveAssign b i j h).1 = .ok () → i ≠ j → (Heap.moveAssign b i j h).2.objs i = h.objs j ∧
      ∃ o, (Heap.moveAssign b i j h).2.objs j = some o ∧ o.ptr = none) ∧
    ((Heap.moveAssign b i j h).1 ≠ .ok () → (Heap.moveAssign b i j h).1 = .trap .abort ∧
      (view h i).map List.length ≠ (view h j).map List.length) := by
  unfold Heap.moveAssign
  by_cases hij : i = j
  · subst hij
    simp only [ne_eq, not_true_eq_false, if_false, Op.pure_run]
    exact ⟨⟨by simp, hi, by simp, rfl, types_eq rfl, fun _ _ => rfl⟩, by simp, by simp, by simp⟩
  · rw [if_pos hij]
    obtain ⟨oi, oj, hoi, hoj, haf⟩ := hs
    rw [Op.bind_run, obj_run hoi]
    simp only
    rw [Op.bind_run, obj_run hoj]
    simp only
    rcases assertNormal_not_ub b (oi.n == oj.n) with e | e
    · rw [e, Op.lift_ok_bind]
      obtain ⟨h1, h2, f1, g1, g2, g3, g4, g5, g6, g7, g8⟩ := swap_clear hi hoi hoj haf
      rw [Op.bind_run, f1]
      simp only [g1]
      refine ⟨⟨by simp, g2, fun _ k => ?_, g4, g5, fun k hk => ?_⟩, by simp, fun _ _ => ⟨by rw [g7 hij, hoj], g8⟩, by simp⟩
      · rw [g3 k, if_neg hij]
      · have hk := hk.resolve_right (fun h => h rfl)
        simp only [ne_eq, hij, not_false_eq_true, true_and, not_or] at hk
        exact g6 k hk.1 hk.2
    · rw [e, Op.lift_trap_bind]
      refine ⟨⟨by simp, hi, by simp, rfl, types_eq rfl, fun _ _ => rfl⟩, fun _ _ => rfl, by simp, fun _ => ⟨rfl, ?_⟩⟩
      obtain ⟨li, v1, v2, v3⟩ := view_of hi hoi
      obtain ⟨lj, w1, w2, w3⟩ := view_of hi hoj
      rw [v1, w1]
      simp only [Option.map_some, ne_eq, Option.some.injEq]
      intro hlen
      have : (oi.n == oj.n) = true := by simp; omega
      rw [this] at e
      rcases b with ⟨_ | _, _ | _, _ | _⟩ <;> simp [assertNormal] at e

theorem resizeAndAssignMove_step {h : Heap α} (hi : Inv h none) {i j : Nat} (hs : SameType h i j) :
    (Heap.resizeAndAssignMove i j h).1 = .ok () ∧
    (i ≠ j → (Heap.resizeAndAssignMove i j h).2.objs i = h.objs j) ∧
    (∃ o, (Heap.resizeAndAssignMove i j h).2.objs j = some o ∧ o.ptr = none) ∧
    StepOk h (Heap.resizeAndAssignMove i j h) (fun k => k = i ∨ k = j) (fun k =>
      if k = j then some [] else if k = i then view h j else view h k) := by
  obtain ⟨oi, oj, hoi, hoj, haf⟩ := hs
  obtain ⟨h1, h2, f1, g1, g2, g3, g4, g5, g6, g7, g8⟩ := swap_clear hi hoi hoj haf
  have e : Heap.resizeAndAssignMove i j h = (.ok (), h2) := by
    unfold Heap.resizeAndAssignMove
    rw [Op.bind_run, f1]
    exact g1
  rw [e]
  refine ⟨rfl, fun hij => by rw [hoj]; exact g7 hij, g8, by simp, g2, fun _ k => g3 k, g4, g5, fun k hk => ?_⟩
  have hk := hk.resolve_right (fun h => h rfl)
  simp only [not_or] at hk
  exact g6 k hk.1 hk.2

theorem rebuild_step0 (b : Build) {h : Heap α} (hi : Inv h none) {i : Nat} {n : Int}
    {g : List α → List α → Res (List α)} (hl : h.objs i ≠ none)
    (hg : ∀ old : List α, view h i = some old → 0 ≤ n → g old (List.replicate n.toNat default) ≠ .ub ∧
      ∀ l', g old (List.replicate n.toNat default) = .ok l' → l'.length = n.toNat) :
    ∃ old, view h i = some old ∧
    StepOk h (Heap.rebuild b i n g h) (· = i) (fun k => if k = i then
      (match g old (List.replicate n.toNat default) with | .ok l => some l | _ => none)
      else view h k) ∧
    ((Heap.rebuild b i n g h).1 ≠ .ok () → ∀ k, view (Heap.rebuild b i n g h).2 k = view h k) ∧
    ((Heap.rebuild b i n g h).1 = .ok () →
      0 ≤ n ∧ (n = 0 ∨ ¬ OutOfMemory h) ∧ ∃ l, g old (List.replicate n.toNat default) = .ok l) ∧
    ((Heap.rebuild b i n g h).1 ≠ .ok () → n < 0 ∨
      n ≠ 0 ∧ OutOfMemory h ∧ (Heap.rebuild b i n g h).1 = .trap .exception ∨
      ∃ k, g old (List.replicate n.toNat default) = .trap k ∧ (Heap.rebuild b i n g h).1 = .trap k ∧
        (n = 0 ∨ ¬ OutOfMemory h)) := by
  obtain ⟨o, ho⟩ := live_obj hl
  obtain ⟨old, v1, v2, v3⟩ := view_of hi ho
  refine ⟨old, v1, ?_⟩
  unfold Heap.rebuild
  rw [Op.bind_run, obj_run ho]
  simp only
  rw [Op.bind_run, v2]
  simp only
  rw [Op.bind_run]
  rcases ctorFill_inv b hi o.af n (hg old v1) with
    ⟨k, h', e1, e2, e3, em, e4, ew⟩ | ⟨tmp, h', l', e1, e2, e3, em, eaf, eoom, e4, e5, e6, e7, e8, e9⟩
  · rw [e1]
    refine ⟨⟨by simp, e2, by simp, em, types_eq e3, fun k _ => by rw [e3]⟩, fun _ k => ?_, by simp, fun _ => ?_⟩
    rotate_left
    · rcases ew with ew | ⟨w1, w2, w3⟩ | ew
      · exact .inl ew
      · exact .inr (.inl ⟨w1, w2, by rw [w3]⟩)
      · exact .inr (.inr ⟨k, ew.2, rfl, ew.1⟩)
    apply view_congr (by rw [e3])
    intro o p ho hp
    rcases hi.valid (x := some k) ho with ⟨f, _⟩ | ⟨q, l, f1, f2, _⟩
    · rw [f] at hp; simp at hp
    · rw [f1] at hp; have := Option.some.inj hp; subst this
      rw [e4 _ _ f2, f2]
  · rw [e1]
    have ho' : h'.objs i = some o := by rw [e3]; exact ho
    simp only
    rw [Op.bind_run, obj_run ho']
    simp only [Heap.setObj, Op.bind_run]
    have h1 := swap_tmp e2 ho'
    obtain ⟨h2, f1, f2, f3, f3', f4⟩ := free_tmp h1
    rw [f1]
    refine ⟨⟨by simp, f2, fun _ k => ?_, by rw [f3', em], fun k o1 o2 a1 a2 => ?_, fun k hk => ?_⟩, by simp,
      fun _ => ⟨e5, eoom, l', e6⟩, by simp⟩
    rotate_left
    rotate_left
    · rw [f3]; simp [hk.resolve_right (fun h => h rfl), e3]
    rotate_right
    · simp only [f3] at a2
      by_cases hk : k = i
      · subst hk
        simp only [if_true, Option.some.injEq] at a2
        rw [ho] at a1; cases a1; rw [← a2, eaf]
      · simp only [hk, if_false, e3, a1] at a2; cases a2; rfl
    by_cases hk : k = i
    · subst hk
      simp only [if_true, e6]
      unfold view
      rw [f3]
      simp only [if_true]
      cases hp : tmp.ptr with
      | none => simp [e9 hp]
      | some p =>
        simp only
        rw [f4 p]
        · exact e8 p hp
        · intro h4
          exact absurd (h1.excl (x := some k) (y := none) (by simp [own]) rfl hp h4) (by simp)
    · simp only [hk, if_false]
      apply view_congr
      · rw [f3]; simp [hk, e3]
      · intro o' p h5 h6
        rw [f4 p]
        · rcases hi.valid (x := some k) h5 with ⟨f, _⟩ | ⟨q, l, g1, g2, _⟩
          · rw [f] at h6; simp at h6
          · rw [g1] at h6; have := Option.some.inj h6; subst this
            rw [g2]; exact e4 _ _ g2
        · intro h4
          exact absurd (hi.excl (x := some k) (y := some i) h5 ho h6 h4) (by simpa using hk)

theorem rebuild_step (b : Build) {h : Heap α} (hi : Inv h none) {i : Nat} {n : Int}
    {g : List α → List α → Res (List α)} (hl : h.objs i ≠ none)
    (hg : ∀ old l : List α, view h i = some old → (l.length : Int) = n →
      g old l ≠ .ub ∧ ∀ l', g old l = .ok l' → l'.length = l.length) :
    ∃ old, view h i = some old ∧
    StepOk h (Heap.rebuild b i n g h) (· = i) (fun k => if k = i then
      (match g old (List.replicate n.toNat default) with | .ok l => some l | _ => none)
      else view h k) ∧
    ((Heap.rebuild b i n g h).1 ≠ .ok () → ∀ k, view (Heap.rebuild b i n g h).2 k = view h k) ∧
    ((Heap.rebuild b i n g h).1 = .ok () →
      0 ≤ n ∧ (n = 0 ∨ ¬ OutOfMemory h) ∧ ∃ l, g old (List.replicate n.toNat default) = .ok l) ∧
    ((Heap.rebuild b i n g h).1 ≠ .ok () → n < 0 ∨
      n ≠ 0 ∧ OutOfMemory h ∧ (Heap.rebuild b i n g h).1 = .trap .exception ∨
      ∃ k, g old (List.replicate n.toNat default) = .trap k ∧ (Heap.rebuild b i n g h).1 = .trap k ∧
        (n = 0 ∨ ¬ OutOfMemory h)) :=
  rebuild_step0 b hi hl fun old h1 h0 => by
    have := hg old (List.replicate n.toNat default) h1 (by simp; omega)
    simpa using this

theorem resize_step (b : Build) {h : Heap α} (hi : Inv h none) {i : Nat} {n : Int} {p : Bool}
    (hl : h.objs i ≠ none) :
    ∃ old, view h i = some old ∧
    StepOk h (Heap.resize b i n p h) (fun k => k = i ∧ n ≠ old.length) (fun k => if k = i then
      some (if n = old.length then old else
        if p then old.take n.toNat ++ List.replicate (n.toNat - old.length) default
        else List.replicate n.toNat default) else view h k) ∧
    ((Heap.resize b i n p h).1 ≠ .ok () → ∀ k, view (Heap.resize b i n p h).2 k = view h k) ∧
    ((Heap.resize b i n p h).1 = .ok () ↔ n = old.length ∨ 0 ≤ n ∧ (n = 0 ∨ ¬ OutOfMemory h)) := by
  obtain ⟨o, ho⟩ := live_obj hl
  obtain ⟨old, v1, v2, v3⟩ := view_of hi ho
  refine ⟨old, v1, ?_⟩
  unfold Heap.resize
  cases ha : assertDebug b (decide (n > -1)) with
  | ub =>
    exfalso
    unfold assertDebug assertAlways at ha
    repeat' split at ha
    all_goals simp at ha
  | trap k =>
    refine ⟨⟨by simp, hi, by simp, rfl, types_eq rfl, fun _ _ => rfl⟩, fun _ _ => rfl, by simp, fun h1 => ?_⟩
    have : decide (n > -1) = true := by rcases h1 with h1 | h1 <;> simp <;> omega
    rw [this, assertDebug_true] at ha; cases ha
  | ok _ =>
    simp only [Op.lift_ok_bind]
    rw [Op.bind_run, obj_run ho]
    simp only
    by_cases hn : n = o.n
    · have : n = old.length := by omega
      simp only [hn, ne_eq, not_true_eq_false, if_false, Op.pure_run]
      refine ⟨⟨by simp, hi, fun _ k => ?_, rfl, types_eq rfl, fun _ _ => rfl⟩, by simp, fun _ => .inl (by omega),
        fun _ => trivial⟩
      by_cases hk : k = i
      · subst hk; rw [if_pos rfl, if_pos (by omega)]; exact v1
      · rw [if_neg hk]
    · rw [if_pos hn]
      have hres : ∀ (l : List α), (l.length : Int) = n → (if p = true then
          copyn0 (rd old) l (min (len old) n) else .ok l) = .ok (if p = true then
            overwrite l 0 (old.take n.toNat) else l) := by
        intro l hll
        split
        · apply copyn0_ok
          · simp [len]; omega
          · simp; omega
          · intro q hq
            rw [rd_nat (by simp at hq; omega)]; simp
        · rfl
      obtain ⟨old', w1, st, st', st2, st3⟩ := rebuild_step b hi (i := i) (n := n)
        (g := fun old tmp => if p then copyn0 (rd old) tmp (min (len old) n) else .ok tmp) hl (by
          intro old1 l h1 h2
          rw [v1] at h1; have := Option.some.inj h1; subst this
          rw [hres l h2]
          refine ⟨by simp, fun l' h3 => ?_⟩
          simp only [Res.ok.injEq] at h3; subst h3
          split
          · exact overwrite_length (by simp; omega)
          · rfl)
      rw [v1] at w1; have := Option.some.inj w1; subst this
      have hn1 : n ≠ (old.length : Int) := by omega
      refine ⟨⟨st.noUb, st.inv, fun hk k => ?_, st.mem, st.types, fun k hk => st.frame k ?_⟩, st', ⟨fun h1 => ?_, fun h1 => ?_⟩⟩
      rotate_left
      · exact hk.imp (fun h e => h ⟨e, hn1⟩) id
      · exact .inr ⟨(st2 h1).1, (st2 h1).2.1⟩
      · refine Classical.byContradiction fun hne => ?_
        rcases h1 with h1 | ⟨h1, h2⟩
        · exact hn1 h1
        · rcases st3 hne with h3 | ⟨h3, h4, _⟩ | ⟨k, h3, _⟩
          · omega
          · exact h2.elim h3 (fun h => h h4)
          · rw [hres _ (by simp; omega)] at h3
            cases h3
      rw [st.views hk k]
      by_cases hki : k = i
      · subst hki
        simp only [if_true]
        have hn' : ¬ n = (old.length : Int) := by omega
        by_cases h0 : 0 ≤ n
        · rw [hres _ (by simp; omega), if_neg hn']
          cases p with
          | true =>
            simp only [if_true, Option.some.injEq, overwrite]
            simp
            omega
          | false => rfl
        · -- a negative size cannot have succeeded
          exact absurd (st2 hk).1 h0
      · rw [if_neg hki, if_neg hki]

end Spp
