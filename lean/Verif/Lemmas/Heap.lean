import Verif.Spec.Heap
import Verif.Lemmas.Array1D

/- Ownership invariant with an extra owner for the temporary of a member function. -/

set_option linter.unusedSectionVars false

namespace Spp
open Spec

variable {α : Type} [Inhabited α]

/-- The owners: named objects (`some i`) and the temporary (`none`). -/
def own (h : Heap α) (t : Option Obj) : Option Nat → Option Obj
  | none => t
  | some i => h.objs i

def GoodObj (blocks : Nat → Option (List α)) (flag : Nat → AlignmentFlag) (o : Obj) : Prop :=
  (o.ptr = none ∧ o.n = 0) ∨
    (∃ p l, o.ptr = some p ∧ blocks p = some l ∧ o.n = (l.length : Int) ∧ l ≠ [] ∧ flag p = o.af)

structure Inv (h : Heap α) (t : Option Obj) : Prop where
  excl : ∀ {x y ox oy p}, own h t x = some ox → own h t y = some oy →
    ox.ptr = some p → oy.ptr = some p → x = y
  valid : ∀ {x o}, own h t x = some o → GoodObj h.blocks h.flag o
  cover : ∀ {p l}, h.blocks p = some l → ∃ x o, own h t x = some o ∧ o.ptr = some p
  once : h.released.Nodup
  acc : ∀ p, p < h.next → (h.blocks p = none ↔ p ∈ h.released)
  fresh : ∀ p, h.next ≤ p → h.blocks p = none ∧ p ∉ h.released

theorem Inv.owned {h : Heap α} (hi : Inv h none) : Owned h where
  exclusive := fun {i j _ _ _} h1 h2 h3 h4 => by
    have := hi.excl (x := some i) (y := some j) h1 h2 h3 h4
    exact Option.some.inj this
  valid := fun {i _} h1 => by
    rcases hi.valid (x := some i) h1 with e | ⟨p, l, e1, e2, e3, e4, _⟩
    · exact .inl e
    · exact .inr ⟨p, l, e1, e2, e3, e4⟩
  matched := fun {i _ p} h1 h2 => by
    rcases hi.valid (x := some i) h1 with ⟨e, _⟩ | ⟨q, l, e1, _, _, _, e5⟩
    · rw [e] at h2; cases h2
    · rw [e1] at h2; cases h2; exact e5
  noLeak := fun {p l} h1 => by
    obtain ⟨x, o, h2, h3⟩ := hi.cover h1
    cases x with
    | none => simp [own] at h2
    | some i => exact ⟨i, o, h2, h3⟩
  once := hi.once
  accounted := hi.acc
  fresh := hi.fresh

theorem inv_init (m : Allocator) : Inv (Heap.init m : Heap α) none where
  excl := fun {x _ _ _ _} h1 => by cases x <;> simp [own, Heap.init] at h1
  valid := fun {x _} h1 => by cases x <;> simp [own, Heap.init] at h1
  cover := fun h1 => by simp [Heap.init] at h1
  once := by simp [Heap.init]
  acc := by simp [Heap.init]
  fresh := by simp [Heap.init]

/-- Any rearrangement of the owners that uses each owned object at most once and drops none keeps
the invariant. -/
theorem Inv.permute {h h' : Heap α} {t t' : Option Obj} (hi : Inv h t)
    (hb : h'.blocks = h.blocks) (hf : h'.flag = h.flag) (hr : h'.released = h.released) (hn : h'.next = h.next)
    (σ : Option Nat → Option Nat)
    (h1 : ∀ x o, own h' t' x = some o → o.ptr = none ∧ o.n = 0 ∨ own h t (σ x) = some o)
    (h2 : ∀ x y ox oy p, own h' t' x = some ox → own h' t' y = some oy → ox.ptr = some p →
      oy.ptr = some p → σ x = σ y → x = y)
    (h3 : ∀ x o p, own h t x = some o → o.ptr = some p → ∃ y, own h' t' y = some o) :
    Inv h' t' where
  excl := fun {x y ox oy p} a1 a2 a3 a4 => by
    refine h2 x y ox oy p a1 a2 a3 a4 ?_
    rcases h1 x ox a1 with e | e
    · simp [a3] at e
    · rcases h1 y oy a2 with e' | e'
      · simp [a4] at e'
      · exact hi.excl e e' a3 a4
  valid := fun {x o} a1 => by
    rw [hb, hf]
    rcases h1 x o a1 with e | e
    · exact .inl e
    · exact hi.valid e
  cover := fun {p l} a1 => by
    rw [hb] at a1
    obtain ⟨x, o, e1, e2⟩ := hi.cover a1
    obtain ⟨y, e3⟩ := h3 x o p e1 e2
    exact ⟨y, o, e3, e2⟩
  once := by rw [hr]; exact hi.once
  acc := by rw [hr, hn, hb]; exact hi.acc
  fresh := by rw [hr, hn, hb]; exact hi.fresh

/-- Releasing the block of the temporary. -/
theorem free_tmp {h : Heap α} {o : Obj} (hi : Inv h (some o)) :
    ∃ h', Heap.free o.af o.ptr h = (.ok (), h') ∧ Inv h' none ∧ h'.objs = h.objs ∧ h'.mem = h.mem ∧
      (∀ p, o.ptr ≠ some p → h'.blocks p = h.blocks p) := by
  rcases hi.valid (x := none) rfl with ⟨e1, e2⟩ | ⟨p, l, e1, e2, e3, e4, e5⟩
  · refine ⟨h, by simp [Heap.free, e1], ?_, rfl, rfl, fun _ _ => rfl⟩
    refine hi.permute rfl rfl rfl rfl id ?_ ?_ ?_
    · intro x o' hx
      cases x with
      | none => simp [own] at hx
      | some i => exact .inr hx
    · intro x y _ _ _ _ _ _ _ hxy; exact hxy
    · intro x o' p hx hp
      cases x with
      | none =>
        simp only [own, Option.some.injEq] at hx; subst hx; simp [e1] at hp
      | some i => exact ⟨some i, hx⟩
  · refine ⟨{ h with
        blocks := fun q => if q = p then none else h.blocks q
        released := p :: h.released }, by simp only [Heap.free, e1, e2, e5, if_true], ?_, rfl, rfl, ?_⟩
    · have hlt : p < h.next := by
        by_cases hc : p < h.next
        · exact hc
        · have := (hi.fresh p (by omega)).1; rw [e2] at this; simp at this
      constructor
      · intro x y ox oy q a1 a2 a3 a4
        cases x with
        | none => simp [own] at a1
        | some i =>
          cases y with
          | none => simp [own] at a2
          | some j => exact hi.excl (x := some i) (y := some j) a1 a2 a3 a4
      · intro x o' a1
        cases x with
        | none => simp [own] at a1
        | some i =>
          rcases hi.valid (x := some i) a1 with e | ⟨q, l', f1, f2, f3, f4, f5⟩
          · exact .inl e
          · have hqp : q ≠ p := by
              rintro rfl
              exact absurd (hi.excl (x := some i) (y := none) a1 rfl f1 e1) (by simp)
            exact .inr ⟨q, l', f1, by simp [hqp, f2], f3, f4, f5⟩
      · intro q l' a1
        have hqp : q ≠ p := by
          rintro rfl; simp at a1
        simp only [hqp, if_false] at a1
        obtain ⟨x, o', f1, f2⟩ := hi.cover a1
        cases x with
        | none =>
          simp only [own, Option.some.injEq] at f1; subst f1
          rw [e1] at f2; exact absurd (Option.some.inj f2).symm hqp
        | some i => exact ⟨some i, o', f1, f2⟩
      · refine List.nodup_cons.2 ⟨?_, hi.once⟩
        intro hm
        have := (hi.acc p hlt).2 hm
        rw [e2] at this; simp at this
      · intro q hq
        by_cases hqp : q = p
        · simp [hqp]
        · simp only [hqp, if_false, List.mem_cons, false_or]
          exact hi.acc q hq
      · intro q hq
        replace hq : h.next ≤ q := hq
        have hqp : q ≠ p := by omega
        simp only [hqp, if_false, List.mem_cons, false_or]
        exact hi.fresh q hq
    · intro q hq
      have : q ≠ p := fun e => hq (by rw [e1, e])
      simp [this]

/-- Constructing the temporary. -/
theorem ctor_inv (b : Build) {h : Heap α} (hi : Inv h none) (af : AlignmentFlag) (n : Int) :
    (∃ k h', Heap.ctor b af n h = (.trap k, h') ∧ Inv h' none ∧ h'.objs = h.objs ∧ h'.mem = h.mem ∧
      h'.blocks = h.blocks ∧ (n < 0 ∨ n ≠ 0 ∧ OutOfMemory h ∧ k = .exception)) ∨
    (∃ o h', Heap.ctor b af n h = (.ok o, h') ∧ Inv h' (some o) ∧ h'.objs = h.objs ∧ h'.mem = h.mem ∧ 0 ≤ n ∧
      o.n = n ∧ o.af = af ∧ (n = 0 ∨ ¬ OutOfMemory h) ∧
      (∀ p l, h.blocks p = some l → h'.blocks p = some l ∧ o.ptr ≠ some p) ∧
      Heap.contents o h' = (.ok (List.replicate n.toNat default), h')) := by
  unfold Heap.ctor
  by_cases hn : n < 0
  · have h1 : decide (n > -1) = false := by simp; omega
    have h0 : n ≠ 0 := by omega
    left
    rw [h1]
    by_cases hc : ∃ k, assertDebug b false = .trap k
    · obtain ⟨k, hk⟩ := hc
      exact ⟨k, h, by simp [hk], hi, rfl, rfl, rfl, .inl hn⟩
    · have : assertDebug b false = .ok () := by
        unfold assertDebug assertAlways at hc ⊢
        rcases b with ⟨_ | _, _ | _, _ | _⟩ <;> simp at hc ⊢
      exact ⟨.exception, h, by simp [this, h0, hn], hi, rfl, rfl, rfl, .inl hn⟩
  · have h1 : decide (n > -1) = true := by simp; omega
    simp only [h1, assertDebug_true, Op.lift_ok_bind]
    by_cases h0 : n = 0
    · subst h0
      right
      refine ⟨Obj.empty af, h, by simp, ?_, rfl, rfl, by omega, rfl, rfl, .inl rfl, ?_,
        by simp [Heap.contents, Obj.empty]⟩
      · refine hi.permute rfl rfl rfl rfl id ?_ ?_ ?_
        · intro x o' hx
          cases x with
          | none =>
            simp only [own, Option.some.injEq] at hx; subst hx; exact .inl ⟨rfl, rfl⟩
          | some i => exact .inr hx
        · intro x y _ _ _ _ _ _ _ hxy; exact hxy
        · intro x o' p hx hp
          cases x with
          | none => simp [own] at hx
          | some i => exact ⟨some i, hx⟩
      · intro p l hp; exact ⟨hp, by simp [Obj.empty]⟩
    · simp only [h0, if_false, hn, Op.bind_run, Heap.alloc]
      by_cases hm : h.mem.fails h.requests = true
      · left
        refine ⟨.exception, { h with requests := h.requests + 1 }, by simp [hm], ?_, rfl, rfl, rfl, .inr ⟨h0, hm, rfl⟩⟩
        refine hi.permute rfl rfl rfl rfl id ?_ ?_ ?_
        · intro x o' hx
          exact .inr (by cases x <;> exact hx)
        · intro x y _ _ _ _ _ _ _ hxy; exact hxy
        · intro x o' p hx _
          exact ⟨x, by cases x <;> exact hx⟩
      right
      simp only [hm]
      have hnew := (hi.fresh h.next (Nat.le_refl _)).1
      have hl : (n.toNat : Int) = n := by omega
      refine ⟨⟨af, some h.next, n⟩, _, rfl, ?_, rfl, rfl, by omega, rfl, rfl, .inr hm, ?_, ?_⟩
      · constructor
        · intro x y ox oy q a1 a2 a3 a4
          have key : ∀ i o', h.objs i = some o' → o'.ptr ≠ some h.next := by
            intro i o' ho hp
            rcases hi.valid (x := some i) ho with ⟨e, _⟩ | ⟨p, l, e1, e2, _⟩
            · rw [e] at hp; simp at hp
            · rw [e1] at hp
              have := Option.some.inj hp; subst this
              rw [hnew] at e2; simp at e2
          cases x with
          | none =>
            cases y with
            | none => rfl
            | some j =>
              simp only [own, Option.some.injEq] at a1; subst a1
              simp only [Option.some.injEq] at a3; subst a3
              exact absurd a4 (key j oy a2)
          | some i =>
            cases y with
            | none =>
              simp only [own, Option.some.injEq] at a2; subst a2
              simp only [Option.some.injEq] at a4; subst a4
              exact absurd a3 (key i ox a1)
            | some j => exact hi.excl (x := some i) (y := some j) a1 a2 a3 a4
        · intro x o' a1
          cases x with
          | none =>
            simp only [own, Option.some.injEq] at a1; subst a1
            refine .inr ⟨h.next, List.replicate n.toNat default, rfl, by simp, by simp; omega, ?_, by simp⟩
            have : n.toNat ≠ 0 := by omega
            simpa [List.replicate_eq_nil_iff] using this
          | some i =>
            rcases hi.valid (x := some i) a1 with e | ⟨q, l', f1, f2, f3, f4, f5⟩
            · exact .inl e
            · have : q ≠ h.next := by rintro rfl; rw [hnew] at f2; simp at f2
              exact .inr ⟨q, l', f1, by simp [this, f2], f3, f4, by simpa [this] using f5⟩
        · intro q l' a1
          by_cases hq : q = h.next
          · exact ⟨none, _, rfl, by simp [hq]⟩
          · simp only [hq, if_false] at a1
            obtain ⟨x, o', f1, f2⟩ := hi.cover a1
            cases x with
            | none => simp [own] at f1
            | some i => exact ⟨some i, o', f1, f2⟩
        · exact hi.once
        · intro q hq
          by_cases hqn : q = h.next
          · subst hqn
            simp only [if_true]
            have := (hi.fresh h.next (Nat.le_refl _)).2
            simp [this]
          · simp only [hqn, if_false]
            exact hi.acc q (by simp at hq; omega)
        · intro q hq
          simp only at hq
          have : q ≠ h.next := by omega
          simp only [this, if_false]
          exact hi.fresh q (by omega)
      · intro p l hp
        have : p ≠ h.next := by rintro rfl; rw [hnew] at hp; simp at hp
        refine ⟨by simp [this, hp], ?_⟩
        simpa using this.symm
      · simp only [Heap.contents, if_true]
        simp [hl]

/-- Reading an owned object. -/
theorem contents_inv {h : Heap α} {t : Option Obj} (hi : Inv h t) {x : Option Nat} {o : Obj}
    (ho : own h t x = some o) :
    ∃ l, Heap.contents o h = (.ok l, h) ∧ (l.length : Int) = o.n ∧
      (∀ p, o.ptr = some p → h.blocks p = some l) ∧ (o.ptr = none → l = []) := by
  rcases hi.valid ho with ⟨e1, e2⟩ | ⟨p, l, e1, e2, e3, e4⟩
  · exact ⟨[], by simp [Heap.contents, e1, e2], by simp [e2], by simp [e1], by simp⟩
  · refine ⟨l, by simp [Heap.contents, e1, e2, e3], e3.symm, ?_, by simp [e1]⟩
    intro q hq; rw [e1] at hq; rw [← Option.some.inj hq]; exact e2

/-- Writing elements of an owned object in place. -/
theorem store_inv {h : Heap α} {t : Option Obj} (hi : Inv h t) {x : Option Nat} {o : Obj}
    (ho : own h t x = some o) {l : List α} (hl : (l.length : Int) = o.n) :
    ∃ h', Heap.store o l h = (.ok (), h') ∧ Inv h' t ∧ h'.objs = h.objs ∧ h'.mem = h.mem ∧
      (∀ p, o.ptr = some p → h'.blocks p = some l) ∧
      (∀ p, o.ptr ≠ some p → h'.blocks p = h.blocks p) := by
  rcases hi.valid ho with ⟨e1, e2⟩ | ⟨p, l0, e1, e2, e3, e4, e5⟩
  · have : l = [] := List.length_eq_zero_iff.1 (by omega)
    exact ⟨h, by simp [Heap.store, e1, this], hi, rfl, rfl, by simp [e1], fun _ _ => rfl⟩
  · have hll : l.length = l0.length := by omega
    refine ⟨{ h with blocks := fun q => if q = p then some l else h.blocks q },
      by simp only [Heap.store, e1, e2, hll, if_true], ?_, rfl, rfl, ?_, ?_⟩
    · have hne : l ≠ [] := by
        intro h0; subst h0; exact e4 (List.length_eq_zero_iff.1 (by simpa using hll.symm))
      constructor
      · intro x y ox oy q a1 a2 a3 a4; exact hi.excl (x := x) (y := y) (by cases x <;> exact a1) (by cases y <;> exact a2) a3 a4
      · intro y o' a1
        have a1' : own h t y = some o' := by cases y <;> exact a1
        rcases hi.valid a1' with e | ⟨q, l', f1, f2, f3, f4, f5⟩
        · exact .inl e
        · by_cases hq : q = p
          · subst hq
            rw [e2] at f2
            have := Option.some.inj f2; subst this
            exact .inr ⟨q, l, f1, by simp, by omega, hne, f5⟩
          · exact .inr ⟨q, l', f1, by simp [hq, f2], f3, f4, f5⟩
      · intro q l' a1
        have : ∃ l'', h.blocks q = some l'' := by
          by_cases hq : q = p
          · subst hq; exact ⟨_, e2⟩
          · simp only [hq, if_false] at a1; exact ⟨_, a1⟩
        obtain ⟨l'', hl''⟩ := this
        obtain ⟨y, o', f1, f2⟩ := hi.cover hl''
        exact ⟨y, o', by cases y <;> exact f1, f2⟩
      · exact hi.once
      · intro q hq
        by_cases hqp : q = p
        · subst hqp
          have := hi.acc q hq
          rw [e2] at this
          simpa using this
        · simp only [hqp, if_false]; exact hi.acc q hq
      · intro q hq
        have hqp : q ≠ p := by
          rintro rfl
          have := (hi.fresh q hq).1; rw [e2] at this; simp at this
        simp only [hqp, if_false]; exact hi.fresh q hq
    · intro q hq; rw [e1] at hq; have := Option.some.inj hq; subst this; simp
    · intro q hq
      have : q ≠ p := by rintro rfl; exact hq e1
      simp [this]

/-- Views depend only on the object and its block. -/
theorem view_congr {h h' : Heap α} {i : Nat} (ho : h'.objs i = h.objs i)
    (hb : ∀ o p, h.objs i = some o → o.ptr = some p → h'.blocks p = h.blocks p) :
    view h' i = view h i := by
  unfold view
  rw [ho]
  cases h1 : h.objs i with
  | none => rfl
  | some o =>
    cases h2 : o.ptr with
    | none => simp only [h2]
    | some p => simp only [h2]; exact hb o p h1 h2

theorem view_of {h : Heap α} {t : Option Obj} (hi : Inv h t) {i : Nat} {o : Obj}
    (ho : h.objs i = some o) :
    ∃ l, view h i = some l ∧ Heap.contents o h = (.ok l, h) ∧ (l.length : Int) = o.n := by
  obtain ⟨l, h1, h2, h3, h4⟩ := contents_inv hi (x := some i) ho
  refine ⟨l, ?_, h1, h2⟩
  unfold view
  rw [ho]
  cases h5 : o.ptr with
  | none => simp only [h5, h4 h5]
  | some p => simp only [h5]; exact h3 p h5

/-- Constructing and filling a temporary. -/
theorem ctorFill_inv (b : Build) {h : Heap α} (hi : Inv h none) (af : AlignmentFlag) (n : Int)
    {g : List α → Res (List α)}
    (hg : 0 ≤ n → g (List.replicate n.toNat default) ≠ .ub ∧
      ∀ l', g (List.replicate n.toNat default) = .ok l' → l'.length = n.toNat) :
    (∃ k h', Heap.ctorFill b af n g h = (.trap k, h') ∧ Inv h' none ∧ h'.objs = h.objs ∧ h'.mem = h.mem ∧
      (∀ p l, h.blocks p = some l → h'.blocks p = some l) ∧
      (n < 0 ∨ n ≠ 0 ∧ OutOfMemory h ∧ k = .exception ∨
        (n = 0 ∨ ¬ OutOfMemory h) ∧ g (List.replicate n.toNat default) = .trap k)) ∨
    (∃ o h' l', Heap.ctorFill b af n g h = (.ok o, h') ∧ Inv h' (some o) ∧ h'.objs = h.objs ∧ h'.mem = h.mem ∧
      o.af = af ∧ (n = 0 ∨ ¬ OutOfMemory h) ∧
      (∀ p l, h.blocks p = some l → h'.blocks p = some l) ∧
      0 ≤ n ∧ g (List.replicate n.toNat default) = .ok l' ∧ o.n = n ∧
      (∀ p, o.ptr = some p → h'.blocks p = some l') ∧ (o.ptr = none → l' = [])) := by
  unfold Heap.ctorFill
  rcases ctor_inv b hi af n with ⟨k, h1, e, hi1, ho1, hm1, hb1, hn⟩ |
    ⟨o, h1, e, hi1, ho1, hm1, hn, hon, haf, hoom, hb1, hc1⟩
  · left
    exact ⟨k, h1, by rw [Op.bind_run, e], hi1, ho1, hm1, fun p l a => by rw [hb1]; exact a,
      hn.elim .inl fun h => .inr (.inl h)⟩
  · rw [Op.bind_run, e]
    have hlen : ((List.replicate n.toNat (default : α)).length : Int) = n := by simp; omega
    obtain ⟨hub, hok⟩ := hg hn
    simp only [Heap.onTrap]
    rw [Op.bind_run, hc1]
    simp only
    cases hgl : g (List.replicate n.toNat default) with
    | ub => exact absurd hgl hub
    | trap k =>
      left
      obtain ⟨h2, f1, f2, f3, f3', f4⟩ := free_tmp hi1
      refine ⟨k, h2, ?_, f2, by rw [f3, ho1], by rw [f3', hm1], ?_, .inr (.inr ⟨hoom, rfl⟩)⟩
      · simp only [Op.lift_trap_bind, f1]
      · intro p l hp
        obtain ⟨a1, a2⟩ := hb1 p l hp
        rw [f4 p a2]; exact a1
    | ok l' =>
      right
      have hl' : l'.length = (List.replicate n.toNat (default : α)).length := by rw [hok l' hgl]; simp
      obtain ⟨h2, f1, f2, f3, f3', f4, f5⟩ := store_inv hi1 (x := none) (o := o) rfl (l := l')
        (by rw [hl', hon]; exact hlen)
      refine ⟨o, h2, l', ?_, f2, by rw [f3, ho1], by rw [f3', hm1], haf, hoom, ?_, hn, rfl, hon, f4, ?_⟩
      · simp only [Op.lift_ok_bind]
        rw [Op.bind_run, f1]
        rfl
      · intro p l hp
        obtain ⟨a1, a2⟩ := hb1 p l hp
        rw [f5 p a2]; exact a1
      · intro hp
        rcases hi1.valid (x := none) rfl with ⟨_, e2⟩ | ⟨p, l, e1, _⟩
        · exact List.length_eq_zero_iff.1 (by rw [hl']; simp; omega)
        · rw [hp] at e1; simp at e1

/-- Binding the temporary to a dead name. -/
theorem bind_tmp {h : Heap α} {o : Obj} (hi : Inv h (some o)) {i : Nat} (hd : h.objs i = none) :
    Inv ({ h with objs := fun k => if k = i then some o else h.objs k } : Heap α) none := by
  refine hi.permute rfl rfl rfl rfl (fun x => if x = some i then none else x) ?_ ?_ ?_
  · intro x o' hx
    cases x with
    | none => simp [own] at hx
    | some j =>
      by_cases hj : j = i
      · subst hj; simp only [own, if_true] at hx; exact .inr (by simpa [own] using hx)
      · simp only [own, hj, if_false] at hx; exact .inr (by simpa [own, hj] using hx)
  · intro x y ox oy p hx hy _ _ hxy
    cases x with
    | none => simp [own] at hx
    | some j =>
      cases y with
      | none => simp [own] at hy
      | some k =>
        by_cases hj : j = i <;> by_cases hk : k = i <;> simp_all
  · intro x o' p hx hp
    cases x with
    | none => exact ⟨some i, by simpa [own] using hx⟩
    | some j =>
      by_cases hj : j = i
      · subst hj; simp [own, hd] at hx
      · exact ⟨some j, by simpa [own, hj] using hx⟩

/-- Swapping the temporary with a live name. -/
theorem swap_tmp {h : Heap α} {o oi : Obj} (hi : Inv h (some o)) {i : Nat}
    (hl : h.objs i = some oi) :
    Inv ({ h with objs := fun k => if k = i then some o else h.objs k } : Heap α) (some oi) := by
  refine hi.permute rfl rfl rfl rfl
    (fun x => if x = some i then none else if x = none then some i else x) ?_ ?_ ?_
  · intro x o' hx
    cases x with
    | none =>
      simp only [own, Option.some.injEq] at hx; subst hx
      exact .inr (by simpa [own] using hl)
    | some j =>
      by_cases hj : j = i
      · subst hj; simp only [own, if_true] at hx; exact .inr (by simpa [own] using hx)
      · simp only [own, hj, if_false] at hx; exact .inr (by simpa [own, hj] using hx)
  · intro x y ox oy p hx hy _ _ hxy
    cases x with
    | none =>
      cases y with
      | none => rfl
      | some k =>
        by_cases hk : k = i
        · simp [hk] at hxy
        · simp [hk] at hxy; exact absurd hxy.symm hk
    | some j =>
      cases y with
      | none =>
        by_cases hj : j = i
        · simp [hj] at hxy
        · simp [hj] at hxy
      | some k =>
        by_cases hj : j = i <;> by_cases hk : k = i <;> simp_all
  · intro x o' p hx hp
    cases x with
    | none => exact ⟨some i, by simpa [own] using hx⟩
    | some j =>
      by_cases hj : j = i
      · subst hj
        refine ⟨none, ?_⟩
        simp only [own] at hx ⊢; rw [← hx, hl]
      · exact ⟨some j, by simpa [own, hj] using hx⟩

/-- Unbinding a live name: its object becomes the temporary. -/
theorem unbind {h : Heap α} {oi : Obj} (hi : Inv h none) {i : Nat} (hl : h.objs i = some oi)
    (e : Option Obj) (he : e = none ∨ ∃ af, e = some (Obj.empty af)) :
    Inv ({ h with objs := fun k => if k = i then e else h.objs k } : Heap α) (some oi) := by
  refine hi.permute rfl rfl rfl rfl (fun x => if x = none then some i else x) ?_ ?_ ?_
  · intro x o' hx
    cases x with
    | none =>
      simp only [own, Option.some.injEq] at hx; subst hx
      exact .inr (by simpa [own] using hl)
    | some j =>
      by_cases hj : j = i
      · subst hj; simp only [own, if_true] at hx
        rcases he with he | ⟨af, he⟩
        · simp [he] at hx
        · rw [he] at hx; have := Option.some.inj hx; subst this; exact .inl ⟨rfl, rfl⟩
      · simp only [own, hj, if_false] at hx; exact .inr (by simpa [own, hj] using hx)
  · intro x y ox oy p hx hy px py hxy
    have key : ∀ j o', own ({ h with objs := fun k => if k = i then e else h.objs k } : Heap α)
        (some oi) (some j) = some o' → o'.ptr = some p → j ≠ i := by
      intro j o' hj hp hji
      subst hji
      simp only [own, if_true] at hj
      rcases he with he | ⟨af, he⟩
      · simp [he] at hj
      · rw [he] at hj; have := Option.some.inj hj; subst this; simp [Obj.empty] at hp
    cases x with
    | none =>
      cases y with
      | none => rfl
      | some k => simp at hxy; exact absurd hxy.symm (key k oy hy py)
    | some j =>
      cases y with
      | none => simp at hxy; exact absurd hxy (key j ox hx px)
      | some k => simpa using hxy
  · intro x o' p hx hp
    cases x with
    | none => simp [own] at hx
    | some j =>
      by_cases hj : j = i
      · subst hj
        refine ⟨none, ?_⟩
        simp only [own] at hx ⊢; rw [← hx, hl]
      · exact ⟨some j, by simpa [own, hj] using hx⟩

end Spp
