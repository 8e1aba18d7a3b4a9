import Verif.Model.History1D
import Verif.Props.Array1D

/- C23, C29 and C30: histories of operations on several one-dimensional arrays. -/

set_option linter.unusedSectionVars false

namespace Spp.Props
open Spec Arr1

variable {α : Type} [Inhabited α]

theorem put_eq (s : Vars α) (i : Nat) (l : List α) : s.put i l = upd s i l := rfl

theorem upd_same (s : Nat → β) (i : Nat) : upd s i (s i) = s := by
  funext k; unfold upd; split
  · subst_vars; rfl
  · rfl

theorem on_ok {s : Vars α} {i : Nat} {op : Op (List α) Unit} {l : List α}
    (h : op (s i) = (.ok (), l)) : Vars.on i op s = (.ok (), upd s i l) := by
  simp only [Vars.on, h]; rfl

theorem on_trap {s : Vars α} {i : Nat} {op : Op (List α) Unit} {k : Kind}
    (h : op (s i) = (.trap k, s i)) : Vars.on i op s = (.trap k, s) := by
  simp only [Vars.on, h, put_eq, upd_same]

theorem assign_ok (b : Build) {src : Src (List α) α} {l xs : List α} (hlen : l.length = xs.length)
    (h : ∀ s, Denotes src s xs) : assign b src l = (.ok (), xs) := by
  have h1 : (len l == src.size) = true := by
    rw [(h l).1]; simp [len, hlen]
  simp only [assign, Op.get_bind, h1, assertDebug_true, Op.lift_ok_bind]
  exact copy_denotes hlen.symm h

theorem assign_rejected {b : Build} (hb : b.Checked) {src : Src (List α) α} {l : List α}
    (h : (l.length : Int) ≠ src.size) : assign b src l = (.trap b.kind, l) := by
  have h1 : (len l == src.size) = false := by simpa [len] using h
  simp only [assign, Op.get_bind, h1, assertDebug_false hb, Op.lift_trap_bind]

theorem operand_denotes (s : Vars α) (i j : Nat) : Denotes (s.operand i j) (s i) (s j) := by
  unfold Vars.operand
  split
  · subst_vars; exact ⟨rfl, fun k h => rd_nat h⟩
  · exact denotes_ofList _ _

theorem resizeAndAssign_ok (b : Build) {src : Src (List α) α} {l xs : List α}
    (h : Denotes src l xs) : resizeAndAssign b src l = (.ok (), xs) := by
  simp only [resizeAndAssign, Op.get_bind]
  rw [makeFrom_ok b (xs := xs) (fun _ => h)]
  rfl

theorem swap_eq (s : Vars α) (i j : Nat) :
    Vars.swap i j s = (.ok (), upd (upd s i (s j)) j (s i)) := by
  simp only [Vars.swap, Prod.mk.injEq, true_and]
  funext k
  simp only [upd]
  by_cases h1 : k = i
  · by_cases h2 : k = j
    · subst h1; subst h2; simp
    · simp [h1, h2]
      intro h; exact absurd (h1.trans h) h2
  · by_cases h2 : k = j
    · subst h2; simp [h1]
    · simp [h1, h2]

/-! ### C29 copy, move, swap -/

/-- Copy assignment between arrays of equal size copies the contents and changes nothing else; with
different sizes it is rejected and nothing changes; self-assignment does nothing. -/
theorem C29_copy_assign (b : Build) (s : Vars α) (i j : Nat) :
    ((s i).length = (s j).length → Vars.copyAssign b i j s = (.ok (), upd s i (s j))) ∧
    ((s i).length ≠ (s j).length → b.Checked → Vars.copyAssign b i j s = (.trap b.kind, s)) := by
  constructor
  · intro h
    unfold Vars.copyAssign
    by_cases hij : i = j
    · subst hij; simp [upd_same]
    · rw [if_pos hij, Op.get_bind]
      exact on_ok (assign_ok b h (fun t => denotes_ofList _ t))
  · intro h hb
    have hij : i ≠ j := fun hij => h (by rw [hij])
    unfold Vars.copyAssign
    rw [if_pos hij, Op.get_bind]
    refine on_trap (assign_rejected hb ?_)
    simp only [Src.ofList]; omega

/-- The two arrays are not linked by a copy: a later change of one does not affect the other. -/
theorem C29_copy_not_linked (b : Build) (s : Vars α) {i j : Nat} (hij : i ≠ j)
    (h : (s i).length = (s j).length) (op : Op (List α) Unit) :
    (Vars.on i op (Vars.copyAssign b i j s).2).2 j = s j ∧
    (Vars.on j op (Vars.copyAssign b i j s).2).2 i = s j := by
  rw [(C29_copy_assign b s i j).1 h]
  have hji : j ≠ i := hij.symm
  simp [Vars.on, Vars.put, upd, hij, hji]

/-- Copy construction (`Array1D B(A)`), construction from a list and from an expression give the
elements of the source. -/
theorem C29_construct (b : Build) {src : Src (List α) α} {xs : List α}
    (h : ∀ s, Denotes src s xs) : makeFrom b src = .ok xs := makeFrom_ok b h

/-- `Array1D A(n)` and `Array1D A(n, x)`. -/
theorem C29_construct_size (b : Build) {n : Int} (hn : 0 ≤ n) (x : α) :
    make (α := α) b n = .ok (List.replicate n.toNat default) ∧
    makeFill b n x = .ok (List.replicate n.toNat x) :=
  ⟨make_ok b hn, makeFill_ok b hn x⟩

theorem C29_construct_size_rejected {b : Build} (hb : b.Checked) {n : Int} (hn : n < 0) (x : α) :
    make (α := α) b n = .trap b.kind ∧ makeFill b n x = .trap b.kind := by
  refine ⟨make_checked hb hn, ?_⟩
  simp only [makeFill, make_checked hb hn, Res.trap_bind]

/-- Move assignment between different arrays of equal size transfers the contents and leaves the
source empty; self-move does nothing. -/
theorem C29_move_assign (b : Build) (s : Vars α) (i j : Nat) (h : (s i).length = (s j).length) :
    Vars.moveAssign b i j s =
      (.ok (), if i = j then s else upd (upd s i (s j)) j []) := by
  unfold Vars.moveAssign
  by_cases hij : i = j
  · simp [hij]
  · rw [if_pos hij, if_neg hij]
    have h1 : (len (s i) == len (s j)) = true := by simp [len, h]
    simp only [Op.get_bind, h1, assertNormal_true, Op.lift_ok_bind]
    rw [Op.bind_run, swap_eq]
    simp only [Op.get_bind, Op.set_run, Prod.mk.injEq, true_and, put_eq]
    funext k
    simp only [upd]
    split <;> rfl

/-- Move assignment with different sizes aborts (never throws, the operator is `noexcept`) and has
changed nothing. -/
theorem C29_move_assign_rejected {b : Build} (hd : b.debugOff = false) (hn : b.ndebug = false)
    (s : Vars α) {i j : Nat} (h : (s i).length ≠ (s j).length) :
    Vars.moveAssign b i j s = (.trap .abort, s) := by
  have hij : i ≠ j := fun hij => h (by rw [hij])
  unfold Vars.moveAssign
  rw [if_pos hij]
  have h1 : (len (s i) == len (s j)) = false := by simp [len]; omega
  simp only [Op.get_bind, h1, assertNormal, hd, hn]
  rfl

/-- Move construction transfers the contents, leaves the source empty and touches nothing else. -/
theorem C29_move_construct (s : Vars α) {i j : Nat} (hij : i ≠ j) :
    ∃ t, Vars.moveConstruct i j s = (.ok (), t) ∧ t i = s j ∧ t j = [] ∧
      ∀ k, k ≠ i → k ≠ j → t k = s k := by
  refine ⟨_, rfl, ?_, ?_, ?_⟩
  · simp [Vars.put, hij]
  · simp [Vars.put]
  · intro k h1 h2; simp [Vars.put, h1, h2]

/-- `swap` exchanges the contents. -/
theorem C29_swap (s : Vars α) (i j : Nat) :
    ∃ t, Vars.swap i j s = (.ok (), t) ∧ t i = s j ∧ t j = s i ∧
      ∀ k, k ≠ i → k ≠ j → t k = s k := by
  refine ⟨_, swap_eq s i j, ?_, ?_, ?_⟩
  · simp only [upd]; split
    · rename_i h; rw [h]
    · simp
  · simp [upd]
  · intro k h1 h2; simp [upd, h1, h2]

/-- `resize_and_assign` takes size and contents of the source, whatever the old size. -/
theorem C29_resize_and_assign (b : Build) {src : Src (List α) α} {l xs : List α}
    (h : Denotes src l xs) : resizeAndAssign b src l = (.ok (), xs) := resizeAndAssign_ok b h

/-- The rvalue version empties the source - also when it is the same array: unlike move assignment,
`A.resize_and_assign(std::move(A))` loses the contents of `A`. -/
theorem C29_resize_and_assign_move (s : Vars α) (i j : Nat) :
    Vars.resizeAndAssignMove i j s = (.ok (), upd (upd s i (s j)) j []) := by
  unfold Vars.resizeAndAssignMove
  rw [Op.bind_run, swap_eq]
  simp only [Op.get_bind, Op.set_run, Prod.mk.injEq, true_and, put_eq]
  funext k
  simp only [upd]
  split <;> rfl

example : Vars.resizeAndAssignMove 0 0 (fun _ => [(1 : Int), 2]) =
    (.ok (), fun k => if k = 0 then [] else [1, 2]) := by
  rw [C29_resize_and_assign_move]
  simp only [Prod.mk.injEq, true_and]
  funext k; simp [upd]

example : Vars.copyAssign ⟨false, true, false⟩ 0 1
    (fun k => if k = 0 then [(1 : Int), 2] else [3, 4]) = (.ok (), fun _ => [3, 4]) := by
  rw [(C29_copy_assign _ _ 0 1).1 (by simp)]
  simp only [Prod.mk.injEq, true_and]
  funext k; simp [upd]

/-! ### C23 histories -/

/-- A valid statement succeeds in every build and has exactly its list meaning. -/
theorem C23_valid_statement (b : Build) {s s' : Vars α} {c : Stmt α} (hm : ModerateSizes s)
    (hc : c.Moderate) (h : c.meaning s = some s') : exec b c s = (.ok (), s') := by
  have hsz : ∀ i, Sized (s i) := fun i => by have := hm i; unfold Sized; omega
  cases c with
  | fill i x =>
    simp only [Stmt.meaning, Option.some.injEq] at h; subst h
    exact on_ok (fill_ok x _)
  | assignList i xs =>
    simp only [Stmt.meaning, Option.ite_none_right_eq_some, Option.some.injEq] at h
    obtain ⟨h1, rfl⟩ := h
    exact on_ok (assign_ok b h1 (fun t => denotes_ofList _ t))
  | copyAssign i j =>
    simp only [Stmt.meaning, Option.ite_none_right_eq_some, Option.some.injEq] at h
    obtain ⟨h1, rfl⟩ := h
    exact (C29_copy_assign b s i j).1 h1
  | moveAssign i j =>
    simp only [Stmt.meaning] at h
    by_cases hij : i = j
    · subst hij; simp only [if_true, Option.some.injEq] at h; subst h
      have := C29_move_assign b s i i rfl
      rw [if_pos rfl] at this; exact this
    · simp only [hij, if_false, Option.ite_none_right_eq_some, Option.some.injEq] at h
      obtain ⟨h1, rfl⟩ := h
      have := C29_move_assign b s i j h1
      rw [if_neg hij] at this; exact this
  | swap i j =>
    simp only [Stmt.meaning, Option.some.injEq] at h; subst h
    exact swap_eq s i j
  | resize i n p =>
    simp only [Stmt.meaning] at h
    split at h
    · simp at h
    · rename_i hn
      have := C24_resize b (n := n) (by omega) (s i)
      cases p with
      | true =>
        simp only [if_true, Option.some.injEq] at h; subst h
        exact on_ok this.1
      | false =>
        simp only [Bool.false_eq_true, if_false] at h
        split at h
        · rename_i h2
          simp only [Option.some.injEq] at h; subst h
          rw [if_pos h2] at this
          have h3 := on_ok this.2
          rw [upd_same] at h3
          exact h3
        · rename_i h2
          simp only [Option.some.injEq] at h; subst h
          rw [if_neg h2] at this
          exact on_ok this.2
  | resizeAndAssign i j =>
    simp only [Stmt.meaning, Option.some.injEq] at h; subst h
    exact on_ok (resizeAndAssign_ok b (operand_denotes s i j))
  | resizeAndAssignMove i j =>
    simp only [Stmt.meaning, Option.some.injEq] at h; subst h
    exact C29_resize_and_assign_move s i j
  | remove i p n =>
    simp only [Stmt.meaning, Option.ite_none_right_eq_some, Option.some.injEq] at h
    obtain ⟨⟨h1, h2, h3⟩, rfl⟩ := h
    exact on_ok (C25_remove b (hsz i) h1 h2 h3)
  | removeFront i n =>
    simp only [Stmt.meaning, Option.ite_none_right_eq_some, Option.some.injEq] at h
    obtain ⟨⟨h1, h2⟩, rfl⟩ := h
    exact on_ok (C25_remove_front_back b (hsz i) h1 h2).1
  | removeBack i n =>
    simp only [Stmt.meaning, Option.ite_none_right_eq_some, Option.some.injEq] at h
    obtain ⟨⟨h1, h2⟩, rfl⟩ := h
    exact on_ok (C25_remove_front_back b (hsz i) h1 h2).2
  | removeLast i k =>
    simp only [Stmt.meaning, Option.ite_none_right_eq_some, Option.some.injEq] at h
    obtain ⟨⟨h1, h2⟩, rfl⟩ := h
    have := C25_remove_last b (hsz i) h1 h2
    rw [show (target (s i).length (.fromLast k)).toNat = (s i).length - 1 - k.toNat by
      simp only [target]; omega] at this
    exact on_ok this
  | removeVec i idx =>
    simp only [Stmt.meaning, Option.ite_none_right_eq_some, Option.some.injEq] at h
    obtain ⟨⟨h1, h2⟩, rfl⟩ := h
    exact on_ok (C26_remove_indices b h1 h2)
  | insert i p x =>
    simp only [Stmt.meaning, Option.ite_none_right_eq_some, Option.some.injEq] at h
    obtain ⟨⟨h1, h2⟩, rfl⟩ := h
    have := hm i
    exact on_ok (C27_insert b x (by omega) h1 h2)
  | insertFront i x =>
    simp only [Stmt.meaning, Option.some.injEq] at h; subst h
    have := hm i
    exact on_ok (C27_insert_ends b x (denotes_ofList [] _) (by simp; omega) (by omega)).1
  | insertBack i x =>
    simp only [Stmt.meaning, Option.some.injEq] at h; subst h
    have := hm i
    exact on_ok (C27_insert_ends b x (denotes_ofList [] _) (by simp; omega) (by omega)).2.1
  | insertArr i p j =>
    simp only [Stmt.meaning, Option.ite_none_right_eq_some, Option.some.injEq] at h
    obtain ⟨⟨h1, h2⟩, rfl⟩ := h
    have := hm i; have := hm j
    exact on_ok (C27_insert_array b (operand_denotes s i j) (by omega) h1 h2)
  | insertFrontArr i j =>
    simp only [Stmt.meaning, Option.some.injEq] at h; subst h
    have := hm i; have := hm j
    exact on_ok (C27_insert_ends b default (operand_denotes s i j) (by omega) (by omega)).2.2.1
  | insertBackArr i j =>
    simp only [Stmt.meaning, Option.some.injEq] at h; subst h
    have := hm i; have := hm j
    exact on_ok (C27_insert_ends b default (operand_denotes s i j) (by omega) (by omega)).2.2.2

/-- C23 / C30: an invalid statement traps in debug builds and *no array has changed*.  (Move
assignment aborts instead of throwing.) -/
theorem C30_invalid_statement {b : Build} (hb : b.Checked) {s : Vars α} {c : Stmt α}
    (hm : ModerateSizes s) (hc : c.Moderate) (h : c.meaning s = none) :
    exec b c s = (.trap b.kind, s) ∨
    (∃ i j, c = .moveAssign i j ∧ (b.ndebug = false → exec b c s = (.trap .abort, s))) := by
  have hsz : ∀ i, Sized (s i) := fun i => by have := hm i; unfold Sized; omega
  cases c with
  | moveAssign i j =>
    refine .inr ⟨i, j, rfl, fun hn => ?_⟩
    simp only [Stmt.meaning] at h
    split at h
    · simp at h
    · split at h
      · simp at h
      · rename_i h2
        exact C29_move_assign_rejected hb.1 hn s h2
  | fill i x => simp [Stmt.meaning] at h
  | swap i j => simp [Stmt.meaning] at h
  | resizeAndAssign i j => simp [Stmt.meaning] at h
  | resizeAndAssignMove i j => simp [Stmt.meaning] at h
  | insertFront i x => simp [Stmt.meaning] at h
  | insertBack i x => simp [Stmt.meaning] at h
  | insertFrontArr i x => simp [Stmt.meaning] at h
  | insertBackArr i x => simp [Stmt.meaning] at h
  | assignList i xs =>
    simp only [Stmt.meaning, ite_eq_right_iff, reduceCtorEq, imp_false] at h
    exact .inl (on_trap (assign_rejected hb (by simp only [Src.ofList]; omega)))
  | copyAssign i j =>
    simp only [Stmt.meaning, ite_eq_right_iff, reduceCtorEq, imp_false] at h
    exact .inl ((C29_copy_assign b s i j).2 h hb)
  | resize i n p =>
    simp only [Stmt.meaning] at h
    split at h
    · rename_i hn
      exact .inl (on_trap (C24_resize_rejected hb hn p _))
    · split at h
      · simp at h
      · split at h <;> simp at h
  | remove i p n =>
    simp only [Stmt.meaning, ite_eq_right_iff, reduceCtorEq, imp_false] at h
    simp only [Stmt.Moderate, Stmt.Moderate.Mod] at hc
    exact .inl (on_trap (C25_remove_rejected hb (by unfold IsIndex; omega)
      (by unfold IsIndex; omega) h))
  | removeFront i n =>
    simp only [Stmt.meaning, ite_eq_right_iff, reduceCtorEq, imp_false] at h
    simp only [Stmt.Moderate, Stmt.Moderate.Mod] at hc
    have := hm i
    exact .inl (on_trap (C25_remove_front_back_rejected hb (hsz i) (by omega) (by omega) h).1)
  | removeBack i n =>
    simp only [Stmt.meaning, ite_eq_right_iff, reduceCtorEq, imp_false] at h
    simp only [Stmt.Moderate, Stmt.Moderate.Mod] at hc
    have := hm i
    exact .inl (on_trap (C25_remove_front_back_rejected hb (hsz i) (by omega) (by omega) h).2)
  | removeLast i k =>
    simp only [Stmt.meaning, ite_eq_right_iff, reduceCtorEq, imp_false] at h
    simp only [Stmt.Moderate, Stmt.Moderate.Mod] at hc
    have := hm i
    exact .inl (on_trap (C25_remove_last_rejected hb (hsz i) (by omega) (by omega) h))
  | removeVec i idx =>
    simp only [Stmt.meaning, ite_eq_right_iff, reduceCtorEq, imp_false] at h
    refine .inl (on_trap (C26_remove_indices_rejected hb ?_))
    by_cases h1 : Increasing idx
    · refine .inr ?_
      by_cases h2 : ∃ x ∈ idx, ¬ InRange (s i).length x
      · exact h2
      · exact absurd ⟨h1, fun x hx => Classical.byContradiction fun hn => h2 ⟨x, hx, hn⟩⟩ h
    · exact .inl h1
  | insert i p x =>
    simp only [Stmt.meaning, ite_eq_right_iff, reduceCtorEq, imp_false] at h
    exact .inl (on_trap (C27_insert_rejected hb h x ⟨0, fun _ _ => .ub⟩).1)
  | insertArr i p j =>
    simp only [Stmt.meaning, ite_eq_right_iff, reduceCtorEq, imp_false] at h
    exact .inl (on_trap (C27_insert_rejected hb h default _).2)

/-- No statement of the program is a move assignment between arrays of different sizes. -/
def NoBadMove (s : Vars α) : List (Stmt α) → Prop
  | [] => True
  | c :: cs => (∀ i j, c = .moveAssign i j → c.meaning s ≠ none) ∧
      NoBadMove ((c.meaning s).getD s) cs

/-- C23: a whole program, of any length, on any number of arrays, in a debug build with exceptions,
ends with exactly the arrays of the list program; rejected statements are skipped. -/
theorem C23_history {b : Build} (hb : b.Checked) (he : b.exceptions = true)
    (s : Vars α) (cs : List (Stmt α)) (hm : StaysModerate s cs) (hmv : NoBadMove s cs) :
    execAll b s cs = .ok (meaningOf s cs) := by
  induction cs generalizing s with
  | nil => rfl
  | cons c cs ih =>
    obtain ⟨h1, h2, h3⟩ := hm
    obtain ⟨h4, h5⟩ := hmv
    have ih' := ih ((c.meaning s).getD s) h3 h5
    cases hc : c.meaning s with
    | some s' =>
      have e := C23_valid_statement b h1 h2 hc
      simp only [hc, Option.getD_some] at ih'
      simp only [execAll, e, meaningOf, hc, Option.getD_some]
      exact ih'
    | none =>
      have hk : b.kind = .exception := by simp [Build.kind, he]
      rcases C30_invalid_statement hb h1 h2 hc with e | ⟨i, j, e, _⟩
      · simp only [hc, Option.getD_none] at ih'
        simp only [execAll, e, meaningOf, hc, Option.getD_none, hk]
        exact ih'
      · exact absurd hc (h4 i j e)

/-- C23 in any build: a program all of whose statements are valid does exactly what the list program
does (no exceptions needed). -/
theorem C23_history_valid (b : Build) (s : Vars α) (cs : List (Stmt α)) (hm : StaysModerate s cs)
    (hv : ∀ (pre : List (Stmt α)) (c : Stmt α) (post : List (Stmt α)), cs = pre ++ c :: post →
      c.meaning (meaningOf s pre) ≠ none) :
    execAll b s cs = .ok (meaningOf s cs) := by
  induction cs generalizing s with
  | nil => rfl
  | cons c cs ih =>
    obtain ⟨h1, h2, h3⟩ := hm
    cases hc : c.meaning s with
    | none => exact absurd hc (hv [] c cs rfl)
    | some s' =>
      have e := C23_valid_statement b h1 h2 hc
      have := ih s' (by simpa [hc] using h3) (by
        intro pre c' post hpre
        have := hv (c :: pre) c' post (by rw [hpre]; rfl)
        simpa [meaningOf, hc] using this)
      simp only [execAll, e, meaningOf, hc, Option.getD_some]
      exact this

/-- A program with valid and invalid statements on two arrays. -/
example : execAll ⟨false, true, false⟩ (fun _ => ([] : List Int))
    [.resize 0 3 true, .fill 0 7, .insert 0 9 1, .insertBack 1 4, .insertArr 0 1 1,
     .removeVec 0 [2, 1], .removeLast 0 0, .swap 0 1] =
    .ok (meaningOf (fun _ => []) [.resize 0 3 true, .fill 0 7, .insert 0 9 1, .insertBack 1 4,
      .insertArr 0 1 1, .removeVec 0 [2, 1], .removeLast 0 0, .swap 0 1]) ∧
    meaningOf (fun _ => ([] : List Int)) [.resize 0 3 true, .fill 0 7, .insert 0 9 1,
      .insertBack 1 4, .insertArr 0 1 1, .removeVec 0 [2, 1], .removeLast 0 0, .swap 0 1] 1
      = [7, 4, 7] := by
  refine ⟨C23_history (by decide) rfl _ _ ?_ ?_, ?_⟩
  · simp [StaysModerate, ModerateSizes, Stmt.Moderate, Stmt.Moderate.Mod, Stmt.meaning, upd,
      resized, inserted]
    refine ⟨?_, ?_, ?_, ?_, ?_, ?_⟩ <;> intro i <;> (repeat' split) <;> simp
  · simp [NoBadMove]
  · simp [meaningOf, Stmt.meaning, upd, resized, inserted, List.replicate]

end Spp.Props
