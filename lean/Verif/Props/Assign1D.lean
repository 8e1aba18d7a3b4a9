import Verif.Props.History1D

/-
C30 (elements that trap while being evaluated) and C31 (aliasing) for plain assignment and
`resize_and_assign` of one-dimensional arrays, for arbitrary operands.  Props/Expr.lean instantiates
these for expression trees.
-/

set_option linter.unusedSectionVars false

namespace Spp.Props
open Spec Arr1

variable {α : Type} [Inhabited α]

/-- The operand reads the modified array only at the position that is being computed. -/
def SamePosition (src : Src (List α) α) : Prop :=
  ∀ (s t : List α) (i : Nat), s.length = t.length → s[i]? = t[i]? → src.un s i = src.un t i

theorem overwrite_take_get {l xs : List α} {i : Nat} (hlen : xs.length = l.length)
    (hi : i < xs.length) : (overwrite l 0 (xs.take i))[i]? = l[i]? := by
  rw [overwrite_getElem? (by simp; omega)]
  simp; omega

/-- C31: `A = expr`, where `expr` reads `A` only at the position being computed, gives the same
result as evaluating `expr` into a temporary first (which is what `resize_and_assign` does). -/
theorem C31_same_position (b : Build) {src : Src (List α) α} {l xs : List α}
    (hp : SamePosition src) (h : Denotes src l xs) (hlen : l.length = xs.length) :
    assign b src l = (.ok (), xs) ∧ assign b src l = resizeAndAssign b src l := by
  have e : assign b src l = (.ok (), xs) := by
    have h1 : (len l == src.size) = true := by rw [h.1]; simp [len, hlen]
    simp only [assign, Op.get_bind, h1, assertDebug_true, Op.lift_ok_bind]
    rw [copy_ok (xs := xs) (by omega) h.1 (fun i hi => ?_), overwrite_all hlen.symm]
    rw [← h.2 i hi]
    apply hp
    · exact overwrite_length (by simp; omega)
    · exact overwrite_take_get hlen.symm hi
  exact ⟨e, by rw [e, resizeAndAssign_ok b h]⟩

/-- C31: `resize_and_assign` is right for every operand that can be evaluated, however it reads the
array. -/
theorem C31_resize_and_assign_safe (b : Build) {src : Src (List α) α} {l xs : List α}
    (h : Denotes src l xs) : resizeAndAssign b src l = (.ok (), xs) := resizeAndAssign_ok b h

/-- C31, the negative part: reversing in place by plain assignment is wrong for every array of two
different elements, although it is accepted; `resize_and_assign` is right. -/
theorem C31_reverse_smears (b : Build) (x y : α) :
    assign b ⟨2, fun s i => rd s (1 - i)⟩ [x, y] = (.ok (), [y, y]) ∧
    resizeAndAssign b ⟨2, fun s i => rd s (1 - i)⟩ [x, y] = (.ok (), [y, x]) := by
  constructor
  · have h1 : (len [x, y] == 2) = true := rfl
    simp only [assign, Op.get_bind, h1, assertDebug_true, Op.lift_ok_bind]
    rfl
  · apply resizeAndAssign_ok
    refine ⟨rfl, fun i hi => ?_⟩
    have : i = 0 ∨ i = 1 := by simp at hi; omega
    rcases this with rfl | rfl <;> rfl

/-- `A = A + A` style operand: reads the same position only. -/
example : SamePosition (⟨2, fun s i => do let x ← rd s i; pure (x + x)⟩ : Src (List Int) Int) := by
  intro s t i hl h
  simp [rd, h]

example : assign ⟨false, true, false⟩ ⟨2, fun s i => do let x ← rd s i; pure (x + x)⟩ [(3 : Int), 4]
    = (.ok (), [6, 8]) := by
  refine (C31_same_position (α := Int) ⟨false, true, false⟩
    (src := ⟨2, fun s i => do let x ← rd s i; pure (x + x)⟩) (l := [3, 4]) (xs := [6, 8])
    ?_ ⟨rfl, ?_⟩ rfl).1
  · intro s t i hl h; simp [rd, h]
  · intro i hi
    have : i = 0 ∨ i = 1 := by simp at hi; omega
    rcases this with rfl | rfl <;> rfl

/-! ### C30: elements that trap -/

theorem copy_trap {src : Src (List α) α} {l xs : List α} {kd : Kind} (hlen : xs.length ≤ l.length)
    (hsz : (xs.length : Int) < src.size)
    (hr : ∀ (i : Nat) (h : i < xs.length), src.un (overwrite l 0 (xs.take i)) i = .ok xs[i])
    (ht : src.un (overwrite l 0 xs) xs.length = .trap kd) :
    copy src l = (.trap kd, overwrite l 0 xs) := by
  have hpre := copy_ok (src := ⟨xs.length, src.un⟩) hlen rfl hr
  unfold copy at hpre ⊢
  simp only [Int.toNat_natCast] at hpre
  obtain ⟨m, hm⟩ : ∃ m, src.size.toNat = xs.length + 1 + m := ⟨src.size.toNat - xs.length - 1, by omega⟩
  rw [hm]
  induction m with
  | zero =>
    rw [Nat.add_zero, Op.forN_succ, hpre]
    simp only [Op.get_bind, ht, Op.lift_trap_bind]
  | succ m ih =>
    clear hm
    have step : ∀ m, Op.forN (xs.length + 1 + m) (fun i : Nat => (do
        let l ← Op.get
        let v ← Op.lift (src.un l i)
        let l' ← Op.lift (wr l i v)
        Op.set l' : Op (List α) Unit)) l = (.trap kd, overwrite l 0 xs) := by
      intro m
      induction m with
      | zero =>
        rw [Nat.add_zero, Op.forN_succ, hpre]
        simp only [Op.get_bind, ht, Op.lift_trap_bind]
      | succ m ih => rw [← Nat.add_assoc, Op.forN_succ, ih]
    exact step (m + 1)

/-- C30: if element `k` of the assigned expression traps while being evaluated, plain assignment
leaves the first `k` elements already overwritten and the others as they were; the exception does
not restore anything. -/
theorem C30_assign_element_traps (b : Build) {src : Src (List α) α} {l xs : List α} {kd : Kind}
    (hsz : src.size = l.length) (hk : xs.length < l.length)
    (hr : ∀ s (i : Nat) (h : i < xs.length), src.un s i = .ok xs[i])
    (ht : ∀ s, src.un s xs.length = .trap kd) :
    assign b src l = (.trap kd, xs ++ l.drop xs.length) := by
  have h1 : (len l == src.size) = true := by rw [hsz]; simp [len]
  simp only [assign, Op.get_bind, h1, assertDebug_true, Op.lift_ok_bind]
  rw [copy_trap (by omega) (by omega) (fun i hi => hr _ i hi) (ht _)]
  simp [overwrite]

/-- C30: `resize_and_assign` does not have this problem: whatever goes wrong while the operand is
evaluated, the array is unchanged. -/
theorem C30_resize_and_assign_atomic (b : Build) (src : Src (List α) α) (l : List α)
    (h : (resizeAndAssign b src l).1 ≠ .ok ()) : (resizeAndAssign b src l).2 = l := by
  simp only [resizeAndAssign, Op.get_bind] at h ⊢
  cases hm : makeFrom b ⟨src.size, fun _ => src.un l⟩ with
  | ok t => simp [hm] at h
  | trap k => simp
  | ub => simp

/-- C30 for insertion of an operand whose elements trap: also atomic. -/
theorem C30_insert_atomic (b : Build) (pos : Int) (src : Src (List α) α) (l : List α)
    (h : (insertArr b pos src l).1 ≠ .ok ()) : (insertArr b pos src l).2 = l := by
  revert h
  simp only [insertArr, Op.get_bind]
  cases assertDebug b (decide (pos ≥ 0) && decide (pos ≤ len l)) with
  | trap k => simp
  | ub => simp
  | ok _ =>
    simp only [Op.lift_ok_bind]
    cases iadd (len l) src.size with
    | trap k => simp
    | ub => simp
    | ok m =>
      simp only [Op.lift_ok_bind]
      cases make (α := α) b m with
      | trap k => simp
      | ub => simp
      | ok t =>
        simp only [Op.lift_ok_bind]
        cases copyn0 (rd l) t pos with
        | trap k => simp
        | ub => simp
        | ok t =>
          simp only [Op.lift_ok_bind]
          cases copyn (src.un l) t 0 pos src.size with
          | trap k => simp
          | ub => simp
          | ok t =>
            simp only [Op.lift_ok_bind]
            cases copyn (rd l) t pos (pos + src.size) (len l - pos) with
            | trap k => simp
            | ub => simp
            | ok t => simp

/-- An integer division by zero in the middle of the assigned expression: the first element has been
replaced although the call was rejected. -/
example : assign ⟨false, true, false⟩
    ⟨3, fun _ i => do let d ← rd [(1 : Int), 0, 2] i; SInt.div ⟨false, true, false⟩ IntTy.long 6 d⟩
    [(7 : Int), 8, 9] = (.trap .exception, [6, 8, 9]) :=
  C30_assign_element_traps (α := Int) ⟨false, true, false⟩ (xs := [6]) (kd := .exception) rfl
    (by decide) (by
      intro s i hi
      have : i = 0 := by simp at hi; omega
      subst this; rfl) (fun s => rfl)

end Spp.Props
