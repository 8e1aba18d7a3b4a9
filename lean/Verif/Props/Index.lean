import Verif.Lemmas.Index

/- Properties C18 (element access), C21 and C32. -/

namespace Spp.Props
open Spec

/-! ### C18: `last - k` arithmetic -/

/-- One step of user arithmetic on a position: `p + i` or `p - i`. -/
inductive Step where
  | plus (i : Int)
  | minus (i : Int)

/-- Executing `p ± i ± j ...` with the library operators. -/
def runSteps : Pos → List Step → Res Pos
  | p, [] => .ok p
  | p, .plus i :: ss => do let q ← p.plus i; runSteps q ss
  | p, .minus i :: ss => do let q ← p.minus i; runSteps q ss

/-- The mathematical displacement of a chain. -/
def disp : List Step → Int
  | [] => 0
  | .plus i :: ss => i + disp ss
  | .minus i :: ss => -i + disp ss

/-- No partial result of the chain overflows when starting `d` to the right of the last element. -/
def StepsFit : Int → List Step → Prop
  | _, [] => True
  | d, .plus i :: ss => IsIndex (-(d + i)) ∧ StepsFit (d + i) ss
  | d, .minus i :: ss => IsIndex (-(d - i)) ∧ StepsFit (d - i) ss

theorem runSteps_fromLast (ss : List Step) (k : Int) (h : StepsFit (-k) ss) :
    runSteps (.fromLast k) ss = .ok (.fromLast (k - disp ss)) := by
  induction ss generalizing k with
  | nil => simp [runSteps, disp]
  | cons s ss ih =>
    cases s with
    | plus i =>
      obtain ⟨h1, h2⟩ := h
      have e : IsIndex (k - i) := by unfold IsIndex at *; omega
      have h2' : StepsFit (-(k - i)) ss := by rw [show -(k - i) = -k + i by omega]; exact h2
      simp only [runSteps, Pos.plus, isub_ok e, Res.ok_bind, Res.pure_eq, ih _ h2', disp]
      congr 2; omega
    | minus i =>
      obtain ⟨h1, h2⟩ := h
      have e : IsIndex (k + i) := by unfold IsIndex at *; omega
      have h2' : StepsFit (-(k + i)) ss := by rw [show -(k + i) = -k - i by omega]; exact h2
      simp only [runSteps, Pos.minus, iadd_ok e, Res.ok_bind, Res.pure_eq, ih _ h2', disp]
      congr 2; omega

/-- C18: however `last ± a ± b ...` is written, it denotes the element at that displacement from
`size - 1` (as long as no intermediate value leaves the range of `index_t`). -/
theorem C18_last_arithmetic (n : Int) (ss : List Step) (h : StepsFit 0 ss)
    (hn : NoOverflow n (.fromLast (-(disp ss)))) :
    ∃ p, runSteps Pos.last ss = .ok p ∧ p.resolve n = .ok (n - 1 + disp ss) := by
  refine ⟨.fromLast (0 - disp ss), runSteps_fromLast ss 0 (by simpa using h), ?_⟩
  have e : (0 - disp ss) = -(disp ss) := by omega
  rw [e, resolve_ok hn]; simp only [target]; congr 1; omega

/-- C18 for the common form: `last - k` with `0 <= k` never overflows and denotes `size - 1 - k`. -/
theorem C18_last_minus (n k : Int) (hn : 0 ≤ n) (hn' : IsIndex n) (hk : 0 ≤ k) (hk' : IsIndex k) :
    ∃ p, Pos.last.minus k = .ok p ∧ p.resolve n = .ok (n - 1 - k) := by
  refine ⟨.fromLast k, ?_, ?_⟩
  · have e : IsIndex (0 + k) := by unfold IsIndex at *; omega
    simp [Pos.last, Pos.minus, iadd_ok e]
  · rw [resolve_ok (p := .fromLast k)]; simp [target]
    unfold NoOverflow IsIndex at *; omega

example : ∃ p, runSteps Pos.last [.minus 3, .plus 1] = .ok p ∧ p.resolve 10 = .ok 7 := by
  refine C18_last_arithmetic 10 [.minus 3, .plus 1] ?_ ?_ <;>
    simp [StepsFit, NoOverflow, IsIndex, disp]

/-! ### C21: bounds checking -/

/-- C21 (`A[p]`, checked build): traps exactly outside `[0, size)`, otherwise yields that element;
never undefined behaviour. -/
theorem C21_subscript {b : Build} (hb : b.Checked) (l : List α) (p : Pos)
    (hp : NoOverflow l.length p) :
    (¬ InRange l.length (target l.length p) → Elem1.sub b l p = .trap b.kind) ∧
    (∀ h : (target l.length p).toNat < l.length, InRange l.length (target l.length p) →
      Elem1.sub b l p = .ok l[(target l.length p).toNat]) := by
  have hr : p.resolve (l.length : Int) = .ok (target l.length p) := resolve_ok hp
  constructor
  · intro h
    have hv := validIndex_false.2 h
    simp [Elem1.sub, hr, len, hv, assertDebug_false hb]
  · intro h1 h
    have hv := validIndex_iff.2 h
    obtain ⟨_, he⟩ := rd_ok h
    simp [Elem1.sub, hr, len, hv, he]

/-- C21 (`A.at(p)`): the same with or without the debug checks, as long as assertions exist at all
(exceptions enabled, or NDEBUG not defined). -/
theorem C21_at {b : Build} (hb : b.Guarded) (l : List α) (p : Pos)
    (hp : NoOverflow l.length p) :
    (¬ InRange l.length (target l.length p) → Elem1.at_ b l p = .trap b.kind) ∧
    (∀ h : (target l.length p).toNat < l.length, InRange l.length (target l.length p) →
      Elem1.at_ b l p = .ok l[(target l.length p).toNat]) := by
  have hr : p.resolve (l.length : Int) = .ok (target l.length p) := resolve_ok hp
  constructor
  · intro h
    have hv := validIndex_false.2 h
    simp [Elem1.at_, hr, len, hv, assertAlways_false hb]
  · intro h1 h
    have hv := validIndex_iff.2 h
    obtain ⟨_, he⟩ := rd_ok h
    simp [Elem1.at_, hr, len, hv, he]

/-- C21 (`at` is not unconditional): compiled with NDEBUG and without STRICT_ERROR_EXCEPTIONS,
`at` outside the range is undefined behaviour instead of a reported error, whether or not
STRICT_DEBUG_OFF is defined. -/
theorem C21_at_unguarded (d : Bool) (l : List α) (i : Int) (h : ¬ InRange l.length i) :
    Elem1.at_ ⟨d, false, true⟩ l (.at i) = .ub := by
  have hv := validIndex_false.2 h
  simp [Elem1.at_, Pos.resolve, len, hv, assertAlways, rd_ub h]

/-- C21 (writing): `A[p] = x` traps exactly outside the range leaving the array as it was, and
otherwise replaces exactly that element. -/
theorem C21_subscript_write {b : Build} (hb : b.Checked) (l : List α) (p : Pos) (x : α)
    (hp : NoOverflow l.length p) :
    (¬ InRange l.length (target l.length p) → Elem1.subSet b p x l = (.trap b.kind, l)) ∧
    (InRange l.length (target l.length p) → ∃ l', Elem1.subSet b p x l = (.ok (), l') ∧
      l'.length = l.length ∧ l'[(target l.length p).toNat]? = some x ∧
      ∀ j : Nat, (j : Int) ≠ target l.length p → l'[j]? = l[j]?) := by
  have hr : p.resolve (l.length : Int) = .ok (target l.length p) := resolve_ok hp
  constructor
  · intro h
    have hv := validIndex_false.2 h
    simp [Elem1.subSet, hr, len, hv, assertDebug_false hb]
  · intro h
    have hv := validIndex_iff.2 h
    have h1 := h.1; have h2 := h.2
    refine ⟨l.set (target l.length p).toNat x, ?_, by simp, ?_, ?_⟩
    · simp [Elem1.subSet, hr, len, hv, wr_ok h]
    · rw [List.getElem?_set_self (by omega)]
    · intro j hj; rw [List.getElem?_set_ne (by omega)]

/-- C21 (writing through `at`). -/
theorem C21_at_write {b : Build} (hb : b.Guarded) (l : List α) (p : Pos) (x : α)
    (hp : NoOverflow l.length p) :
    (¬ InRange l.length (target l.length p) → Elem1.atSet b p x l = (.trap b.kind, l)) ∧
    (InRange l.length (target l.length p) → ∃ l', Elem1.atSet b p x l = (.ok (), l') ∧
      l'.length = l.length ∧ l'[(target l.length p).toNat]? = some x ∧
      ∀ j : Nat, (j : Int) ≠ target l.length p → l'[j]? = l[j]?) := by
  have hr : p.resolve (l.length : Int) = .ok (target l.length p) := resolve_ok hp
  constructor
  · intro h
    have hv := validIndex_false.2 h
    simp [Elem1.atSet, hr, len, hv, assertAlways_false hb]
  · intro h
    have hv := validIndex_iff.2 h
    have h1 := h.1; have h2 := h.2
    refine ⟨l.set (target l.length p).toNat x, ?_, by simp, ?_, ?_⟩
    · simp [Elem1.atSet, hr, len, hv, wr_ok h]
    · rw [List.getElem?_set_self (by omega)]
    · intro j hj; rw [List.getElem?_set_ne (by omega)]

/-- C21 (unchecked access `un`, and `[]` with checks off): outside the range it is undefined
behaviour, inside it is the element. -/
theorem C21_un (l : List α) (p : Pos) (hp : NoOverflow l.length p) :
    (¬ InRange l.length (target l.length p) → Elem1.un l p = .ub) ∧
    (∀ h : (target l.length p).toNat < l.length, InRange l.length (target l.length p) →
      Elem1.un l p = .ok l[(target l.length p).toNat]) := by
  have hr : p.resolve (l.length : Int) = .ok (target l.length p) := resolve_ok hp
  constructor
  · intro h; simp [Elem1.un, len, hr, rd_ub h]
  · intro h1 h; obtain ⟨_, he⟩ := rd_ok h; simp [Elem1.un, len, hr, he]

example : Elem1.sub ⟨false, true, false⟩ [10, 20, 30] (.fromLast 1) = .ok 20 ∧
    Elem1.sub ⟨false, true, false⟩ [10, 20, 30] (.at 3) = .trap .exception ∧
    Elem1.sub ⟨true, true, false⟩ [10, 20, 30] (.at 3) = .ub ∧
    Elem1.at_ ⟨true, true, false⟩ [10, 20, 30] (.at (-1)) = .trap .exception ∧
    NoOverflow 3 (.fromLast 1) ∧ InRange 3 (target 3 (.fromLast 1)) := by
  refine ⟨by decide, by decide, by decide, by decide, ?_, ?_⟩ <;>
    simp [NoOverflow, IsIndex, InRange, target]

/-! ### Two dimensions -/

theorem off_in_range {m n i j : Int} (hi : InRange m i) (hj : InRange n j) :
    InRange (m * n) (i * n + j) := by
  obtain ⟨a, b⟩ := hi; obtain ⟨c, d⟩ := hj
  have h1 : 0 ≤ i * n := Int.mul_nonneg a (by omega)
  have h2 : (i + 1) * n ≤ m * n := Int.mul_le_mul_of_nonneg_right (by omega) (by omega)
  rw [Int.add_mul] at h2
  constructor <;> omega

theorem off_ok {m n i j : Int} (hi : InRange m i) (hj : InRange n j) (hmn : IsIndex (m * n)) :
    Elem2.off n i j = .ok (i * n + j) := by
  have h := off_in_range hi hj
  have h1 : 0 ≤ i * n := Int.mul_nonneg hi.1 (by have := hj.1; have := hj.2; omega)
  have e1 : IsIndex (i * n) := by have := hj.1; unfold InRange IsIndex at *; omega
  have e2 : IsIndex (i * n + j) := by unfold InRange IsIndex at *; omega
  simp [Elem2.off, imul_ok e1, iadd_ok e2]

/-- C21 (`A(p, q)`): for storage of `rows*cols` elements, `(i, j)` traps exactly when row or column
is out of range, otherwise it is the element number `i*cols + j`. -/
theorem C21_subscript2 {b : Build} (hb : b.Checked) (m n : Int) (l : List α) (p q : Pos)
    (hl : (l.length : Int) = m * n) (hmn : IsIndex (m * n))
    (hp : NoOverflow m p) (hq : NoOverflow n q) :
    (¬ (InRange m (target m p) ∧ InRange n (target n q)) →
      Elem2.sub b m n l p q = .trap b.kind) ∧
    (InRange m (target m p) → InRange n (target n q) →
      ∃ a, l[(target m p * n + target n q).toNat]? = some a ∧ Elem2.sub b m n l p q = .ok a) := by
  have hr := resolve_ok hp
  have hs := resolve_ok hq
  constructor
  · intro h
    have hv : (validIndex m (target m p) && validIndex n (target n q)) = false := by
      rw [Bool.and_eq_false_iff, validIndex_false, validIndex_false]
      by_cases h1 : InRange m (target m p)
      · right; intro h2; exact h ⟨h1, h2⟩
      · left; exact h1
    simp [Elem2.sub, hr, hs, hv, assertDebug_false hb]
  · intro h1 h2
    have hv1 := validIndex_iff.2 h1
    have hv2 := validIndex_iff.2 h2
    have hx := off_in_range h1 h2
    rw [← hl] at hx
    obtain ⟨hlt, he⟩ := rd_ok hx
    exact ⟨_, List.getElem?_eq_getElem hlt, by
      simp [Elem2.sub, hr, hs, hv1, hv2, off_ok h1 h2 hmn, he]⟩

/-- C21 (`A.at(p, q)`), with or without debug checks. -/
theorem C21_at2 {b : Build} (hb : b.Guarded) (m n : Int) (l : List α) (p q : Pos)
    (hl : (l.length : Int) = m * n) (hmn : IsIndex (m * n))
    (hp : NoOverflow m p) (hq : NoOverflow n q) :
    (¬ (InRange m (target m p) ∧ InRange n (target n q)) →
      Elem2.at_ b m n l p q = .trap b.kind) ∧
    (InRange m (target m p) → InRange n (target n q) →
      ∃ a, l[(target m p * n + target n q).toNat]? = some a ∧ Elem2.at_ b m n l p q = .ok a) := by
  have hr := resolve_ok hp
  have hs := resolve_ok hq
  constructor
  · intro h
    have hv : (validIndex m (target m p) && validIndex n (target n q)) = false := by
      rw [Bool.and_eq_false_iff, validIndex_false, validIndex_false]
      by_cases h1 : InRange m (target m p)
      · right; intro h2; exact h ⟨h1, h2⟩
      · left; exact h1
    simp [Elem2.at_, hr, hs, hv, assertAlways_false hb]
  · intro h1 h2
    have hv1 := validIndex_iff.2 h1
    have hv2 := validIndex_iff.2 h2
    have hx := off_in_range h1 h2
    rw [← hl] at hx
    obtain ⟨hlt, he⟩ := rd_ok hx
    exact ⟨_, List.getElem?_eq_getElem hlt, by
      simp [Elem2.at_, hr, hs, hv1, hv2, off_ok h1 h2 hmn, he]⟩

/-- C21 (unchecked two-index access `un(i, j)`). -/
theorem C21_un2 (m n : Int) (l : List α) (p q : Pos)
    (hl : (l.length : Int) = m * n) (hmn : IsIndex (m * n))
    (hp : NoOverflow m p) (hq : NoOverflow n q)
    (h1 : InRange m (target m p)) (h2 : InRange n (target n q)) :
    ∃ a, l[(target m p * n + target n q).toNat]? = some a ∧ Elem2.un m n l p q = .ok a := by
  have hx := off_in_range h1 h2
  rw [← hl] at hx
  obtain ⟨hlt, he⟩ := rd_ok hx
  exact ⟨_, List.getElem?_eq_getElem hlt, by
    simp [Elem2.un, resolve_ok hp, resolve_ok hq, off_ok h1 h2 hmn, he]⟩

/-- C21 (writing `A(p, q) = x`): traps outside leaving the storage unchanged, otherwise replaces
exactly the element at `i*cols + j`. -/
theorem C21_write2 {b : Build} (hb : b.Checked) (m n : Int) (l : List α) (p q : Pos) (x : α)
    (hl : (l.length : Int) = m * n) (hmn : IsIndex (m * n))
    (hp : NoOverflow m p) (hq : NoOverflow n q) :
    (¬ (InRange m (target m p) ∧ InRange n (target n q)) →
      Elem2.subSet b m n p q x l = (.trap b.kind, l)) ∧
    (InRange m (target m p) → InRange n (target n q) →
      ∃ l', Elem2.subSet b m n p q x l = (.ok (), l') ∧ l'.length = l.length ∧
        l'[(target m p * n + target n q).toNat]? = some x ∧
        ∀ j : Nat, (j : Int) ≠ target m p * n + target n q → l'[j]? = l[j]?) := by
  have hr := resolve_ok hp
  have hs := resolve_ok hq
  constructor
  · intro h
    have hv : (validIndex m (target m p) && validIndex n (target n q)) = false := by
      rw [Bool.and_eq_false_iff, validIndex_false, validIndex_false]
      by_cases h1 : InRange m (target m p)
      · right; intro h2; exact h ⟨h1, h2⟩
      · left; exact h1
    simp [Elem2.subSet, hr, hs, hv, assertDebug_false hb]
  · intro h1 h2
    have hv1 := validIndex_iff.2 h1
    have hv2 := validIndex_iff.2 h2
    have hx := off_in_range h1 h2
    rw [← hl] at hx
    have hx1 := hx.1; have hx2 := hx.2
    refine ⟨l.set (target m p * n + target n q).toNat x, ?_, by simp, ?_, ?_⟩
    · simp [Elem2.subSet, hr, hs, hv1, hv2, off_ok h1 h2 hmn, wr_ok hx]
    · rw [List.getElem?_set_self (by omega)]
    · intro j hj; rw [List.getElem?_set_ne (by omega)]

example : Elem2.sub ⟨false, true, false⟩ 2 3 [1, 2, 3, 4, 5, 6] (.at 1) (.fromLast 0) = .ok 6 ∧
    Elem2.sub ⟨false, true, false⟩ 2 3 [1, 2, 3, 4, 5, 6] (.at 0) (.at 3) = .trap .exception := by
  decide

/-! ### C32: row-major layout -/

/-- C32 (there and back): the offset of an in-range pair is in range and unflattens to the pair. -/
theorem C32_flatten_unflatten (b : Build) {m n i j : Int} (hi : InRange m i) (hj : InRange n j)
    (hmn : IsIndex (m * n)) :
    ∃ o, Elem2.off n i j = .ok o ∧ InRange (m * n) o ∧ Elem2.unflatten b n o = .ok (i, j) := by
  have hx := off_in_range hi hj
  have hn : 0 < n := by have := hj.1; have := hj.2; omega
  have hI : IsIndex (i * n + j) := by unfold InRange IsIndex at *; omega
  refine ⟨i * n + j, off_ok hi hj hmn, hx, ?_⟩
  have e1 : (i * n + j) / n = i := by
    rw [Int.add_comm, Int.add_mul_ediv_right _ _ (by omega), Int.ediv_eq_zero_of_lt hj.1 hj.2]
    omega
  have e2 : (i * n + j) % n = j := by
    rw [Int.add_comm, Int.add_mul_emod_self_right, Int.emod_eq_of_lt hj.1 hj.2]
  simp [Elem2.unflatten, idiv_ok b hx.1 hI hn, irem_ok b hx.1 hI hn, e1, e2]

/-- C32 (back and there): every linear index below `rows*cols` comes from exactly one pair, namely
`(o / cols, o % cols)`. -/
theorem C32_unflatten_flatten (b : Build) {m n o : Int} (hn : 0 < n)
    (ho : InRange (m * n) o) (hmn : IsIndex (m * n)) :
    ∃ i j, Elem2.unflatten b n o = .ok (i, j) ∧ InRange m i ∧ InRange n j ∧
      Elem2.off n i j = .ok o ∧
      ∀ i' j', InRange m i' → InRange n j' → Elem2.off n i' j' = .ok o → i' = i ∧ j' = j := by
  have hI : IsIndex o := by unfold InRange IsIndex at *; omega
  have hj : InRange n (o % n) := ⟨Int.emod_nonneg _ (by omega), Int.emod_lt_of_pos _ hn⟩
  have hi : InRange m (o / n) :=
    ⟨Int.ediv_nonneg ho.1 (by omega), Int.ediv_lt_of_lt_mul hn ho.2⟩
  have hdm : o / n * n + o % n = o := by
    have := Int.emod_add_mul_ediv o n; rw [Int.mul_comm] at this; omega
  have hU : Elem2.unflatten b n o = .ok (o / n, o % n) := by
    simp [Elem2.unflatten, idiv_ok b ho.1 hI hn, irem_ok b ho.1 hI hn]
  refine ⟨o / n, o % n, hU, hi, hj, ?_, ?_⟩
  · rw [off_ok hi hj hmn, hdm]
  · intro i' j' hi' hj' h
    obtain ⟨o', h1, _, h3⟩ := C32_flatten_unflatten b hi' hj' hmn
    rw [h] at h1; cases h1
    rw [hU] at h3; cases h3; exact ⟨rfl, rfl⟩

example : InRange 3 2 ∧ InRange 4 1 ∧ IsIndex (3 * 4) ∧ Elem2.off 4 2 1 = .ok 9 ∧
    Elem2.unflatten ⟨false, true, false⟩ 4 9 = .ok (2, 1) := by
  refine ⟨?_, ?_, ?_, by decide, by decide⟩ <;> simp [InRange, IsIndex]

/-- C04 (element access). -/
theorem C04_access_transparent (l : List α) (m n : Int) (p q : Pos) (x : α) :
    Transparent (fun b => Elem1.sub b l p) ∧ Transparent (fun b => Elem1.at_ b l p) ∧
    Transparent (fun b => Elem2.sub b m n l p q) ∧ Transparent (fun b => Elem2.at_ b m n l p q) ∧
    TransparentOp (fun b => Elem1.subSet b p x) ∧ TransparentOp (fun b => Elem1.atSet b p x) ∧
    TransparentOp (fun b => Elem2.subSet b m n p q x) := by
  refine ⟨?_, ?_, ?_, ?_, ?_, ?_, ?_⟩
  · intro b
    unfold Elem1.sub
    cases hr : p.resolve (len l) with
    | ok i =>
      simpa [hr] using transparent_bind (transparent_assertDebug (validIndex (len l) i))
        (fun _ => transparent_const (rd l i)) b
    | trap k => exact absurd hr resolve_not_trap
    | ub =>
      right
      rcases b with ⟨_ | _, _ | _, _ | _⟩ <;> simp [assertDebugM, off]
  · exact transparent_bind (transparent_const _) (fun i =>
      transparent_bind (transparent_assertAlways _) (fun _ => transparent_const _))
  · exact transparent_bind (transparent_const _) (fun i => transparent_bind (transparent_const _)
      (fun j => transparent_bind (transparent_assertDebug _) (fun _ => transparent_const _)))
  · exact transparent_bind (transparent_const _) (fun i => transparent_bind (transparent_const _)
      (fun j => transparent_bind (transparent_assertAlways _) (fun _ => transparent_const _)))
  · intro b s
    simp only [Elem1.subSet, Op.get_bind]
    cases hr : p.resolve (len s) with
    | ok i =>
      simp only [Res.ok_bind, Res.pure_eq, assertDebugM_ok]
      rcases b with ⟨_ | _, _ | _, _ | _⟩ <;> cases validIndex (len s) i <;>
        simp [assertDebug, assertAlways, off]
    | trap k => exact absurd hr resolve_not_trap
    | ub =>
      right
      rcases b with ⟨_ | _, _ | _, _ | _⟩ <;> simp [assertDebugM, off]
  · exact transparentOp_bind (transparentOp_const _) (fun l =>
      transparentOp_bind (transparentOp_const _) (fun i =>
        transparentOp_bind (transparentOp_lift (transparent_assertAlways _)) (fun _ =>
          transparentOp_const _)))
  · exact transparentOp_bind (transparentOp_const _) (fun l =>
      transparentOp_bind (transparentOp_const _) (fun i =>
        transparentOp_bind (transparentOp_const _) (fun j =>
          transparentOp_bind (transparentOp_lift (transparent_assertDebug _)) (fun _ =>
            transparentOp_const _))))

end Spp.Props
