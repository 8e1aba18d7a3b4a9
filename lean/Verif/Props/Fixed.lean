import Verif.Model.Fixed
import Verif.Props.History1D
import Verif.Props.History2D

/- C81: arrays of fixed size. -/

set_option linter.unusedSectionVars false

namespace Spp.Props
open Spec

variable {α : Type} [Inhabited α]

/-! ### Construction -/

theorem fixedCopy_ok (N : Nat) {src : Src (List α) α} {xs : List α} (hN : xs.length = N)
    (h : ∀ s, Denotes src s xs) : Arr1.copy src (Fixed.init N) = (.ok (), xs) :=
  Arr1.copy_denotes (by simp [Fixed.init, hN]) h

/-- Every constructor of a `FixedArray1D<T, N>` whose argument has `N` elements succeeds in every
build and gives those elements; the default constructor gives zeros, the constructor from a value
`N` copies of it. -/
theorem C81_construct (b : Build) (N : Nat) (x : α) :
    Fixed.init (α := α) N = List.replicate N default ∧
    Fixed.makeFill N x = .ok (List.replicate N x) ∧
    (∀ xs : List α, xs.length = N → Fixed.makeList b N xs = .ok xs) ∧
    (∀ (src : Src (List α) α) (xs : List α), xs.length = N → (∀ s, Denotes src s xs) →
      Fixed.makeFrom b N src = .ok xs) ∧
    (∀ (l : List α) (p : Nat), p + N ≤ l.length → (l.length : Int) < 2 ^ 63 →
      Fixed.makeIter b N l p (p + N : Nat) = .ok ((l.drop p).take N)) ∧
    (∀ a : List α, Fixed.makeCopy a = .ok a) := by
  refine ⟨rfl, ?_, ?_, ?_, ?_, ?_⟩
  · simp only [Fixed.makeFill, Arr1.fill_ok, Fixed.init, List.length_replicate, Res.ok_bind,
      Res.pure_eq]
  · intro xs h
    have h1 : ((N : Int) == len xs) = true := by simp [len, h]
    simp only [Fixed.makeList, h1, assertDebug_true, Res.ok_bind,
      fixedCopy_ok N h (fun s => Arr1.denotes_ofList xs s), Res.pure_eq]
  · intro src xs h hd
    have h1 : ((N : Int) == src.size) = true := by rw [(hd []).1, h]; simp
    simp only [Fixed.makeFrom, h1, assertDebug_true, Res.ok_bind, fixedCopy_ok N h hd, Res.pure_eq]
  · intro l p hp hl
    have e0 : isub ((p + N : Nat) : Int) (p : Int) = .ok (N : Int) := by
      rw [isub_ok (by unfold IsIndex; omega)]; congr 1; omega
    have e1 : ¬ ((p + N : Nat) : Int) < p := by omega
    have e2 : decide (((p + N : Nat) : Int) ≥ p) = true := by simp; omega
    have hlen : ((l.drop p).take N).length = N := by simp; omega
    have hc := fixedCopy_ok N (src := ⟨((p + N : Nat) : Int) - p, fun _ i => rd l (p + i)⟩) hlen
      (fun s => ⟨by show ((p + N : Nat) : Int) - p = _; rw [hlen]; omega, fun k hk => by
        have := rd_window (l := l) (s := (p : Int)) (m := N) (by omega) (by simp; omega) k
          (by simpa using hk)
        simpa using this⟩)
    have e3 : assertDebugM b (do
        let d ← isub ((p + N : Nat) : Int) (p : Int)
        pure (d == (N : Int))) = .ok () := by
      rw [e0, Res.ok_bind, Res.pure_eq, assertDebugM_ok]
      simp
    unfold Fixed.makeIter
    rw [e3]
    simp only [e2, assertDebug_true, Res.ok_bind, e1, if_false, hc, Res.pure_eq]
  · intro a
    simp only [Fixed.makeCopy, fixedCopy_ok a.length rfl (fun s => Arr1.denotes_ofList a s),
      Res.ok_bind, Res.pure_eq]

/-- In a checked build an argument with any other number of elements is rejected. -/
theorem C81_construct_rejected {b : Build} (hb : b.Checked) (N : Nat) :
    (∀ xs : List α, xs.length ≠ N → Fixed.makeList b N xs = .trap b.kind) ∧
    (∀ src : Src (List α) α, src.size ≠ N → Fixed.makeFrom b N src = .trap b.kind) ∧
    (∀ (l : List α) (p q : Int), 0 ≤ p → p ≤ l.length → 0 ≤ q → q ≤ l.length →
      (l.length : Int) < 2 ^ 63 → q - p ≠ N → Fixed.makeIter b N l p q = .trap b.kind) := by
  refine ⟨?_, ?_, ?_⟩
  · intro xs h
    have h1 : ((N : Int) == len xs) = false := by simp [len]; omega
    simp only [Fixed.makeList, h1, assertDebug_false hb, Res.trap_bind]
  · intro src h
    have h1 : ((N : Int) == src.size) = false := by simpa using (fun e => h e.symm)
    simp only [Fixed.makeFrom, h1, assertDebug_false hb, Res.trap_bind]
  · intro l p q h1 h2 h3 h4 h5 h6
    have e0 : isub q p = .ok (q - p) := isub_ok (by unfold IsIndex; omega)
    have e3 : assertDebugM b (do
        let d ← isub q p
        pure (d == (N : Int))) = .trap b.kind := by
      have : (q - p == (N : Int)) = false := by simpa using h6
      rw [e0, Res.ok_bind, Res.pure_eq, assertDebugM_ok, this, assertDebug_false hb]
    unfold Fixed.makeIter
    rw [e3, Res.trap_bind]

theorem copy_past_end {xs l : List α} (h : l.length < xs.length) :
    (Arr1.copy (Src.ofList xs) l).1 = .ub := by
  have key : ∀ n ≤ xs.length, (n ≤ l.length → ∃ t, t.length = l.length ∧
      Op.forN n (fun i : Nat => (do
        let l ← Op.get
        let v ← Op.lift ((Src.ofList (σ := List α) xs).un l i)
        let l' ← Op.lift (wr l i v)
        Op.set l' : Op (List α) Unit)) l = (.ok (), t)) ∧ (l.length < n →
      (Op.forN n (fun i : Nat => (do
        let l ← Op.get
        let v ← Op.lift ((Src.ofList (σ := List α) xs).un l i)
        let l' ← Op.lift (wr l i v)
        Op.set l' : Op (List α) Unit)) l).1 = .ub) := by
    intro n
    induction n with
    | zero => intro _; exact ⟨fun _ => ⟨l, rfl, rfl⟩, fun hh => by omega⟩
    | succ n ih =>
      intro hn
      obtain ⟨i1, i2⟩ := ih (by omega)
      have hu : ∀ t : List α, (Src.ofList (σ := List α) xs).un t (n : Int) = .ok xs[n] :=
        fun t => rd_nat (by omega)
      rw [Op.forN_succ]
      refine ⟨fun hh => ?_, fun hh => ?_⟩
      · obtain ⟨t, t1, t2⟩ := i1 (by omega)
        rw [t2]
        refine ⟨t.set n xs[n], by simp [t1], ?_⟩
        simp only [Op.get_bind, hu, Op.lift_ok_bind]
        rw [wr_ok (by constructor <;> omega)]
        simp
      · by_cases hl : l.length < n
        · rcases hr : Op.forN n (fun i : Nat => (do
            let l ← Op.get
            let v ← Op.lift ((Src.ofList (σ := List α) xs).un l i)
            let l' ← Op.lift (wr l i v)
            Op.set l' : Op (List α) Unit)) l with ⟨r, t⟩
          have := i2 hl
          rw [hr] at this
          simp only at this
          subst this
          rfl
        · obtain ⟨t, t1, t2⟩ := i1 (by omega)
          rw [t2]
          simp only [Op.get_bind, hu, Op.lift_ok_bind]
          rw [wr_ub (by unfold InRange; omega)]
          rfl
  have := (key xs.length (Nat.le_refl _)).2 h
  simpa [Arr1.copy, Src.ofList] using this

/-- In a build without checks a list (or expression) with fewer elements than the array replaces a
prefix and leaves the rest; one with more elements is written past the end of the array: undefined
behaviour.  The same holds in every build for the loop itself. -/
theorem C81_release_mismatch {b : Build} (hb : b.Release) (xs l : List α) :
    (xs.length ≤ l.length →
      Fixed.assignList b xs l = (.ok (), xs ++ l.drop xs.length)) ∧
    (l.length < xs.length → (Fixed.assignList b xs l).1 = .ub) := by
  have e : assertDebug b (len l == len xs) = .ok () := by
    unfold assertDebug; exact if_pos hb
  simp only [Fixed.assignList, Op.get_bind, e, Op.lift_ok_bind]
  refine ⟨fun h => ?_, copy_past_end⟩
  rw [Arr1.copy_ok (xs := xs) h rfl (fun i hi => rd_nat hi)]
  simp [overwrite]

/-! ### Statements and programs -/

theorem zerosLike_eq (l : List α) : List.replicate l.length (default : α) = zerosLike l := rfl

/-- Effect of move assignment on all arrays of the program. -/
theorem fixed_moveAssign (s : Vars α) (i j : Nat) (h : (s i).length = (s j).length) :
    Fixed.moveAssign i j s =
      (.ok (), if i = j then s else upd (upd s i (s j)) j (zerosLike (s j))) := by
  unfold Fixed.moveAssign
  by_cases hij : i = j
  · simp [hij]
  · rw [if_pos hij, if_neg hij]
    have e1 : Fixed.baseCopyAssign i j s = (.ok (), upd s i (s j)) := by
      unfold Fixed.baseCopyAssign
      rw [if_pos hij, Op.get_bind]
      exact on_ok (Arr1.copy_denotes h.symm (fun t => Arr1.denotes_ofList _ t))
    rw [Op.bind_run, e1]
    show Vars.on j (Fixed.assignValue default) (upd s i (s j)) = _
    have e2 : upd s i (s j) j = s j := by
      unfold upd; split
      · rfl
      · rfl
    have := on_ok (s := upd s i (s j)) (i := j) (op := Fixed.assignValue default)
      (Arr1.fill_ok (default : α) _)
    rw [this, e2]; rfl

theorem fixed_makeCopy (a : List α) : Fixed.makeCopy a = .ok a :=
  (C81_construct ⟨false, true, false⟩ a.length (default : α)).2.2.2.2.2 a

theorem fixed_moveConstruct (s : Vars α) {i j : Nat} (hij : i ≠ j) :
    Fixed.moveConstruct i j s = (.ok (), upd (upd s i (s j)) j (zerosLike (s j))) := by
  unfold Fixed.moveConstruct
  rw [Op.get_bind, fixed_makeCopy, Op.lift_ok_bind, Op.bind_run]
  show Vars.on j (Fixed.assignValue default) (upd s i (s j)) = _
  have e2 : upd s i (s j) j = s j := by simp [upd, hij.symm]
  have := on_ok (s := upd s i (s j)) (i := j) (op := Fixed.assignValue default)
    (Arr1.fill_ok (default : α) _)
  rw [this, e2]; rfl

theorem fixed_stdSwap (s : Vars α) (i j : Nat) (h : (s i).length = (s j).length) :
    Fixed.stdSwap i j s = (.ok (), upd (upd s i (s j)) j (s i)) := by
  unfold Fixed.stdSwap
  rw [Op.get_bind, fixed_makeCopy, Op.lift_ok_bind, Op.bind_run,
    on_ok (s := s) (i := i) (op := Fixed.assignValue default) (Arr1.fill_ok (default : α) _)]
  show (Fixed.moveAssign i j >>= fun _ => Vars.on j (Arr1.copy (Src.ofList (s i))))
    (upd s i (zerosLike (s i))) = _
  have hl : ((upd s i (zerosLike (s i))) i).length = ((upd s i (zerosLike (s i))) j).length := by
    simp only [upd, if_true]
    split
    · rfl
    · simp [zerosLike, h]
  rw [Op.bind_run, fixed_moveAssign _ _ _ hl]
  by_cases hij : i = j
  · subst hij
    simp only [if_true]
    rw [on_ok (Arr1.copy_denotes (xs := s i) (by simp [upd, zerosLike])
      (fun t => Arr1.denotes_ofList _ t))]
    simp only [Prod.mk.injEq, true_and]
    funext k; simp only [upd]; split <;> rfl
  · simp only [hij, if_false]
    rw [on_ok (Arr1.copy_denotes (xs := s i) (by
        have hji : j ≠ i := fun e => hij e.symm
        simp [upd, zerosLike, hji, h])
      (fun t => Arr1.denotes_ofList _ t))]
    simp only [Prod.mk.injEq, true_and]
    have hji : j ≠ i := fun e => hij e.symm
    funext k; simp only [upd, hji, if_false]
    split
    · rfl
    · split <;> rfl

/-- A valid statement on fixed arrays succeeds in every build and has exactly its list meaning: a
moved-from array holds zeros, everything else is as in the meaning. -/
theorem C81_valid_statement (b : Build) {s s' : Vars α} {c : FStmt α} (ht : c.Typed s)
    (h : c.meaning s = some s') : Fixed.exec b c s = (.ok (), s') := by
  cases c with
  | fill i x =>
    simp only [FStmt.meaning, Option.some.injEq] at h; subst h
    exact on_ok (Arr1.fill_ok x _)
  | assignList i xs =>
    simp only [FStmt.meaning, Option.ite_none_right_eq_some, Option.some.injEq] at h
    obtain ⟨h1, rfl⟩ := h
    refine on_ok ?_
    have e : (len (s i) == len xs) = true := by simp [len, h1]
    simp only [Fixed.assignList, Op.get_bind, e, assertDebug_true, Op.lift_ok_bind]
    exact Arr1.copy_denotes h1.symm (fun t => Arr1.denotes_ofList _ t)
  | copyAssign i j =>
    simp only [FStmt.meaning, Option.ite_none_right_eq_some, Option.some.injEq] at h
    obtain ⟨h1, rfl⟩ := h
    refine on_ok ?_
    by_cases hij : i = j
    · subst hij
      have e : (len (s i) == (s.operand i i).size) = true := by simp [Vars.operand, len]
      simp only [Fixed.assign, Op.get_bind, e, assertDebug_true, Op.lift_ok_bind]
      rw [Arr1.copy_ok (xs := s i) (Nat.le_refl _) (by simp [Vars.operand]), Arr1.overwrite_all rfl]
      intro k hk
      simp only [Vars.operand, if_true]
      have : overwrite (s i) 0 ((s i).take k) = s i := by
        rw [overwrite, List.take_zero, List.nil_append, Nat.zero_add, List.length_take,
          Nat.min_eq_left (by omega), List.take_append_drop]
      rw [this]; exact rd_nat hk
    · have e : (len (s i) == (s.operand i j).size) = true := by
        simp [Vars.operand, len, hij, Src.ofList, h1]
      simp only [Fixed.assign, Op.get_bind, e, assertDebug_true, Op.lift_ok_bind]
      simp only [Vars.operand, hij, if_false]
      exact Arr1.copy_denotes h1.symm (fun t => Arr1.denotes_ofList _ t)
  | moveAssign i j =>
    have e := fixed_moveAssign s i j ht
    simp only [FStmt.meaning] at h
    by_cases hij : i = j
    · simp only [hij, if_true, Option.some.injEq] at h e; subst h; subst hij; exact e
    · simp only [hij, if_false, Option.some.injEq] at h e; subst h; exact e
  | moveConstruct i j =>
    simp only [FStmt.meaning, Option.some.injEq] at h; subst h
    exact fixed_moveConstruct s ht.1
  | swap i j =>
    simp only [FStmt.meaning, Option.some.injEq] at h; subst h
    exact fixed_stdSwap s i j ht

/-- In a checked build a statement with a wrong size is rejected and changes nothing. -/
theorem C81_invalid_statement {b : Build} (hb : b.Checked) {s : Vars α} {c : FStmt α}
    (h : c.meaning s = none) : Fixed.exec b c s = (.trap b.kind, s) := by
  cases c with
  | fill i x => simp [FStmt.meaning] at h
  | assignList i xs =>
    simp only [FStmt.meaning, ite_eq_right_iff, reduceCtorEq, imp_false] at h
    refine on_trap ?_
    have e : (len (s i) == len xs) = false := by simp [len]; omega
    simp only [Fixed.assignList, Op.get_bind, e, assertDebug_false hb, Op.lift_trap_bind]
  | copyAssign i j =>
    simp only [FStmt.meaning, ite_eq_right_iff, reduceCtorEq, imp_false] at h
    have hij : i ≠ j := fun e => h (by rw [e])
    refine on_trap ?_
    have e : (len (s i) == (s.operand i j).size) = false := by
      simp [len, Vars.operand, hij, Src.ofList]; omega
    simp only [Fixed.assign, Op.get_bind, e, assertDebug_false hb, Op.lift_trap_bind]
  | moveAssign i j => simp only [FStmt.meaning] at h; split at h <;> simp at h
  | moveConstruct i j => simp [FStmt.meaning] at h
  | swap i j => simp [FStmt.meaning] at h

/-- No statement changes the size of any array. -/
theorem C81_size_constant {s s' : Vars α} {c : FStmt α} (ht : c.Typed s)
    (h : c.meaning s = some s') (k : Nat) : (s' k).length = (s k).length := by
  cases c <;> simp only [FStmt.meaning, Option.ite_none_right_eq_some, Option.some.injEq] at h
  case fill i x => subst h; simp only [upd]; split <;> simp_all
  case assignList i xs => obtain ⟨h1, rfl⟩ := h; simp only [upd]; split <;> simp_all
  case copyAssign i j => obtain ⟨h1, rfl⟩ := h; simp only [upd]; split <;> simp_all
  case moveAssign i j =>
    simp only [FStmt.Typed] at ht
    split at h
    · cases h; rfl
    · cases h; simp only [upd, zerosLike]; repeat' split
      all_goals simp_all
  case moveConstruct i j =>
    have ht := ht.2
    subst h; simp only [upd, zerosLike]; repeat' split
    all_goals simp_all
  case swap i j =>
    simp only [FStmt.Typed] at ht
    subst h; simp only [upd]; repeat' split
    all_goals simp_all

theorem typed_sizes {s s' : Vars α} (h : ∀ k, (s' k).length = (s k).length) {c : FStmt α}
    (ht : c.Typed s) : c.Typed s' := by
  cases c <;> simp_all [FStmt.Typed]

/-- Every well-typed program on fixed arrays, of any length, computes its list meaning in a checked
build with exceptions (rejected statements are skipped), and never changes a size. -/
theorem C81_history {b : Build} (hb : b.Checked) (he : b.exceptions = true) (s : Vars α)
    (p : List (FStmt α)) (ht : FTyped s p) :
    Fixed.execAll b s p = .ok (fmeaningOf s p) ∧
    ∀ k, (fmeaningOf s p k).length = (s k).length := by
  induction p generalizing s with
  | nil => exact ⟨rfl, fun _ => rfl⟩
  | cons c cs ih =>
    have h1 : c.Typed s := ht c (by simp)
    cases hc : c.meaning s with
    | some s' =>
      have hsz := C81_size_constant h1 hc
      have := ih s' (fun c' hc' => typed_sizes hsz (ht c' (by simp [hc'])))
      refine ⟨?_, fun k => ?_⟩
      · simp only [Fixed.execAll, C81_valid_statement b h1 hc, fmeaningOf, hc, Option.getD_some]
        exact this.1
      · simp only [fmeaningOf, hc, Option.getD_some]
        rw [this.2 k, hsz k]
    | none =>
      have := ih s (fun c' hc' => ht c' (by simp [hc']))
      have hk : b.kind = .exception := by simp [Build.kind, he]
      refine ⟨?_, fun k => ?_⟩
      · simp only [Fixed.execAll, C81_invalid_statement hb hc, hk, fmeaningOf, hc, Option.getD_none]
        exact this.1
      · simp only [fmeaningOf, hc, Option.getD_none]
        exact this.2 k

example : Fixed.execAll ⟨false, true, false⟩ (fun k => if k = 0 then [(1 : Int), 2] else [3, 4])
    [.moveAssign 0 1, .assignList 1 [5, 6, 7], .swap 0 1, .moveAssign 0 0] =
    .ok (fun k => if k = 0 then [0, 0] else if k = 1 then [3, 4] else [3, 4]) := by
  rw [(C81_history (by decide) rfl _ _ (by simp [FTyped, FStmt.Typed])).1]
  congr 1
  funext k
  simp only [fmeaningOf, FStmt.meaning, zerosLike]
  by_cases h0 : k = 0
  · subst h0; simp [upd]
  · by_cases h1 : k = 1
    · subst h1; simp [upd]
    · simp [upd, h0, h1]

/-! ### Two dimensions -/

theorem isMat_withData {a : Arr2 α} {M N : Mat α} {d : List α} (h : IsMat a M)
    (hs : SameShape M N) {c : Arr2 α} (hc : IsMat c N) (hd : c.data = d) :
    IsMat { a with data := d } N := by
  subst hd
  exact ⟨by rw [← hs.1]; exact h.rows, by rw [← hs.2]; exact h.cols, hc.size, hc.zero, hc.el⟩

theorem isMat_zeros {a : Arr2 α} {M N : Mat α} (h : IsMat a M) (hs : SameShape M N) :
    IsMat { a with data := zerosLike a.data } N.zeros := by
  refine ⟨by rw [h.rows, hs.1]; rfl, by rw [h.cols, hs.2]; rfl, ?_, ?_, ?_⟩
  · simp only [zerosLike, List.length_replicate, h.size, hs.1, hs.2]; rfl
  · show N.m = 0 ↔ N.n = 0
    rw [← hs.1, ← hs.2]; exact h.zero
  · intro i j hi hj
    change i < N.m at hi; change j < N.n at hj
    have : i * N.n + j < a.data.length := by
      rw [h.size, hs.1, hs.2]; exact flat_lt hi hj
    show (zerosLike a.data)[i * N.n + j]? = some default
    simp [zerosLike, this]

theorem onElems_ok {op : Op (Vars α) Unit} {s : Vars2 α} {t : Vars α}
    (h : op (Fixed2.elems s) = (.ok (), t)) :
    Fixed2.onElems op s = (.ok (), fun k => { s k with data := t k }) := by
  simp only [Fixed2.onElems, h]

theorem elems_length {s : Vars2 α} {S : Nat → Mat α} (h : AreMats s S) {i j : Nat}
    (hs : SameShape (S i) (S j)) :
    (Fixed2.elems s i).length = (Fixed2.elems s j).length := by
  simp only [Fixed2.elems, (h i).size, (h j).size, hs.1, hs.2]

theorem fixed2_init (M N : Nat) (hz : M = 0 ↔ N = 0) :
    IsMat (Fixed2.init (α := α) M N) (Mat.const M N default) := by
  refine ⟨rfl, rfl, by simp [Fixed2.init, Fixed.init, Mat.const], hz, ?_⟩
  intro i j hi hj
  have : i * N + j < M * N := flat_lt hi hj
  simp [Fixed2.init, Fixed.init, Mat.const, this]

theorem isMat_fill {a : Arr2 α} {M : Mat α} (h : IsMat a M) (x : α) :
    Fixed2.assignValue x a = (.ok (), { a with data := List.replicate a.data.length x }) ∧
    IsMat { a with data := List.replicate a.data.length x } (Mat.const M.m M.n x) := by
  refine ⟨by simp only [Fixed2.assignValue, Fixed.assignValue, Arr1.fill_ok], ?_⟩
  refine ⟨h.rows, h.cols, by simp [h.size, Mat.const], h.zero, ?_⟩
  intro i j hi hj
  have : i * M.n + j < a.data.length := by rw [h.size]; exact flat_lt hi hj
  show (List.replicate a.data.length x)[i * M.n + j]? = some x
  simp [this]

theorem rect_zero {L : List (List α)} (h : L.length = 0 ∨ (L.length = 1 ∧ ∀ r ∈ L, r.length = 0)) :
    L = [] ∨ L = [[]] := by
  cases L with
  | nil => exact .inl rfl
  | cons r rs =>
    rcases h with h | ⟨h1, h2⟩
    · simp at h
    · right
      have : rs = [] := by simpa using h1
      have hr := h2 r (by simp)
      rw [this, List.eq_nil_of_length_eq_zero hr]

theorem rect_valid {L : List (List α)} {m n : Nat} (h : Rect L m n) :
    Arr2.validList L = true ∧ Arr2.listSizes L = ((m : Int), (n : Int)) := by
  rcases h with ⟨hn, hm, hm0, hr⟩ | ⟨rfl, rfl, h⟩
  · cases L with
    | nil => simp at hm; omega
    | cons r rs =>
      have hl : r.length = n := hr r (by simp)
      constructor
      · simp only [Arr2.validList]
        rw [if_neg (by omega), if_neg (by omega)]
        rw [List.all_eq_true]
        intro x hx
        simp [hr x hx, hl]
      · simp only [Arr2.listSizes]
        rw [if_neg (by omega)]
        simp at hm
        ext <;> simp <;> omega
  · rcases rect_zero h with rfl | rfl <;> simp [Arr2.validList, Arr2.listSizes]

theorem copyList_rect {L : List (List α)} {m n : Nat} (h : Rect L m n) {a : Arr2 α} {M : Mat α}
    (ha : IsMat a M) (hm' : M.m = m) (hn' : M.n = n) :
    ∃ a', Arr2.copyList L a = .ok a' ∧ IsMat a' ⟨m, n, (Mat.ofLists L).el⟩ := by
  rcases h with ⟨hn, hm, hm0, hr⟩ | ⟨rfl, rfl, h⟩
  · have hmem : ∀ k, k < m → L.getD k [] ∈ L := by
      intro k hk
      rw [List.getD_eq_getElem?_getD, List.getElem?_eq_getElem (by omega)]
      exact List.getElem_mem _
    have hc : Arr2.copyList L a = foldN m (fun i t =>
        foldN n (fun j t => do
          let v ← rd (L.getD i []) j
          Arr2.wr2 t i j v) t) a := by
      unfold Arr2.copyList
      rw [hm]
      apply foldN_congr
      intro k s hk
      rw [hr _ (hmem k hk)]
    obtain ⟨a', e3, e4⟩ := Arr2.block_loop' (r := 0) (c := 0) ha (m := m) (n := n)
      (f := (Mat.ofLists L).el)
      (body := fun i j t => do
        let v ← rd (L.getD i []) j
        Arr2.wr2 t i j v)
      (by omega)
      (by
        intro i j t hi hj
        have hlen := hr _ (hmem i hi)
        rw [rd_nat (by omega), Res.ok_bind]
        simp only [Mat.ofLists, Nat.zero_add]
        congr 1
        rw [List.getD_eq_getElem?_getD (i := j), List.getElem?_eq_getElem (by omega)]
        rfl)
    refine ⟨a', hc.trans e3, Arr2.isMat_ext e4 ⟨hm', hn', ?_⟩⟩
    intro i j hi hj
    simp only [Mat.block] at hi hj ⊢
    rw [if_pos (by omega)]
    simp
  · refine ⟨a, ?_, ⟨by rw [ha.rows, hm'], by rw [ha.cols, hn'], by rw [ha.size, hm']; simp,
      by simp, by simp⟩⟩
    rcases rect_zero h with rfl | rfl <;> simp [Arr2.copyList, foldN]

/-- Constructors of `FixedArray2D<T, M, N>`. -/
theorem C81_construct2 (b : Build) {M N : Nat} (hz : M = 0 ↔ N = 0) (x : α) :
    IsMat (Fixed2.init (α := α) M N) (Mat.const M N default) ∧
    (∃ a, Fixed2.makeFill M N x = .ok a ∧ IsMat a (Mat.const M N x)) ∧
    (∀ L : List (List α), Rect L M N →
      ∃ a, Fixed2.makeList b M N L = .ok a ∧ IsMat a ⟨M, N, (Mat.ofLists L).el⟩) ∧
    (∀ (src : Src2 (Arr2 α) α) (X : Mat α), X.m = M → X.n = N → (∀ s, Denotes2 src s X) →
      ∃ a, Fixed2.makeFrom b M N src = .ok a ∧ IsMat a X) := by
  have hi := fixed2_init (α := α) M N hz
  refine ⟨hi, ?_, ?_, ?_⟩
  · obtain ⟨e1, e2⟩ := isMat_fill hi x
    refine ⟨_, ?_, e2⟩
    simp only [Fixed2.makeFill, e1, Res.ok_bind, Res.pure_eq]
  · intro L hL
    obtain ⟨v1, v2⟩ := rect_valid hL
    obtain ⟨a, e1, e2⟩ := copyList_rect hL hi rfl rfl
    refine ⟨a, ?_, e2⟩
    simp only [Fixed2.makeList, v1, v2, beq_self_eq_true, assertDebug_true, Res.ok_bind, e1]
  · intro src X hm hn hd
    have d0 := hd (Fixed2.init M N)
    obtain ⟨a, e1, e2⟩ := Arr2.copy_ok (src := src) (N := X) hi hm.symm hn.symm
      (fun i j t h1 h2 _ => ⟨(hd t).un2 i j (by rw [hm]; exact h1) (by rw [hn]; exact h2), by
        have := (hd t).un i j (by rw [hm]; exact h1) (by rw [hn]; exact h2)
        rw [hn] at this; exact this⟩) d0.rows d0.cols
    have c : ((M : Int) == src.rows && (N : Int) == src.cols) = true := by
      rw [d0.rows, d0.cols, hm, hn]; simp
    refine ⟨a, ?_, e2⟩
    simp only [Fixed2.makeFrom, c, assertDebug_true, Res.ok_bind, e1, Res.pure_eq]

/-- In a checked build an argument of any other shape is rejected. -/
theorem C81_construct2_rejected {b : Build} (hb : b.Checked) (M N : Nat) :
    (∀ L : List (List α), ¬ Rect L M N → Fixed2.makeList b M N L = .trap b.kind) ∧
    (∀ src : Src2 (Arr2 α) α, ¬ (src.rows = M ∧ src.cols = N) →
      Fixed2.makeFrom b M N src = .trap b.kind) := by
  constructor
  · intro L hL
    cases hv : Arr2.validList L with
    | false => simp only [Fixed2.makeList, hv, assertDebug_false hb, Res.trap_bind]
    | true =>
      obtain ⟨m, n, hr, hs⟩ := validList_rect hv
      by_cases hm : M = m
      · have hn : N ≠ n := fun hn => hL (by rw [hm, hn]; exact hr)
        have c1 : ((M : Int) == (m : Int)) = true := by simp [hm]
        have c2 : ((N : Int) == (n : Int)) = false := by simp; omega
        simp only [Fixed2.makeList, hv, hs, c1, c2, assertDebug_true, assertDebug_false hb,
          Res.ok_bind, Res.trap_bind]
      · have c1 : ((M : Int) == (m : Int)) = false := by simp; omega
        simp only [Fixed2.makeList, hv, hs, c1, assertDebug_true, assertDebug_false hb,
          Res.ok_bind, Res.trap_bind]
  · intro src h
    have c : ((M : Int) == src.rows && (N : Int) == src.cols) = false := by
      rw [← Bool.not_eq_true]; simp only [Bool.and_eq_true, beq_iff_eq]
      exact fun e => h ⟨e.1.symm, e.2.symm⟩
    simp only [Fixed2.makeFrom, c, assertDebug_false hb, Res.trap_bind]

/-- A valid statement on fixed two-dimensional arrays succeeds in every build and has its matrix
meaning; unlike for `Array2D` this includes self move assignment, which does nothing. -/
theorem C81_valid_statement2 (b : Build) {s : Vars2 α} {S S' : Nat → Mat α} (hA : AreMats s S)
    {c : FStmt2 α} (ht : c.Typed S) (h : c.meaning S = some S') :
    ∃ s', Fixed2.exec b c s = (.ok (), s') ∧ AreMats s' S' := by
  cases c with
  | fill i x =>
    simp only [FStmt2.meaning, Option.some.injEq] at h; subst h
    obtain ⟨e1, e2⟩ := isMat_fill (hA i) x
    exact on2_ok hA e1 e2
  | assignList i L =>
    simp only [FStmt2.meaning, Option.ite_none_right_eq_some, Option.some.injEq] at h
    obtain ⟨h1, rfl⟩ := h
    have hz := (hA i).zero
    obtain ⟨t, e1, e2⟩ := (C81_construct2 b hz (default : α)).2.2.1 L h1
    have hl : t.data.length = (s i).data.length := by rw [e2.size, (hA i).size]
    refine on2_ok hA (a := { s i with data := t.data }) ?_
      (isMat_withData (hA i) ⟨rfl, rfl⟩ e2 rfl)
    have r1 : (s i).rows.toNat = (S i).m := by rw [(hA i).rows]; simp
    have r2 : (s i).cols.toNat = (S i).n := by rw [(hA i).cols]; simp
    unfold Fixed2.assignList
    rw [Op.get_bind, r1, r2, e1]
    show ((Arr1.copy (Src.ofList t.data) (s i).data).1,
      ({ s i with data := (Arr1.copy (Src.ofList t.data) (s i).data).2 } : Arr2 α)) = _
    simp only [Arr1.copy_denotes hl (fun u => Arr1.denotes_ofList t.data u)]
  | copyAssign i j =>
    simp only [FStmt2.meaning, Option.ite_none_right_eq_some, Option.some.injEq] at h
    obtain ⟨h1, rfl⟩ := h
    obtain ⟨a, e1, e2⟩ := assign_operand b hA i j h1.1 h1.2
    exact on2_ok hA (op := Fixed2.assign b (s.operand i j)) e1 e2
  | moveAssign i j =>
    have hl := elems_length hA ht
    have e := onElems_ok (fixed_moveAssign (Fixed2.elems s) i j hl)
    refine ⟨_, e, ?_⟩
    simp only [FStmt2.meaning] at h
    by_cases hij : i = j
    · simp only [hij, if_true, Option.some.injEq] at h ⊢; subst h
      exact hA
    · simp only [hij, if_false, Option.some.injEq] at h ⊢; subst h
      intro k
      simp only [upd]
      split
      · rename_i hk; subst hk
        exact isMat_zeros (hA k) ⟨rfl, rfl⟩
      · split
        · rename_i hk; subst hk
          exact isMat_withData (hA k) ht (hA j) rfl
        · exact hA k
  | moveConstruct i j =>
    have e := onElems_ok (fixed_moveConstruct (Fixed2.elems s) ht.1)
    refine ⟨_, e, ?_⟩
    simp only [FStmt2.meaning, Option.some.injEq] at h; subst h
    intro k
    simp only [upd]
    split
    · rename_i hk; subst hk
      exact isMat_zeros (hA k) ⟨rfl, rfl⟩
    · split
      · rename_i hk; subst hk
        exact isMat_withData (hA k) ht.2 (hA j) rfl
      · exact hA k
  | swap i j =>
    have hl := elems_length hA ht
    have e := onElems_ok (fixed_stdSwap (Fixed2.elems s) i j hl)
    refine ⟨_, e, ?_⟩
    simp only [FStmt2.meaning, Option.some.injEq] at h; subst h
    intro k
    simp only [upd]
    split
    · rename_i hk; subst hk
      exact isMat_withData (hA k) ⟨ht.1.symm, ht.2.symm⟩ (hA i) rfl
    · split
      · rename_i hk; subst hk
        exact isMat_withData (hA k) ht (hA j) rfl
      · exact hA k

/-- In a checked build a statement with a wrong shape is rejected and changes nothing. -/
theorem C81_invalid_statement2 {b : Build} (hb : b.Checked) {s : Vars2 α} {S : Nat → Mat α}
    (hA : AreMats s S) {c : FStmt2 α} (h : c.meaning S = none) :
    Fixed2.exec b c s = (.trap b.kind, s) := by
  cases c with
  | fill i x => simp [FStmt2.meaning] at h
  | assignList i L =>
    simp only [FStmt2.meaning, ite_eq_right_iff, reduceCtorEq, imp_false] at h
    have r1 : (s i).rows.toNat = (S i).m := by rw [(hA i).rows]; simp
    have r2 : (s i).cols.toNat = (S i).n := by rw [(hA i).cols]; simp
    have e : Fixed2.assignList b L (s i) = (.trap b.kind, s i) := by
      unfold Fixed2.assignList
      rw [Op.get_bind, r1, r2, (C81_construct2_rejected hb _ _).1 L h]
      rfl
    simp only [Fixed2.exec, Vars2.on, e, Prod.mk.injEq, true_and]
    funext k; simp only [Vars2.put]; split
    · rename_i hk; rw [hk]
    · rfl
  | copyAssign i j =>
    simp only [FStmt2.meaning, ite_eq_right_iff, reduceCtorEq, imp_false] at h
    have hd := operand2_denotes hA i j
    have e : Fixed2.assign b (s.operand i j) (s i) = (.trap b.kind, s i) := by
      refine assign_rejected2 hb ?_
      rw [hd.rows, hd.cols, (hA i).rows, (hA i).cols]
      exact fun e => h ⟨by omega, by omega⟩
    simp only [Fixed2.exec, Fixed2.copyAssign, Vars2.on, e, Prod.mk.injEq, true_and]
    funext k; simp only [Vars2.put]; split
    · rename_i hk; rw [hk]
    · rfl
  | moveAssign i j => simp only [FStmt2.meaning] at h; split at h <;> simp at h
  | moveConstruct i j => simp [FStmt2.meaning] at h
  | swap i j => simp [FStmt2.meaning] at h

theorem shape_constant2 {S S' : Nat → Mat α} {c : FStmt2 α} (ht : c.Typed S)
    (h : c.meaning S = some S') (k : Nat) : SameShape (S' k) (S k) := by
  cases c <;> simp only [FStmt2.meaning, Option.ite_none_right_eq_some, Option.some.injEq] at h
  case fill i x => subst h; simp only [upd]; split <;> simp_all [SameShape, Mat.const]
  case assignList i xs => obtain ⟨h1, rfl⟩ := h; simp only [upd]; split <;> simp_all [SameShape]
  case copyAssign i j => obtain ⟨h1, rfl⟩ := h; simp only [upd]; split <;> simp_all [SameShape]
  case moveAssign i j =>
    simp only [FStmt2.Typed] at ht
    split at h
    · cases h; exact ⟨rfl, rfl⟩
    · cases h; simp only [upd, Mat.zeros]; repeat' split
      all_goals simp_all [SameShape, Mat.const]
  case moveConstruct i j =>
    have ht := ht.2
    subst h; simp only [upd, Mat.zeros]; repeat' split
    all_goals simp_all [SameShape, Mat.const]
  case swap i j =>
    simp only [FStmt2.Typed] at ht
    subst h; simp only [upd]; repeat' split
    all_goals simp_all [SameShape]

theorem typed_shapes {S S' : Nat → Mat α} (h : ∀ k, SameShape (S' k) (S k)) {c : FStmt2 α}
    (ht : c.Typed S) : c.Typed S' := by
  cases c <;> simp_all [FStmt2.Typed, SameShape]

/-- Every well-typed program on fixed two-dimensional arrays computes its matrix meaning, and no
array ever changes its shape. -/
theorem C81_history2 {b : Build} (hb : b.Checked) (he : b.exceptions = true) (s : Vars2 α)
    (S : Nat → Mat α) (hA : AreMats s S) (p : List (FStmt2 α)) (ht : FTyped2 S p) :
    (∃ s', Fixed2.execAll b s p = .ok s' ∧ AreMats s' (fmeaningOf2 S p)) ∧
    ∀ k, SameShape (fmeaningOf2 S p k) (S k) := by
  induction p generalizing s S with
  | nil => exact ⟨⟨s, rfl, hA⟩, fun _ => ⟨rfl, rfl⟩⟩
  | cons c cs ih =>
    have h1 : c.Typed S := ht c (by simp)
    cases hc : c.meaning S with
    | some S' =>
      have hsz := shape_constant2 h1 hc
      obtain ⟨s', e1, e2⟩ := C81_valid_statement2 b hA h1 hc
      obtain ⟨⟨t, t1, t2⟩, t3⟩ :=
        ih s' S' e2 (fun c' hc' => typed_shapes hsz (ht c' (by simp [hc'])))
      refine ⟨⟨t, ?_, ?_⟩, fun k => ?_⟩
      · simp only [Fixed2.execAll, e1]; exact t1
      · simp only [fmeaningOf2, hc, Option.getD_some]; exact t2
      · simp only [fmeaningOf2, hc, Option.getD_some]
        exact ⟨(t3 k).1.trans (hsz k).1, (t3 k).2.trans (hsz k).2⟩
    | none =>
      obtain ⟨⟨t, t1, t2⟩, t3⟩ := ih s S hA (fun c' hc' => ht c' (by simp [hc']))
      have hk : b.kind = .exception := by simp [Build.kind, he]
      refine ⟨⟨t, ?_, ?_⟩, fun k => ?_⟩
      · simp only [Fixed2.execAll, C81_invalid_statement2 hb hA hc, hk]; exact t1
      · simp only [fmeaningOf2, hc, Option.getD_none]; exact t2
      · simp only [fmeaningOf2, hc, Option.getD_none]; exact t3 k

/-- A concrete program: a self move keeps the contents, a list of the wrong shape is rejected, a
move zeroes its source. -/
example : (match Fixed2.execAll ⟨false, true, false⟩ (fun _ => (⟨1, 2, [1, 2]⟩ : Arr2 Int))
    [.moveAssign 0 0, .assignList 0 [[3], [4]], .assignList 1 [[5, 6]], .moveAssign 2 1] with
    | .ok t => some (t 0, t 1, t 2)
    | _ => none) = some (⟨1, 2, [1, 2]⟩, ⟨1, 2, [0, 0]⟩, ⟨1, 2, [5, 6]⟩) := by decide +kernel

example : FTyped2 (fun _ => Mat.const 1 2 (0 : Int))
    [.moveAssign 0 0, .assignList 0 [[3], [4]], .moveAssign 1 0, .swap 0 1] := by
  simp [FTyped2, FStmt2.Typed, SameShape]

end Spp.Props
