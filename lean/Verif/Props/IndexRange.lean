import Verif.Spec.IndexRange
import Verif.Lemmas.Iter
import Verif.Lemmas.Sample

/- C112: index ranges and loops over them. -/

set_option linter.unusedSectionVars false

namespace Spp.Props

open Spec

variable {σ β : Type} {d : Dim} {a : Acc σ β} {s : σ} {x : Sem β d}

theorem count_some (k : Range) (hk : rangeFits d k) (h : Den d a s x) (hsm : Small x) {K : Nat}
    (hc : rangeCount x.dims.1 x.dims.2 k = some K) :
    k.count a s = .ok (K : Int) ∧ (K : Int) < 2 ^ 63 - 1 := by
  cases d with
  | one =>
    change List (Res β) at x
    obtain ⟨_, h2, _⟩ := h
    have hl : (x.length : Int) < 2 ^ 63 - 1 := hsm
    rcases hk with rfl | rfl
    · have : x.length = K := Option.some.inj hc
      subst this
      exact ⟨h2, hl⟩
    · have hc' : (if x.length = 0 then none else some (x.length - 1)) = some K := hc
      split at hc'
      · cases hc'
      · have : x.length - 1 = K := Option.some.inj hc'
        subst this
        simp only [Range.count, h2, Res.ok_bind]
        rw [isub_ok (by unfold IsIndex; omega)]
        exact ⟨by congr 1; omega, by omega⟩
  | two =>
    change Mat (Res β) at x
    obtain ⟨h1, h2, _⟩ := h
    have e1 : ((x.m * x.n : Nat) : Int) < 2 ^ 63 - 1 := hsm.1
    have e2 : x.m = 0 ↔ x.n = 0 := hsm.2
    have hmn : (x.m : Int) < 2 ^ 63 - 1 ∧ (x.n : Int) < 2 ^ 63 - 1 := by
      by_cases hm : x.m = 0
      · have := e2.1 hm; omega
      · have hn : x.n ≠ 0 := fun e => hm (e2.2 e)
        have e3 : x.m * 1 ≤ x.m * x.n := Nat.mul_le_mul_left _ (by omega)
        have e4 : 1 * x.n ≤ x.m * x.n := Nat.mul_le_mul_right _ (by omega)
        omega
    have m1 : ∀ {p : Nat}, (p : Int) < 2 ^ 63 - 1 → (if p = 0 then none else some (p - 1)) = some K →
        isub p 1 = .ok (K : Int) ∧ (K : Int) < 2 ^ 63 - 1 := by
      intro p hp hc'
      split at hc'
      · cases hc'
      · have := Option.some.inj hc'
        rw [isub_ok (by unfold IsIndex; omega)]
        exact ⟨by congr 1; omega, by omega⟩
    cases k with
    | elems => exact absurd rfl hk.1
    | elemsM1 => exact absurd rfl hk.2
    | rows =>
      have : x.m = K := Option.some.inj hc
      subst this
      exact ⟨congrArg Res.ok h1, hmn.1⟩
    | cols =>
      have : x.n = K := Option.some.inj hc
      subst this
      exact ⟨congrArg Res.ok h2, hmn.2⟩
    | rowsM1 => simp only [Range.count, h1]; exact m1 hmn.1 hc
    | colsM1 => simp only [Range.count, h2]; exact m1 hmn.2 hc

theorem count_none (k : Range) (hk : rangeFits d k) (h : Den d a s x)
    (hc : rangeCount x.dims.1 x.dims.2 k = none) : k.count a s = .ok (-1) := by
  have z : isub 0 1 = .ok (-1) := by decide
  have m1 : ∀ {p : Nat}, (if p = 0 then none else some (p - 1)) = none → isub p 1 = .ok (-1) := by
    intro p hc'
    split at hc'
    · rename_i h0; subst h0; exact z
    · cases hc'
  cases d with
  | one =>
    change List (Res β) at x
    obtain ⟨_, h2, _⟩ := h
    rcases hk with rfl | rfl
    · cases hc
    · simp only [Range.count, h2, Res.ok_bind]
      exact m1 hc
  | two =>
    change Mat (Res β) at x
    obtain ⟨h1, h2, _⟩ := h
    cases k with
    | elems => exact absurd rfl hk.1
    | elemsM1 => exact absurd rfl hk.2
    | rows => cases hc
    | cols => cases hc
    | rowsM1 => simp only [Range.count, h1]; exact m1 hc
    | colsM1 => simp only [Range.count, h2]; exact m1 hc

/-- The element operation of `irange`. -/
theorem seq_un {i : Int} (h0 : 0 ≤ i) (h1 : i < 2 ^ 63) :
    (do let c ← indexes.ofIndex i; let p ← indexes.mul 1 c; indexes.add 0 p) = .ok i := by
  show (do let p ← imul 1 i; iadd 0 p) = _
  rw [imul_ok (by unfold IsIndex; omega), Res.ok_bind, iadd_ok (by unfold IsIndex; omega)]
  congr 1; omega

/-- C112: `irange(A)`, `irange_m1(A)`, `irange_row(A)`, ... are the vectors `0, 1, ..., K-1`, where `K` is the
number of elements, rows or columns, or one less; what later happens to `A` does not matter. -/
theorem C112_range (b : Build) (k : Range) (hk : rangeFits d k) (h : Den d a s x) (hsm : Small x)
    {K : Nat} (hc : rangeCount x.dims.1 x.dims.2 k = some K) :
    ∃ r, k.mk b a s = .ok r ∧
      ∀ t, Den .one r t ((List.range K).map (fun i : Nat => Res.ok (i : Int))) := by
  obtain ⟨h1, h2⟩ := count_some k hk h hsm hc
  refine ⟨_, by
    simp only [Range.mk, h1, Res.ok_bind, Tm.mkSequence]
    rw [decide_eq_true (by omega : (K : Int) > -1), assertDebug_true, Res.ok_bind]
    rfl, fun t => ?_⟩
  refine ⟨by simp [Acc.oneD], by simp [Acc.oneD], fun i hi => ?_⟩
  have hi : i < K := by simpa using hi
  rw [getD_range_map hi]
  exact seq_un (by omega) (by omega)

/-- C112: a loop over an index range is the counting loop, whatever its body does - also when it changes
the size of `A`: the bound is fixed when the loop starts. -/
theorem C112_loop (b : Build) (k : Range) (hk : rangeFits d k) (h : Den d a s x) (hsm : Small x)
    {K : Nat} (hc : rangeCount x.dims.1 x.dims.2 k = some K) (body : Int → Op σ Unit) {fuel : Nat}
    (hf : K < fuel) :
    Completes (k.each b a body fuel s) (countingLoop K body s) := by
  obtain ⟨h1, h2⟩ := count_some k hk h hsm hc
  obtain ⟨r, h3, h4⟩ := C112_range b k hk h hsm hc
  have hl := each_loop b (mem := fun _ => Flag.index r) (a := 0) (n := K) (I := fun _ => True) (body := body)
    (by omega) (fun t _ => by have := (h4 t).2.1; rw [List.length_map, List.length_range] at this; exact this) (fun _ _ _ => trivial) (s := s) trivial hf
  have e : k.each b a body fuel s = It.each b (fun _ => .index r) 0 body fuel s := by
    simp only [Range.each, Op.get_bind, h3, Op.lift_ok_bind]
  rw [e]
  unfold Completes at hl ⊢
  rw [hl]
  have e2 : indexLoop K (Flag.index r).get body s = countingLoop K body s := by
    unfold indexLoop countingLoop
    have key : ∀ n, n ≤ K → ∀ t : σ, Op.forN n (fun i => do
        let s : σ ← Op.get
        let x ← Op.lift ((Flag.index r).get s i)
        body x) t = Op.forN n (fun i => body i) t := by
      intro n
      induction n with
      | zero => intro _ t; rfl
      | succ n ih =>
        intro hn t
        rw [Op.forN_succ, Op.forN_succ, ih (by omega) t]
        generalize Op.forN n (fun i => body i) t = q
        rcases q with ⟨_ | _ | _, s'⟩
        · simp only [Op.get_bind]
          have : (Flag.index r).get s' (n : Int) = .ok (n : Int) := by
            have := (h4 s').2.2 n (by simp; omega)
            rw [getD_range_map (by omega)] at this
            exact this
          rw [this, Op.lift_ok_bind]
        · rfl
        · rfl
    exact key K (Nat.le_refl K) s
  rw [e2]

/-- C112: in checked builds the `_m1` functions reject objects without elements, rows or columns: the loop is
not entered and nothing changes. -/
theorem C112_rejected {b : Build} (hb : b.Checked) (k : Range) (hk : rangeFits d k) (h : Den d a s x)
    (hc : rangeCount x.dims.1 x.dims.2 k = none) (body : Int → Op σ Unit) (fuel : Nat) :
    k.each b a body fuel s = (.trap b.kind, s) := by
  have e : k.mk b a s = .trap b.kind := by
    simp only [Range.mk, count_none k hk h hc, Res.ok_bind, Tm.mkSequence]
    rw [decide_eq_false (by decide : ¬ ((-1 : Int) > -1)), assertDebug_false hb]
    rfl
  simp only [Range.each, Op.get_bind, e]
  rfl

theorem assertDebugM_release {b : Build} (hb : b.Release) (c : Bool) : assertDebugM b (.ok c) = .ok () := by
  rw [assertDebugM_ok, assertDebug_release hb]

theorem runs_on {b : Build} (hb : b.Release) {body : Int → Op σ Unit} (hbody : ∀ i t, (body i t).1 = .ok ())
    {mem : Nat → Flag σ Int} (hz : ∀ t, (mem 0).size t = .ok (-1)) (hg : ∀ t (i : Int), 0 ≤ i → i < 2 ^ 63 → (mem 0).get t i = .ok i) :
    ∀ (fuel : Nat) (p : Nat) (t : σ), (p : Int) + fuel < 2 ^ 63 →
      rangeFor (It.ne b) (It.inc b) (It.deref b mem) body fuel ⟨some 0, p⟩ ⟨some 0, -1⟩ t =
        (.ok none, (Op.forN fuel (fun i => body ((p + i : Nat) : Int)) t).2) := by
  intro fuel
  induction fuel with
  | zero => intro p t _; rfl
  | succ f ih =>
    intro p t hf
    have h1 : It.ne b ⟨some 0, p⟩ ⟨some 0, -1⟩ = .ok true := by
      rw [It.ne, It.compare_ok, decide_eq_true (by omega)]
    have h2 : It.deref b mem ⟨some 0, p⟩ t = .ok (p : Int) := by
      have := hg t p (by omega) (by omega)
      have hr : It.inRange mem ⟨some 0, p⟩ t (.ok (p : Int)) = .ok (decide ((p : Int) < -1)) := by
        simp only [It.inRange, Res.ok_bind, hz]
        rw [show decide ((p : Int) > -1) = true from decide_eq_true (by omega), Bool.true_and]
        rfl
      simp only [It.deref, assertDebug_release hb, hr, assertDebugM_release hb, Res.ok_bind, It.apply, this]
    have h3 : It.inc b ⟨some 0, p⟩ = .ok ⟨some 0, ((p + 1 : Nat) : Int)⟩ := by
      rw [It.inc_ok b 0 (by unfold IsIndex; omega)]
      congr 2
    have h4 := hbody p t
    rw [Op.forN_front]
    simp only [rangeFor, h1, Op.lift_ok_bind]
    rw [if_pos trivial, Op.get_bind, h2, Op.lift_ok_bind, Op.bind_run]
    rw [show ((p + 0 : Nat) : Int) = (p : Int) from rfl]
    generalize body (p : Int) t = r at h4
    obtain ⟨r1, s1⟩ := r
    change r1 = .ok () at h4
    subst h4
    simp only [h3, Op.lift_ok_bind]
    rw [ih (p + 1) s1 (by omega)]
    have e : (fun i : Nat => body ((p + 1 + i : Nat) : Int)) = (fun i => body ((p + (i + 1) : Nat) : Int)) := by
      funext i
      rw [Nat.add_assoc, Nat.add_comm 1 i]
    rw [e]

/-- C112: in release builds such a loop does not end: it runs through 0, 1, 2, ... (for a body that does not
fail), although there is nothing to visit. -/
theorem C112_release_runs_on {b : Build} (hb : b.Release) (k : Range) (hk : rangeFits d k) (h : Den d a s x)
    (hc : rangeCount x.dims.1 x.dims.2 k = none) {body : Int → Op σ Unit}
    (hbody : ∀ i t, (body i t).1 = .ok ()) {fuel : Nat} (hf : (fuel : Int) < 2 ^ 63) :
    k.each b a body fuel s = (.ok none, (countingLoop fuel body s).2) := by
  have e : k.mk b a s = .ok (.oneD (fun _ => -1) (fun _ i => do
      let c ← indexes.ofIndex i
      let p ← indexes.mul 1 c
      indexes.add 0 p)) := by
    simp only [Range.mk, count_none k hk h hc, Res.ok_bind, Tm.mkSequence, assertDebug_release hb]
    rfl
  simp only [Range.each, Op.get_bind, e, Op.lift_ok_bind, It.each]
  have := runs_on hb hbody (mem := fun _ => Flag.index (.oneD (fun _ => -1) (fun _ i => do
      let c ← indexes.ofIndex i
      let p ← indexes.mul 1 c
      indexes.add 0 p))) (fun _ => rfl) (fun t i h0 h1 => seq_un h0 h1) fuel 0 s (by omega)
  refine Eq.trans ?_ (this.trans ?_)
  · rfl
  · simp only [countingLoop, Nat.zero_add]

theorem sub_at (b : Build) {α : Type} {l : List α} {i : Nat} (h : i < l.length) :
    Elem1.sub b l (.at i) = .ok l[i] := by
  simp only [Elem1.sub, Pos.resolve, Res.ok_bind, Res.pure_eq, assertDebugM_ok]
  rw [show validIndex (len l) (i : Int) = true from by
    rw [validIndex_iff]; unfold InRange len; omega, assertDebug_true, Res.ok_bind]
  exact rd_nat h

/-- C112: the loop `for(auto i : irange_m1(A)) f(A[i], A[i + 1])` visits every pair of neighbours once, in order,
and accesses nothing outside `A`. -/
theorem C112_neighbours (b : Build) {α : Type} {l : List α} (hl : l ≠ []) (hn : (l.length : Int) < 2 ^ 63 - 1)
    {a : Acc (List (α × α)) α} (h : Den .one a [] (l.map Res.ok)) {fuel : Nat} (hf : l.length ≤ fuel) :
    Range.elemsM1.each b a (fun i => do
      let u ← Op.lift (Elem1.sub b l (.at i))
      let k ← Op.lift (iadd i 1)
      let v ← Op.lift (Elem1.sub b l (.at k))
      let r : List (α × α) ← Op.get
      Op.set (r ++ [(u, v)])) fuel [] = (.ok (some ()), l.zip l.tail) := by
  have h0 : l.length ≠ 0 := fun e => hl (List.length_eq_zero_iff.1 e)
  have hc : rangeCount (Sem.dims (d := .one) (l.map Res.ok)).1 (Sem.dims (d := .one) (l.map Res.ok)).2
      .elemsM1 = some (l.length - 1) := by
    show (if (l.map Res.ok).length = 0 then none else some ((l.map Res.ok).length - 1)) = _
    rw [List.length_map, if_neg h0]
  have key := C112_loop (d := .one) b .elemsM1 (Or.inr rfl) h (by show ((l.map Res.ok).length : Int) < _; simpa using hn) hc
    (fun i => do
      let u ← Op.lift (Elem1.sub b l (.at i))
      let k ← Op.lift (iadd i 1)
      let v ← Op.lift (Elem1.sub b l (.at k))
      let r : List (α × α) ← Op.get
      Op.set (r ++ [(u, v)])) (fuel := fuel) (by omega)
  unfold Completes countingLoop at key
  rw [key]
  have hloop : ∀ n, n ≤ l.length - 1 → Op.forN n (fun i => do
      let u ← Op.lift (Elem1.sub b l (.at (i : Int)))
      let k ← Op.lift (iadd i 1)
      let v ← Op.lift (Elem1.sub b l (.at k))
      let r : List (α × α) ← Op.get
      Op.set (r ++ [(u, v)])) [] = (.ok (), (l.zip l.tail).take n) := by
    intro n
    induction n with
    | zero => intro _; rfl
    | succ n ih =>
      intro hn'
      rw [Op.forN_succ, ih (by omega)]
      simp only
      rw [sub_at b (by omega : n < l.length), iadd_ok (by unfold IsIndex; omega)]
      simp only [Op.lift_ok_bind]
      rw [show ((n : Int) + 1) = ((n + 1 : Nat) : Int) from rfl, sub_at b (by omega : n + 1 < l.length)]
      simp only [Op.lift_ok_bind, Op.get_bind, Op.set_run]
      rw [List.take_succ_eq_append_getElem (by simp; omega)]
      simp
  rw [hloop _ (Nat.le_refl _)]
  have : (l.zip l.tail).length = l.length - 1 := by simp
  rw [← this, List.take_length]
  rfl

/-- `[1,2,3]` has the neighbours (1,2) and (2,3), the loop over the columns of the 2x3 matrix runs three times,
and an empty array is rejected. -/
example : Range.elemsM1.each ⟨false, true, false⟩ (Acc.oneD (fun _ => 3) (fun _ i => rd [1, 2, 3] i)) (fun i => do
      let u ← Op.lift (Elem1.sub ⟨false, true, false⟩ [1, 2, 3] (.at i))
      let k ← Op.lift (iadd i 1)
      let v ← Op.lift (Elem1.sub ⟨false, true, false⟩ [1, 2, 3] (.at k))
      let r : List (Nat × Nat) ← Op.get
      Op.set (r ++ [(u, v)])) 3 [] = (.ok (some ()), [(1, 2), (2, 3)]) :=
  C112_neighbours _ (by simp) (by decide) ⟨rfl, rfl, by decide⟩ (by decide)

example (body : Int → Op (Store Int) Unit) :
    Completes (Range.cols.each ⟨false, true, false⟩ (Lv.acc2 Int 0) body 4 Sample.store)
      (countingLoop 3 body Sample.store) ∧
    Range.elemsM1.each ⟨false, true, false⟩ (Lv.acc1 Int 7) body 4 Sample.store = (.trap .exception, Sample.store) :=
  ⟨C112_loop (d := .two) _ .cols ⟨by decide, by decide⟩ Sample.A_den Sample.A_small rfl body (by decide),
   C112_rejected ⟨rfl, .inl rfl⟩ .elemsM1 (Or.inr rfl) (d := .one) (x := ([] : List (Res Loc)))
     ⟨rfl, rfl, fun i h => absurd h (Nat.not_lt_zero i)⟩ rfl body 4⟩

example : (Range.elemsM1.each ⟨true, true, false⟩ (Lv.acc1 Int 7) (fun _ => pure ()) 1000 Sample.store).1 = .ok none := by
  rw [C112_release_runs_on (b := ⟨true, true, false⟩) rfl .elemsM1 (Or.inr rfl) (d := .one) (x := ([] : List (Res Loc)))
    ⟨rfl, rfl, fun i h => absurd h (Nat.not_lt_zero i)⟩ rfl
    (fun _ _ => rfl) (by decide)]

end Spp.Props
