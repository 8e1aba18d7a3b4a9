import Verif.Spec.StdRandom
import Verif.Props.Random
import Verif.Props.Select

/- C83: random numbers from the standard library. -/

set_option linter.unusedSectionVars false

namespace Spp.Props
open Spec Semi StdRandom

variable {α G : Type} [LinearOrder α] {d : Dim}

theorem stateAt_shift (f : G → α × G) (g : G) (k : Nat) : stateAt f g (k + 1) = stateAt f (f g).2 k := by
  induction k with
  | zero => rfl
  | succ k ih => rw [stateAt, ih]; rfl

theorem valueAt_shift (f : G → α × G) (g : G) (k : Nat) : valueAt f g (k + 1) = valueAt f (f g).2 k := by
  rw [valueAt, stateAt_shift]; rfl

theorem firstValues_succ (f : G → α × G) (g : G) (k : Nat) :
    firstValues f g (k + 1) = (f g).1 :: firstValues f (f g).2 k := by
  rw [firstValues, List.range_succ_eq_map, List.map_cons, List.map_map]
  congr 1
  exact List.map_congr_left fun i _ => valueAt_shift f g i

theorem draws_firstValues {draw : G → Res (α × G)} {f : G → α × G} (h : ∀ g, draw g = .ok (f g)) (k : Nat)
    (g : G) : draws draw k g = .ok (firstValues f g k, stateAt f g k) := by
  induction k generalizing g with
  | zero => rfl
  | succ k ih =>
    rw [draws, h, Res.ok_bind]
    show (draws draw k (f g).2 >>= fun r => pure ((f g).1 :: r.1, r.2)) = _
    rw [ih, firstValues_succ, stateAt_shift]; rfl

theorem untilNot0_iff {draw : G → Res (α × G)} {f : G → α × G} (h : ∀ g, draw g = .ok (f g)) (z : α → Bool)
    (fuel : Nat) (g : G) :
    (∃ k, k < fuel ∧ z (valueAt f g k) = false ∧ (∀ j, j < k → z (valueAt f g j) = true) ∧
      untilNot0 draw z fuel g = .ok (some (valueAt f g k, stateAt f g (k + 1)))) ∨
    ((∀ k, k < fuel → z (valueAt f g k) = true) ∧ untilNot0 draw z fuel g = .ok none) := by
  induction fuel generalizing g with
  | zero => exact .inr ⟨fun _ hk => absurd hk (Nat.not_lt_zero _), rfl⟩
  | succ fuel ih =>
    rw [untilNot0, h, Res.ok_bind]
    cases hz : z (f g).1 with
    | false =>
      exact .inl ⟨0, by omega, hz, fun j hj => absurd hj (Nat.not_lt_zero _), by simp only [hz]; rfl⟩
    | true =>
      simp only [hz, if_true]
      rcases ih (f g).2 with ⟨k, h1, h2, h3, h4⟩ | ⟨h1, h2⟩
      · refine .inl ⟨k + 1, by omega, by rw [valueAt_shift]; exact h2, ?_, ?_⟩
        · intro j hj
          cases j with
          | zero => exact hz
          | succ j => rw [valueAt_shift]; exact h3 j (by omega)
        · rw [valueAt_shift, stateAt_shift]; exact h4
      · refine .inr ⟨?_, h2⟩
        intro k hk
        cases k with
        | zero => exact hz
        | succ k => rw [valueAt_shift]; exact h1 k (by omega)

/-! ### The generators -/

/-- C83: with a standard distribution, the generators of integers and floating-point numbers produce numbers
in `[low, high]`. -/
theorem C83_generator {D : Dist α G} (hD : Contract D) {low high : α} (h : D.pre low high = true) :
    Serves (plain D) low high (D.draw low high) (fun x => low ≤ x ∧ x ≤ high) :=
  ⟨if_pos h, fun _ => rfl, fun g => hD.bounded low high g h⟩

/-- C83: a boolean is true exactly when the distribution over {0, 1} draws 1. -/
theorem C83_bool {D : Dist Int G} (hD : Contract D) (h : D.pre 0 1 = true) :
    Serves (boolean D) false true (fun g => (decide ((D.draw 0 1 g).1 = 1), (D.draw 0 1 g).2)) (fun _ => True) := by
  refine ⟨if_pos h, fun g => ?_, fun _ => trivial⟩
  have hb := hD.bounded 0 1 g h
  show Res.ok (if (D.draw 0 1 g).1.tmod 2 = 0 then false else true, (D.draw 0 1 g).2) = _
  rcases (show (D.draw 0 1 g).1 = 0 ∨ (D.draw 0 1 g).1 = 1 by omega) with e | e <;> rw [e] <;> rfl

/-- C83: quadruple-precision numbers lie between the bounds rounded to double precision; so they lie in
`[low, high]` when the bounds are double-precision numbers ... -/
theorem C83_quad {rn : α → α} {D : Dist α G} (hD : Contract D) {low high : α}
    (h : D.pre (rn low) (rn high) = true) :
    Serves (quad rn D) low high (D.draw (rn low) (rn high)) (fun x => rn low ≤ x ∧ x ≤ rn high) ∧
    (rn low = low → rn high = high →
      Serves (quad rn D) low high (D.draw low high) (fun x => low ≤ x ∧ x ≤ high)) := by
  refine ⟨⟨if_pos h, fun _ => rfl, fun g => hD.bounded _ _ g h⟩, fun e1 e2 => ⟨if_pos h, fun g => ?_, fun g => ?_⟩⟩
  · show Res.ok (D.draw (rn low) (rn high) g) = _
    rw [e1, e2]
  · rw [e1, e2] at h; exact hD.bounded _ _ g h

/-- C83, found false of the code: ... but not in general.  Whatever the distribution draws, `rands(x, x)` is
not `x` unless `x` is a double-precision number. -/
theorem C83_quad_outside (b : Build) {rn : α → α} {D : Dist α G} (hD : Contract D) {x : α} (hx : rn x ≠ x)
    (h : D.pre (rn x) (rn x) = true) (g : G) :
    rands b (quad rn D) x x g = .ok (rn x) ∧ rn x ≠ x := by
  refine ⟨?_, hx⟩
  obtain ⟨h1, h2⟩ := hD.bounded _ _ g h
  have e : (D.draw (rn x) (rn x) g).1 = rn x := le_antisymm h2 h1
  have hm : (quad rn D).make x x = .ok () := if_pos h
  have hr : (quad rn D).random x x g = .ok (D.draw (rn x) (rn x) g) := rfl
  simp only [rands, decide_eq_true (le_refl x), assertDebug_true, Res.ok_bind, hm, hr, e, Res.pure_eq]

/-! ### Single numbers, arrays and expressions -/

/-- C83: `rands(low, high)` is the first draw. -/
theorem C83_scalar (b : Build) {gen : Gen α G} {low high : α} {f : G → α × G} {P : α → Prop} (hle : low ≤ high)
    (h : Serves gen low high f P) (g : G) :
    rands b gen low high g = .ok (valueAt f g 0) ∧ P (valueAt f g 0) := by
  refine ⟨?_, h.good g⟩
  simp only [rands, decide_eq_true hle, assertDebug_true, Res.ok_bind, h.makes, h.draws, Res.pure_eq]
  rfl

theorem firstValues_good {gen : Gen α G} {low high : α} {f : G → α × G} {P : α → Prop}
    (h : Serves gen low high f P) (g : G) (n : Nat) : ∀ v ∈ firstValues f g n, P v := by
  intro v hv
  obtain ⟨k, -, rfl⟩ := List.mem_map.1 hv
  exact h.good _

/-- Filling one array. -/
theorem random1_effect (b : Build) {gen : Gen α G} {low high : α} {f : G → α × G} {P : α → Prop}
    (hle : low ≤ high) (h : Serves gen low high f P) (g : G) {l : Lv d} {t : Store α} {cs : List Loc}
    (hp : Places l t cs) {a : Acc (Store α) Loc} (hd : ∀ s, SameSizes t s → Den d a s (l.cells s)) {u : Store α}
    {ws : List (Loc × α)} (hu : Effect t u ws) :
    ∃ u', random1 b gen a low high g u = (.ok (), u') ∧
      Effect t u' (ws ++ cs.zip (firstValues f g cs.length)) := by
  have hsz : a.size u = .ok (cs.length : Int) := by
    rw [(linDen_of (hd u hu.1)).1, l.cells_same hu.1, hp.1, List.length_map]
  obtain ⟨u', e1, e2⟩ := fillFrom_effect hp hd cs.length 0 (by omega) hu (draws_firstValues h.draws cs.length g)
  refine ⟨u', ?_, by simpa using e2⟩
  simp only [random1, decide_eq_true hle, assertDebug_true, Op.lift_ok_bind, h.makes, Op.get_bind, hsz,
    Int.toNat_natCast]
  exact e1

/-- C83: `random(A, low, high)` assigns the draws to the elements of `A`, in order, and changes nothing else. -/
theorem C83_array (b : Build) {gen : Gen α G} {low high : α} {f : G → α × G} {P : α → Prop} (hle : low ≤ high)
    (h : Serves gen low high f P) (g : G) {s : Store α} (hs : Store.Ok s) {l : Lv d} (hS : l.Sound s)
    (hV : l.Valid s) {cs : List Loc} (hp : Places l s cs) :
    ∃ a : Acc (Store α) Loc, l.build b s = .ok a ∧
      Writes cs ((firstValues f g cs.length).map Res.ok) s (random1 b gen a low high g s) ∧
      ∀ v ∈ firstValues f g cs.length, P v := by
  obtain ⟨_, a, h1, h2⟩ := l.main b hs hS hV
  obtain ⟨u, e1, e2⟩ := random1_effect b hle h g hp h2 (Effect.refl s)
  refine ⟨a, h1, ⟨firstValues f g cs.length, ?_, .inl ⟨rfl, by rw [e1]⟩⟩, firstValues_good h g _⟩
  rw [e1]
  simpa using e2

/-- The targets of one call: an accessor, the places it refers to, and the state of its generator. -/
structure Targets (s : Store α) (ts : List (Acc (Store α) Loc × G)) (cs : List (List Loc × G)) : Prop where
  same : List.Forall₂ (fun t c => t.2 = c.2 ∧ ∃ (d : Dim) (l : Lv d), Places l s c.1 ∧
    ∀ u, SameSizes s u → Den d t.1 u (l.cells u)) ts cs

/-- C83: `random(A, B, ..., low, high)` does so for all arrays, one after the other, when the bounds are
values. -/
theorem C83_arrays (b : Build) {gen : Gen α G} {low high : α} {f : G → α × G} {P : α → Prop} (hle : low ≤ high)
    (h : Serves gen low high f P) {s : Store α} {ts : List (Acc (Store α) Loc × G)} {cs : List (List Loc × G)}
    (ht : Targets s ts cs) :
    (∃ s', StdRandom.random b gen (.val low) (.val high) ts s = (.ok (), s') ∧ Effect s s' (writesOf f cs)) ∧
    ∀ w ∈ writesOf f cs, P w.2 := by
  constructor
  · have key : ∀ ts cs, Targets s ts cs → ∀ u ws, Effect s u ws →
        ∃ s', StdRandom.random b gen (.val low) (.val high) ts u = (.ok (), s') ∧ Effect s s' (ws ++ writesOf f cs) := by
      intro ts cs ht
      obtain ⟨ht⟩ := ht
      induction ht with
      | nil => intro u ws hu; exact ⟨u, rfl, by simpa [writesOf] using hu⟩
      | @cons t c ts cs h1 _ ih =>
        intro u ws hu
        obtain ⟨a, g⟩ := t
        obtain ⟨cl, g'⟩ := c
        obtain ⟨rfl, d, l, hp, hd⟩ := h1
        obtain ⟨u', e1, e2⟩ := random1_effect b hle h g hp hd hu
        obtain ⟨s', e3, e4⟩ := ih u' _ e2
        refine ⟨s', ?_, by simpa [writesOf] using e4⟩
        simp only [StdRandom.random, Op.get_bind, Bound.get, Op.lift_ok_bind]
        rw [Op.bind_run, e1]
        exact e3
    obtain ⟨s', e1, e2⟩ := key ts cs ht s [] (Effect.refl s)
    exact ⟨s', e1, by simpa using e2⟩
  · clear ht
    induction cs with
    | nil => intro w hw; cases hw
    | cons c cs ih =>
      obtain ⟨cl, g⟩ := c
      intro w hw
      rw [writesOf, List.mem_append] at hw
      rcases hw with hw | hw
      · exact firstValues_good h g _ _ (List.of_mem_zip hw).2
      · exact ih w hw

/-- C83: every access to an element of the expression `random<T>(n, low, high)` is another draw, so any number of
accesses yields numbers in the range (and reading the same element twice may give two numbers). -/
theorem C83_expression (b : Build) {gen : Gen α G} {low high : α} {f : G → α × G} {P : α → Prop}
    (hle : low ≤ high) (h : Serves gen low high f P) (g : G) (k : Nat) :
    randomExpr b gen low high = .ok () ∧
    draws (gen.random low high) k g = .ok (firstValues f g k, stateAt f g k) ∧ ∀ v ∈ firstValues f g k, P v := by
  refine ⟨?_, draws_firstValues h.draws k g, firstValues_good h g k⟩
  simp only [randomExpr, decide_eq_true hle, assertDebug_true, Res.ok_bind, h.makes]

/-- C83: bounds in the wrong order trap in checked builds, and no array changes; in release builds a standard
distribution is then made in violation of its precondition. -/
theorem C83_rejected (b : Build) (gen : Gen α G) (zero : α) {low high : α} (h : high < low) (g : G)
    (fuel : Nat) (dst : Acc (Store α) Loc) (s : Store α) :
    (b.Checked → rands b gen low high g = .trap b.kind ∧ randomExpr b gen low high = .trap b.kind ∧
      random1 b gen dst low high g s = (.trap b.kind, s) ∧ randsNot0 b zero gen low high g fuel = .trap b.kind ∧
      randomNot0 b zero gen dst low high g fuel s = (.trap b.kind, s)) ∧
    (b.Release → ∀ D : Dist α G, Contract D → rands b (plain D) low high g = .ub ∧
      randomExpr b (plain D) low high = .ub ∧ random1 b (plain D) dst low high g s = (.ub, s)) := by
  have hd : decide (low ≤ high) = false := decide_eq_false (not_le.2 h)
  refine ⟨fun hb => ⟨?_, ?_, ?_, ?_, ?_⟩, fun hb D hD => ?_⟩
  · rw [rands, hd, assertDebug_false hb]; rfl
  · rw [randomExpr, hd, assertDebug_false hb]; rfl
  · rw [random1, hd, assertDebug_false hb]; rfl
  · rw [randsNot0, hd, assertDebug_false hb]; rfl
  · rw [randomNot0, hd, assertDebug_false hb]; rfl
  · have hp : D.pre low high = false := by
      cases hp : D.pre low high with
      | false => rfl
      | true => exact absurd (hD.ordered _ _ hp) (not_le.2 h)
    have hm : (plain D).make low high = .ub := by
      show (if D.pre low high = true then _ else _) = _
      rw [hp]; rfl
    refine ⟨?_, ?_, ?_⟩
    · rw [rands, assertDebug_release hb, Res.ok_bind, hm]; rfl
    · rw [randomExpr, assertDebug_release hb, Res.ok_bind, hm]
    · rw [random1, assertDebug_release hb, Op.lift_ok_bind, hm]; rfl

/-- C83, found false of the code: the bounds of `random(A, B, low, high)` are read again before every array, so
in `random(A, B, A[i], A[j])` those for `B` are the new elements of `A`.  When these are drawn in the wrong
order the call traps although `A[i] <= A[j]` held, after `A` has been filled. -/
theorem C83_aliased_bounds {b : Build} (hb : b.Checked) {gen : Gen α G} {f : G → α × G} {P : α → Prop} {g g' : G}
    {s : Store α} {l : Lv d} {cs : List Loc} (hp : Places l s cs) (hn : cs.Nodup) {a a' : Acc (Store α) Loc}
    (hd : ∀ u, SameSizes s u → Den d a u (l.cells u)) {i j : Nat} (hi : i < cs.length) (hj : j < cs.length)
    {low high : α} (h1 : s.read cs[i] = .ok low) (h2 : s.read cs[j] = .ok high) (hle : low ≤ high)
    (h : Serves gen low high f P) (hlt : valueAt f g j < valueAt f g i) :
    ∃ u, StdRandom.random b gen (.elem cs[i]) (.elem cs[j]) [(a, g), (a', g')] s = (.trap b.kind, u) ∧
      Effect s u (cs.zip (firstValues f g cs.length)) := by
  obtain ⟨u, e1, e2⟩ := random1_effect b hle h g hp hd (Effect.refl s)
  rw [List.nil_append] at e2
  refine ⟨u, ?_, e2⟩
  have hlen : cs.length = (firstValues f g cs.length).length := by simp [firstValues]
  have rd : ∀ k (hk : k < cs.length), u.read cs[k] = .ok (valueAt f g k) := by
    intro k hk
    rw [e2.2, lastWrite_zip hn hlen hk]
    simp [firstValues]
  have hrej := ((C83_rejected b gen low hlt g' 0 a' u).1 hb).2.2.1
  simp only [StdRandom.random, Op.get_bind, Bound.get, h1, h2, Op.lift_ok_bind]
  rw [Op.bind_run, e1]
  simp only [Op.get_bind, rd i hi, rd j hj, Op.lift_ok_bind]
  rw [Op.bind_run, hrej]

/-! ### Excluding zero -/

/-- C83: `rands_not0(low, high)` returns the first draw that is not zero, and it returns exactly when there is
one. -/
theorem C83_not0 (b : Build) (zero : α) {gen : Gen α G} {low high : α} {f : G → α × G} {P : α → Prop}
    (hle : low ≤ high) (h0 : ¬ (low = zero ∧ high = zero)) (h : Serves gen low high f P) (g : G) (fuel : Nat) :
    (∃ k, k < fuel ∧ valueAt f g k ≠ zero ∧ (∀ j, j < k → valueAt f g j = zero) ∧ P (valueAt f g k) ∧
      randsNot0 b zero gen low high g fuel = .ok (some (valueAt f g k))) ∨
    ((∀ k, k < fuel → valueAt f g k = zero) ∧ randsNot0 b zero gen low high g fuel = .ok none) := by
  have e0 : (!(decide (low = zero) && decide (high = zero))) = true := by
    rw [← Bool.decide_and, Bool.not_eq_true', decide_eq_false_iff_not]; exact h0
  have start : randsNot0 b zero gen low high g fuel =
      (untilNot0 (gen.random low high) (fun x => decide (x = zero)) fuel g >>= fun r => pure (r.map Prod.fst)) := by
    simp only [randsNot0, decide_eq_true hle, e0, assertDebug_true, Res.ok_bind, h.makes]
  rcases untilNot0_iff h.draws (fun x => decide (x = zero)) fuel g with ⟨k, h1, h2, h3, h4⟩ | ⟨h1, h2⟩
  · refine .inl ⟨k, h1, by simpa using h2, fun j hj => by simpa using h3 j hj, h.good _, ?_⟩
    rw [start, h4]; rfl
  · refine .inr ⟨fun k hk => by simpa using h1 k hk, ?_⟩
    rw [start, h2]; rfl

/-- C83: the range {0} traps in checked builds; in release
builds the loop never ends. -/
theorem C83_only_zero (b : Build) (zero : α) (gen : Gen α G) (g : G) (fuel : Nat) (dst : Acc (Store α) Loc)
    (s : Store α) :
    (b.Checked → randsNot0 b zero gen zero zero g fuel = .trap b.kind ∧
      randomNot0 b zero gen dst zero zero g fuel s = (.trap b.kind, s)) ∧
    (b.Release → ∀ f, Serves gen zero zero f (fun x => zero ≤ x ∧ x ≤ zero) →
      randsNot0 b zero gen zero zero g fuel = .ok none) := by
  have e0 : (!(decide (zero = zero) && decide (zero = zero))) = false := by simp
  refine ⟨fun hb => ⟨?_, ?_⟩, fun hb f h => ?_⟩
  · rw [randsNot0, decide_eq_true (le_refl zero), assertDebug_true, Res.ok_bind, e0, assertDebug_false hb]; rfl
  · rw [randomNot0, decide_eq_true (le_refl zero), assertDebug_true, Op.lift_ok_bind, e0, assertDebug_false hb]; rfl
  · rw [randsNot0, decide_eq_true (le_refl zero), assertDebug_true, Res.ok_bind, assertDebug_release hb,
      Res.ok_bind, h.makes, Res.ok_bind, untilNot0_never (I := fun _ => True) _ fuel trivial]
    · rfl
    · intro p _
      exact ⟨_, _, h.draws p, decide_eq_true (le_antisymm (h.good p).2 (h.good p).1), trivial⟩

/-- Filling without zeros. -/
theorem fillNot0From_effect {gen : Gen α G} {low high : α} {f : G → α × G} {P : α → Prop}
    (h : Serves gen low high f P) (zero : α) {l : Lv d} {t : Store α} {cs : List Loc} (hp : Places l t cs)
    {dst : Acc (Store α) Loc} (hd : ∀ s, SameSizes t s → Den d dst s (l.cells s)) (fuel k i : Nat) {g : G}
    {u u' : Store α} {ws : List (Loc × α)} (hk : i + k = cs.length) (hu : Effect t u ws)
    (hr : fillNot0From dst (gen.random low high) (fun x => decide (x = zero)) fuel i k g u = (.ok (some ()), u')) :
    ∃ vs : List α, vs.length = k ∧ (∀ v ∈ vs, v ≠ zero ∧ P v) ∧ Effect t u' (ws ++ (cs.drop i).zip vs) := by
  induction k generalizing i g u ws with
  | zero => cases hr; exact ⟨[], rfl, by simp, by simpa using hu⟩
  | succ k ih =>
    have hi : i < cs.length := by omega
    simp only [fillNot0From, Op.get_bind, dst_un hp hd hu.1 hi, Op.lift_ok_bind] at hr
    rcases untilNot0_iff h.draws (fun x => decide (x = zero)) fuel g with ⟨m, h1, h2, h3, h4⟩ | ⟨h1, h2⟩
    · rw [h4, Op.lift_ok_bind] at hr
      obtain ⟨u1, g1, g2⟩ := Effect.put hu (hp.2 _ (List.getElem_mem hi)) (valueAt f g m)
      simp only at hr
      rw [Op.bind_run, g1] at hr
      obtain ⟨vs, k1, k2, k3⟩ := ih (i + 1) (by omega) g2 hr
      refine ⟨valueAt f g m :: vs, by simp [k1], ?_, ?_⟩
      · intro v hv
        rcases List.mem_cons.1 hv with rfl | hv
        · exact ⟨by simpa using h2, h.good _⟩
        · exact k2 v hv
      · rw [List.drop_eq_getElem_cons hi, List.zip_cons_cons]
        simpa using k3
    · rw [h2, Op.lift_ok_bind] at hr
      cases hr

/-- C83: when `random_not0(A, low, high)` returns, all elements of `A` have been assigned numbers in the range
that are not zero, and nothing else has changed. -/
theorem C83_array_not0 (b : Build) (zero : α) {gen : Gen α G} {low high : α} {f : G → α × G} {P : α → Prop}
    (hle : low ≤ high) (h0 : ¬ (low = zero ∧ high = zero)) (h : Serves gen low high f P) (g : G) (fuel : Nat)
    {s s' : Store α} (hs : Store.Ok s) {l : Lv d} (hS : l.Sound s) (hV : l.Valid s) {cs : List Loc}
    (hp : Places l s cs) :
    ∃ a : Acc (Store α) Loc, l.build b s = .ok a ∧
      (randomNot0 b zero gen a low high g fuel s = (.ok (some ()), s') →
        ∃ vs : List α, vs.length = cs.length ∧ (∀ v ∈ vs, v ≠ zero ∧ P v) ∧ Effect s s' (cs.zip vs)) := by
  obtain ⟨_, a, h1, h2⟩ := l.main b hs hS hV
  refine ⟨a, h1, fun hr => ?_⟩
  have e0 : (!(decide (low = zero) && decide (high = zero))) = true := by
    rw [← Bool.decide_and, Bool.not_eq_true', decide_eq_false_iff_not]; exact h0
  have hsz : a.size s = .ok (cs.length : Int) := by
    rw [(linDen_of (h2 s (SameSizes.refl s))).1, hp.1, List.length_map]
  simp only [randomNot0, decide_eq_true hle, e0, assertDebug_true, Op.lift_ok_bind, h.makes, Op.get_bind, hsz,
    Int.toNat_natCast] at hr
  simpa using fillNot0From_effect h zero hp h2 fuel cs.length 0 (by omega) (Effect.refl s) hr

/-- C83: and it returns if, from every state of the generator, one of the next `fuel` draws is not zero. -/
theorem C83_array_not0_returns (b : Build) (zero : α) {gen : Gen α G} {low high : α} {f : G → α × G}
    {P : α → Prop} (hle : low ≤ high) (h0 : ¬ (low = zero ∧ high = zero)) (h : Serves gen low high f P) (g : G)
    {fuel : Nat} (hf : ∀ g, ∃ k, k < fuel ∧ valueAt f g k ≠ zero) {s : Store α} (hs : Store.Ok s) {l : Lv d}
    (hS : l.Sound s) (hV : l.Valid s) {cs : List Loc} (hp : Places l s cs) :
    ∃ (a : Acc (Store α) Loc) (s' : Store α), l.build b s = .ok a ∧
      randomNot0 b zero gen a low high g fuel s = (.ok (some ()), s') := by
  obtain ⟨_, a, h1, h2⟩ := l.main b hs hS hV
  have e0 : (!(decide (low = zero) && decide (high = zero))) = true := by
    rw [← Bool.decide_and, Bool.not_eq_true', decide_eq_false_iff_not]; exact h0
  have hsz : a.size s = .ok (cs.length : Int) := by
    rw [(linDen_of (h2 s (SameSizes.refl s))).1, hp.1, List.length_map]
  have key : ∀ k i g u, i + k = cs.length → SameSizes s u →
      ∃ u', fillNot0From a (gen.random low high) (fun x => decide (x = zero)) fuel i k g u = (.ok (some ()), u') := by
    intro k
    induction k with
    | zero => intro i g u _ _; exact ⟨u, rfl⟩
    | succ k ih =>
      intro i g u hk hu
      have hi : i < cs.length := by omega
      rcases untilNot0_iff h.draws (fun x => decide (x = zero)) fuel g with ⟨m, -, -, -, h4⟩ | ⟨k1, -⟩
      · obtain ⟨u1, g1, g2⟩ := Effect.put (ws := []) ⟨SameSizes.refl u, fun _ => rfl⟩
          ((hp.2 _ (List.getElem_mem hi)).same hu) (valueAt f g m)
        obtain ⟨u', g3⟩ := ih (i + 1) (stateAt f g (m + 1)) u1 (by omega) (SameSizes.trans hu g2.1)
        refine ⟨u', ?_⟩
        simp only [fillNot0From, Op.get_bind, dst_un hp h2 hu hi, Op.lift_ok_bind, h4]
        rw [Op.bind_run, g1]
        exact g3
      · obtain ⟨k, hk, hne⟩ := hf g
        exact absurd (by simpa using k1 k hk) hne
  obtain ⟨u', hu'⟩ := key cs.length 0 g s (by omega) (SameSizes.refl s)
  refine ⟨a, u', h1, ?_⟩
  simp only [randomNot0, decide_eq_true hle, e0, assertDebug_true, Op.lift_ok_bind, h.makes, Op.get_bind, hsz,
    Int.toNat_natCast]
  exact hu'

/-! ### Examples -/

section
open Spp.Sample

/-- A distribution that counts. -/
def counting : Dist Int Nat := ⟨fun low high => decide (low ≤ high), fun low high g => (low + g % (high - low + 1), g + 1)⟩

theorem counting_contract : Contract counting where
  ordered low high h := by simpa [counting] using h
  bounded low high g h := by
    have h' : low ≤ high := by simpa [counting] using h
    have h1 := Int.emod_nonneg (g : Int) (show high - low + 1 ≠ 0 by omega)
    have h2 := Int.emod_lt_of_pos (g : Int) (show 0 < high - low + 1 by omega)
    constructor
    · show low ≤ low + (g : Int) % (high - low + 1); omega
    · show low + (g : Int) % (high - low + 1) ≤ high; omega

theorem counting_die : Serves (plain counting) 1 6 (counting.draw 1 6) (fun x => 1 ≤ x ∧ x ≤ 6) :=
  C83_generator counting_contract rfl

example : Serves (boolean counting) false true (fun g => (decide ((counting.draw 0 1 g).1 = 1), g + 1)) (fun _ => True) :=
  C83_bool counting_contract rfl

example : rands ⟨false, true, false⟩ (plain counting) 1 6 9 = .ok 4 :=
  (C83_scalar _ (by decide) counting_die 9).1

/-- Rounding to even numbers instead of `double`. -/
example : Serves (quad (fun x => x / 2 * 2) counting) 3 9 (counting.draw 2 8) (fun x => 2 ≤ x ∧ x ≤ 8) :=
  (C83_quad (rn := fun x : Int => x / 2 * 2) counting_contract (low := 3) (high := 9) rfl).1

example : rands ⟨false, true, false⟩ (quad (fun x => x / 2 * 2) counting) 3 3 5 = .ok 2 :=
  (C83_quad_outside _ (rn := fun x : Int => x / 2 * 2) counting_contract (by decide) rfl 5).1

example : ∃ a : Acc (Store Int) Loc, (Lv.arr1 0).build ⟨false, true, false⟩ store = .ok a ∧
    Writes [.one 0 0, .one 0 1, .one 0 2] [.ok 5, .ok 6, .ok 1] store
      (random1 ⟨false, true, false⟩ (plain counting) a 1 6 4 store) := by
  obtain ⟨a, h1, h2, -⟩ := C83_array ⟨false, true, false⟩ (by decide) counting_die 4 store_ok
    (l := .arr1 0) (cs := [.one 0 0, .one 0 1, .one 0 2]) (by decide) (by decide) ⟨rfl, by decide⟩
  exact ⟨a, h1, h2⟩

theorem sample_targets : ∃ a : Acc (Store Int) Loc,
    Targets store [(a, 4), (a, 1)] [([.one 0 0, .one 0 1, .one 0 2], 4), ([.one 0 0, .one 0 1, .one 0 2], 1)] ∧
    (∀ u, SameSizes store u → Den .one a u ((Lv.arr1 0).cells u)) := by
  obtain ⟨_, a, -, h2⟩ := (Lv.arr1 0).main ⟨false, true, false⟩ store_ok (by decide) (by decide)
  have hp : Places (Lv.arr1 0) store [.one 0 0, .one 0 1, .one 0 2] := ⟨rfl, by decide⟩
  exact ⟨a, ⟨.cons ⟨rfl, .one, .arr1 0, hp, h2⟩ (.cons ⟨rfl, .one, .arr1 0, hp, h2⟩ .nil)⟩, h2⟩

example : ∃ (a : Acc (Store Int) Loc) (s' : Store Int),
    StdRandom.random ⟨false, true, false⟩ (plain counting) (.val 1) (.val 6) [(a, 4), (a, 1)] store = (.ok (), s') ∧
    s'.read (.one 0 1) = .ok 3 := by
  obtain ⟨a, h, -⟩ := sample_targets
  obtain ⟨⟨s', h1, h2⟩, -⟩ := C83_arrays ⟨false, true, false⟩ (by decide) counting_die h
  exact ⟨a, s', h1, by rw [h2.2]; rfl⟩

example : draws ((plain counting).random 1 6) 3 4 = .ok ([5, 6, 1], 7) :=
  (C83_expression ⟨false, true, false⟩ (by decide) counting_die 4 3).2.1

example : rands ⟨false, true, false⟩ (plain counting) 6 1 0 = .trap .exception :=
  ((C83_rejected (low := (6 : Int)) (high := 1) ⟨false, true, false⟩ (plain counting) 0 (by decide) 0 0
    ⟨fun _ => 0, fun _ => 0, fun _ => .ub, fun _ _ => .ub, fun _ _ _ => .ub⟩ store).1 (by decide)).1

/-- `random(A, A, A[0], A[2])` with `A = {1, 2, 3}`: the first round gives `{3, 1, 2}`, the second traps. -/
example : ∃ (a : Acc (Store Int) Loc) (u : Store Int),
    StdRandom.random ⟨false, true, false⟩ (plain counting) (.elem (.one 0 0)) (.elem (.one 0 2)) [(a, 2), (a, 1)] store =
      (.trap .exception, u) ∧ u.read (.one 0 0) = .ok 3 := by
  obtain ⟨a, -, hd⟩ := sample_targets
  obtain ⟨u, h1, h2⟩ := C83_aliased_bounds (b := ⟨false, true, false⟩) (by decide) (g := 2) (g' := 1) (a' := a) (i := 0)
    (j := 2) (s := store) (cs := [.one 0 0, .one 0 1, .one 0 2]) ⟨rfl, by decide⟩ (by decide) hd (by decide) (by decide)
    (low := 1) (high := 3) rfl rfl (by decide) (C83_generator counting_contract rfl) (by decide)
  exact ⟨a, u, h1, by rw [h2.2]; rfl⟩

example : randsNot0 ⟨false, true, false⟩ 0 (plain counting) 0 1 4 2 = .ok (some 1) := by
  rcases C83_not0 ⟨false, true, false⟩ 0 (by decide) (by decide)
    (C83_generator counting_contract (low := 0) (high := 1) rfl) 4 2 with ⟨k, -, h2, -, h3, h4⟩ | ⟨h1, -⟩
  · rw [h4]
    congr 2
    omega
  · exact absurd (h1 1 (by decide)) (by decide)

example : randsNot0 ⟨true, true, false⟩ 0 (plain counting) 0 0 4 1000 = .ok none :=
  (C83_only_zero ⟨true, true, false⟩ 0 (plain counting) 4 1000
    ⟨fun _ => 0, fun _ => 0, fun _ => .ub, fun _ _ => .ub, fun _ _ _ => .ub⟩ store).2 rfl _
    (C83_generator counting_contract rfl)

theorem counting_bits (g : Nat) : ∃ k, k < 2 ∧ valueAt (counting.draw 0 1) g k ≠ 0 := by
  rcases Nat.mod_two_eq_zero_or_one g with h | h
  · refine ⟨1, by omega, ?_⟩
    show 0 + ((g + 1 : Nat) : Int) % (1 - 0 + 1) ≠ 0
    omega
  · refine ⟨0, by omega, ?_⟩
    show 0 + (g : Int) % (1 - 0 + 1) ≠ 0
    omega

example : ∃ (a : Acc (Store Int) Loc) (s' : Store Int), (Lv.arr1 0).build ⟨false, true, false⟩ store = .ok a ∧
    randomNot0 ⟨false, true, false⟩ 0 (plain counting) a 0 1 4 2 store = (.ok (some ()), s') ∧
    ∃ vs : List Int, vs.length = 3 ∧ (∀ v ∈ vs, v ≠ 0 ∧ 0 ≤ v ∧ v ≤ 1) ∧
      Effect store s' ([.one 0 0, .one 0 1, .one 0 2].zip vs) := by
  obtain ⟨a, s', h1, h2⟩ := C83_array_not0_returns ⟨false, true, false⟩ 0 (by decide) (by decide)
    (C83_generator counting_contract (low := 0) (high := 1) rfl) 4 counting_bits store_ok
    (l := .arr1 0) (cs := [.one 0 0, .one 0 1, .one 0 2]) (by decide) (by decide) ⟨rfl, by decide⟩
  obtain ⟨a', h3, h4⟩ := C83_array_not0 (s' := s') ⟨false, true, false⟩ 0 (by decide) (by decide)
    (C83_generator counting_contract (low := 0) (high := 1) rfl) 4 2 store_ok
    (l := .arr1 0) (cs := [.one 0 0, .one 0 1, .one 0 2]) (by decide) (by decide) ⟨rfl, by decide⟩
  rw [h1] at h3; cases h3
  exact ⟨a, s', h1, h2, h4 h2⟩

end

end Spp.Props
