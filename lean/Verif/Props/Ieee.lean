import Verif.Lemmas.Ieee
import Verif.Model.ErrorTools

/-
C91: NaN, infinities and signed zeros in comparisons and scalar functions.
-/

namespace Spp.Props

open Spp.Spec Spp.Lemmas FVal

variable {F : Fmt} {p : Nat} {emin : Int}

/-- The order of values that are not NaN: minus infinity, the numbers, infinity. -/
theorem lt_trans_ieee {x y z : FVal} (h1 : lt x y = true) (h2 : lt y z = true) : lt x z = true := by
  rcases x with _ | s | ⟨s, m⟩ <;> rcases y with _ | t | ⟨t, n⟩ <;> rcases z with _ | u | ⟨u, k⟩ <;>
    simp_all [lt]
  exact lt_trans h1 h2

/-- C91: nothing compares with NaN; of two values that are not NaN exactly one is smaller or they are equal, and
`<=` says that one of the first two is the case. -/
theorem C91_compare (x y : FVal) :
    ((x = nan ∨ y = nan) → lt x y = false ∧ lt y x = false ∧ FVal.eq x y = false ∧ le x y = false) ∧
    (x ≠ nan → y ≠ nan →
      (le x y = (lt x y || FVal.eq x y)) ∧
      ((lt x y = true ∧ FVal.eq x y = false ∧ lt y x = false) ∨
       (lt x y = false ∧ FVal.eq x y = true ∧ lt y x = false) ∨
       (lt x y = false ∧ FVal.eq x y = false ∧ lt y x = true))) := by
  refine ⟨?_, fun hx hy => ?_⟩
  · rintro (rfl | rfl) <;> simp
  · rcases x with _ | s | ⟨s, m⟩
    · exact absurd rfl hx
    · rcases y with _ | t | ⟨t, n⟩
      · exact absurd rfl hy
      · cases s <;> cases t <;> decide
      · cases s <;> exact ⟨rfl, by simp [lt, FVal.eq]⟩
    · rcases y with _ | t | ⟨t, n⟩
      · exact absurd rfl hy
      · cases t <;> exact ⟨rfl, by simp [lt, FVal.eq]⟩
      · simp only [lt, le, FVal.eq]
        refine ⟨?_, ?_⟩
        · rw [← Bool.decide_or, decide_eq_decide]; exact le_iff_lt_or_eq
        · rcases lt_trichotomy (fin s m).val (fin t n).val with h | h | h
          · left; simp [h, h.ne, h.le]
          · right; left; simp [h]
          · right; right; simp [h, h.ne', h.le]

/-- C91: finite values compare as the numbers they stand for; the two zeros are equal. -/
theorem C91_compare_finite (s t : Bool) (m n : ℚ) :
    lt (fin s m) (fin t n) = decide ((fin s m).val < (fin t n).val) ∧
    le (fin s m) (fin t n) = decide ((fin s m).val ≤ (fin t n).val) ∧
    FVal.eq (fin s m) (fin t n) = decide ((fin s m).val = (fin t n).val) ∧
    FVal.eq (fin s 0) (fin t 0) = true ∧
    lt (inf true) (fin s m) = true ∧ lt (fin s m) (inf false) = true := by
  refine ⟨rfl, rfl, rfl, ?_, rfl, rfl⟩
  cases s <;> cases t <;> simp [FVal.eq, val]

/-- C91: `abss` of NaN is NaN, of an infinity plus infinity, of a number that is not zero its magnitude.  But it
swaps the zeros: `abss(0)` is `-0`, although `-0` is not wrong as a number. -/
theorem C91_abs (s : Bool) {m : ℚ} (hm : 0 < m) :
    F.scalar.abss nan = .ok nan ∧ F.scalar.abss (inf s) = .ok (inf false) ∧
    F.scalar.abss (fin s m) = .ok (fin false m) ∧ F.scalar.abss (fin s 0) = .ok (fin (!s) 0) := by
  refine ⟨abss_ieee _, abss_ieee _, ?_, ?_⟩
  · rw [abss_ieee]
    cases s
    · simp [absV, val, hm]
    · simp [absV, val, hm.le]
  · rw [abss_ieee]
    cases s <;> simp [absV, val]

/-- C91: so the reciprocal of the absolute value of zero is minus infinity. -/
theorem C91_abs_zero :
    (do let a ← F.scalar.abss (fin false 0); F.scalar.invs a) = .ok (inf true) ∧
    (do let a ← F.scalar.abss (fin true 0); F.scalar.invs a) = .ok (inf false) := by
  rw [(C91_abs (F := F) false one_pos).2.2.2, (C91_abs (F := F) true one_pos).2.2.2]
  constructor <;> simp [Scalar.invs, Fmt.scalar, FVal.div]

/-- C91: `signs` is plus or minus one for numbers other than zero and for infinities, and `+0` for the zeros and
for NaN. -/
theorem C91_sign (h1 : F.rn 1 = 1) (h0 : F.rn 0 = 0) (ht : 1 ≤ F.top) (s : Bool) {m : ℚ} (hm : 0 < m) :
    F.scalar.signs (fin s m) = .ok (fin s 1) ∧ F.scalar.signs (inf s) = .ok (fin s 1) ∧
    F.scalar.signs (fin s 0) = .ok (fin false 0) ∧ F.scalar.signs nan = .ok (fin false 0) := by
  have t0 : ¬ F.top < 0 := by linarith
  have t1 : ¬ F.top < 1 := by linarith
  refine ⟨?_, ?_, ?_, ?_⟩
  · cases s <;> simp [Scalar.signs, Fmt.scalar, lt, val, hm, hm.le, not_lt.2 hm.le, FVal.round, h1, t1]
  · cases s <;> simp [Scalar.signs, Fmt.scalar, lt, FVal.round, h1, t1]
  · cases s <;> simp [Scalar.signs, Fmt.scalar, lt, val, FVal.round, h0, t0]
  · simp [Scalar.signs, Fmt.scalar, FVal.round, h0, t0]

/-- C91: `mins` and `maxs` return their second argument when one of them is NaN or when they are equal, so they
depend on the order of the arguments; otherwise they return the smaller and the larger one. -/
theorem C91_min_max (x y : FVal) :
    ((x = nan ∨ y = nan ∨ FVal.eq x y = true) → F.scalar.mins x y = y ∧ F.scalar.maxs x y = y) ∧
    (lt x y = true → F.scalar.mins x y = x ∧ F.scalar.maxs x y = y) ∧
    (lt y x = true → F.scalar.mins x y = y ∧ F.scalar.maxs x y = x) := by
  have key : (lt x y = false → lt y x = false → F.scalar.mins x y = y ∧ F.scalar.maxs x y = y) ∧
      (lt x y = true → lt y x = false → F.scalar.mins x y = x ∧ F.scalar.maxs x y = y) ∧
      (lt y x = true → lt x y = false → F.scalar.mins x y = y ∧ F.scalar.maxs x y = x) := by
    unfold Scalar.mins Scalar.maxs
    show _ ∧ _ ∧ _
    refine ⟨fun a b => ?_, fun a b => ?_, fun a b => ?_⟩ <;>
      · show (if lt x y = true then x else y) = _ ∧ (if lt y x = true then x else y) = _
        rw [a, b]; exact ⟨rfl, rfl⟩
  have irr : lt x y = true → lt y x = false := by
    intro h
    by_contra hc
    have h2 : lt y x = true := by simpa using hc
    have := lt_trans_ieee h h2
    rcases x with _ | s | ⟨s, m⟩ <;> simp [lt] at this
  have irr2 : lt y x = true → lt x y = false := by
    intro h
    by_contra hc
    rw [irr (by simpa using hc)] at h
    exact absurd h (by decide)
  refine ⟨fun h => ?_, fun h => key.2.1 h (irr h), fun h => key.2.2 h (irr2 h)⟩
  have hc := C91_compare x y
  by_cases hn : x = nan ∨ y = nan
  · have := hc.1 hn
    exact key.1 this.1 this.2.1
  · rw [not_or] at hn
    have he : FVal.eq x y = true := by
      rcases h with h | h | h
      · exact absurd h hn.1
      · exact absurd h hn.2
      · exact h
    rcases (hc.2 hn.1 hn.2).2 with ⟨a, b, c⟩ | ⟨a, b, c⟩ | ⟨a, b, c⟩
    · rw [he] at b; exact absurd b (by decide)
    · exact key.1 a c
    · rw [he] at b; exact absurd b (by decide)

theorem unchecked_ok {b : Build} (h : ¬ b.Checked) (c : Bool) : assertDebug b c = .ok () := by
  rcases b with ⟨_ | _, _ | _, _ | _⟩ <;> cases c <;> first | rfl | exact absurd (by decide) h

/-- C91: `clamps` in a checked build rejects NaN as any of its arguments and bounds in the wrong order, and
otherwise returns the bound the value is beyond, or the value.  Without checks NaN is returned as it is. -/
theorem C91_clamp (b : Build) (x low high : FVal) :
    (b.Checked → (x = nan ∨ low = nan ∨ high = nan ∨ lt high low = true) →
      Scalar.clamps b F.scalar.toScalar isNan x low high = .trap b.kind) ∧
    (x ≠ nan → le low high = true →
      Scalar.clamps b F.scalar.toScalar isNan x low high =
        .ok (if lt x low then low else if lt high x then high else x)) ∧
    (¬ b.Checked → le low high = true → Scalar.clamps b F.scalar.toScalar isNan nan low high = .ok nan) := by
  have hlow : ∀ {x y : FVal}, le x y = true → x ≠ nan ∧ y ≠ nan ∧ lt y x = false := by
    intro x y h
    have hx : x ≠ nan := by rintro rfl; simp at h
    have hy : y ≠ nan := by rintro rfl; simp at h
    refine ⟨hx, hy, ?_⟩
    obtain ⟨e, c⟩ := (C91_compare x y).2 hx hy
    rcases c with ⟨_, _, c⟩ | ⟨_, _, c⟩ | ⟨c1, c2, _⟩
    · exact c
    · exact c
    · rw [h, c1, c2] at e; exact absurd e (by decide)
  have hn : ∀ {x : FVal}, x ≠ nan → isNan x = false := by
    intro x h; cases x <;> first | rfl | exact absurd rfl h
  refine ⟨fun hb h => ?_, fun hx h => ?_, fun hb h => ?_⟩
  · unfold Scalar.clamps
    show (assertDebug b (le low high) >>= _) = _
    by_cases hl : le low high = true
    · rw [hl, assertDebug_true, Res.ok_bind]
      obtain ⟨a1, a2, a3⟩ := hlow hl
      have : x = nan := by
        rcases h with h | h | h | h
        · exact h
        · exact absurd h a1
        · exact absurd h a2
        · rw [a3] at h; exact absurd h (by decide)
      subst this
      show (assertDebug b false >>= _) = _
      rw [assertDebug_false hb]; rfl
    · rw [Bool.not_eq_true] at hl
      rw [hl, assertDebug_false hb]; rfl
  · obtain ⟨a1, a2, a3⟩ := hlow h
    unfold Scalar.clamps
    show (assertDebug b (le low high) >>= _) = _
    rw [h, hn hx, hn a1, hn a2]
    simp only [Bool.not_false, assertDebug_true, Res.ok_bind]
    show (if lt high low = true then _ else _) = _
    rw [a3]; rfl
  · obtain ⟨a1, a2, a3⟩ := hlow h
    unfold Scalar.clamps
    show (assertDebug b (le low high) >>= _) = _
    simp only [unchecked_ok hb, Res.ok_bind]
    show (if lt high low = true then _ else Res.ok (if lt nan low = true then _ else if lt high nan = true then _ else _)) = _
    rw [a3, lt_nan_left, lt_nan_right]; rfl

/-- C91: `in_open` and `in_closed` are false for NaN; NaN as a bound is rejected by checked builds and makes them
false in the others. -/
theorem C91_interval (b : Build) (x low high : FVal) :
    (le low high = true →
      Scalar.inOpen b F.scalar.toScalar x low high = .ok (lt low x && lt x high) ∧
      Scalar.inClosed b F.scalar.toScalar x low high = .ok (le low x && le x high) ∧
      Scalar.inOpen b F.scalar.toScalar nan low high = .ok false ∧
      Scalar.inClosed b F.scalar.toScalar nan low high = .ok false) ∧
    ((low = nan ∨ high = nan) →
      (b.Checked → Scalar.inOpen b F.scalar.toScalar x low high = .trap b.kind ∧
        Scalar.inClosed b F.scalar.toScalar x low high = .trap b.kind) ∧
      (¬ b.Checked → Scalar.inOpen b F.scalar.toScalar x low high = .ok false ∧
        Scalar.inClosed b F.scalar.toScalar x low high = .ok false)) := by
  have e1 : ∀ x low high, Scalar.inOpen b F.scalar.toScalar x low high =
      (do assertDebug b (le low high); .ok (lt low x && lt x high)) := fun _ _ _ => rfl
  have e2 : ∀ x low high, Scalar.inClosed b F.scalar.toScalar x low high =
      (do assertDebug b (le low high); .ok (le low x && le x high)) := fun _ _ _ => rfl
  refine ⟨fun h => ?_, fun h => ?_⟩
  · simp only [e1, e2, h, assertDebug_true, Res.ok_bind, lt_nan_left, lt_nan_right, le_nan_left, le_nan_right,
      Bool.and_false, and_self]
  · have hl : le low high = false := by rcases h with rfl | rfl <;> simp
    have hlt : (lt low x && lt x high) = false := by rcases h with rfl | rfl <;> simp
    have hle : (le low x && le x high) = false := by rcases h with rfl | rfl <;> simp
    simp only [e1, e2, hl, hlt, hle]
    refine ⟨fun hb => ?_, fun hb => ?_⟩
    · rw [assertDebug_false hb]; exact ⟨rfl, rfl⟩
    · rw [unchecked_ok hb]; exact ⟨rfl, rfl⟩

/-- C91: `invs` of a zero is the infinity with its sign, and the other way round. -/
theorem C91_inv (s : Bool) :
    F.scalar.invs (fin s 0) = .ok (inf s) ∧ F.scalar.invs (inf s) = .ok (fin s 0) ∧
    F.scalar.invs nan = .ok nan := by
  refine ⟨?_, ?_, rfl⟩ <;> cases s <;> simp [Scalar.invs, Fmt.scalar, FVal.div]

/-! ### Comparisons with a tolerance -/

open ErrorTools

/-- C91: `within_tol_abs` is false when one of the numbers is NaN, and also for two equal infinities. -/
theorem C91_within_abs (b : Build) {tol : FVal} (ht : le (fin false 0) tol = true) (x y : FVal) (s : Bool) :
    withinTolAbs b F.scalar.toScalar nan y tol = .ok false ∧
    withinTolAbs b F.scalar.toScalar x nan tol = .ok false ∧
    withinTolAbs b F.scalar.toScalar (inf s) (inf s) tol = .ok false := by
  have e : ∀ x y, withinTolAbs b F.scalar.toScalar x y tol = .ok (le (absV (sub F x y)) tol) := by
    intro x y
    unfold withinTolAbs
    show (do assertDebug b (le (fin false 0) tol); let a ← F.scalar.abss (sub F x y); pure (le a tol)) = _
    rw [ht, assertDebug_true, Res.ok_bind, abss_ieee]; rfl
  refine ⟨?_, ?_, ?_⟩
  · rw [e, sub_nan_left]; simp [absV]
  · rw [e, sub_nan_right]; simp [absV]
  · have : sub F (inf s) (inf s) = nan := by cases s <;> rfl
    rw [e, this]; simp [absV]

/-- C91: `within_tol_rel` is not symmetric: NaN as the first number is accepted when the second one is near zero,
NaN as the second number never is.  Two equal infinities are not within a tolerance. -/
theorem C91_within_rel (b : Build) {tol nz : FVal} (ht : le (fin false 0) tol = true)
    (hz : le (fin false 0) nz = true) (x : FVal) (s : Bool) :
    withinTolRel b F.scalar.toScalar nan x tol nz = .ok (le (absV x) nz) ∧
    withinTolRel b F.scalar.toScalar x nan tol nz = .ok false ∧
    (nz ≠ inf false → withinTolRel b F.scalar.toScalar (inf s) (inf s) tol nz = .ok false) := by
  have e : ∀ x y, withinTolRel b F.scalar.toScalar x y tol nz =
      .ok (if le (F.scalar.maxs (absV x) (absV y)) nz then true
        else le (FVal.div F (absV (sub F x y)) (F.scalar.maxs (absV x) (absV y))) tol) := by
    intro x y
    unfold withinTolRel
    show (do
      assertDebug b (le (fin false 0) tol)
      assertDebug b (le (fin false 0) nz)
      let abs1 ← F.scalar.abss x
      let abs2 ← F.scalar.abss y
      if le (F.scalar.maxs abs1 abs2) nz then pure true
      else do
        let a ← F.scalar.abss (sub F x y)
        pure (le (FVal.div F a (F.scalar.maxs abs1 abs2)) tol)) = _
    rw [ht, hz, assertDebug_true, Res.ok_bind, Res.ok_bind, abss_ieee, abss_ieee, abss_ieee]
    simp only [Res.ok_bind]
    split <;> rfl
  have m1 : ∀ y, F.scalar.maxs (absV nan) y = y := fun y => ((C91_min_max (F := F) nan y).1 (Or.inl rfl)).2
  have m2 : ∀ y, F.scalar.maxs y (absV nan) = nan := fun y =>
    ((C91_min_max (F := F) y nan).1 (Or.inr (Or.inl rfl))).2
  refine ⟨?_, ?_, fun hnz => ?_⟩
  · rw [e, m1, sub_nan_left]
    show Res.ok (if le (absV x) nz = true then true else le (FVal.div F nan (absV x)) tol) = _
    rw [div_nan_left, le_nan_left]
    cases le (absV x) nz <;> rfl
  · rw [e, m2, sub_nan_right]
    show Res.ok (if le nan nz = true then true else le (FVal.div F nan nan) tol) = _
    simp
  · have h1 : sub F (inf s) (inf s) = nan := by cases s <;> rfl
    have h2 : F.scalar.maxs (absV (inf s)) (absV (inf s)) = inf false := rfl
    have h3 : le (inf false) nz = false := by
      rcases nz with _ | u | ⟨u, n⟩
      · simp
      · cases u
        · exact absurd rfl hnz
        · rfl
      · rfl
    rw [e, h1, h2, h3]
    show Res.ok (if false = true then true else le (FVal.div F nan (inf false)) tol) = _
    simp

/-- C91: `abs_error` and `rel_error` are NaN for NaN and for two equal infinities, except that `rel_error` gives no
value when one of the numbers is zero. -/
theorem C91_errors (x y : FVal) (s : Bool) :
    absError F.scalar.toScalar nan y = .ok nan ∧ absError F.scalar.toScalar x nan = .ok nan ∧
    absError F.scalar.toScalar (inf s) (inf s) = .ok nan ∧
    relError F.scalar.toScalar (inf s) (inf s) = .ok (some nan) ∧
    relError F.scalar.toScalar nan y = .ok (if FVal.eq y (fin false 0) then none else some nan) ∧
    relError F.scalar.toScalar x nan = .ok (if FVal.eq x (fin false 0) then none else some nan) := by
  have e : ∀ x y, absError F.scalar.toScalar x y = .ok (absV (sub F x y)) := fun x y => abss_ieee _
  have r : ∀ x y, relError F.scalar.toScalar x y =
      .ok (if FVal.eq x (fin false 0) || FVal.eq y (fin false 0) then none
        else some (absV (FVal.div F (sub F x y) y))) := by
    intro x y
    unfold relError
    show (if (FVal.eq x (fin false 0) || FVal.eq y (fin false 0)) = true then Res.ok none
      else (do let a ← F.scalar.abss (FVal.div F (sub F x y) y); pure (some a))) = _
    rw [abss_ieee]
    split <;> rfl
  have h1 : sub F (inf s) (inf s) = nan := by cases s <;> rfl
  refine ⟨?_, ?_, ?_, ?_, ?_, ?_⟩
  · rw [e, sub_nan_left]; rfl
  · rw [e, sub_nan_right]; rfl
  · rw [e, h1]; rfl
  · rw [r, h1, div_nan_left]; rfl
  · rw [r, sub_nan_left, div_nan_left, eq_nan_left, Bool.false_or]; rfl
  · rw [r, sub_nan_right, div_nan_left, eq_nan_left, Bool.or_false]; rfl

/-! ### Cases that meet the hypotheses -/

/-- Numbers without rounding up to 1000. -/
def tiny : Fmt := ⟨id, 1000, id, fun x _ => x⟩

-- the smaller one of NaN and 1, in both orders
example : tiny.scalar.mins nan (fin false 1) = fin false 1 ∧ tiny.scalar.mins (fin false 1) nan = nan :=
  ⟨((C91_min_max nan _).1 (Or.inl rfl)).1, ((C91_min_max _ nan).1 (Or.inr (Or.inl rfl))).1⟩

-- the smaller one of two zeros is the second
example : tiny.scalar.mins (fin false 0) (fin true 0) = fin true 0 :=
  ((C91_min_max _ _).1 (Or.inr (Or.inr (by decide +kernel)))).1

example : tiny.scalar.signs (fin true 7) = .ok (fin true 1) :=
  (C91_sign (F := tiny) rfl rfl (by decide +kernel) true (by norm_num : (0 : ℚ) < 7)).1

example : Scalar.clamps ⟨false, true, false⟩ tiny.scalar.toScalar isNan nan (fin false 0) (fin false 1) =
    .trap .exception :=
  (C91_clamp (F := tiny) ⟨false, true, false⟩ nan _ _).1 (by decide) (Or.inl rfl)

-- NaN is "relatively close" to zero, but zero not to NaN
example : withinTolRel ⟨false, true, false⟩ tiny.scalar.toScalar nan (fin false 0) (fin false 1) (fin false 1) =
      .ok true ∧
    withinTolRel ⟨false, true, false⟩ tiny.scalar.toScalar (fin false 0) nan (fin false 1) (fin false 1) =
      .ok false := by
  obtain ⟨h1, h2, _⟩ := C91_within_rel (F := tiny) ⟨false, true, false⟩ (tol := fin false 1) (nz := fin false 1)
    (by decide +kernel) (by decide +kernel) (fin false 0) true
  exact ⟨by rw [h1]; decide +kernel, h2⟩

end Spp.Props
