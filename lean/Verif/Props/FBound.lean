import Verif.Lemmas.FBound
import Verif.Props.FExpr

/-
C140: errors and overflow of expressions in IEEE arithmetic.
-/

namespace Spp.Props

open Spec Lemmas FVal

variable {p : Nat} {emin : Int} {F : Fmt} {pow : ℚ → ℚ → ℚ} {sqrt : ℚ → ℚ}

/-- The exact expression is the one of C139. -/
theorem text_exact {d : Dim} (e : FTm d) (fs : FScalar ℚ) : e.text fs id = e.tm fs := by
  have op : ∀ o : FOp, o.run fs = o.op fs := fun o => by cases o <;> rfl
  induction e <;> simp_all [FTm.text, FTm.tm]

theorem text_total {d : Dim} (e : FTm d) : (e.text F.scalar literal).Total := by
  have op : ∀ (o : FOp) (x y : FVal), o.run F.scalar x y ≠ .ub := by
    intro o x y
    cases o <;> exact fun h => by cases h
  have ar : Tm.Total.ArTotal F.scalar.toArith :=
    ⟨fun _ _ h => (by cases h), fun _ _ h => (by cases h), fun _ _ h => (by cases h), fun _ _ h => (by cases h),
      fun _ h => (by cases h)⟩
  induction e with
  | lv l => trivial
  | view v e ih => exact ih
  | neg e ih => exact ⟨fun x h => (by cases h), ih⟩
  | abs e ih => exact ⟨fun x h => (by rw [abss_ieee] at h; cases h), ih⟩
  | bin o e1 e2 ih1 ih2 => exact ⟨op o, ih1, ih2⟩
  | left o c e ih => exact ⟨op o, ih⟩
  | right o e c ih => exact ⟨op o, ih⟩
  | divided e c ih => exact ⟨fun _ _ h => (by cases h), ih⟩
  | const1D n c => trivial
  | const2D m n c => trivial
  | merge e1 e2 ih1 ih2 => exact ⟨ih1, ih2⟩
  | append e c ih => exact ih
  | prepend c e ih => exact ih
  | exclude e pos count ih => exact ih
  | excludeLast e k ih => exact ih
  | matvec e x ih1 ih2 => exact ⟨ar, ih1, ih2⟩
  | bcast r e ih => exact ih
  | tensor e1 e2 ih1 ih2 => exact ⟨ar, ih1, ih2⟩
  | transpose e ih => exact ih
  | mergeH e1 e2 ih1 ih2 => exact ⟨ih1, ih2⟩
  | mergeV e1 e2 ih1 ih2 => exact ⟨ih1, ih2⟩

/-- Every element of an accepted expression, with the exact one and its bounds. -/
theorem bound_elements {Q : Prop} (hp : 1 ≤ p) (hF : IsFmt p emin F) {b : Build} (hb : b.Checked) {s : Store FVal}
    (hs : Store.Ok s) (h1 : ∀ id, Inputs p emin F Q (s.a1 id)) (h2 : ∀ id, Inputs p emin F Q (s.a2 id).data)
    {d : Dim} (e : FTm d) (hl : e.Literals (Rep p emin)) (hd : Q → e.Divides)
    (hS : (e.text F.scalar literal).Sound s) {a : Acc (Store FVal) FVal}
    (ha : (e.text F.scalar literal).build b s = .ok a) :
    let exact := ((e.tm (rounded id pow sqrt)).meaning (numbersOf s)).flat
    let bound := ((e.text (Bound.scalar p emin) Bound.exact).meaning (inputs s)).flat
    a.size s = .ok (exact.length : Int) ∧
    ∀ i, i < exact.length → ∃ v V B, a.un s (i : Nat) = .ok v ∧ exact[i]? = some (.ok V) ∧ bound[i]? = some (.ok B) ∧
      Within emin F Q v V B := by
  intro exact bound
  obtain ⟨hV, hden⟩ := C43_accepted hb hs hS ha
  have hL := linDen_of (hden s (SameSizes.refl s))
  have hno := all_flat (Tm.noUb hs _ hS hV (text_total e))
  have hR := SemR.flat .ub (bound_rel (pow := pow) (sqrt := sqrt) hp hF h1 h2 e hl hd)
  rw [text_exact] at hR
  refine ⟨by rw [hL.1, hR.1], fun i hi => ?_⟩
  have hi1 : i < ((e.text F.scalar literal).meaning s).flat.length := hR.1 ▸ hi
  have hi2 : i < bound.length := hR.2.1 ▸ hi1
  rcases hR.2.2 i with ⟨h1, -, -⟩ | ⟨v, V, B, h1, h2, h3, h4⟩
  · exact absurd h1 (hno _ (getD_mem hi1))
  · refine ⟨v, V, B, by rw [hL.2 i hi1, h1], ?_, ?_, h4⟩
    · rw [List.getElem?_eq_getElem hi, ← List.getD_eq_getElem _ .ub hi]
      exact congrArg some h2
    · rw [List.getElem?_eq_getElem hi2, ← List.getD_eq_getElem _ .ub hi2]
      exact congrArg some h3

/-- C140: whatever values the arrays hold, the elements of an accepted expression that are finite are as close to the
exact elements as the expression evaluated with bounds says.  The elements are in row-major order. -/
theorem C140_errors (hp : 1 ≤ p) (hF : IsFmt p emin F) {b : Build} (hb : b.Checked) {s : Store FVal}
    (hs : Store.Ok s) (h1 : ∀ id, ∀ x ∈ s.a1 id, Held p emin F x) (h2 : ∀ id, ∀ x ∈ (s.a2 id).data, Held p emin F x)
    {d : Dim} (e : FTm d) (hl : e.Literals (Rep p emin)) (hS : (e.text F.scalar literal).Sound s)
    {a : Acc (Store FVal) FVal} (ha : (e.text F.scalar literal).build b s = .ok a) :
    let exact := ((e.tm (rounded id pow sqrt)).meaning (numbersOf s)).flat
    let bound := ((e.text (Bound.scalar p emin) Bound.exact).meaning (inputs s)).flat
    a.size s = .ok (exact.length : Int) ∧
    ∀ i, i < exact.length → ∃ v V B, a.un s (i : Nat) = .ok v ∧ exact[i]? = some (.ok V) ∧ bound[i]? = some (.ok B) ∧
      |V| ≤ B.size ∧ (v.isFinite = true → |v.val - V| ≤ B.err) := by
  intro exact bound
  obtain ⟨k1, k2⟩ := bound_elements (Q := False) (pow := pow) (sqrt := sqrt) hp hF hb hs
    (fun id x hx => ⟨h1 id x hx, False.elim⟩) (fun id x hx => ⟨h2 id x hx, False.elim⟩) e hl False.elim hS ha
  refine ⟨k1, fun i hi => ?_⟩
  obtain ⟨v, V, B, g1, g2, g3, g4⟩ := k2 i hi
  exact ⟨v, V, B, g1, g2, g3, g4.1, fun hf => (g4.2.2.1 hf).2⟩

/-- C140: if all elements are finite, no number in the text that is divided by is zero and the magnitudes of the numbers
that are computed stay within the largest number, as the expression evaluated with bounds says, then nothing overflows
and the element is finite and that close to the exact one. -/
theorem C140_no_overflow (hp : 1 ≤ p) (hF : IsFmt p emin F) {b : Build} (hb : b.Checked) {s : Store FVal}
    (hs : Store.Ok s) (h1 : ∀ id, ∀ x ∈ s.a1 id, Held p emin F x ∧ x.isFinite = true)
    (h2 : ∀ id, ∀ x ∈ (s.a2 id).data, Held p emin F x ∧ x.isFinite = true)
    {d : Dim} (e : FTm d) (hl : e.Literals (Rep p emin)) (hd : e.Divides) (hS : (e.text F.scalar literal).Sound s)
    {a : Acc (Store FVal) FVal} (ha : (e.text F.scalar literal).build b s = .ok a) :
    let exact := ((e.tm (rounded id pow sqrt)).meaning (numbersOf s)).flat
    let bound := ((e.text (Bound.scalar p emin) Bound.exact).meaning (inputs s)).flat
    ∀ i, i < exact.length → ∃ v V B, a.un s (i : Nat) = .ok v ∧ exact[i]? = some (.ok V) ∧ bound[i]? = some (.ok B) ∧
      (B.peak ≤ F.top → v.isFinite = true ∧ |v.val - V| ≤ B.err) := by
  intro exact bound i hi
  obtain ⟨v, V, B, g1, g2, g3, g4⟩ := (bound_elements (Q := True) (pow := pow) (sqrt := sqrt) hp hF hb hs
    (fun id x hx => ⟨(h1 id x hx).1, fun _ => (h1 id x hx).2⟩) (fun id x hx => ⟨(h2 id x hx).1, fun _ => (h2 id x hx).2⟩)
    e hl (fun _ => hd) hS ha).2 i hi
  exact ⟨v, V, B, g1, g2, g3, fun hB => ⟨g4.2.2.2 trivial hB, (g4.2.2.1 (g4.2.2.2 trivial hB)).2⟩⟩

/-- C140: so has the array that the expression is evaluated to. -/
theorem C140_eval (hp : 1 ≤ p) (hF : IsFmt p emin F) {b : Build} (hb : b.Checked) {s : Store FVal}
    (hs : Store.Ok s) (h1 : ∀ id, ∀ x ∈ s.a1 id, Held p emin F x) (h2 : ∀ id, ∀ x ∈ (s.a2 id).data, Held p emin F x)
    (e : FTm .one) (hl : e.Literals (Rep p emin)) (hS : (e.text F.scalar literal).Sound s)
    {a : Acc (Store FVal) FVal} (ha : (e.text F.scalar literal).build b s = .ok a) :
    let exact : List (Res ℚ) := (e.tm (rounded id pow sqrt)).meaning (numbersOf s)
    let bound : List (Res Bound) := (e.text (Bound.scalar p emin) Bound.exact).meaning (inputs s)
    ∃ vs, a.eval1 b s = .ok vs ∧ vs.length = exact.length ∧
    ∀ i (hi : i < vs.length), ∃ V B, exact[i]? = some (.ok V) ∧ bound[i]? = some (.ok B) ∧
      (vs[i].isFinite = true → |vs[i].val - V| ≤ B.err) := by
  intro exact bound
  obtain ⟨hV, hden⟩ := C43_accepted hb hs hS ha
  have hD : Den .one a s ((e.text F.scalar literal).meaning s) := hden s (SameSizes.refl s)
  obtain ⟨hz, hE⟩ := C140_errors (pow := pow) (sqrt := sqrt) hp hF hb hs h1 h2 e hl hS ha
  have hlen : List.length ((e.text F.scalar literal).meaning s) = exact.length := by
    have := hD.2.1
    rw [hz] at this
    exact (Int.ofNat.inj (Res.ok.inj this)).symm
  obtain ⟨vs, h1, h2⟩ := evalAll_ok ((e.text F.scalar literal).meaning s) fun i hi => by
    obtain ⟨v, _, _, h1, _⟩ := hE i (hlen ▸ hi)
    exact ⟨v, by rw [← h1]; exact (hD.2.2 i hi).symm⟩
  have hl : vs.length = exact.length := by
    rw [← hlen, h2, List.length_map]
  refine ⟨vs, (eval1_eq b hD).trans h1, hl, fun i hi => ?_⟩
  obtain ⟨v, V, B, e1, e2, e3, -, e4⟩ := hE i (hl ▸ hi)
  have ev : v = vs[i] := by
    have e5 := hD.2.2 i (by rw [hlen, ← hl]; exact hi)
    rw [e1] at e5
    have e6 : List.getD ((e.text F.scalar literal).meaning s) i .ub = (vs.map Res.ok).getD i .ub := by rw [← h2]
    rw [e6] at e5
    simp [hi] at e5
    exact e5
  exact ⟨V, B, e2, e3, ev ▸ e4⟩

/-! ### Cases that meet the hypotheses -/

section

/-- An array with the elements 1 and 1/2. -/
def halves : Store FVal where
  a1 := fun id => if id = 0 then [.fin false 1, .fin false (1 / 2)] else []
  a2 := fun _ => ⟨0, 0, []⟩

theorem halves_ok : Store.Ok halves := by
  constructor
  · intro id
    show (((if id = 0 then [.fin false 1, .fin false (1 / 2)] else [] : List FVal)).length : Int) < 2 ^ 63 - 1
    split <;> decide
  · intro id
    exact ⟨⟨by simp [halves], by simp [halves], by simp [halves], by simp [halves]⟩, by simp [halves]⟩

theorem halves_held (hF : IsFmt 24 (-149) F) :
    (∀ id, ∀ x ∈ halves.a1 id, Held 24 (-149) F x ∧ x.isFinite = true) ∧
    ∀ id, ∀ x ∈ (halves.a2 id).data, Held 24 (-149) F x ∧ x.isFinite = true := by
  constructor
  · intro id x hx
    by_cases h0 : id = 0
    · subst h0
      have : x ∈ ([.fin false 1, .fin false (1 / 2)] : List FVal) := hx
      have ht := hF.one
      simp only [List.mem_cons, List.not_mem_nil, or_false] at this
      rcases this with rfl | rfl
      · exact ⟨⟨by norm_num, ht, 1, 0, by norm_num, by norm_num, by norm_num⟩, rfl⟩
      · exact ⟨⟨by norm_num, by linarith, 1, -1, by norm_num, by norm_num, by norm_num⟩, rfl⟩
    · simp [halves, h0] at hx
  · intro id x hx
    simp [halves] at hx

/-- `3 * x + x` in single precision does not overflow for `x = (1, 1/2)`, and the second element is within `2⁻²¹` of 2. -/
example : ∃ F, IsFmt 24 (-149) F ∧ F.top = (2 ^ 24 - 1) * 2 ^ 104 ∧ ∃ a v,
    ((FTm.bin .add (.left .mul 3 (.lv (.arr1 0))) (.lv (.arr1 0))).text F.scalar literal).build
      ⟨false, true, false⟩ halves = .ok a ∧
    a.un halves 1 = .ok v ∧ v.isFinite = true ∧ |v.val - 2| ≤ 1 / 2 ^ 21 := by
  obtain ⟨rn0, h0⟩ := exists_nearest (p := 24) (by norm_num) (-149)
  obtain ⟨rn, h, ho⟩ := exists_odd h0
  let F : Fmt := ⟨rn, (2 ^ 24 - 1) * 2 ^ 104, id, fun x _ => x⟩
  have hF : IsFmt 24 (-149) F :=
    ⟨h, ho, ⟨2 ^ 24 - 1, 104, by norm_num, by norm_num, by norm_num [F]⟩, by norm_num [F]⟩
  have e1 : ∃ a, ((FTm.bin .add (.left .mul 3 (.lv (.arr1 0))) (.lv (.arr1 0))).text F.scalar literal).build
      ⟨false, true, false⟩ halves = .ok a := ⟨_, rfl⟩
  obtain ⟨a, ha⟩ := e1
  have hh := halves_held hF
  obtain ⟨v, V, B, k1, k2, k3, k4⟩ := C140_no_overflow (pow := fun x _ => x) (sqrt := id) (by norm_num) hF
    (b := ⟨false, true, false⟩) ⟨rfl, .inl rfl⟩ halves_ok hh.1 hh.2
    (.bin .add (.left .mul 3 (.lv (.arr1 0))) (.lv (.arr1 0)))
    ⟨⟨⟨3, 0, by norm_num, by norm_num, by norm_num⟩, trivial⟩, trivial⟩ ⟨trivial, trivial⟩ ⟨trivial, trivial⟩ ha 1 (by decide)
  have q1 : (some (Res.ok V)) = some (Res.ok (3 * (1 / 2) + 1 / 2 : ℚ)) := k2.symm.trans rfl
  cases q1
  have q2 : (some (Res.ok B)) = some (Res.ok (Bound.add 24 (Bound.mul 24 (-149) (Bound.exact 3) (Bound.exact (1 / 2)))
    (Bound.exact (1 / 2)))) := k3.symm.trans rfl
  cases q2
  have hB : (Bound.add 24 (Bound.mul 24 (-149) (Bound.exact 3) (Bound.exact (1 / 2))) (Bound.exact (1 / 2))).peak ≤ F.top := by
    norm_num [Bound.add, Bound.mul, Bound.exact, Bound.rounded, unit, F]
  obtain ⟨k5, k6⟩ := k4 hB
  refine ⟨F, hF, rfl, a, v, ha, k1, k5, ?_⟩
  rw [show (3 * (1 / 2) + 1 / 2 : ℚ) = 2 by norm_num] at k6
  refine k6.trans ?_
  norm_num [Bound.add, Bound.mul, Bound.exact, Bound.rounded, unit]

end

end Spp.Props
