import Verif.Lemmas.FExpr
import Verif.Props.Expr
import Verif.Props.Backward

/-
C139: rounding errors of expressions.
-/

namespace Spp.Props

open Spec Lemmas

variable {p : Nat} {rn : ℚ → ℚ} {pow pow' : ℚ → ℚ → ℚ} {sqrt sqrt' : ℚ → ℚ}

theorem ftm_total {d : Dim} (e : FTm d) : (e.tm (rounded rn pow sqrt)).Total := by
  have op : ∀ (o : FOp) (x y : ℚ), o.op (rounded rn pow sqrt) x y ≠ .ub := by
    intro o x y
    cases o <;> exact fun h => by cases h
  have ar : Tm.Total.ArTotal (rounded rn pow sqrt).toArith :=
    ⟨fun _ _ h => (by cases h), fun _ _ h => (by cases h), fun _ _ h => (by cases h), fun _ _ h => (by cases h),
      fun _ h => (by cases h)⟩
  induction e with
  | lv l => trivial
  | view v e ih => exact ih
  | neg e ih => exact ⟨fun x h => (by cases h), ih⟩
  | abs e ih => exact ⟨fun x h => (by rw [abss_rounded] at h; cases h), ih⟩
  | bin o e1 e2 ih1 ih2 => exact ⟨op o, ih1, ih2⟩
  | left o c e ih => exact ⟨op o, ih⟩
  | right o e c ih => exact ⟨op o, ih⟩
  | divided e c ih => exact ⟨fun _ _ h => (by cases h), ih⟩
  | const1D n c => trivial
  | const2D m n c => trivial
  | merge e1 e2 ih1 ih2 => exact ⟨ih1, ih2⟩
  | append e c ih => exact ih
  | prepend c e ih => exact ih
  | exclude e pos count ih => exact ih
  | excludeLast e k ih => exact ih
  | matvec e x ih1 ih2 => exact ⟨ar, ih1, ih2⟩
  | bcast r e ih => exact ih
  | tensor e1 e2 ih1 ih2 => exact ⟨ar, ih1, ih2⟩
  | transpose e ih => exact ih
  | mergeH e1 e2 ih1 ih2 => exact ⟨ih1, ih2⟩
  | mergeV e1 e2 ih1 ih2 => exact ⟨ih1, ih2⟩

theorem SemR.flat {β γ δ : Type} {T : Res β → Res γ → Res δ → Prop} (h0 : T .ub .ub .ub) {d : Dim} {x : Sem β d}
    {y : Sem γ d} {z : Sem δ d} (h : SemR T x y z) : LR T x.flat y.flat z.flat := by
  cases d with
  | one => exact h
  | two => exact MR.flat h0 h

theorem SemR.dims {β γ δ : Type} {T : Res β → Res γ → Res δ → Prop} {d : Dim} {x : Sem β d}
    {y : Sem γ d} {z : Sem δ d} (h : SemR T x y z) : x.dims = y.dims := by
  cases d with
  | one => exact Prod.ext h.1 rfl
  | two => exact Prod.ext h.1.1 h.2.1.1

/-- C139: an expression accepted by the library has the elements of the exact expression up to the roundings that an
element goes through, relative to the same expression with magnitudes.  The elements are in row-major order. -/
theorem C139_elements (hp : 2 ≤ p) (h : NearestX p rn) {b : Build} (hb : b.Checked) {s : Store ℚ} (hs : Store.Ok s)
    {d : Dim} (e : FTm d) (hd : e.Divides) (hS : (e.tm (rounded rn pow sqrt)).Sound s) {a : Acc (Store ℚ) ℚ}
    (ha : (e.tm (rounded rn pow sqrt)).build b s = .ok a) :
    let exact := ((e.tm (rounded id pow' sqrt')).meaning s).flat
    let size := ((e.mag.tm (rounded id pow' sqrt')).meaning (magnitudes s)).flat
    a.size s = .ok (exact.length : Int) ∧
    ∀ i, i < exact.length → ∃ v V M, a.un s (i : Nat) = .ok v ∧ exact[i]? = some (.ok V) ∧ size[i]? = some (.ok M) ∧
      |v - V| ≤ ((1 + unit p) ^ e.roundings (rounded rn pow sqrt) s - 1) * M ∧ |V| ≤ M := by
  intro exact size
  obtain ⟨hV, hden⟩ := C43_accepted hb hs hS ha
  have hL := linDen_of (hden s (SameSizes.refl s))
  have hno := all_flat (Tm.noUb hs _ hS hV (ftm_total e))
  have hR := SemR.flat .ub (expr_rel (pow := pow) (sqrt := sqrt) (pow' := pow') (sqrt' := sqrt') (flX_nearestX hp h) s e hd)
  refine ⟨by rw [hL.1, hR.1], fun i hi => ?_⟩
  have hi1 : i < ((e.tm (rounded rn pow sqrt)).meaning s).flat.length := hR.1 ▸ hi
  have hi2 : i < size.length := hR.2.1 ▸ hi1
  have hE := hR.2.2 i
  rcases hE with ⟨h1, -, -⟩ | ⟨v, V, M, h1, h2, h3, h4⟩
  · exact absurd h1 (hno _ (getD_mem hi1))
  · refine ⟨v, V, M, by rw [hL.2 i hi1, h1], ?_, ?_, h4.1, h4.2⟩
    · rw [List.getElem?_eq_getElem hi, ← List.getD_eq_getElem _ .ub hi]
      exact congrArg some h2
    · rw [List.getElem?_eq_getElem hi2, ← List.getD_eq_getElem _ .ub hi2]
      exact congrArg some h3

/-- C139: without signs, differences and negative numbers the error is relative to the exact element. -/
theorem C139_relative (hp : 2 ≤ p) (h : NearestX p rn) {b : Build} (hb : b.Checked) {s : Store ℚ} (hs : Store.Ok s)
    {d : Dim} (e : FTm d) (hd : e.Divides) (hS : (e.tm (rounded rn pow sqrt)).Sound s) {a : Acc (Store ℚ) ℚ}
    (ha : (e.tm (rounded rn pow sqrt)).build b s = .ok a) (hpos : e.Positive)
    (hs1 : ∀ id, ∀ x ∈ s.a1 id, 0 ≤ x) (hs2 : ∀ id, ∀ x ∈ (s.a2 id).data, 0 ≤ x) :
    let exact := ((e.tm (rounded id pow' sqrt')).meaning s).flat
    ∀ i, i < exact.length → ∃ v V, a.un s (i : Nat) = .ok v ∧ exact[i]? = some (.ok V) ∧
      |v - V| ≤ ((1 + unit p) ^ e.roundings (rounded rn pow sqrt) s - 1) * |V| := by
  intro exact i hi
  obtain ⟨v, V, M, h1, h2, h3, h4, h5⟩ := (C139_elements (pow' := pow') (sqrt' := sqrt') hp h hb hs e hd hS ha).2 i hi
  have em : magnitudes s = s := by
    have key : ∀ l : List ℚ, (∀ x ∈ l, 0 ≤ x) → l.map (fun x => |x|) = l := fun l hl =>
      (List.map_congr_left fun x hx => abs_of_nonneg (hl x hx)).trans (List.map_id' l)
    unfold magnitudes
    cases s with
    | mk f g =>
      congr 1
      · funext id; exact key _ (hs1 id)
      · funext id
        show (⟨(g id).rows, (g id).cols, (g id).data.map _⟩ : Arr2 ℚ) = g id
        rw [key _ (hs2 id)]
  rw [hpos, em, h2] at h3
  cases h3
  exact ⟨v, V, h1, h2, h4.trans (mul_le_mul_of_nonneg_left (le_abs_self _) (growth_nonneg (flX_nearestX hp h).pos _))⟩

/-- C139: expressions that only rearrange elements, or change signs, are exact. -/
theorem C139_exact (hp : 2 ≤ p) (h : NearestX p rn) {b : Build} (hb : b.Checked) {s : Store ℚ} (hs : Store.Ok s)
    {d : Dim} (e : FTm d) (hd : e.Divides) (hS : (e.tm (rounded rn pow sqrt)).Sound s) {a : Acc (Store ℚ) ℚ}
    (ha : (e.tm (rounded rn pow sqrt)).build b s = .ok a) (h0 : e.roundings (rounded rn pow sqrt) s = 0) :
    let exact := ((e.tm (rounded id pow' sqrt')).meaning s).flat
    ∀ i, i < exact.length → ∃ v, a.un s (i : Nat) = .ok v ∧ exact[i]? = some (.ok v) := by
  intro exact i hi
  obtain ⟨v, V, M, h1, h2, h3, h4, h5⟩ := (C139_elements (pow' := pow') (sqrt' := sqrt') hp h hb hs e hd hS ha).2 i hi
  rw [h0, pow_zero, sub_self, zero_mul] at h4
  have := abs_nonpos_iff.1 h4
  rw [sub_eq_zero] at this
  exact ⟨v, h1, this ▸ h2⟩

theorem evalAll_ok {α : Type} (l : List (Res α)) (h : ∀ i, i < l.length → ∃ v, l.getD i .ub = .ok v) :
    ∃ vs, evalAll l = .ok vs ∧ l = vs.map Res.ok := by
  induction l with
  | nil => exact ⟨[], rfl, rfl⟩
  | cons r l ih =>
    obtain ⟨v, hv⟩ := h 0 (by simp)
    obtain ⟨vs, h1, h2⟩ := ih fun i hi => by simpa using h (i + 1) (by simpa using hi)
    have hr : r = .ok v := by simpa using hv
    refine ⟨v :: vs, ?_, by rw [hr, List.map_cons, ← h2]⟩
    rw [evalAll, hr, Res.ok_bind, h1]
    rfl

/-- C139: so has the array that the expression is evaluated to. -/
theorem C139_eval (hp : 2 ≤ p) (h : NearestX p rn) {b : Build} (hb : b.Checked) {s : Store ℚ} (hs : Store.Ok s)
    (e : FTm .one) (hd : e.Divides) (hS : (e.tm (rounded rn pow sqrt)).Sound s) {a : Acc (Store ℚ) ℚ}
    (ha : (e.tm (rounded rn pow sqrt)).build b s = .ok a) :
    let exact : List (Res ℚ) := (e.tm (rounded id pow' sqrt')).meaning s
    let size : List (Res ℚ) := (e.mag.tm (rounded id pow' sqrt')).meaning (magnitudes s)
    ∃ vs, a.eval1 b s = .ok vs ∧ vs.length = exact.length ∧
    ∀ i (hi : i < vs.length), ∃ V M, exact[i]? = some (.ok V) ∧ size[i]? = some (.ok M) ∧
      |vs[i] - V| ≤ ((1 + unit p) ^ e.roundings (rounded rn pow sqrt) s - 1) * M := by
  intro exact size
  obtain ⟨hV, hden⟩ := C43_accepted hb hs hS ha
  have hD : Den .one a s ((e.tm (rounded rn pow sqrt)).meaning s) := hden s (SameSizes.refl s)
  obtain ⟨hz, hE⟩ := C139_elements (pow' := pow') (sqrt' := sqrt') hp h hb hs e hd hS ha
  have hlen : List.length ((e.tm (rounded rn pow sqrt)).meaning s) = exact.length := by
    have := hD.2.1
    rw [hz] at this
    exact (Int.ofNat.inj (Res.ok.inj this)).symm
  obtain ⟨vs, h1, h2⟩ := evalAll_ok ((e.tm (rounded rn pow sqrt)).meaning s) fun i hi => by
    obtain ⟨v, _, _, h1, _⟩ := hE i (hlen ▸ hi)
    exact ⟨v, by rw [← h1]; exact (hD.2.2 i hi).symm⟩
  have hl : vs.length = exact.length := by
    rw [← hlen, h2, List.length_map]
  refine ⟨vs, (eval1_eq b hD).trans h1, hl, fun i hi => ?_⟩
  obtain ⟨v, V, M, e1, e2, e3, e4, -⟩ := hE i (hl ▸ hi)
  have ev : v = vs[i] := by
    have e5 := hD.2.2 i (by rw [hlen, ← hl]; exact hi)
    rw [e1] at e5
    have e6 : List.getD ((e.tm (rounded rn pow sqrt)).meaning s) i .ub = (vs.map Res.ok).getD i .ub := by rw [← h2]
    rw [e6] at e5
    simp [hi] at e5
    exact e5
  exact ⟨V, M, e2, e3, ev ▸ e4⟩

/-! ### Cases that meet the hypotheses -/

section

/-- The residual `x - A * x` of double precision, with `A = [[1, 2], [3, 4]]` and `x = (1, 1/2)`: four roundings, and the
second element of the computed array is within them of `1/2 - 5`, relative to `1/2 + 5`. -/
example : ∃ rn, NearestX 53 rn ∧ ∃ a vs,
    ((FTm.bin .sub (.lv (.arr1 0)) (.matvec (.lv (.arr2 0)) (.lv (.arr1 0)))).tm
      (rounded rn (fun x _ => x) id)).build ⟨false, true, false⟩ ratMat = .ok a ∧
    a.eval1 ⟨false, true, false⟩ ratMat = .ok vs ∧ ∃ h : 1 < vs.length,
      |vs[1] - (-9 / 2)| ≤ ((1 + unit 53) ^ 4 - 1) * (11 / 2) := by
  obtain ⟨rn, h⟩ := exists_nearestX (p := 53) (by norm_num)
  have hS : ((FTm.bin .sub (.lv (.arr1 0)) (.matvec (.lv (.arr2 0)) (.lv (.arr1 0)))).tm
      (rounded rn (fun x _ => x) id)).Sound ratMat := ⟨trivial, trivial, trivial⟩
  have e1 : ∃ a, ((FTm.bin .sub (.lv (.arr1 0)) (.matvec (.lv (.arr2 0)) (.lv (.arr1 0)))).tm
      (rounded rn (fun x _ => x) id)).build ⟨false, true, false⟩ ratMat = .ok a := ⟨_, rfl⟩
  obtain ⟨a, ha⟩ := e1
  obtain ⟨vs, h1, h2, h3⟩ := C139_eval (pow' := fun x _ => x) (sqrt' := id) (by norm_num) h (b := ⟨false, true, false⟩) ⟨rfl, .inl rfl⟩ ratMat_ok
    (.bin .sub (.lv (.arr1 0)) (.matvec (.lv (.arr2 0)) (.lv (.arr1 0)))) ⟨trivial, trivial, trivial⟩ hS ha
  have hl : vs.length = 2 := h2
  obtain ⟨V, M, k1, k2, k3⟩ := h3 1 (by omega)
  refine ⟨rn, h, a, vs, ha, h1, by omega, ?_⟩
  have q1 : (some (Res.ok V)) = some (Res.ok (1 / 2 - (0 + 3 * 1 + 4 * (1 / 2)) : ℚ)) := k1.symm.trans rfl
  have q2 : (some (Res.ok M)) = some (Res.ok (|(1 / 2 : ℚ)| + (0 + |(3 : ℚ)| * |(1 : ℚ)| + |(4 : ℚ)| * |(1 / 2 : ℚ)|))) := k2.symm.trans rfl
  cases q1
  cases q2
  rw [show (FTm.bin .sub (.lv (.arr1 0)) (.matvec (.lv (.arr2 0)) (.lv (.arr1 0)))).roundings
    (rounded rn (fun x _ => x) id) ratMat = 4 from rfl] at k3
  refine k3.trans' (le_of_eq ?_) |>.trans (le_of_eq ?_)
  · norm_num
  · norm_num

theorem ratMat_nonneg : (∀ id, ∀ x ∈ ratMat.a1 id, 0 ≤ x) ∧ ∀ id, ∀ x ∈ (ratMat.a2 id).data, 0 ≤ x := by
  constructor
  · intro id x hx
    by_cases h0 : id = 0
    · subst h0
      have : x ∈ ([1, 1 / 2] : List ℚ) := hx
      simp only [List.mem_cons, List.not_mem_nil, or_false] at this
      rcases this with rfl | rfl <;> norm_num
    · simp [ratMat, h0] at hx
  · intro id x hx
    by_cases h0 : id = 0
    · subst h0
      have : x ∈ ([1, 2, 3, 4] : List ℚ) := hx
      simp only [List.mem_cons, List.not_mem_nil, or_false] at this
      rcases this with rfl | rfl | rfl | rfl <;> norm_num
    · simp [ratMat, h0] at hx

/-- `3 * x + x` in single precision: two roundings, relative to the exact elements. -/
example : ∃ rn, NearestX 24 rn ∧ ∃ a v,
    ((FTm.bin .add (.left .mul 3 (.lv (.arr1 0))) (.lv (.arr1 0))).tm
      (rounded rn (fun x _ => x) id)).build ⟨false, true, false⟩ ratMat = .ok a ∧
    a.un ratMat 1 = .ok v ∧ |v - 2| ≤ ((1 + unit 24) ^ 2 - 1) * 2 := by
  obtain ⟨rn, h⟩ := exists_nearestX (p := 24) (by norm_num)
  have e1 : ∃ a, ((FTm.bin .add (.left .mul 3 (.lv (.arr1 0))) (.lv (.arr1 0))).tm
      (rounded rn (fun x _ => x) id)).build ⟨false, true, false⟩ ratMat = .ok a := ⟨_, rfl⟩
  obtain ⟨a, ha⟩ := e1
  obtain ⟨v, V, k1, k2, k3⟩ := C139_relative (pow := fun x _ => x) (sqrt := id) (pow' := fun x _ => x) (sqrt' := id) (by norm_num) h
    (b := ⟨false, true, false⟩) ⟨rfl, .inl rfl⟩ ratMat_ok
    (.bin .add (.left .mul 3 (.lv (.arr1 0))) (.lv (.arr1 0))) ⟨trivial, trivial⟩ ⟨trivial, trivial⟩ ha
    (by simp [FTm.Positive, FTm.mag, FOp.mag]) ratMat_nonneg.1 ratMat_nonneg.2 1 (by decide)
  have q1 : (some (Res.ok V)) = some (Res.ok (3 * (1 / 2) + 1 / 2 : ℚ)) := k2.symm.trans rfl
  cases q1
  rw [show (FTm.bin .add (.left .mul 3 (.lv (.arr1 0))) (.lv (.arr1 0))).roundings
    (rounded rn (fun x _ => x) id) ratMat = 2 from rfl] at k3
  refine ⟨rn, h, a, v, ha, k1, ?_⟩
  norm_num at k3 ⊢
  exact k3

/-- The transposed matrix with its signs changed, side by side with the matrix: exact. -/
example : ∃ rn, NearestX 24 rn ∧ ∃ a,
    ((FTm.mergeH (.neg (.transpose (.lv (.arr2 0)))) (.lv (.arr2 0))).tm
      (rounded rn (fun x _ => x) id)).build ⟨false, true, false⟩ ratMat = .ok a ∧ a.un ratMat 1 = .ok (-3) := by
  obtain ⟨rn, h⟩ := exists_nearestX (p := 24) (by norm_num)
  have e1 : ∃ a, ((FTm.mergeH (.neg (.transpose (.lv (.arr2 0)))) (.lv (.arr2 0))).tm
      (rounded rn (fun x _ => x) id)).build ⟨false, true, false⟩ ratMat = .ok a := ⟨_, rfl⟩
  obtain ⟨a, ha⟩ := e1
  obtain ⟨v, k1, k2⟩ := C139_exact (pow := fun x _ => x) (sqrt := id) (pow' := fun x _ => x) (sqrt' := id) (by norm_num) h
    (b := ⟨false, true, false⟩) ⟨rfl, .inl rfl⟩ ratMat_ok
    (.mergeH (.neg (.transpose (.lv (.arr2 0)))) (.lv (.arr2 0))) ⟨trivial, trivial⟩ ⟨trivial, trivial, show ((2 * 4 : Nat) : Int) < 2 ^ 63 - 1 ∧ (2 = 0 ↔ 4 = 0) by decide⟩
    ha rfl 1 (by decide)
  have q1 : (some (Res.ok v)) = some (Res.ok (-3 : ℚ)) := k2.symm.trans rfl
  cases q1
  exact ⟨rn, h, a, ha, k1⟩

end

end Spp.Props
