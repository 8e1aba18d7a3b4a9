import Verif.Lemmas.Fused
import Verif.Props.FBound

/-
C141: contraction of products and sums by the compiler.
-/

namespace Spp.Props

open Spec Lemmas FVal

variable {p : Nat} {emin : Int} {F : Fmt} {pow : ℚ → ℚ → ℚ} {sqrt : ℚ → ℚ}

theorem each_self (s : Store FVal) : Store.each (fun x => plain F (.elem x)) s = s := by
  unfold Store.each
  cases s with
  | mk f g =>
    congr 1
    · funext id; exact List.map_id' _
    · funext id
      show (⟨(g id).rows, (g id).cols, (g id).data.map fun x => x⟩ : Arr2 FVal) = g id
      rw [List.map_id']

/-- Every element of an accepted expression, its formula, the exact one and its bounds. -/
theorem formula_elements {Q : Prop} (hp : 1 ≤ p) (hF : IsFmt p emin F) {b : Build} (hb : b.Checked) {s : Store FVal}
    (hs : Store.Ok s) (h1 : ∀ id, Inputs p emin F Q (s.a1 id)) (h2 : ∀ id, Inputs p emin F Q (s.a2 id).data)
    {d : Dim} (e : FTm d) (hl : e.Literals (Rep p emin)) (hd : Q → e.Divides)
    (hS : (e.text F.scalar literal).Sound s) {a : Acc (Store FVal) FVal}
    (ha : (e.text F.scalar literal).build b s = .ok a) :
    let exact := ((e.tm (rounded id pow sqrt)).meaning (numbersOf s)).flat
    let bound := ((e.text (Bound.scalar p emin) Bound.exact).meaning (inputs s)).flat
    let formula := (e.formulas.meaning (symbols s)).flat
    formula.length = exact.length ∧
    ∀ i, i < exact.length → ∃ t v V B, formula[i]? = some (.ok t) ∧ a.un s (i : Nat) = .ok v ∧ t.Computes F v ∧
      exact[i]? = some (.ok V) ∧ bound[i]? = some (.ok B) ∧ ∀ w, t.Computes F w → Within emin F Q w V B := by
  intro exact bound formula
  obtain ⟨-, hE⟩ := bound_elements (pow := pow) (sqrt := sqrt) hp hF hb hs h1 h2 e hl hd hS ha
  have g0 : Good p emin F Q (.elem (.fin false 0)) :=
    ⟨⟨le_rfl, by have := hF.one; linarith, rep_zero⟩, fun _ => rfl⟩
  obtain ⟨hV, hden⟩ := C43_accepted hb hs hS ha
  have hL := linDen_of (hden s (SameSizes.refl s))
  have R1 := SemR.flat .ub (hom_rel (p := p) (emin := emin) (F := F) (plain_hom (F := F)) (exactly_hom (pow := pow) (sqrt := sqrt))
    g0 h1 h2 e hl hd)
  have R2 := SemR.flat .ub (hom_rel (p := p) (emin := emin) (F := F) (bounds_hom (p := p) (emin := emin))
    (exactly_hom (pow := pow) (sqrt := sqrt)) g0 h1 h2 e hl hd)
  rw [each_self, text_exact] at R1
  rw [text_exact] at R2
  refine ⟨R1.2.1, fun i hi => ?_⟩
  obtain ⟨v, V, B, k1, k2, k3, -⟩ := hE i hi
  have hi0 : i < formula.length := R1.2.1.symm ▸ hi
  have hi1 : i < ((e.text F.scalar literal).meaning s).flat.length := R1.1 ▸ hi0
  have hi2 : i < bound.length := R2.1 ▸ hi0
  have q2 : exact.getD i .ub = .ok V := by
    rw [List.getD_eq_getElem?_getD]; exact congrArg (fun o => Option.getD o Res.ub) k2
  have q3 : bound.getD i .ub = .ok B := by
    rw [List.getD_eq_getElem?_getD]; exact congrArg (fun o => Option.getD o Res.ub) k3
  rcases R2.2.2 i with ⟨-, h, -⟩ | ⟨t, e1, e2, e3, e4⟩
  · rw [show bound.getD i .ub = .ub from h] at q3
    cases q3
  rcases R1.2.2 i with ⟨-, -, h⟩ | ⟨t', f1, f2, f3, -⟩
  · rw [show exact.getD i .ub = .ub from h] at q2
    cases q2
  have et : t' = t := Res.ok.inj (f1.symm.trans e1)
  subst et
  have eB : B = bounds p emin t' := Res.ok.inj (q3.symm.trans e2)
  have eV : V = exactly t' := Res.ok.inj (q2.symm.trans e3)
  subst eB eV
  refine ⟨t', plain F t', _, _, ?_, by rw [hL.2 i hi1]; exact f2, computes_plain t', k2, k3,
    fun w hw => (computes_within hp hF t' e4).1 w hw⟩
  rw [List.getElem?_eq_getElem hi0, ← List.getD_eq_getElem _ .ub hi0]
  exact congrArg some e1

/-- C141: whichever products the compiler fuses with sums and differences, in whichever elements, the computed element
satisfies the bounds of C140 if it is finite.  The element computed without contraction is one of those that may be
computed. -/
theorem C141_errors (hp : 1 ≤ p) (hF : IsFmt p emin F) {b : Build} (hb : b.Checked) {s : Store FVal}
    (hs : Store.Ok s) (h1 : ∀ id, ∀ x ∈ s.a1 id, Held p emin F x) (h2 : ∀ id, ∀ x ∈ (s.a2 id).data, Held p emin F x)
    {d : Dim} (e : FTm d) (hl : e.Literals (Rep p emin)) (hS : (e.text F.scalar literal).Sound s)
    {a : Acc (Store FVal) FVal} (ha : (e.text F.scalar literal).build b s = .ok a) :
    let exact := ((e.tm (rounded id pow sqrt)).meaning (numbersOf s)).flat
    let bound := ((e.text (Bound.scalar p emin) Bound.exact).meaning (inputs s)).flat
    let formula := (e.formulas.meaning (symbols s)).flat
    formula.length = exact.length ∧
    ∀ i, i < exact.length → ∃ t v V B, formula[i]? = some (.ok t) ∧ a.un s (i : Nat) = .ok v ∧ t.Computes F v ∧
      exact[i]? = some (.ok V) ∧ bound[i]? = some (.ok B) ∧
      ∀ w, t.Computes F w → w.isFinite = true → |w.val - V| ≤ B.err := by
  intro exact bound formula
  obtain ⟨k0, k1⟩ := formula_elements (Q := False) (pow := pow) (sqrt := sqrt) hp hF hb hs
    (fun id x hx => ⟨h1 id x hx, False.elim⟩) (fun id x hx => ⟨h2 id x hx, False.elim⟩) e hl False.elim hS ha
  refine ⟨k0, fun i hi => ?_⟩
  obtain ⟨t, v, V, B, g1, g2, g3, g4, g5, g6⟩ := k1 i hi
  exact ⟨t, v, V, B, g1, g2, g3, g4, g5, fun w hw hf => ((g6 w hw).2.2.1 hf).2⟩

/-- C141: contraction does not make an expression overflow that does not overflow by the bounds of C140; and the results
of any two compilations differ by at most twice the error. -/
theorem C141_no_overflow (hp : 1 ≤ p) (hF : IsFmt p emin F) {b : Build} (hb : b.Checked) {s : Store FVal}
    (hs : Store.Ok s) (h1 : ∀ id, ∀ x ∈ s.a1 id, Held p emin F x ∧ x.isFinite = true)
    (h2 : ∀ id, ∀ x ∈ (s.a2 id).data, Held p emin F x ∧ x.isFinite = true)
    {d : Dim} (e : FTm d) (hl : e.Literals (Rep p emin)) (hd : e.Divides) (hS : (e.text F.scalar literal).Sound s)
    {a : Acc (Store FVal) FVal} (ha : (e.text F.scalar literal).build b s = .ok a) :
    let exact := ((e.tm (rounded id pow sqrt)).meaning (numbersOf s)).flat
    let bound := ((e.text (Bound.scalar p emin) Bound.exact).meaning (inputs s)).flat
    let formula := (e.formulas.meaning (symbols s)).flat
    ∀ i, i < exact.length → ∃ t V B, formula[i]? = some (.ok t) ∧ exact[i]? = some (.ok V) ∧ bound[i]? = some (.ok B) ∧
      (B.peak ≤ F.top → ∀ w, t.Computes F w → w.isFinite = true ∧ |w.val - V| ≤ B.err ∧
        ∀ w', t.Computes F w' → |w.val - w'.val| ≤ 2 * B.err) := by
  intro exact bound formula i hi
  obtain ⟨t, v, V, B, g1, g2, g3, g4, g5, g6⟩ := (formula_elements (Q := True) (pow := pow) (sqrt := sqrt) hp hF hb hs
    (fun id x hx => ⟨(h1 id x hx).1, fun _ => (h1 id x hx).2⟩) (fun id x hx => ⟨(h2 id x hx).1, fun _ => (h2 id x hx).2⟩)
    e hl (fun _ => hd) hS ha).2 i hi
  refine ⟨t, V, B, g1, g4, g5, fun hB w hw => ?_⟩
  have key : ∀ w, t.Computes F w → w.isFinite = true ∧ |w.val - V| ≤ B.err := fun w hw =>
    have hf := (g6 w hw).2.2.2 trivial hB
    ⟨hf, ((g6 w hw).2.2.1 hf).2⟩
  refine ⟨(key w hw).1, (key w hw).2, fun w' hw' => ?_⟩
  have := abs_sub_le w.val V w'.val
  rw [abs_sub_comm V] at this
  linarith [(key w hw).2, (key w' hw').2]

/-! ### Contraction is visible -/

theorem not_rep_nine : ¬ Rep 2 (-4) (9 / 4) := by
  rintro ⟨m, e, h1, h2, h3⟩
  obtain ⟨k, rfl⟩ : ∃ k : Nat, e = (k : Int) - 4 := ⟨(e + 4).toNat, by omega⟩
  have h4 : m * 2 ^ k = 36 := by
    have : (m : ℚ) * 2 ^ k = 36 := by
      rw [zpow_sub₀ (by norm_num), zpow_natCast] at h3
      norm_num at h3
      linarith
    exact_mod_cast this
  have h5 : |m| ≤ 3 := by
    have : |m| < 4 := by simpa using h1
    omega
  obtain ⟨h6, h7⟩ := abs_le.1 h5
  rcases Nat.lt_or_ge k 3 with hk | hk
  · obtain rfl | rfl | rfl : k = 0 ∨ k = 1 ∨ k = 2 := by omega
    all_goals norm_num at h4; omega
  · obtain ⟨j, rfl⟩ := Nat.exists_eq_add_of_le hk
    rw [pow_add] at h4
    generalize (2 : Int) ^ j = q at h4
    have : m * q * 8 = 36 := by linarith
    omega

/-- C141: contraction can be seen.  There is a format and an array `A` such that `A * A - A * A` is zero without
contraction, while a compiler that fuses may compute a number other than zero. -/
theorem C141_visible : ∃ F, IsFmt 2 (-4) F ∧ ∃ (s : Store FVal) (t : Formula) (v w : FVal),
    (∀ id, ∀ x ∈ s.a1 id, Held 2 (-4) F x ∧ x.isFinite = true) ∧
    ((FTm.bin .sub (.bin .mul (.lv (.arr1 0)) (.lv (.arr1 0))) (.bin .mul (.lv (.arr1 0)) (.lv (.arr1 0)))).formulas.meaning
      (symbols s)).flat = [.ok t] ∧
    (∃ a, ((FTm.bin .sub (.bin .mul (.lv (.arr1 0)) (.lv (.arr1 0))) (.bin .mul (.lv (.arr1 0)) (.lv (.arr1 0)))).text
      F.scalar literal).build ⟨false, true, false⟩ s = .ok a ∧ a.un s 0 = .ok v) ∧
    v.isFinite = true ∧ v.val = 0 ∧ t.Computes F w ∧ w.isFinite = true ∧ w.val ≠ 0 := by
  obtain ⟨rn0, h0⟩ := exists_nearest (p := 2) (by norm_num) (-4)
  obtain ⟨rn, h, ho⟩ := exists_odd h0
  let F : Fmt := ⟨rn, 12, id, fun x _ => x⟩
  have hF : IsFmt 2 (-4) F := ⟨h, ho, ⟨3, 2, by norm_num, by norm_num, by norm_num [F]⟩, by norm_num [F]⟩
  let x : FVal := .fin false (3 / 2)
  have r1 : |rn (9 / 4) - 9 / 4| ≤ 1 / 4 := by
    have := h.near (9 / 4) 2 ⟨1, 1, by norm_num, by norm_num, by norm_num⟩
    rw [abs_sub_comm]
    refine this.trans ?_
    norm_num
  have r2 : rn (9 / 4) ≠ 9 / 4 := fun he => not_rep_nine (he ▸ h.rep (9 / 4))
  obtain ⟨r3, r4⟩ := abs_le.1 r1
  have hx : x.isFinite = true := rfl
  have hxx : x.val * x.val = 9 / 4 := by norm_num [x, val]
  have m1 : (FVal.mul F x x).isFinite = true := by
    refine mul_back hF hx hx ?_
    rw [hxx, abs_le]
    constructor <;> show (_ : ℚ) ≤ _ <;> simp only [F] <;> linarith
  have m2 : (FVal.mul F x x).val = rn (9 / 4) := by rw [val_mul hF m1, hxx]
  have v1 : (FVal.sub F (FVal.mul F x x) (FVal.mul F x x)).isFinite = true := by
    refine add_back hF m1 (by rw [neg_finite]; exact m1) ?_
    rw [val_neg, add_neg_cancel, rn_zero hF]
    norm_num [F]
  have v2 : (FVal.sub F (FVal.mul F x x) (FVal.mul F x x)).val = 0 := by
    rw [val_sub hF v1, sub_self, rn_zero hF]
  have d1 : Mult (-4) (9 / 4 - rn (9 / 4)) :=
    Mult.sub ⟨36, by norm_num⟩ (rep_mult (h.rep _))
  have d2 := rel_err (p := 2) (by norm_num) h d1
  have hd : (0 : ℚ) < |9 / 4 - rn (9 / 4)| := abs_pos.2 (sub_ne_zero.2 (Ne.symm r2))
  have d3 : |9 / 4 - rn (9 / 4)| ≤ 1 / 4 := by rw [abs_sub_comm]; exact r1
  have ev : x.val * x.val + (FVal.neg (FVal.mul F x x)).val = 9 / 4 - rn (9 / 4) := by
    rw [hxx, val_neg, m2, sub_eq_add_neg]
  have w1 : (FVal.fma F x x (FVal.neg (FVal.mul F x x))).isFinite = true := by
    refine fma_back hF hx hx (by rw [neg_finite]; exact m1) ?_
    rw [ev]
    have := abs_sub_abs_le_abs_sub (rn (9 / 4 - rn (9 / 4))) (9 / 4 - rn (9 / 4))
    rw [abs_sub_comm (rn (9 / 4 - rn (9 / 4))) (9 / 4 - rn (9 / 4))] at this
    have hu : unit 2 = 1 / 4 := by norm_num [unit]
    rw [hu] at d2
    show |rn (9 / 4 - rn (9 / 4))| ≤ 12
    linarith
  have w2 : (FVal.fma F x x (FVal.neg (FVal.mul F x x))).val ≠ 0 := by
    rw [val_fma hF w1, ev]
    intro he
    have he' : rn (9 / 4 - rn (9 / 4)) = 0 := he
    rw [he', sub_zero] at d2
    have hu : unit 2 = 1 / 4 := by norm_num [unit]
    rw [hu] at d2
    linarith
  refine ⟨F, hF, ⟨fun id => if id = 0 then [x] else [], fun _ => ⟨0, 0, []⟩⟩,
    .sub (.mul (.elem x) (.elem x)) (.mul (.elem x) (.elem x)), _,
    FVal.fma F x x (FVal.neg (FVal.mul F x x)), ?_, rfl, ⟨_, rfl, rfl⟩, v1, v2, ?_, w1, w2⟩
  · intro id y hy
    by_cases h0 : id = 0
    · subst h0
      have : y ∈ [x] := hy
      rw [List.mem_singleton] at this
      subst this
      exact ⟨⟨by norm_num, by norm_num [F], 3, -1, by norm_num, by norm_num, by norm_num⟩, rfl⟩
    · simp [h0] at hy
  · simp only [Formula.Computes, Formula.Product]
    exact .inr (.inl ⟨x, x, FVal.mul F x x, ⟨rfl, rfl⟩, ⟨x, x, rfl, rfl, rfl⟩, rfl⟩)

/-! ### Cases that meet the hypotheses -/

/-- `3 * x + x` in single precision for `x = (1, 1/2)`, fused: the second element is within `2⁻²¹` of 2. -/
example : ∃ F, IsFmt 24 (-149) F ∧ ((FTm.bin .add (.left .mul 3 (.lv (.arr1 0))) (.lv (.arr1 0))).formulas.meaning
      (symbols halves)).flat[1]? = some (.ok (.add (.mul (.num 3) (.elem (.fin false (1 / 2)))) (.elem (.fin false (1 / 2))))) ∧
    (Formula.add (.mul (.num 3) (.elem (.fin false (1 / 2)))) (.elem (.fin false (1 / 2)))).Computes F
      (FVal.fma F (literal 3) (.fin false (1 / 2)) (.fin false (1 / 2))) ∧
    (FVal.fma F (literal 3) (.fin false (1 / 2)) (.fin false (1 / 2))).isFinite = true ∧
    |(FVal.fma F (literal 3) (.fin false (1 / 2)) (.fin false (1 / 2))).val - 2| ≤ 1 / 2 ^ 21 := by
  obtain ⟨rn0, h0⟩ := exists_nearest (p := 24) (by norm_num) (-149)
  obtain ⟨rn, h, ho⟩ := exists_odd h0
  let F : Fmt := ⟨rn, (2 ^ 24 - 1) * 2 ^ 104, id, fun x _ => x⟩
  have hF : IsFmt 24 (-149) F :=
    ⟨h, ho, ⟨2 ^ 24 - 1, 104, by norm_num, by norm_num, by norm_num [F]⟩, by norm_num [F]⟩
  have e1 : ∃ a, ((FTm.bin .add (.left .mul 3 (.lv (.arr1 0))) (.lv (.arr1 0))).text F.scalar literal).build
      ⟨false, true, false⟩ halves = .ok a := ⟨_, rfl⟩
  obtain ⟨a, ha⟩ := e1
  have hh := halves_held hF
  obtain ⟨t, V, B, k1, k2, k3, k4⟩ := C141_no_overflow (pow := fun x _ => x) (sqrt := id) (by norm_num) hF
    (b := ⟨false, true, false⟩) ⟨rfl, .inl rfl⟩ halves_ok hh.1 hh.2
    (.bin .add (.left .mul 3 (.lv (.arr1 0))) (.lv (.arr1 0)))
    ⟨⟨⟨3, 0, by norm_num, by norm_num, by norm_num⟩, trivial⟩, trivial⟩ ⟨trivial, trivial⟩ ⟨trivial, trivial⟩ ha 1 (by decide)
  have q0 : (some (Res.ok t)) = some (Res.ok (Formula.add (.mul (.num 3) (.elem (.fin false (1 / 2))))
    (.elem (.fin false (1 / 2))))) := k1.symm.trans rfl
  cases q0
  have q1 : (some (Res.ok V)) = some (Res.ok (3 * (1 / 2) + 1 / 2 : ℚ)) := k2.symm.trans rfl
  cases q1
  have q2 : (some (Res.ok B)) = some (Res.ok (Bound.add 24 (Bound.mul 24 (-149) (Bound.exact 3) (Bound.exact (1 / 2)))
    (Bound.exact (1 / 2)))) := k3.symm.trans rfl
  cases q2
  have hB : (Bound.add 24 (Bound.mul 24 (-149) (Bound.exact 3) (Bound.exact (1 / 2))) (Bound.exact (1 / 2))).peak ≤ F.top := by
    norm_num [Bound.add, Bound.mul, Bound.exact, Bound.rounded, unit, F]
  have hC : (Formula.add (.mul (.num 3) (.elem (.fin false (1 / 2)))) (.elem (.fin false (1 / 2)))).Computes F
      (FVal.fma F (literal 3) (.fin false (1 / 2)) (.fin false (1 / 2))) := by
    simp only [Formula.Computes, Formula.Product]
    exact .inr (.inl ⟨_, _, _, ⟨rfl, rfl⟩, rfl, rfl⟩)
  obtain ⟨k5, k6, -⟩ := k4 hB _ hC
  refine ⟨F, hF, k1, hC, k5, ?_⟩
  rw [show (3 * (1 / 2) + 1 / 2 : ℚ) = 2 by norm_num] at k6
  refine k6.trans ?_
  norm_num [Bound.add, Bound.mul, Bound.exact, Bound.rounded, unit]

end Spp.Props
