import Verif.Props.Stable
import Verif.Props.PowProds

/-
C62: compensated polynomials and norms.
-/

set_option linter.unusedSectionVars false

namespace Spp.Props

open Spp.Spec Spp.Lemmas

variable {σ : Type} {s : σ} {d : Dim}

/-! ### Building blocks -/

theorem Elems.shaped {α : Type} {a : Acc σ α} {l : List α} (h : Elems .one a s l) :
    Shaped .one a s (l.length, 1) l := by
  obtain ⟨X, h1, h2⟩ := h
  change List (Res α) at X
  change X = l.map Res.ok at h2
  refine ⟨X, h1, ?_, h2⟩
  show (X.length, 1) = _
  rw [h2, List.length_map]

theorem elems_of {α : Type} {a : Acc σ α} {l : List α} (h1 : a.rows s = l.length)
    (h2 : a.size s = .ok (l.length : Int)) (h3 : ∀ i (hi : i < l.length), a.un s (i : Nat) = .ok l[i]) :
    Elems .one a s l := by
  refine ⟨l.map Res.ok, ⟨by rw [List.length_map]; exact h1, by rw [List.length_map]; exact h2,
    fun i hi => ?_⟩, rfl⟩
  rw [List.length_map] at hi
  rw [h3 i hi]
  simp [hi]

theorem const_elems {α : Type} (b : Build) (n : Nat) (hn : (n : Int) < 2 ^ 63 - 1) (x : α) :
    ∃ X, Tm.mkConst1D (σ := σ) b (n : Int) x = .ok X ∧ Elems .one X s (List.replicate n x) := by
  refine ⟨_, mkConst1D_ok b x (by omega), ?_⟩
  refine ⟨List.replicate n (Res.ok x), den_gen1 (by simp) (by omega) (fun i hi => ?_), by
    show List.replicate n (Res.ok x) = _
    rw [List.map_replicate]⟩
  rw [List.length_replicate] at hi
  simp [hi]

theorem merge_elems {α : Type} (b : Build) {a1 a2 : Acc σ α} {l1 l2 : List α} (h1 : Elems .one a1 s l1)
    (h2 : Elems .one a2 s l2) (hs : (l1.length : Int) + l2.length < 2 ^ 63 - 1) :
    ∃ a, Stable.merge b a1 a2 s = .ok a ∧ Elems .one a s (l1 ++ l2) := by
  obtain ⟨X, x1, x2⟩ := h1
  obtain ⟨Y, y1, y2⟩ := h2
  change List (Res α) at X
  change List (Res α) at Y
  change X = l1.map Res.ok at x2
  change Y = l2.map Res.ok at y2
  obtain ⟨-, a, e1, e2⟩ := merge_node b x1 y1 (by rw [x2, y2, List.length_map, List.length_map]; exact hs)
  exact ⟨a, e1, List.append X Y, e2 s X Y rfl rfl x1 y1, by
    show X ++ Y = _
    rw [x2, y2, List.map_append]⟩

theorem powProd_elems {α : Type} (b : Build) (fs : FScalar α) (pick : α × α → α) {X : Acc σ α}
    {P : Acc σ Int} {xs : List α} {ps : List Int} (hX : Elems .one X s xs) (hP : Elems .one P s ps)
    (hl : xs.length = ps.length) {f : α → Int → α × α}
    (hf : ∀ q ∈ List.zip xs ps, fs.powProds b q.1 q.2 = .ok (f q.1 q.2)) :
    ∃ a, Stable.powProd b fs pick X P s = .ok a ∧
      Elems .one a s ((List.zip xs ps).map (fun q => pick (f q.1 q.2))) := by
  have hlen : ((List.zip xs ps).map (fun q => pick (f q.1 q.2))).length = xs.length := by
    rw [List.length_map, List.length_zip]; omega
  unfold Stable.powProd
  rw [sameSize_one hX hP, decide_eq_true hl, assertDebug_true, Res.ok_bind]
  refine ⟨_, rfl, elems_of ?_ ?_ fun i hi => ?_⟩
  · rw [hlen]
    show X.rows s = _
    exact Elems.rows hX
  · rw [hlen]
    show Res.ok (X.rows s) = _
    rw [Elems.rows hX]
  · rw [hlen] at hi
    show (do
      let x ← X.un s i
      let p ← P.un s i
      let q ← fs.powProds b x p
      pure (pick q)) = _
    rw [Elems.un hX hi, Elems.un hP (by omega), Res.ok_bind, Res.ok_bind]
    have hm : (xs[i], ps[i]) ∈ List.zip xs ps := by
      rw [List.mem_iff_getElem]
      exact ⟨i, by rw [List.length_zip]; omega, List.getElem_zip⟩
    rw [hf _ hm, List.getElem_map, List.getElem_zip]
    rfl

/-- `stable_gpolynomial` is `stable_dot_prod` of the coefficients, twice, with both components of the
powers. -/
theorem gpoly_dot {α : Type} (b : Build) (fs : FScalar α) {C X : Acc σ α} {P : Acc σ Int}
    {cs xs : List α} {ps : List Int} (hC : Elems .one C s cs) (hX : Elems .one X s xs)
    (hP : Elems .one P s ps) (hcx : cs.length = xs.length) (hxp : xs.length = ps.length) (hne : cs ≠ [])
    (hnn : ∀ p ∈ ps, 0 ≤ p) (hsmall : (cs.length : Int) < 2 ^ 62 - 1) {f : α → Int → α × α}
    (hf : ∀ q ∈ List.zip xs ps, fs.powProds b q.1 q.2 = .ok (f q.1 q.2)) (dflt : α) :
    ∃ A B : Acc σ α, Stable.gpolynomial b fs C X P s dflt = Stable.dotProd b .one fs A B s fs.zero ∧
      Shaped .one A s (2 * cs.length, 1) (cs ++ cs) ∧
      Shaped .one B s (2 * cs.length, 1) ((List.zip xs ps).map (fun q => (f q.1 q.2).1) ++
        (List.zip xs ps).map (fun q => (f q.1 q.2).2)) := by
  have hne' : cs.isEmpty = false := by simpa using hne
  have hpne : ps ≠ [] := by
    intro e; rw [e] at hxp; simp at hxp; rw [hxp] at hcx; simp at hcx; exact hne hcx
  obtain ⟨R, r1, r2⟩ := powProd_elems b fs (·.1) hX hP hxp hf
  obtain ⟨S, t1, t2⟩ := powProd_elems b fs (·.2) hX hP hxp hf
  have hz : (List.zip xs ps).length = cs.length := by rw [List.length_zip]; omega
  obtain ⟨A, a1, a2⟩ := merge_elems b hC hC (by omega)
  obtain ⟨B, b1, b2⟩ := merge_elems b r2 t2 (by simp only [List.length_map, hz]; omega)
  refine ⟨A, B, ?_, ?_, ?_⟩
  · unfold Stable.gpolynomial
    rw [sameSize_one hC hX, sameSize_one hX hP, decide_eq_true hcx, decide_eq_true hxp, Elems.empty hC,
      hne', nonNeg_eq hP hpne, decide_eq_true hnn]
    simp only [Bool.and_self, assertDebug_true, Res.ok_bind, Bool.false_eq_true, if_false, assertDebugM_ok,
      r1, t1, a1, b1]
  · have := Elems.shaped a2
    rwa [show (cs ++ cs).length = 2 * cs.length by rw [List.length_append]; omega] at this
  · have := Elems.shaped b2
    simp only [List.length_append, List.length_map, hz] at this
    rwa [show cs.length + cs.length = 2 * cs.length by omega] at this

theorem zip_nonneg {α : Type} {xs : List α} {ps : List Nat} {q : α × Int}
    (h : q ∈ List.zip xs (ps.map (fun p : Nat => (p : Int)))) : ∃ p : Nat, p ∈ ps ∧ q.2 = p ∧ q.1 ∈ xs := by
  obtain ⟨x, p⟩ := q
  have h1 := List.of_mem_zip h
  rw [List.mem_map] at h1
  obtain ⟨hx, n, hn, e⟩ := h1
  exact ⟨n, hn, e.symm, hx⟩

/-! ### Exact arithmetic -/

section exact

variable {K : Type} [Field K] [LinearOrder K] [IsStrictOrderedRing K] {pow : K → K → K} {sqrt : K → K}

theorem zip_dot (cs xs : List K) (ps : List Nat) (hcx : cs.length = xs.length)
    (hxp : xs.length = ps.length) :
    (List.zipWith (· * ·) cs ((List.zip xs ps).map (fun q => q.1 ^ q.2))).sum =
      ((List.zip cs (List.zip xs ps)).map (fun q => q.1 * q.2.1 ^ q.2.2)).sum := by
  induction cs generalizing xs ps with
  | nil => simp
  | cons c cs ih =>
    cases xs with
    | nil => simp at hcx
    | cons x xs =>
      cases ps with
      | nil => simp at hxp
      | cons p ps =>
        simp only [List.zip_cons_cons, List.map_cons, List.zipWith_cons_cons, List.sum_cons]
        rw [ih xs ps (by simpa using hcx) (by simpa using hxp)]

theorem zipWith_zero (cs : List K) (n : Nat) :
    (List.zipWith (· * ·) cs (List.replicate n 0)).sum = 0 := by
  induction cs generalizing n with
  | nil => simp
  | cons c cs ih => cases n with
    | zero => simp
    | succ n => rw [List.replicate_succ, List.zipWith_cons_cons, List.sum_cons, ih, mul_zero, zero_add]

/-- C62: in exact arithmetic `stable_gpolynomial(c, X, p)` is the sum of `c_i * x_i ^ p_i`. -/
theorem C62_gpolynomial (b : Build) {C X : Acc σ K} {P : Acc σ Int} {cs xs : List K} {ps : List Nat}
    (hC : Elems .one C s cs) (hX : Elems .one X s xs)
    (hP : Elems .one P s (ps.map (fun p : Nat => (p : Int)))) (hcx : cs.length = xs.length)
    (hxp : xs.length = ps.length) (hne : cs ≠ []) (hsmall : (cs.length : Int) < 2 ^ 62 - 1) (dflt : K) :
    Stable.gpolynomial b (exactF K pow sqrt) C X P s dflt =
      .ok ((List.zip cs (List.zip xs ps)).map (fun q => q.1 * q.2.1 ^ q.2.2)).sum := by
  obtain ⟨A, B, h1, h2, h3⟩ := gpoly_dot b (exactF K pow sqrt) hC hX hP hcx (by simpa using hxp) hne
    (by simp) hsmall (f := fun x p => (x ^ p.toNat, 0)) (fun q hq => by
      obtain ⟨n, _, e, _⟩ := zip_nonneg hq
      rw [e, C13_exact, Int.toNat_natCast]) dflt
  rw [h1, stableDot_exact b h2 h3 (by simpa using hne)]
  have e1 : (List.zip xs (ps.map (fun p : Nat => (p : Int)))).map (fun q => q.1 ^ q.2.toNat) =
      (List.zip xs ps).map (fun q => q.1 ^ q.2) := by
    rw [List.zip_map_right, List.map_map]
    exact List.map_congr_left fun q _ => rfl
  have e2 : ∀ l : List (K × Int), l.map (fun _ => (0 : K)) = List.replicate l.length 0 := by
    intro l; rw [List.map_const']
  show Res.ok (List.zipWith (· * ·) (cs ++ cs) ((List.zip xs (ps.map (fun p : Nat => (p : Int)))).map
      (fun q => q.1 ^ q.2.toNat) ++ (List.zip xs (ps.map (fun p : Nat => (p : Int)))).map
      (fun _ => (0 : K)))).sum = _
  rw [e1, e2, List.zipWith_append (by rw [List.length_map, List.length_zip]; omega), List.sum_append,
    zipWith_zero, add_zero, zip_dot cs xs ps hcx hxp]

/-- C62: `stable_polynomial(c, x, p)` is the sum of `c_i * x ^ p_i`. -/
theorem C62_polynomial_powers (b : Build) {C : Acc σ K} {P : Acc σ Int} {cs : List K} {ps : List Nat}
    (hC : Elems .one C s cs) (hP : Elems .one P s (ps.map (fun p : Nat => (p : Int))))
    (hcp : cs.length = ps.length) (hne : cs ≠ []) (hsmall : (cs.length : Int) < 2 ^ 62 - 1) (x dflt : K) :
    Stable.polynomialPowers b (exactF K pow sqrt) C x P s dflt =
      .ok ((List.zip cs ps).map (fun q => q.1 * x ^ q.2)).sum := by
  have hne' : cs.isEmpty = false := by simpa using hne
  have hpne : ps.map (fun p : Nat => (p : Int)) ≠ [] := by
    intro e; rw [List.map_eq_nil_iff] at e; rw [e] at hcp; simp at hcp; exact hne hcp
  obtain ⟨X, e1, e2⟩ := const_elems (σ := σ) (s := s) b cs.length (by omega) x
  unfold Stable.polynomialPowers
  rw [sameSize_one hC hP, decide_eq_true (by simpa using hcp), Elems.empty hC, hne',
    nonNeg_eq hP hpne, decide_eq_true (by simp), Elems.rows hC]
  simp only [assertDebug_true, Res.ok_bind, Bool.false_eq_true, if_false, assertDebugM_ok, e1]
  rw [C62_gpolynomial b hC e2 hP (by simp) (by simpa using hcp) hne hsmall]
  congr 2
  rw [hcp]
  clear hC hP hsmall hne hne' hpne e1 e2
  induction cs generalizing ps with
  | nil => simp
  | cons c cs ih => cases ps with
    | nil => simp
    | cons p ps =>
      simp only [List.length_cons, List.replicate_succ, List.zip_cons_cons, List.map_cons]
      rw [ih (by simpa using hcp)]

end exact

theorem int_cast_small {i : Nat} (h : i < 2 ^ 31) : SInt.cast .int i = i := by
  refine wrap_of_fits ?_
  simp only [Fits, IntTy.int, if_true]
  omega

theorem int_fits_cast (i : Int) : Fits .int (SInt.cast .int i) := wrap_fits _ _

theorem int_step {v : Int} (h : Fits .int v) :
    (do let p ← SInt.mul .int 1 v; SInt.add .int 0 p) = Res.ok v := by
  unfold SInt.mul SInt.add
  rw [one_mul, arith_of_fits h, Res.ok_bind, zero_add, arith_of_fits h]

theorem intSeq_step (b : Build) (i : Int) :
    (do
      let c ← (Stable.intSeq b).ofIndex i
      let p ← (Stable.intSeq b).mul 1 c
      (Stable.intSeq b).add 0 p) = Res.ok (SInt.cast .int i) :=
  int_step (int_fits_cast i)

/-- The powers `0, 1, 2, ...` in `stable_polynomial` are of type `int`. -/
theorem powers_elems (b : Build) (n : Nat) :
    ∃ P, Tm.mkSequence (σ := σ) b (Stable.intSeq b) (n : Int) 0 1 = .ok P ∧
      Elems .one P s ((List.range n).map (fun i : Nat => SInt.cast .int i)) := by
  obtain ⟨P, h1, h2⟩ := mkSequence_ok (σ := σ) b (ar := Stable.intSeq b) (st := 0) (inc := 1)
    (show (0 : Int) ≤ n by omega)
  have e : arithmetic (Stable.intSeq b) ((n : Int).toNat) 0 1 =
      ((List.range n).map (fun i : Nat => SInt.cast .int i)).map Res.ok := by
    rw [Int.toNat_natCast, List.map_map]
    exact List.map_congr_left fun i _ => intSeq_step b i
  exact ⟨P, h1, _, h2 s, e⟩

/-- C62: `stable_polynomial(c, x)` is `c_0 + c_1 x + c_2 x^2 + ...`, for up to 2^31 coefficients. -/
theorem C62_polynomial {K : Type} [Field K] [LinearOrder K] [IsStrictOrderedRing K] {pow : K → K → K}
    {sqrt : K → K} (b : Build) {C : Acc σ K} {cs : List K} (hC : Elems .one C s cs)
    (hne : cs ≠ []) (hsmall : cs.length ≤ 2 ^ 31) (x dflt : K) :
    Stable.polynomial b (exactF K pow sqrt) C x s dflt =
      .ok (∑ i ∈ Finset.range cs.length, cs.getD i 0 * x ^ i) := by
  have hne' : cs.isEmpty = false := by simpa using hne
  obtain ⟨X, e1, e2⟩ := const_elems (σ := σ) (s := s) b cs.length (by omega) x
  obtain ⟨P, p1, p2⟩ := powers_elems (σ := σ) (s := s) b cs.length
  have ep : (List.range cs.length).map (fun i : Nat => SInt.cast .int i) =
      (List.range cs.length).map (fun i : Nat => (i : Int)) :=
    List.map_congr_left fun i hi => int_cast_small (by rw [List.mem_range] at hi; omega)
  rw [ep] at p2
  unfold Stable.polynomial
  rw [Elems.empty hC, hne', Elems.rows hC]
  simp only [Res.ok_bind, Bool.false_eq_true, if_false, e1, p1]
  rw [C62_gpolynomial b hC e2 p2 (by simp) (by simp) hne (by omega)]
  congr 1
  rw [← zip_dot _ _ _ (by simp) (by simp)]
  have ez : ((List.zip (List.replicate cs.length x) (List.range cs.length)).map fun q => q.1 ^ q.2) =
      (List.range cs.length).map (fun i => x ^ i) := by
    apply List.ext_getElem
    · simp
    · intro i h1 h2; simp
  rw [ez]
  clear * -
  have key : ∀ (l : List K) (k : Nat), (List.zipWith (· * ·) l ((List.range l.length).map
      (fun i => x ^ (k + i)))).sum = ∑ i ∈ Finset.range l.length, l.getD i 0 * x ^ (k + i) := by
    intro l
    induction l with
    | nil => intro k; simp
    | cons c l ih =>
      intro k
      rw [List.length_cons, List.range_succ_eq_map, List.map_cons, List.map_map, List.zipWith_cons_cons,
        List.sum_cons, Finset.sum_range_succ']
      have := ih (k + 1)
      simp only [List.getD_cons_succ, List.getD_cons_zero]
      rw [add_comm]
      congr 1
      have e : ∀ i, k + 1 + i = k + (i + 1) := by intro i; omega
      simp only [e] at this
      exact this
  have := key cs 0
  simpa using this

/-- C62: with more than 2^31 coefficients the powers wrap to negative numbers, and checked builds
reject the polynomial (`polynomial(c, x)` does not). -/
theorem C62_too_many {α : Type} {b : Build} (hb : b.Checked) (fs : FScalar α) {C : Acc σ α} {cs : List α}
    (hC : Elems .one C s cs) (hmany : 2 ^ 31 < cs.length) (hsmall : (cs.length : Int) < 2 ^ 63 - 1)
    (x dflt : α) : Stable.polynomial b fs C x s dflt = .trap b.kind := by
  have hne' : cs.isEmpty = false := by
    rw [List.isEmpty_eq_false_iff, ← List.length_pos_iff]; omega
  obtain ⟨X, e1, e2⟩ := const_elems (σ := σ) (s := s) b cs.length hsmall x
  obtain ⟨P, p1, p2⟩ := powers_elems (σ := σ) (s := s) b cs.length
  unfold Stable.polynomial
  rw [Elems.empty hC, hne', Elems.rows hC]
  simp only [Res.ok_bind, Bool.false_eq_true, if_false, e1, p1]
  unfold Stable.gpolynomial
  have hpne : (List.range cs.length).map (fun i : Nat => SInt.cast .int i) ≠ [] := by
    rw [← List.length_pos_iff, List.length_map, List.length_range]; omega
  have hneg : ¬ ∀ p ∈ (List.range cs.length).map (fun i : Nat => SInt.cast .int i), 0 ≤ p := by
    intro h
    have h1 := h (SInt.cast .int ((2 ^ 31 : Nat) : Int)) (List.mem_map.2 ⟨2 ^ 31, List.mem_range.2 hmany, rfl⟩)
    have h2 : SInt.cast .int ((2 ^ 31 : Nat) : Int) = -(2 ^ 31) := by decide
    rw [h2] at h1
    omega
  rw [sameSize_one hC e2, sameSize_one e2 p2, decide_eq_true (by simp), decide_eq_true (by simp),
    Elems.empty hC, hne', nonNeg_eq p2 hpne, decide_eq_false hneg]
  simp only [Bool.and_self, assertDebug_true, Res.ok_bind, Bool.false_eq_true, if_false,
    assertDebugM_ok, assertDebug_false hb]
  rfl

/-- C62: different sizes or a negative power are rejected by checked builds, and without coefficients the
result is the default. -/
theorem C62_edges {α : Type} (b : Build) (fs : FScalar α) {C X : Acc σ α} {P : Acc σ Int}
    {cs xs : List α} {ps : List Int} (hC : Elems .one C s cs) (hX : Elems .one X s xs)
    (hP : Elems .one P s ps) (x dflt : α) :
    (b.Checked → cs.length ≠ xs.length ∨ xs.length ≠ ps.length →
      Stable.gpolynomial b fs C X P s dflt = .trap b.kind) ∧
    (b.Checked → cs.length ≠ ps.length → Stable.polynomialPowers b fs C x P s dflt = .trap b.kind) ∧
    (b.Checked → cs ≠ [] → (∃ p ∈ ps, p < 0) →
      Stable.gpolynomial b fs C X P s dflt = .trap b.kind ∧
      Stable.polynomialPowers b fs C x P s dflt = .trap b.kind) ∧
    (cs = [] → Stable.polynomial b fs C x s dflt = .ok dflt ∧
      (xs = [] → ps = [] → Stable.gpolynomial b fs C X P s dflt = .ok dflt ∧
        Stable.polynomialPowers b fs C x P s dflt = .ok dflt)) := by
  have g1 : b.Checked → cs.length ≠ xs.length ∨ xs.length ≠ ps.length →
      Stable.gpolynomial b fs C X P s dflt = .trap b.kind := by
    intro hb hh
    unfold Stable.gpolynomial
    have : (Acc.sameSize .one C X s && Acc.sameSize .one X P s) = false := by
      rw [sameSize_one hC hX, sameSize_one hX hP, Bool.and_eq_false_iff]
      rcases hh with hh | hh
      · exact Or.inl (decide_eq_false hh)
      · exact Or.inr (decide_eq_false hh)
    rw [this, assertDebug_false hb]; rfl
  have g2 : b.Checked → cs.length ≠ ps.length → Stable.polynomialPowers b fs C x P s dflt = .trap b.kind := by
    intro hb hh
    unfold Stable.polynomialPowers
    rw [sameSize_one hC hP, decide_eq_false hh, assertDebug_false hb]; rfl
  refine ⟨g1, g2, fun hb hne hneg => ?_, ?_⟩
  · have hne' : cs.isEmpty = false := by simpa using hne
    have hpne : ps ≠ [] := by
      obtain ⟨p, hp, _⟩ := hneg
      exact List.ne_nil_of_mem hp
    have hn : decide (∀ p ∈ ps, 0 ≤ p) = false := decide_eq_false fun hh => by
      obtain ⟨p, hp, hp'⟩ := hneg
      have := hh p hp
      omega
    constructor
    · by_cases hh : cs.length ≠ xs.length ∨ xs.length ≠ ps.length
      · exact g1 hb hh
      · unfold Stable.gpolynomial
        rw [not_or, not_not, not_not] at hh
        rw [sameSize_one hC hX, sameSize_one hX hP, decide_eq_true hh.1, decide_eq_true hh.2, Elems.empty hC,
          hne', nonNeg_eq hP hpne, hn]
        simp only [Bool.and_self, assertDebug_true, Res.ok_bind, Bool.false_eq_true, if_false,
          assertDebugM_ok, assertDebug_false hb]
        rfl
    · by_cases hh : cs.length ≠ ps.length
      · exact g2 hb hh
      · unfold Stable.polynomialPowers
        rw [not_not] at hh
        rw [sameSize_one hC hP, decide_eq_true hh, Elems.empty hC, hne', nonNeg_eq hP hpne, hn]
        simp only [assertDebug_true, Res.ok_bind, Bool.false_eq_true, if_false, assertDebugM_ok,
          assertDebug_false hb]
        rfl
  · rintro rfl
    refine ⟨?_, ?_⟩
    · unfold Stable.polynomial
      rw [Elems.empty hC]; rfl
    · rintro rfl rfl
      unfold Stable.gpolynomial Stable.polynomialPowers
      rw [sameSize_one hC hX, sameSize_one hX hP, sameSize_one hC hP, Elems.empty hC]
      simp only [List.length_nil, decide_true, Bool.and_self, assertDebug_true, Res.ok_bind, List.isEmpty_nil, if_true,
        and_self]

/-! ### Rounded arithmetic -/

section rounding

variable {rn : ℚ → ℚ} {pow : ℚ → ℚ → ℚ} {sqrt : ℚ → ℚ} {prec : Nat}

theorem powProds_good (hprec : 2 ≤ prec) (h : NearestX prec rn) (b : Build) {x : ℚ}
    (hx : RepX prec x) (p : Nat) :
    ∃ r s, (rounded rn pow sqrt).powProds b x p = .ok (r, s) ∧ RepX prec r ∧ RepX prec s := by
  have hf := flX_nearestX hprec h
  by_cases h2 : 2 ≤ p
  · rw [powProds_rounded hf b hx h2]
    cases decide ((p : Int) % 2 ≠ 0)
    · exact ⟨_, _, rfl, R_good hf x _, hf.good _⟩
    · exact ⟨_, _, rfl, hf.good _, hf.good _⟩
  · have hcase : p = 0 ∨ p = 1 := by omega
    unfold FScalar.powProds
    rcases hcase with rfl | rfl
    · rw [decide_eq_true (by omega), assertDebug_true, Res.ok_bind, if_neg (by omega), if_pos (by omega)]
      exact ⟨_, _, rfl, hf.good _, hf.good _⟩
    · rw [decide_eq_true (by omega), assertDebug_true, Res.ok_bind, if_neg (by omega),
        if_neg (by omega), if_pos (by omega)]
      exact ⟨_, _, rfl, hx, hf.good _⟩

theorem zip3_map (cs xs : List ℚ) (ps : List Nat) (g : ℚ → Int → ℚ) :
    List.zipWith (· * ·) cs ((List.zip xs (ps.map (fun p : Nat => (p : Int)))).map (fun q => g q.1 q.2)) =
      (List.zip cs (List.zip xs ps)).map (fun q => q.1 * g q.2.1 q.2.2) := by
  rw [List.zip_map_right, List.map_map, List.zipWith_map_right, List.zip_eq_zipWith (l₁ := cs), List.map_zipWith]
  rfl

/-- What a list of terms loses when every power is replaced by two parts. -/
theorem terms_err {g D : ℚ} (f : ℚ → Int → ℚ × ℚ) (L : List (ℚ × ℚ × Nat))
    (h : ∀ q ∈ L, |(f q.2.1 q.2.2).1 + (f q.2.1 q.2.2).2 - q.2.1 ^ q.2.2| ≤ D * |q.2.1| ^ q.2.2 ∧
      |(f q.2.1 q.2.2).1 - q.2.1 ^ q.2.2| ≤ g * |q.2.1| ^ q.2.2) :
    |((L.map (fun q => q.1 * (f q.2.1 q.2.2).1)).sum + (L.map (fun q => q.1 * (f q.2.1 q.2.2).2)).sum) -
        (L.map (fun q => q.1 * q.2.1 ^ q.2.2)).sum| ≤
      D * (L.map (fun q => |q.1| * |q.2.1| ^ q.2.2)).sum ∧
    ((L.map (fun q => q.1 * (f q.2.1 q.2.2).1)).map abs).sum +
        ((L.map (fun q => q.1 * (f q.2.1 q.2.2).2)).map abs).sum ≤
      (1 + 2 * g + D) * (L.map (fun q => |q.1| * |q.2.1| ^ q.2.2)).sum := by
  induction L with
  | nil => simp
  | cons q L ih =>
    obtain ⟨i1, i2⟩ := ih fun q hq => h q (List.mem_cons_of_mem _ hq)
    obtain ⟨h1, h2⟩ := h q (List.mem_cons_self ..)
    simp only [List.map_cons, List.sum_cons]
    generalize (f q.2.1 q.2.2).1 = r at *
    generalize (f q.2.1 q.2.2).2 = t at *
    have hX : |q.2.1 ^ q.2.2| = |q.2.1| ^ q.2.2 := abs_pow _ _
    generalize q.2.1 ^ q.2.2 = X at *
    rw [← hX] at h1 h2 ⊢
    generalize q.1 = c at *
    constructor
    · have e : c * r + (L.map (fun q => q.1 * (f q.2.1 q.2.2).1)).sum +
          (c * t + (L.map (fun q => q.1 * (f q.2.1 q.2.2).2)).sum) -
          (c * X + (L.map (fun q => q.1 * q.2.1 ^ q.2.2)).sum) =
          c * (r + t - X) + (((L.map (fun q => q.1 * (f q.2.1 q.2.2).1)).sum +
            (L.map (fun q => q.1 * (f q.2.1 q.2.2).2)).sum) -
            (L.map (fun q => q.1 * q.2.1 ^ q.2.2)).sum) := by ring
      rw [e]
      refine (abs_add_le _ _).trans ?_
      rw [abs_mul]
      have := mul_le_mul_of_nonneg_left h1 (abs_nonneg c)
      linarith
    · rw [abs_mul, abs_mul]
      have hr : |r| ≤ |X| + g * |X| := by
        have := abs_add_le X (r - X)
        rw [add_sub_cancel] at this
        linarith
      have ht : |t| ≤ D * |X| + g * |X| := by
        have := abs_sub (r + t - X) (r - X)
        rw [show r + t - X - (r - X) = t by ring] at this
        linarith
      have h3 := mul_le_mul_of_nonneg_left hr (abs_nonneg c)
      have h4 := mul_le_mul_of_nonneg_left ht (abs_nonneg c)
      linarith

/-- C62: the error of `stable_gpolynomial` is one rounding and terms of second order, relative to
`sum |c_i| |x_i|^p_i` (no underflow; powers at most `N`). -/
theorem C62_bound (hprec : 2 ≤ prec) (h : NearestX prec rn) (b : Build) {C X : Acc σ ℚ}
    {P : Acc σ Int} {cs xs : List ℚ} {ps : List Nat} (hC : Elems .one C s cs) (hX : Elems .one X s xs)
    (hP : Elems .one P s (ps.map (fun p : Nat => (p : Int)))) (hcx : cs.length = xs.length)
    (hxp : xs.length = ps.length) (hne : cs ≠ []) (hsmall : (cs.length : Int) < 2 ^ 62 - 1)
    (hc : ∀ c ∈ cs, RepX prec c) (hx : ∀ x ∈ xs, RepX prec x) {N : Nat} (hN : ∀ p ∈ ps, p ≤ N)
    (dflt : ℚ) :
    let exact := ((List.zip cs (List.zip xs ps)).map (fun q => q.1 * q.2.1 ^ q.2.2)).sum
    let size := ((List.zip cs (List.zip xs ps)).map (fun q => |q.1| * |q.2.1| ^ q.2.2)).sum
    let D := 2 * ((1 + unit prec) ^ (2 * N) - 1) ^ 2
    let G := (1 + unit prec) ^ (2 * cs.length) - 1
    ∃ v, Stable.gpolynomial b (rounded rn pow sqrt) C X P s dflt = .ok v ∧
      |v - exact| ≤ unit prec * |exact| +
        (1 + unit prec) * (D + G ^ 2 * (1 + 2 * ((1 + unit prec) ^ N - 1) + D)) * size := by
  intro T M D G
  have hf := flX_nearestX hprec h
  have hu := hf.pos
  have hall : ∀ (x : ℚ) (p : Int), ∃ rs : ℚ × ℚ, RepX prec x → ∀ n : Nat, p = n →
      ((rounded rn pow sqrt).powProds b x p = .ok rs ∧ RepX prec rs.1 ∧ RepX prec rs.2 ∧
      |rs.1 + rs.2 - x ^ n| ≤ 2 * ((1 + unit prec) ^ (2 * n) - 1) ^ 2 * |x| ^ n ∧
      |rs.1 - x ^ n| ≤ ((1 + unit prec) ^ (n - 1) - 1) * |x| ^ n) := by
    intro x p
    by_cases hcond : RepX prec x ∧ ∃ n : Nat, p = n
    · obtain ⟨hx, n, rfl⟩ := hcond
      obtain ⟨r, t, e1, e2, e3⟩ := C13_second_order (pow := pow) (sqrt := sqrt) hprec h b hx n
      obtain ⟨r', t', e4, e5, e6⟩ := powProds_good (pow := pow) (sqrt := sqrt) hprec h b hx n
      rw [e1] at e4
      injection e4 with e4
      injection e4 with ea eb
      refine ⟨(r, t), fun _ m hm => ?_⟩
      have : n = m := by omega
      subst this
      exact ⟨e1, ea ▸ e5, eb ▸ e6, e2, e3⟩
    · exact ⟨0, fun hx n hn => absurd ⟨hx, n, hn⟩ hcond⟩
  choose f hfp using hall
  have hz : ∀ q ∈ List.zip cs (List.zip xs ps), q.1 ∈ cs ∧ q.2.1 ∈ xs ∧ q.2.2 ∈ ps := by
    rintro ⟨c, x, p⟩ hq
    have h1 := List.of_mem_zip hq
    have h2 := List.of_mem_zip h1.2
    exact ⟨h1.1, h2.1, h2.2⟩
  obtain ⟨A, B, g1, g2, g3⟩ := gpoly_dot b (rounded rn pow sqrt) hC hX hP hcx (by simpa using hxp) hne
    (by simp) hsmall (f := f) (fun q hq => by
      obtain ⟨n, _, e, hm⟩ := zip_nonneg hq
      exact (hfp q.1 q.2 (hx _ hm) n e).1) dflt
  have hrs : ∀ y ∈ (List.zip xs (ps.map (fun p : Nat => (p : Int)))).map (fun q => (f q.1 q.2).1) ++
      (List.zip xs (ps.map (fun p : Nat => (p : Int)))).map (fun q => (f q.1 q.2).2), RepX prec y := by
    intro y hy
    rw [List.mem_append, List.mem_map, List.mem_map] at hy
    rcases hy with ⟨q, hq, rfl⟩ | ⟨q, hq, rfl⟩
    · obtain ⟨n, _, e, hm⟩ := zip_nonneg hq
      exact (hfp q.1 q.2 (hx _ hm) n e).2.1
    · obtain ⟨n, _, e, hm⟩ := zip_nonneg hq
      exact (hfp q.1 q.2 (hx _ hm) n e).2.2.1
  obtain ⟨v, v1, v2⟩ := C61_dot_bound_unlimited (pow := pow) (sqrt := sqrt) hprec h b g2 g3
    (fun x hx => by rw [List.mem_append] at hx; rcases hx with hx | hx <;> exact hc _ hx) hrs
    (by simpa using hne) (rounded rn pow sqrt).zero
  refine ⟨v, g1.trans v1, ?_⟩
  rw [List.zipWith_append (by simp; omega), zip3_map cs xs ps (fun x p => (f x p).1),
    zip3_map cs xs ps (fun x p => (f x p).2), List.map_append, List.sum_append, List.sum_append,
    show (cs ++ cs).length = 2 * cs.length by rw [List.length_append]; omega] at v2
  obtain ⟨t1, t2⟩ := terms_err (g := (1 + unit prec) ^ N - 1) (D := D) f
    (List.zip cs (List.zip xs ps)) (fun q hq => by
      obtain ⟨-, hqx, hqp⟩ := hz q hq
      obtain ⟨-, -, -, k1, k2⟩ := hfp q.2.1 q.2.2 (hx _ hqx) q.2.2 rfl
      have hp := hN _ hqp
      refine ⟨k1.trans (mul_le_mul_of_nonneg_right ?_ (by positivity)),
        k2.trans (mul_le_mul_of_nonneg_right (growth_mono hu (by omega)) (by positivity))⟩
      have := pow_le_pow_left₀ (growth_nonneg hu (2 * q.2.2)) (growth_mono hu (show 2 * q.2.2 ≤ 2 * N by omega)) 2
      show _ ≤ 2 * _
      linarith)
  change |_ - T| ≤ D * M at t1
  change _ ≤ (1 + 2 * ((1 + unit prec) ^ N - 1) + D) * M at t2
  generalize (1 + unit prec) ^ N - 1 = g at *
  change |_ - _| ≤ _ + (1 + unit prec) * (G ^ 2 * _) at v2
  generalize ((List.zip cs (List.zip xs ps)).map fun q => q.1 * (f q.2.1 q.2.2).1).sum +
    ((List.zip cs (List.zip xs ps)).map fun q => q.1 * (f q.2.1 q.2.2).2).sum = W at *
  have w1 : |W| ≤ |T| + D * M := by
    have := abs_add_le T (W - T)
    rw [add_sub_cancel] at this
    linarith
  have w2 : |v - T| ≤ |v - W| + |W - T| := by
    have := abs_add_le (v - W) (W - T)
    rwa [sub_add_sub_cancel] at this
  have w3 := mul_le_mul_of_nonneg_left w1 hu.le
  have w4 := mul_le_mul_of_nonneg_left t2 (show 0 ≤ (1 + unit prec) * G ^ 2 by
    have := sq_nonneg G; have : 0 ≤ 1 + unit prec := by linarith
    positivity)
  nlinarith

end rounding

/-! ### Norms -/

section norms

variable {K : Type} [Field K] [LinearOrder K] [IsStrictOrderedRing K] {pow : K → K → K} {sqrt : K → K}

theorem view1D_elems {α : Type} (b : Build) {a : Acc σ α} {l : List α} (h : Elems d a s l)
    (hsmall : (l.length : Int) < 2 ^ 63 - 1) :
    ∃ v, Stable.view1D b d a s = .ok v ∧ Elems .one v s l := by
  have h0 := h
  obtain ⟨X, h1, h2⟩ := h
  have hlin := linDen_of h1
  rw [h2] at hlin
  cases d with
  | one =>
    obtain ⟨v, e1, e2⟩ := mkSlice1_ok b (r := .all) (Elems.rows h0) hsmall trivial trivial
    refine ⟨v, e1, _, e2 s (l.map Res.ok) (by simp) hlin, ?_⟩
    show (upto (l.length : Int)).map _ = _
    exact map_pick_upto (by simp)
  | two =>
    obtain ⟨v, e1, -, e2⟩ := mkView1D_ok b (Elems.size h0) hsmall
    exact ⟨v, e1, _, e2 s (l.map Res.ok) (by simp) hlin, rfl⟩

/-- C62: in exact arithmetic the compensated norms are the norms of C56. -/
theorem C62_norms (b : Build) {a : Acc σ K} {sh : Nat × Nat} {l : List K} (h : Shaped d a s sh l)
    (hne : l ≠ []) (dflt : K) :
    Stable.norm1 (exactF K pow sqrt) a s dflt = .ok (l.map (fun x => |x|)).sum ∧
    Stable.norm1Scaled (exactF K pow sqrt) a s dflt = .ok ((l.map (fun x => |x|)).sum / l.length) ∧
    Stable.norm2 b d (exactF K pow sqrt) a s dflt = .ok (sqrt (l.map (fun x => x ^ 2)).sum) ∧
    Stable.norm2Scaled b d (exactF K pow sqrt) a s dflt =
      .ok (sqrt (l.map (fun x => x ^ 2)).sum / sqrt l.length) := by
  have he := Shaped.elems h
  have hne' : l.isEmpty = false := by simpa using hne
  have hA := Elems.unary he (f := (exactF K pow sqrt).abss) (g := fun x => |x|) (fun x _ => abss_exact x)
  have esq : List.zipWith (· * ·) l l = l.map (fun x => x ^ 2) := by
    clear h he hne hne' hA
    induction l with
    | nil => rfl
    | cons x xs ih => rw [List.zipWith_cons_cons, ih, List.map_cons, sq]
  have n1 : ∀ dflt, Stable.norm1 (exactF K pow sqrt) a s dflt = .ok (l.map (fun x => |x|)).sum := by
    intro dflt
    unfold Stable.norm1
    rw [Elems.empty he, hne']
    exact stableSum_exact hA (by simpa using hne) _
  have n2 : ∀ dflt, Stable.norm2 b d (exactF K pow sqrt) a s dflt =
      .ok (sqrt (l.map (fun x => x ^ 2)).sum) := by
    intro dflt
    unfold Stable.norm2
    rw [Elems.empty he, hne', stableDot_exact b h h hne, esq]
    rfl
  refine ⟨n1 dflt, ?_, n2 dflt, ?_⟩
  · unfold Stable.norm1Scaled
    rw [Elems.empty he, hne', n1, Elems.size he]
    show Res.ok (_ / ((l.length : Int) : K)) = _
    rw [Int.cast_natCast]
  · unfold Stable.norm2Scaled
    rw [Elems.empty he, hne', n2, Elems.size he]
    show Res.ok (_ / sqrt ((l.length : Int) : K)) = _
    rw [Int.cast_natCast]

/-- C62: in exact arithmetic `stable_norm_lp(A, p)` is `(sum |x|^p)^(1/p)`, and `stable_norm_lp_scaled`
that divided by `n^(1/p)`; without elements all norms are the default; checked builds reject `p <= 0`. -/
theorem C62_norm_lp (b : Build) {a : Acc σ K} {l : List K} (h : Elems d a s l)
    (hsmall : (l.length : Int) < 2 ^ 62 - 1) {p : Nat} (hp : 0 < p) (dflt : K) :
    Stable.normLp b d (exactF K pow sqrt) a s p dflt =
      .ok (if l = [] then dflt else pow (l.map (fun x => |x| ^ p)).sum (1 / p)) ∧
    Stable.normLpScaled b d (exactF K pow sqrt) a s p dflt =
      .ok (if l = [] then dflt else pow (l.map (fun x => |x| ^ p)).sum (1 / p) / pow l.length (1 / p)) := by
  have hpd : decide ((p : Int) > 0) = true := decide_eq_true (by omega)
  by_cases hne : l = []
  · unfold Stable.normLp Stable.normLpScaled
    rw [hpd, Elems.empty h, if_pos hne, if_pos hne, hne]
    simp only [assertDebug_true, Res.ok_bind, List.isEmpty_nil, if_true, and_self]
  have hne' : l.isEmpty = false := by simpa using hne
  obtain ⟨c, c1, c2⟩ := const_elems (σ := σ) (s := s) b l.length (by omega) (1 : K)
  obtain ⟨P, p1, p2⟩ := const_elems (σ := σ) (s := s) b l.length (by omega) (p : Int)
  obtain ⟨v, v1, v2⟩ := view1D_elems b h (by omega)
  have hA := Elems.unary v2 (f := (exactF K pow sqrt).abss) (g := fun x => |x|) (fun x _ => abss_exact x)
  have e1 : (exactF K pow sqrt).ofIndex 1 = .ok (1 : K) := by
    show Res.ok (((1 : Int) : K)) = _
    rw [Int.cast_one]
  have p2' : Elems .one P s ((List.replicate l.length p).map (fun p : Nat => (p : Int))) := by
    rw [List.map_replicate]; exact p2
  have key : ∀ dflt, Stable.normLp b d (exactF K pow sqrt) a s p dflt =
      .ok (pow (l.map (fun x => |x| ^ p)).sum (1 / p)) := by
    intro dflt
    unfold Stable.normLp
    rw [hpd, Elems.empty h, hne', Elems.size h]
    simp only [assertDebug_true, Res.ok_bind, Bool.false_eq_true, if_false, e1, c1, p1, v1]
    rw [C62_gpolynomial b c2 hA p2' (by simp) (by simp)
      (by rw [← List.length_pos_iff, List.length_replicate, List.length_pos_iff]; exact hne)
      (by rw [List.length_replicate]; exact hsmall)]
    show Res.ok (pow _ (1 / (((p : Nat) : Int) : K))) = _
    rw [Int.cast_natCast]
    congr 3
    clear * -
    apply List.ext_getElem
    · simp
    · intro i h1 h2; simp
  rw [if_neg hne, if_neg hne]
  refine ⟨key dflt, ?_⟩
  unfold Stable.normLpScaled
  rw [hpd, Elems.empty h, hne', key, Elems.size h]
  simp only [assertDebug_true, Res.ok_bind, Bool.false_eq_true, if_false]
  show Res.ok (_ / pow ((l.length : Int) : K) (1 / (((p : Nat) : Int) : K))) = _
  rw [Int.cast_natCast, Int.cast_natCast]

/-- C62: without elements every compensated norm is the default; checked builds reject exponents that
are not positive. -/
theorem C62_norm_edges {α : Type} (b : Build) (fs : FScalar α) {a : Acc σ α} (dflt : α) {p : Int} :
    (Elems d a s [] → Stable.norm1 fs a s dflt = .ok dflt ∧ Stable.norm1Scaled fs a s dflt = .ok dflt ∧
      Stable.norm2 b d fs a s dflt = .ok dflt ∧ Stable.norm2Scaled b d fs a s dflt = .ok dflt) ∧
    (b.Checked → p ≤ 0 → Stable.normLp b d fs a s p dflt = .trap b.kind ∧
      Stable.normLpScaled b d fs a s p dflt = .trap b.kind) := by
  refine ⟨fun h => ?_, fun hb hp => ?_⟩
  · unfold Stable.norm1 Stable.norm1Scaled Stable.norm2 Stable.norm2Scaled
    rw [Elems.empty h]
    exact ⟨rfl, rfl, rfl, rfl⟩
  · unfold Stable.normLp Stable.normLpScaled
    rw [decide_eq_false (show ¬ p > 0 by omega), assertDebug_false hb]
    exact ⟨rfl, rfl⟩

end norms

/-! ### The hypotheses are satisfiable -/

section examples

open Spp.Sample

/-- `1 + 2 x + 3 x^2` at `x = 1/2`. -/
example : Stable.polynomial ⟨false, true, false⟩ (exactF ℚ (fun x _ => x) id) (lit [1, 2, 3]) (1 / 2) () 0 =
    .ok (11 / 4) := by
  rw [C62_polynomial _ (Shaped.elems (lit_shaped () [1, 2, 3])) (by simp) (by simp)]
  norm_num [Finset.sum_range_succ]

/-- `5 * 2^3 + 7 * 3^0 + 1 * 10^2`. -/
example : Stable.gpolynomial ⟨false, true, false⟩ (exactF ℚ (fun x _ => x) id)
    (lit [5, 7, 1]) (lit [2, 3, 10]) (lit [3, 0, 2]) () 0 = .ok 147 := by
  rw [C62_gpolynomial (ps := [3, 0, 2]) _ (Shaped.elems (lit_shaped () [(5 : ℚ), 7, 1]))
    (Shaped.elems (lit_shaped () [(2 : ℚ), 3, 10])) (Shaped.elems (lit_shaped () [3, 0, 2])) rfl rfl (by simp)
    (by norm_num)]
  norm_num

example : Stable.polynomial ⟨false, true, false⟩ (exactF ℚ (fun x _ => x) id)
    (lit (List.replicate (2 ^ 31 + 1) 0)) 1 () 0 = .trap .exception := by
  have h := C62_too_many (b := ⟨false, true, false⟩) ⟨rfl, by simp [Build.Guarded]⟩ (exactF ℚ (fun x _ => x) id)
    (Shaped.elems (lit_shaped () (List.replicate (2 ^ 31 + 1) (0 : ℚ))))
    (by rw [List.length_replicate]; omega) (by rw [List.length_replicate]; omega) 1 0
  exact h

/-- Single precision: `1 - 3 x^2 + x^5` at `x = 3/2`. -/
example : ∃ rn, NearestX 24 rn ∧ ∃ v, Stable.gpolynomial ⟨false, true, false⟩
    (rounded rn (fun x _ => x) id) (lit [1, -3, 1]) (lit [1, 3 / 2, 3 / 2]) (lit [0, 2, 5]) () 0 = .ok v ∧
    |v - (1 - 3 * (3 / 2) ^ 2 + (3 / 2) ^ 5)| ≤ 1 / 2 ^ 20 := by
  obtain ⟨rn, h⟩ := exists_nearestX (p := 24) (by norm_num)
  obtain ⟨v, h1, h2⟩ := C62_bound (pow := fun x _ => x) (sqrt := id) (ps := [0, 2, 5]) (N := 5)
    (by norm_num) h ⟨false, true, false⟩
    (Shaped.elems (lit_shaped () [(1 : ℚ), -3, 1])) (Shaped.elems (lit_shaped () [(1 : ℚ), 3 / 2, 3 / 2]))
    (Shaped.elems (lit_shaped () [0, 2, 5])) rfl rfl (by simp) (by norm_num)
    (by
      intro x hx
      simp only [List.mem_cons, List.not_mem_nil, or_false] at hx
      rcases hx with rfl | rfl | rfl
      · exact ⟨1, 0, by norm_num, by norm_num⟩
      · exact ⟨-3, 0, by norm_num, by norm_num⟩
      · exact ⟨1, 0, by norm_num, by norm_num⟩)
    (by
      intro x hx
      simp only [List.mem_cons, List.not_mem_nil, or_false] at hx
      rcases hx with rfl | rfl | rfl
      · exact ⟨1, 0, by norm_num, by norm_num⟩
      · exact ⟨3, -1, by norm_num, by norm_num⟩
      · exact ⟨3, -1, by norm_num, by norm_num⟩)
    (by simp) 0
  refine ⟨rn, h, v, h1, ?_⟩
  have e : ((List.zip [(1 : ℚ), -3, 1] (List.zip [(1 : ℚ), 3 / 2, 3 / 2] [0, 2, 5])).map
      (fun q => q.1 * q.2.1 ^ q.2.2)).sum = 1 - 3 * (3 / 2) ^ 2 + (3 / 2) ^ 5 := by norm_num
  rw [e] at h2
  refine h2.trans ?_
  simp only [unit, List.zip_cons_cons, List.zip_nil_left, List.map_cons, List.map_nil,
    List.sum_cons, List.sum_nil, List.length_cons, List.length_nil]
  norm_num [abs_of_nonneg]

end examples

end Spp.Props
