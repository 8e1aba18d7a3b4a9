import Verif.Model.Eigen
import Verif.Spec.Eigen
import Verif.Lemmas.Array2D
import Verif.Lemmas.Stable

/- Helper lemmas for C89. -/

set_option linter.unusedSectionVars false

namespace Spp
open Spec

variable {α : Type} [Inhabited α]

theorem eigenFactors_ok {A B : Arr2 α} {M N : Mat α} (hA : IsMat A M) (hB : IsMat B N) (hMN : M.n = N.m)
    {i j : Nat} (hi : i < M.m) (hj : j < N.n) : eigenFactors A B i j = .ok (M.factors N i j) := by
  unfold eigenFactors
  have hc : A.cols.toNat = M.n := by rw [hA.cols]; rfl
  rw [hc]
  refine foldN_ok (fun k => (List.range k).map fun k => (M.el i k, N.el k j)) M.n rfl ?_
  intro k hk
  rw [Arr2.rd2_ok hA hi hk, Arr2.rd2_ok hB (hMN ▸ hk) hj]
  simp [List.range_succ]

theorem eigenCoeff_eq {A B : Arr2 α} {M N : Mat α} (dot : List (α × α) → Option α) (hA : IsMat A M) (hB : IsMat B N)
    (hMN : M.n = N.m) {i j : Nat} (hi : i < M.m) (hj : j < N.n) :
    eigenCoeff dot A B i j = match dot (M.factors N i j) with | some v => .ok v | none => .ub := by
  unfold eigenCoeff
  rw [eigenFactors_ok hA hB hMN hi hj, Res.ok_bind]
  cases dot (M.factors N i j) <;> rfl

theorem foldN_ub {β : Type} {f : Nat → β → Res β} {init : β} (I : β → Prop) (n : Nat) (h0 : I init)
    (hs : ∀ k s, k < n → I s → f k s = .ub ∨ ∃ s', f k s = .ok s' ∧ I s') {k0 : Nat} (hk0 : k0 < n)
    (hb : ∀ s, I s → f k0 s = .ub) : foldN n f init = .ub := by
  have key : ∀ m, m ≤ n → (foldN m f init = .ub ∨ ∃ s, foldN m f init = .ok s ∧ I s) ∧
      (k0 < m → foldN m f init = .ub) := by
    intro m
    induction m with
    | zero => exact fun _ => ⟨.inr ⟨init, rfl, h0⟩, fun h => by omega⟩
    | succ m ih =>
      intro hm
      obtain ⟨h1, h2⟩ := ih (by omega)
      rw [foldN_succ]
      rcases h1 with h1 | ⟨s, h1, h3⟩
      · rw [h1]; exact ⟨.inl rfl, fun _ => rfl⟩
      · rw [h1, Res.ok_bind]
        refine ⟨hs m s (by omega) h3, fun hlt => ?_⟩
        by_cases hk : k0 < m
        · rw [h2 hk] at h1; cases h1
        · have : m = k0 := by omega
          rw [this]; exact hb s h3
  exact (key n (le_refl _)).2 hk0

/-- The loops of a product: a matrix of results, or undefined behaviour. -/
theorem product_loop {A B : Arr2 α} {M N : Mat α} (dot : List (α × α) → Option α) (hA : IsMat A M) (hB : IsMat B N)
    (hMN : M.n = N.m) {t : Arr2 α} {T : Mat α} (ht : IsMat t T) (hm : T.m = M.m) (hn : T.n = N.n) :
    (∀ P : Nat → Nat → α, (∀ i j, i < M.m → j < N.n → dot (M.factors N i j) = some (P i j)) →
      ∃ t', foldN A.rows.toNat (fun i t => foldN B.cols.toNat (fun j t => do
        let v ← eigenCoeff dot A B i j
        Arr2.wr2 t i j v) t) t = .ok t' ∧ IsMat t' ⟨M.m, N.n, P⟩) ∧
    (∀ i j, i < M.m → j < N.n → dot (M.factors N i j) = none →
      foldN A.rows.toNat (fun i t => foldN B.cols.toNat (fun j t => do
        let v ← eigenCoeff dot A B i j
        Arr2.wr2 t i j v) t) t = .ub) := by
  have hr : A.rows.toNat = M.m := by rw [hA.rows]; rfl
  have hc : B.cols.toNat = N.n := by rw [hB.cols]; rfl
  rw [hr, hc]
  constructor
  · intro P hP
    obtain ⟨t', h1, h2⟩ := Arr2.block_loop (body := fun i j t => do
        let v ← eigenCoeff dot A B i j
        Arr2.wr2 t i j v) ht (r := 0) (c := 0) (m := M.m) (n := N.n) (f := P) (by omega) (by omega) (by
      intro i j t hi hj
      rw [eigenCoeff_eq dot hA hB hMN hi hj, hP i j hi hj, Res.ok_bind]
      simp)
    refine ⟨t', h1, Arr2.isMat_ext h2 ⟨hm, hn, fun i j hi hj => ?_⟩⟩
    simp only [Mat.block] at hi hj ⊢
    rw [if_pos (by omega)]
    simp
  · intro i0 j0 hi0 hj0 hd
    have hS : ∀ {s : Arr2 α} {i j : Nat} (v : α), (∃ S, IsMat s S ∧ S.m = M.m ∧ S.n = N.n) → i < M.m → j < N.n →
        ∃ s', Arr2.wr2 s i j v = .ok s' ∧ ∃ S, IsMat s' S ∧ S.m = M.m ∧ S.n = N.n := by
      rintro s i j v ⟨S, h1, h2, h3⟩ hi hj
      obtain ⟨s', e1, e2⟩ := Arr2.wr2_ok h1 (i := i) (j := j) (by omega) (by omega) v
      exact ⟨s', e1, _, e2, h2, h3⟩
    have row : ∀ i s, i < M.m → (∃ S, IsMat s S ∧ S.m = M.m ∧ S.n = N.n) → ∀ n, n ≤ N.n →
        foldN n (fun j t => do
          let v ← eigenCoeff dot A B i j
          Arr2.wr2 t i j v) s = .ub ∨ ∃ s', foldN n (fun j t => do
          let v ← eigenCoeff dot A B i j
          Arr2.wr2 t i j v) s = .ok s' ∧ ∃ S, IsMat s' S ∧ S.m = M.m ∧ S.n = N.n := by
      intro i s hi hs n
      induction n with
      | zero => exact fun _ => .inr ⟨s, rfl, hs⟩
      | succ n ih =>
        intro hn
        rw [foldN_succ]
        rcases ih (by omega) with h | ⟨s', h, h'⟩
        · rw [h]; exact .inl rfl
        · rw [h, Res.ok_bind, eigenCoeff_eq dot hA hB hMN hi (by omega)]
          cases dot (M.factors N i n) with
          | none => exact .inl rfl
          | some v => exact .inr (hS v h' hi (by omega))
    refine foldN_ub (fun s => ∃ S, IsMat s S ∧ S.m = M.m ∧ S.n = N.n) M.m ⟨T, ht, hm, hn⟩
      (fun i s hi hs => row i s hi hs _ (le_refl _)) hi0 (fun s hs => ?_)
    refine foldN_ub (fun s => ∃ S, IsMat s S ∧ S.m = M.m ∧ S.n = N.n) N.n hs ?_ hj0 ?_
    · intro j s' hj hs'
      rw [eigenCoeff_eq dot hA hB hMN hi0 hj]
      cases dot (M.factors N i0 j) with
      | none => exact .inl rfl
      | some v => exact .inr (hS v hs' hi0 hj)
    · intro s' _
      rw [eigenCoeff_eq dot hA hB hMN hi0 hj0, hd]
      rfl

theorem isMat_replicate {m n : Nat} (hz : m = 0 ↔ n = 0) (x : α) :
    IsMat (⟨m, n, List.replicate ((m : Int) * n).toNat x⟩ : Arr2 α) ⟨m, n, fun _ _ => x⟩ where
  rows := rfl
  cols := rfl
  size := by simp only [List.length_replicate]; norm_cast
  zero := hz
  el := by
    intro i j hi hj
    have e : ((m : Int) * n).toNat = m * n := by norm_cast
    simp only at hi hj ⊢
    rw [e, List.getElem?_replicate, if_pos (flat_lt hi hj)]

theorem eigenAssignProduct_ok (b : Build) (dot : List (α × α) → Option α) {A B C : Arr2 α} {M N T : Mat α}
    (hA : IsMat A M) (hB : IsMat B N) (hC : IsMat C T) (hf : M.Fits N T) :
    (∀ P : Nat → Nat → α, (∀ i j, i < M.m → j < N.n → dot (M.factors N i j) = some (P i j)) →
      ∃ C', eigenAssignProduct b dot A B C = .ok C' ∧ IsMat C' ⟨M.m, N.n, P⟩) ∧
    (∀ i j, i < M.m → j < N.n → dot (M.factors N i j) = none → eigenAssignProduct b dot A B C = .ub) := by
  obtain ⟨h1, h2, h3⟩ := hf
  have hz : M.m = 0 ↔ N.n = 0 := by rw [hA.zero, h1, hB.zero]
  have e0 : (A.cols == B.rows) = true := by rw [hA.cols, hB.rows]; simp [h1]
  have e1 : (C.rows == A.rows && C.cols == B.cols) = true := by
    rw [hA.rows, hB.cols, hC.rows, hC.cols]; simp [h2, h3]
  have et : (⟨A.rows, B.cols, List.replicate (A.rows * B.cols).toNat default⟩ : Arr2 α) =
      ⟨(M.m : Int), (N.n : Int), List.replicate ((M.m : Int) * N.n).toNat default⟩ := by rw [hA.rows, hB.cols]
  have hP := product_loop dot hA hB h1 (isMat_replicate (α := α) hz default) rfl rfl
  have hr : A.rows.toNat = M.m := by rw [hA.rows]; rfl
  have hc : B.cols.toNat = N.n := by rw [hB.cols]; rfl
  unfold eigenAssignProduct
  rw [et, e0, e1]
  simp only [eigenAssert, if_true, Res.ok_bind]
  constructor
  · intro P hp
    obtain ⟨t', e2, e3⟩ := hP.1 P hp
    rw [e2, Res.ok_bind, hr, hc]
    obtain ⟨c', h5, h6⟩ := Arr2.block_loop (body := fun i j c => do
        let v ← Arr2.rd2 t' i j
        Arr2.wr2 c i j v) hC (r := 0) (c := 0) (m := M.m) (n := N.n) (f := P) (by omega) (by omega) (by
      intro i j t hi hj
      rw [Arr2.rd2_ok e3 hi hj, Res.ok_bind]
      simp)
    refine ⟨c', h5, Arr2.isMat_ext h6 ⟨h2, h3, fun i j hi hj => ?_⟩⟩
    simp only [Mat.block] at hi hj ⊢
    rw [if_pos (by omega)]
    simp
  · intro i j hi hj hd
    rw [hP.2 i j hi hj hd]
    rfl

end Spp

namespace Spp.Lemmas
open Spec

variable {p : Nat} {emin : Int} {rn : ℚ → ℚ}

theorem computes_rep (h : Nearest p emin rn) {l : List (ℚ × ℚ)} {v : ℚ} (hc : Computes rn l v) : Rep p emin v := by
  induction hc with
  | nil => exact ⟨0, emin, by simp, le_refl _, by simp⟩
  | prod x y => exact h.rep _
  | add _ _ => exact h.rep _
  | fma x y _ => exact h.rep _
  | perm _ _ ih => exact ih

theorem mult_add {x y : ℚ} (hx : Mult emin x) (hy : Mult emin y) : Mult emin (x + y) := by
  obtain ⟨k, rfl⟩ := hx
  obtain ⟨m, rfl⟩ := hy
  exact ⟨k + m, by push_cast; ring⟩

theorem sumOfAbs_nonneg (l : List (ℚ × ℚ)) : 0 ≤ sumOfAbsProducts l := by
  induction l with
  | nil => simp [sumOfAbsProducts]
  | cons q l ih =>
    simp only [sumOfAbsProducts, List.map_cons, List.sum_cons] at ih ⊢
    have := abs_nonneg (q.1 * q.2)
    rw [abs] at this
    exact add_nonneg this ih

theorem sumOfAbs_cons (x y : ℚ) (l : List (ℚ × ℚ)) :
    sumOfAbsProducts ((x, y) :: l) = |x * y| + sumOfAbsProducts l := by
  simp only [sumOfAbsProducts, List.map_cons, List.sum_cons]; rfl

theorem sumOfProducts_abs (l : List (ℚ × ℚ)) : |sumOfProducts l| ≤ sumOfAbsProducts l := by
  induction l with
  | nil => simp [sumOfProducts, sumOfAbsProducts]
  | cons q l ih =>
    obtain ⟨x, y⟩ := q
    rw [sumOfAbs_cons]
    have : sumOfProducts ((x, y) :: l) = x * y + sumOfProducts l := by simp [sumOfProducts]
    rw [this]
    exact (abs_add_le _ _).trans (by linarith)

theorem computes_err (hp : 2 ≤ p) (h : Nearest p emin rn) {l : List (ℚ × ℚ)} {v : ℚ} (hc : Computes rn l v)
    (hu : ∀ q ∈ l, Mult emin (q.1 * q.2)) :
    |v - sumOfProducts l| ≤ ((1 + unit p) ^ l.length - 1) * sumOfAbsProducts l := by
  have hup : 0 < unit p := (fl_nearest hp h).pos
  induction hc with
  | nil => simp [sumOfProducts, sumOfAbsProducts]
  | prod x y =>
    have := rel_err (by omega) h (hu (x, y) (by simp))
    have e : sumOfProducts [(x, y)] = x * y := by simp [sumOfProducts]
    have e' : sumOfAbsProducts [(x, y)] = |x * y| := by rw [sumOfAbs_cons]; simp [sumOfAbsProducts]
    rw [e, e', abs_sub_comm]
    simpa using this
  | @add l l' v v' h1 h2 ih1 ih2 =>
    have g1 := ih1 (fun q hq => hu q (List.mem_append_left _ hq))
    have g2 := ih2 (fun q hq => hu q (List.mem_append_right _ hq))
    have e : sumOfProducts (l ++ l') = sumOfProducts l + sumOfProducts l' := by simp [sumOfProducts]
    have e' : sumOfAbsProducts (l ++ l') = sumOfAbsProducts l + sumOfAbsProducts l' := by simp [sumOfAbsProducts]
    have n1 := sumOfAbs_nonneg l
    have n2 := sumOfAbs_nonneg l'
    have r1 := computes_rep h h1
    have r2 := computes_rep h h2
    by_cases hl : l = []
    · subst hl
      have hv : v = 0 := by simpa [sumOfProducts, sumOfAbsProducts, sub_eq_zero] using g1
      rw [hv, zero_add, rn_rep h r2]
      simpa using g2
    by_cases hl' : l' = []
    · subst hl'
      have hv : v' = 0 := by simpa [sumOfProducts, sumOfAbsProducts, sub_eq_zero] using g2
      rw [hv, add_zero, rn_rep h r1]
      simpa using g1
    have p1 := List.length_pos_iff.2 hl
    have p2 := List.length_pos_iff.2 hl'
    rw [e, e', List.length_append]
    have herr : |v + v' - rn (v + v')| ≤ unit p * |v + v'| :=
      rel_err (by omega) h (mult_add (rep_mult r1) (rep_mult r2))
    have m1 : (1 + unit p) ^ (l.length + 1) ≤ (1 + unit p) ^ (l.length + l'.length) :=
      pow_le_pow_right₀ (by linarith) (by omega)
    have m2 : (1 + unit p) ^ (l'.length + 1) ≤ (1 + unit p) ^ (l.length + l'.length) :=
      pow_le_pow_right₀ (by linarith) (by omega)
    have a1 : |v| ≤ (1 + unit p) ^ l.length * sumOfAbsProducts l := by
      have := sumOfProducts_abs l
      have t : |v| ≤ |v - sumOfProducts l| + |sumOfProducts l| := by
        have := abs_add_le (v - sumOfProducts l) (sumOfProducts l)
        simpa using this
      linarith
    have a2 : |v'| ≤ (1 + unit p) ^ l'.length * sumOfAbsProducts l' := by
      have := sumOfProducts_abs l'
      have t : |v'| ≤ |v' - sumOfProducts l'| + |sumOfProducts l'| := by
        have := abs_add_le (v' - sumOfProducts l') (sumOfProducts l')
        simpa using this
      linarith
    have a3 : |v + v'| ≤ |v| + |v'| := abs_add_le _ _
    have s1 : |rn (v + v') - (sumOfProducts l + sumOfProducts l')| ≤
        |v + v' - rn (v + v')| + |v - sumOfProducts l| + |v' - sumOfProducts l'| := by
      have := abs_add_le (-(v + v' - rn (v + v'))) ((v - sumOfProducts l) + (v' - sumOfProducts l'))
      have t := abs_add_le (v - sumOfProducts l) (v' - sumOfProducts l')
      rw [abs_neg] at this
      have e2 : -(v + v' - rn (v + v')) + ((v - sumOfProducts l) + (v' - sumOfProducts l')) =
        rn (v + v') - (sumOfProducts l + sumOfProducts l') := by ring
      rw [e2] at this
      linarith
    have b1 := mul_le_mul_of_nonneg_right m1 n1
    have b2 := mul_le_mul_of_nonneg_right m2 n2
    have c1 := mul_le_mul_of_nonneg_left a1 hup.le
    have c2 := mul_le_mul_of_nonneg_left a2 hup.le
    have c3 := mul_le_mul_of_nonneg_left a3 hup.le
    rw [pow_succ] at b1 b2
    nlinarith
  | @fma l v x y h1 ih =>
    have g1 := ih (fun q hq => hu q (List.mem_cons_of_mem _ hq))
    have hxy := hu (x, y) (by simp)
    have n1 := sumOfAbs_nonneg l
    have r1 := computes_rep h h1
    have e : sumOfProducts ((x, y) :: l) = x * y + sumOfProducts l := by simp [sumOfProducts]
    rw [e, sumOfAbs_cons, List.length_cons]
    have herr : |x * y + v - rn (x * y + v)| ≤ unit p * |x * y + v| :=
      rel_err (by omega) h (mult_add hxy (rep_mult r1))
    have a1 : |v| ≤ (1 + unit p) ^ l.length * sumOfAbsProducts l := by
      have := sumOfProducts_abs l
      have t : |v| ≤ |v - sumOfProducts l| + |sumOfProducts l| := by
        have := abs_add_le (v - sumOfProducts l) (sumOfProducts l)
        simpa using this
      linarith
    have a3 : |x * y + v| ≤ |x * y| + |v| := abs_add_le _ _
    have s1 : |rn (x * y + v) - (x * y + sumOfProducts l)| ≤ |x * y + v - rn (x * y + v)| + |v - sumOfProducts l| := by
      have := abs_add_le (-(x * y + v - rn (x * y + v))) (v - sumOfProducts l)
      rw [abs_neg] at this
      have e2 : -(x * y + v - rn (x * y + v)) + (v - sumOfProducts l) = rn (x * y + v) - (x * y + sumOfProducts l) := by
        ring
      rwa [e2] at this
    have c1 := mul_le_mul_of_nonneg_left a1 hup.le
    have c3 := mul_le_mul_of_nonneg_left a3 hup.le
    have k1 : (1 : ℚ) ≤ (1 + unit p) ^ l.length := one_le_pow₀ (by linarith)
    have k2 : 0 ≤ unit p * ((1 + unit p) ^ l.length - 1) * |x * y| := by
      have := abs_nonneg (x * y)
      have : 0 ≤ (1 + unit p) ^ l.length - 1 := by linarith
      positivity
    have k3 : 0 ≤ ((1 + unit p) ^ l.length - 1) * |x * y| := by
      have := abs_nonneg (x * y)
      have : 0 ≤ (1 + unit p) ^ l.length - 1 := by linarith
      positivity
    rw [pow_succ]
    nlinarith
  | @perm l l' v hl hc ih =>
    have g := ih (fun q hq => hu q (hl.mem_iff.1 hq))
    have e : sumOfProducts l = sumOfProducts l' := (hl.map _).sum_eq
    have e' : sumOfAbsProducts l = sumOfAbsProducts l' := (hl.map _).sum_eq
    rw [← e, ← e', ← hl.length_eq]
    exact g

end Spp.Lemmas
