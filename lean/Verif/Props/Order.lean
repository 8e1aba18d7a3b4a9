import Verif.Lemmas.Order
import Verif.Props.Rounding

/-
C119: sums, inner products, means and norms computed in floating point respect order.
-/

set_option linter.unusedSectionVars false

namespace Spp.Props

open Spp.Spec Spp.Lemmas Spp.Order

variable {σ : Type} {s s' : σ} {d d' : Dim} {p : Nat} {emin : Int} {rn : ℚ → ℚ} {pow : ℚ → ℚ → ℚ}
  {sqrt : ℚ → ℚ} {G : ℚ → Prop}

theorem sum_fold {a : Acc σ ℚ} {x : ℚ} {xs : List ℚ} (ha : Elems d a s (x :: xs)) (dflt : ℚ) :
    Ops.sum (rounded rn pow sqrt).toScalar.toArith a s dflt = .ok (xs.foldl (fun a y => rn (a + y)) x) :=
  ((C52_left_to_right ha (rounded rn pow sqrt).toScalar.toArith dflt).2 x xs rfl).1.trans
    (foldlM_pure (g := fun a y => rn (a + y)) xs x fun _ _ _ => rfl)

theorem sum_mono (hm : Mono G rn) {a a' : Acc σ ℚ} {l l' : List ℚ} (ha : Elems d a s l) (ha' : Elems d' a' s' l')
    (hne : l ≠ []) (hle : List.Forall₂ (· ≤ ·) l l') (dflt dflt' : ℚ) :
    ∃ v v', Ops.sum (rounded rn pow sqrt).toScalar.toArith a s dflt = .ok v ∧
      Ops.sum (rounded rn pow sqrt).toScalar.toArith a' s' dflt' = .ok v' ∧ v ≤ v' := by
  cases hle with
  | nil => exact absurd rfl hne
  | cons hxy hl => exact ⟨_, _, sum_fold ha dflt, sum_fold ha' dflt', fold_mono hm hl hxy⟩

/-- C119: `sum` is monotone: if no element of `A` exceeds its partner in `B`, then the computed sum of `A` does not
exceed that of `B`, for every rounding to nearest, with gradual underflow, whatever is done with ties. -/
theorem C119_sum_monotone (h : Nearest p emin rn) {a a' : Acc σ ℚ} {l l' : List ℚ} (ha : Elems d a s l)
    (ha' : Elems d' a' s' l') (hne : l ≠ []) (hle : List.Forall₂ (· ≤ ·) l l') (dflt dflt' : ℚ) :
    ∃ v v', Ops.sum (rounded rn pow sqrt).toScalar.toArith a s dflt = .ok v ∧
      Ops.sum (rounded rn pow sqrt).toScalar.toArith a' s' dflt' = .ok v' ∧ v ≤ v' :=
  sum_mono (mono h) ha ha' hne hle dflt dflt'

/-- C119: appending numbers that are not negative does not decrease the computed sum. -/
theorem C119_sum_grows (h : Nearest p emin rn) {a a' : Acc σ ℚ} {l m : List ℚ} (ha : Elems d a s l)
    (ha' : Elems d' a' s' (l ++ m)) (hne : l ≠ []) (hl : ∀ x ∈ l, Rep p emin x) (hm : ∀ x ∈ m, 0 ≤ x)
    (dflt dflt' : ℚ) :
    ∃ v v', Ops.sum (rounded rn pow sqrt).toScalar.toArith a s dflt = .ok v ∧
      Ops.sum (rounded rn pow sqrt).toScalar.toArith a' s' dflt' = .ok v' ∧ v ≤ v' := by
  cases l with
  | nil => exact absurd rfl hne
  | cons x xs =>
    refine ⟨_, _, sum_fold ha dflt, sum_fold ha' dflt', ?_⟩
    show _ ≤ (xs ++ m).foldl _ x
    rw [List.foldl_append]
    exact fold_grows (mono h) hm (fold_rep (mono h) xs (hl x (List.mem_cons_self ..)))

theorem covers_cons (hm : Mono G rn) {x : ℚ} {xs : List ℚ} (hl : ∀ y ∈ x :: xs, 0 ≤ y ∧ G y) :
    ∀ y ∈ x :: xs, y ≤ xs.foldl (fun a y => rn (a + y)) x := by
  have hx := hl x (List.mem_cons_self ..)
  have ht : ∀ y ∈ xs, 0 ≤ y ∧ G y := fun y hy => hl y (List.mem_cons_of_mem _ hy)
  intro y hy
  rcases List.mem_cons.1 hy with rfl | hy
  · exact fold_grows hm (fun w hw => (ht w hw).1) hx.2
  · exact fold_covers hm ht hx.1 y hy

/-- C119: the computed sum of numbers that are not negative is at least each of them. -/
theorem C119_sum_covers (h : Nearest p emin rn) {a : Acc σ ℚ} {l : List ℚ} (ha : Elems d a s l) (hne : l ≠ [])
    (hl : ∀ x ∈ l, 0 ≤ x ∧ Rep p emin x) (dflt : ℚ) :
    ∃ v, Ops.sum (rounded rn pow sqrt).toScalar.toArith a s dflt = .ok v ∧ ∀ x ∈ l, x ≤ v := by
  cases l with
  | nil => exact absurd rfl hne
  | cons x xs => exact ⟨_, sum_fold ha dflt, covers_cons (mono h) hl⟩

theorem mean_value {a : Acc σ ℚ} {l : List ℚ} (ha : Elems d a s l) (hne : l ≠ []) {v : ℚ}
    (hv : Ops.sum (rounded rn pow sqrt).toScalar.toArith a s 0 = .ok v) (dflt : ℚ) :
    Ops.mean (rounded rn pow sqrt).toScalar.toArith a s dflt = .ok (rn (v / rn l.length)) := by
  have hne' : l.isEmpty = false := by simpa using hne
  unfold Ops.mean
  rw [Elems.empty ha, hne', Elems.size ha]
  show ((Ops.sum (rounded rn pow sqrt).toScalar.toArith a s 0) >>= _) = _
  rw [hv]
  show Res.ok (rn (v / rn ((l.length : Int) : ℚ))) = _
  rw [Int.cast_natCast]

/-- C119: `mean` is monotone. -/
theorem C119_mean_monotone (h : Nearest p emin rn) {a a' : Acc σ ℚ} {l l' : List ℚ} (ha : Elems d a s l)
    (ha' : Elems d' a' s' l') (hne : l ≠ []) (hle : List.Forall₂ (· ≤ ·) l l') (dflt dflt' : ℚ) :
    ∃ v v', Ops.mean (rounded rn pow sqrt).toScalar.toArith a s dflt = .ok v ∧
      Ops.mean (rounded rn pow sqrt).toScalar.toArith a' s' dflt' = .ok v' ∧ v ≤ v' := by
  obtain ⟨v, v', h1, h2, h3⟩ := C119_sum_monotone (pow := pow) (sqrt := sqrt) h ha ha' hne hle 0 0
  have hlen : l.length = l'.length := hle.length_eq
  have hne' : l' ≠ [] := by
    rw [← List.length_pos_iff] at hne ⊢
    omega
  refine ⟨_, _, mean_value ha hne h1 dflt, mean_value ha' hne' h2 dflt', ?_⟩
  rw [← hlen]
  exact (mono h).mono (div_le_div_of_nonneg_right h3 ((mono h).nonneg (by positivity)))

/-- C119: the mean of two numbers lies between them (without overflow and underflow). -/
theorem C119_mean_two (hp : 2 ≤ p) (h : NearestX p rn) {a : Acc σ ℚ} {x y : ℚ} (ha : Elems d a s [x, y])
    (hx : RepX p x) (hy : RepX p y) (dflt : ℚ) :
    ∃ v, Ops.mean (rounded rn pow sqrt).toScalar.toArith a s dflt = .ok v ∧ min x y ≤ v ∧ v ≤ max x y := by
  have hm := monoX h
  have h2 : ∀ {z : ℚ}, RepX p z → RepX p (2 * z) := by
    rintro z ⟨m, e, h1, rfl⟩
    exact ⟨m, e + 1, h1, by rw [zpow_add_one₀ (by norm_num)]; ring⟩
  have hhalf : ∀ {z : ℚ}, RepX p z → RepX p (z / 2) := by
    rintro z ⟨m, e, h1, rfl⟩
    exact ⟨m, e - 1, h1, by rw [zpow_sub_one₀ (by norm_num)]; ring⟩
  have htwo : rn ([x, y].length : ℚ) = 2 := by
    show rn ((2 : Nat) : ℚ) = 2
    refine (hm.fix ⟨1, 1, ?_, by norm_num⟩).trans (by norm_num)
    rw [abs_one]
    exact one_lt_pow₀ (by norm_num) (by omega)
  refine ⟨_, mean_value ha (by simp) (sum_fold ha 0) dflt, ?_⟩
  rw [htwo]
  show min x y ≤ rn (rn (x + y) / 2) ∧ rn (rn (x + y) / 2) ≤ max x y
  rw [hm.fix (hhalf (hm.rep _))]
  have hmin : RepX p (min x y) := by rcases min_choice x y with e | e <;> rw [e] <;> assumption
  have hmax : RepX p (max x y) := by rcases max_choice x y with e | e <;> rw [e] <;> assumption
  have a1 : 2 * min x y ≤ rn (x + y) := hm.ge (h2 hmin) (by linarith [min_le_left x y, min_le_right x y])
  have a2 : rn (x + y) ≤ 2 * max x y := hm.le (h2 hmax) (by linarith [le_max_left x y, le_max_right x y])
  constructor <;> linarith

/-- C119: but the mean of five equal numbers need not be that number: in double precision the computed mean of five
copies of the double nearest to 1/67 is the next smaller double. -/
theorem C119_mean_outside (h : NearestX 53 rn) {a : Acc σ ℚ} {x : ℚ} (hx : x = 8603891825424231 / 2 ^ 59)
    (ha : Elems d a s [x, x, x, x, x]) (dflt : ℚ) :
    RepX 53 x ∧ rn (1 / 67) = x ∧ ∃ v, Ops.mean (rounded rn pow sqrt).toScalar.toArith a s dflt = .ok v ∧ v < x := by
  have z1 : (2 : ℚ) ^ (-59 : Int) = 1 / 2 ^ 59 := by norm_num
  have z2 : (2 : ℚ) ^ (-58 : Int) = 1 / 2 ^ 58 := by norm_num
  have z3 : (2 : ℚ) ^ (-57 : Int) = 1 / 2 ^ 57 := by norm_num
  have z4 : (2 : ℚ) ^ (-56 : Int) = 1 / 2 ^ 56 := by norm_num
  have e1 : rn (x + x) = ((8603891825424231 : Int) : ℚ) * 2 ^ (-58 : Int) := by
    refine round_to h (by norm_num) (by norm_num) ?_
    rw [hx, z2, abs_lt]
    norm_num
  have e2 : rn (((8603891825424231 : Int) : ℚ) * 2 ^ (-58 : Int) + x) = ((6452918869068173 : Int) : ℚ) * 2 ^ (-57 : Int) := by
    refine round_to h (by norm_num) (by norm_num) ?_
    rw [hx, z2, z3, abs_lt]
    norm_num
  have e3 : rn (((6452918869068173 : Int) : ℚ) * 2 ^ (-57 : Int) + x) = ((8603891825424231 : Int) : ℚ) * 2 ^ (-57 : Int) := by
    refine round_to h (by norm_num) (by norm_num) ?_
    rw [hx, z3, abs_lt]
    norm_num
  have e4 : rn (((8603891825424231 : Int) : ℚ) * 2 ^ (-57 : Int) + x) = ((5377432390890144 : Int) : ℚ) * 2 ^ (-56 : Int) := by
    refine round_to h (by norm_num) (by norm_num) ?_
    rw [hx, z3, z4, abs_lt]
    norm_num
  have e5 : rn (([x, x, x, x, x].length : Nat) : ℚ) = 5 :=
    ((monoX h).fix ⟨5, 0, by norm_num, by norm_num⟩).trans (by norm_num)
  have e6 : rn (((5377432390890144 : Int) : ℚ) * 2 ^ (-56 : Int) / 5) = ((8603891825424230 : Int) : ℚ) * 2 ^ (-59 : Int) := by
    refine round_to h (by norm_num) (by norm_num) ?_
    rw [z1, z4, abs_lt]
    norm_num
  have e7 : rn (1 / 67) = ((8603891825424231 : Int) : ℚ) * 2 ^ (-59 : Int) := by
    refine round_to h (by norm_num) (by norm_num) ?_
    rw [z1, abs_lt]
    norm_num
  have hxe : x = ((8603891825424231 : Int) : ℚ) * 2 ^ (-59 : Int) := by rw [hx, z1]; norm_num
  refine ⟨⟨_, _, by norm_num, hxe⟩, e7.trans hxe.symm, _, mean_value ha (by simp) (sum_fold ha 0) dflt, ?_⟩
  rw [e5]
  show rn (rn (rn (rn (rn (x + x) + x) + x) + x) / 5) < x
  rw [e1, e2, e3, e4, e6, hx, z1]
  norm_num

theorem dot_fold (b : Build) {a1 a2 : Acc σ ℚ} {sh : Nat × Nat} {x y : ℚ} {xs ys : List ℚ}
    (h1 : Shaped d a1 s sh (x :: xs)) (h2 : Shaped d a2 s sh (y :: ys)) (dflt : ℚ) :
    Ops.dotProd b d (rounded rn pow sqrt).toScalar.toArith a1 a2 s dflt =
      .ok ((List.zipWith (fun a b => rn (a * b)) xs ys).foldl (fun a y => rn (a + y)) (rn (x * y))) := by
  rw [(C52_dot b h1 h2 (rounded rn pow sqrt).toScalar.toArith (mul := fun a b => rn (a * b)) (fun _ _ => rfl) dflt).2
    _ _ rfl]
  exact foldlM_pure (g := fun a y => rn (a + y)) _ _ fun _ _ _ => rfl

theorem products_mono (hm : Mono G rn) {xs xs' ys ys' : List ℚ} (hx : List.Forall₂ (fun x x' => 0 ≤ x ∧ x ≤ x') xs xs')
    (hy : List.Forall₂ (fun y y' => 0 ≤ y ∧ y ≤ y') ys ys') :
    List.Forall₂ (· ≤ ·) (List.zipWith (fun a b => rn (a * b)) xs ys)
      (List.zipWith (fun a b => rn (a * b)) xs' ys') := by
  induction hx generalizing ys ys' with
  | nil => simp
  | cons h1 _ ih =>
    cases hy with
    | nil => simp
    | cons h2 h3 =>
      exact .cons (hm.mono (mul_le_mul h1.2 h2.2 h2.1 (h1.1.trans h1.2))) (ih h3)

/-- C119: `dot_prod` of elements that are not negative is monotone in both operands. -/
theorem C119_dot_monotone (h : Nearest p emin rn) (b b' : Build) {a1 a2 a1' a2' : Acc σ ℚ} {sh sh' : Nat × Nat}
    {xs ys xs' ys' : List ℚ} (h1 : Shaped d a1 s sh xs) (h2 : Shaped d a2 s sh ys) (h1' : Shaped d' a1' s' sh' xs')
    (h2' : Shaped d' a2' s' sh' ys') (hne : xs ≠ []) (hx : List.Forall₂ (fun x x' => 0 ≤ x ∧ x ≤ x') xs xs')
    (hy : List.Forall₂ (fun y y' => 0 ≤ y ∧ y ≤ y') ys ys') (dflt dflt' : ℚ) :
    ∃ v v', Ops.dotProd b d (rounded rn pow sqrt).toScalar.toArith a1 a2 s dflt = .ok v ∧
      Ops.dotProd b' d' (rounded rn pow sqrt).toScalar.toArith a1' a2' s' dflt' = .ok v' ∧ v ≤ v' := by
  have hl : xs.length = ys.length := (Shaped.len h1).trans (Shaped.len h2).symm
  cases hx with
  | nil => exact absurd rfl hne
  | cons hxx hxs =>
    cases hy with
    | nil => simp at hl
    | cons hyy hys =>
      exact ⟨_, _, dot_fold b h1 h2 dflt, dot_fold b' h1' h2' dflt', fold_mono (mono h) (products_mono (mono h) hxs hys)
        ((mono h).mono (mul_le_mul hxx.2 hyy.2 hyy.1 (hxx.1.trans hxx.2)))⟩

theorem dot_self (hm : Mono G rn) (b : Build) {a : Acc σ ℚ} {sh : Nat × Nat} {l : List ℚ} (ha : Shaped d a s sh l)
    (hne : l ≠ []) (dflt : ℚ) :
    ∃ v, Ops.dotProd b d (rounded rn pow sqrt).toScalar.toArith a a s dflt = .ok v ∧ 0 ≤ v ∧
      ∀ x ∈ l, rn (x * x) ≤ v := by
  cases l with
  | nil => exact absurd rfl hne
  | cons x xs =>
    have ez : ∀ l : List ℚ, List.zipWith (fun a b => rn (a * b)) l l = l.map fun y => rn (y * y) := fun l => by
      rw [List.zipWith_self]
    have hc := covers_cons hm (x := rn (x * x)) (xs := xs.map fun y => rn (y * y)) (by
      rw [← List.map_cons (f := fun y => rn (y * y))]
      intro z hz
      obtain ⟨w, -, rfl⟩ := List.mem_map.1 hz
      exact ⟨hm.nonneg (mul_self_nonneg w), hm.rep _⟩)
    refine ⟨_, dot_fold b ha ha dflt, ?_, ?_⟩ <;> rw [ez]
    · exact (hm.nonneg (mul_self_nonneg x)).trans (hc _ (List.mem_cons_self ..))
    · intro y hy
      refine hc _ ?_
      rw [← List.map_cons (f := fun y => rn (y * y))]
      exact List.mem_map_of_mem hy

/-- C119: `dot_prod(A, A)` is not negative, and at least the rounded square of each element. -/
theorem C119_dot_self (h : Nearest p emin rn) (b : Build) {a : Acc σ ℚ} {sh : Nat × Nat} {l : List ℚ}
    (ha : Shaped d a s sh l) (hne : l ≠ []) (dflt : ℚ) :
    ∃ v, Ops.dotProd b d (rounded rn pow sqrt).toScalar.toArith a a s dflt = .ok v ∧ 0 ≤ v ∧
      ∀ x ∈ l, rn (x * x) ≤ v :=
  dot_self (mono h) b ha hne dflt

theorem ordered_rounded : Ordered (rounded rn pow sqrt).toScalar where
  lt _ _ := decide_eq_true_iff
  le _ _ := decide_eq_true_iff
  eq _ _ := decide_eq_true_iff

/-- C119: `norm_inf` in floating point is exactly the largest magnitude. -/
theorem C119_norm_inf {a : Acc σ ℚ} {l : List ℚ} (ha : Elems d a s l) (hne : l ≠ []) (dflt : ℚ) :
    ∃ v, Ops.normInf (rounded rn pow sqrt).toScalar a s dflt = .ok v ∧ (∃ x ∈ l, v = |x|) ∧ ∀ x ∈ l, |x| ≤ v := by
  have hne' : l.isEmpty = false := by simpa using hne
  obtain ⟨v, h1, h2, h3⟩ := ((C53_extrema (ordered_rounded (rn := rn) (pow := pow) (sqrt := sqrt))
    (abs_values (rn := rn) (pow := pow) (sqrt := sqrt) ha) (rounded rn pow sqrt).zero).2 (by simpa using hne)).2
  obtain ⟨x, hx, rfl⟩ := List.mem_map.1 h2
  refine ⟨_, ?_, ⟨x, hx, rfl⟩, fun y hy => h3 _ (List.mem_map_of_mem hy)⟩
  unfold Ops.normInf
  rw [Elems.empty ha, hne']
  exact h1

theorem norm1_value {a : Acc σ ℚ} {l : List ℚ} (ha : Elems d a s l) (hne : l ≠ []) (dflt : ℚ) :
    Ops.norm1 (rounded rn pow sqrt).toScalar a s dflt =
      Ops.sum (rounded rn pow sqrt).toScalar.toArith (a.unary (rounded rn pow sqrt).toScalar.abss) s 0 := by
  have hne' : l.isEmpty = false := by simpa using hne
  unfold Ops.norm1
  rw [Elems.empty ha, hne']
  rfl

theorem smaller_ne {l l' : List ℚ} (h : Smaller l l') (hne : l ≠ []) : l' ≠ [] := by
  have := List.Forall₂.length_eq h
  rw [← List.length_pos_iff] at hne ⊢
  omega

theorem smaller_abs {l l' : List ℚ} (h : Smaller l l') : List.Forall₂ (· ≤ ·) (l.map abs) (l'.map abs) := by
  rw [List.forall₂_map_left_iff, List.forall₂_map_right_iff]
  exact h

/-- C119: `norm1` is monotone in the magnitudes of the elements. -/
theorem C119_norm1_monotone (h : Nearest p emin rn) {a a' : Acc σ ℚ} {l l' : List ℚ} (ha : Elems d a s l)
    (ha' : Elems d' a' s' l') (hne : l ≠ []) (hle : Smaller l l') (dflt dflt' : ℚ) :
    ∃ v v', Ops.norm1 (rounded rn pow sqrt).toScalar a s dflt = .ok v ∧
      Ops.norm1 (rounded rn pow sqrt).toScalar a' s' dflt' = .ok v' ∧ v ≤ v' := by
  rw [norm1_value ha hne, norm1_value ha' (smaller_ne hle hne)]
  exact C119_sum_monotone h (abs_values ha) (abs_values ha') (by simpa using hne) (smaller_abs hle) 0 0

/-- C119: `norm1` is at least `norm_inf`. -/
theorem C119_norm1_covers (h : Nearest p emin rn) {a : Acc σ ℚ} {l : List ℚ} (ha : Elems d a s l) (hne : l ≠ [])
    (hl : ∀ x ∈ l, Rep p emin x) (dflt dflt' : ℚ) :
    ∃ v w, Ops.normInf (rounded rn pow sqrt).toScalar a s dflt = .ok v ∧
      Ops.norm1 (rounded rn pow sqrt).toScalar a s dflt' = .ok w ∧ v ≤ w := by
  obtain ⟨v, h1, ⟨x, hx, rfl⟩, -⟩ := C119_norm_inf (rn := rn) (pow := pow) (sqrt := sqrt) ha hne dflt
  obtain ⟨w, h2, h3⟩ := C119_sum_covers (pow := pow) (sqrt := sqrt) h
    (abs_values (rn := rn) (pow := pow) (sqrt := sqrt) ha) (by simpa using hne) (by
      intro y hy
      obtain ⟨z, hz, rfl⟩ := List.mem_map.1 hy
      exact ⟨abs_nonneg z, (mono h).abs (hl z hz)⟩) 0
  exact ⟨_, w, h1, by rw [norm1_value ha hne, h2], h3 _ (List.mem_map_of_mem hx)⟩

theorem norm2_value (b : Build) {a : Acc σ ℚ} {l : List ℚ} (ha : Elems d a s l) (hne : l ≠ []) {v : ℚ}
    (hv : Ops.dotProd b d (rounded rn pow sqrt).toScalar.toArith a a s 0 = .ok v) (dflt : ℚ) :
    Ops.norm2 b d (rounded rn pow sqrt).toScalar a s dflt = .ok (sqrt v) := by
  have hne' : l.isEmpty = false := by simpa using hne
  unfold Ops.norm2
  rw [Elems.empty ha, hne']
  show (Ops.dotProd b d (rounded rn pow sqrt).toScalar.toArith a a s 0 >>= _) = _
  rw [hv]
  rfl

/-- C119: `norm2` is monotone in the magnitudes of the elements. -/
theorem C119_norm2_monotone (h : NearestX p rn) (hq : NearestSqrt p sqrt) (b b' : Build) {a a' : Acc σ ℚ}
    {sh sh' : Nat × Nat} {l l' : List ℚ} (ha : Shaped d a s sh l) (ha' : Shaped d' a' s' sh' l') (hne : l ≠ [])
    (hle : Smaller l l') (dflt dflt' : ℚ) :
    ∃ v v', Ops.norm2 b d (rounded rn pow sqrt).toScalar a s dflt = .ok v ∧
      Ops.norm2 b' d' (rounded rn pow sqrt).toScalar a' s' dflt' = .ok v' ∧ v ≤ v' := by
  have hm := monoX h
  obtain ⟨v, e1, e2, -⟩ := dot_self (pow := pow) (sqrt := sqrt) hm b ha hne 0
  obtain ⟨v', e1', -, -⟩ := dot_self (pow := pow) (sqrt := sqrt) hm b' ha' (smaller_ne hle hne) 0
  refine ⟨_, _, norm2_value b (Shaped.elems ha) hne e1 dflt, norm2_value b' (Shaped.elems ha') (smaller_ne hle hne) e1' dflt',
    sqrt_mono hq e2 ?_⟩
  have hsq : ∀ {x y : ℚ}, |x| ≤ |y| → rn (x * x) ≤ rn (y * y) := fun {x y} hxy =>
    hm.mono (by rw [← abs_mul_abs_self x, ← abs_mul_abs_self y]; exact mul_self_le_mul_self (abs_nonneg _) hxy)
  cases hle with
  | nil => exact absurd rfl hne
  | cons hxy hl =>
    rw [dot_fold b ha ha] at e1
    rw [dot_fold b' ha' ha'] at e1'
    cases e1
    cases e1'
    refine fold_mono hm ?_ (hsq hxy)
    rw [List.zipWith_self, List.zipWith_self, List.forall₂_map_left_iff, List.forall₂_map_right_iff]
    exact hl.imp fun _ _ => hsq

/-- C119: the correctly rounded root of the rounded square of a floating-point number is its magnitude: the two
rounding errors cancel. -/
theorem C119_sqrt_square (hp : 1 ≤ p) (h : NearestX p rn) (hq : NearestSqrt p sqrt) (x : ℚ) (hx : RepX p x) :
    sqrt (rn (x * x)) = |x| :=
  sqrt_square hp h hq hx

/-- C119: `norm2` of a single number is exactly its magnitude. -/
theorem C119_norm2_one (hp : 1 ≤ p) (h : NearestX p rn) (hq : NearestSqrt p sqrt) (b : Build) {a : Acc σ ℚ}
    {sh : Nat × Nat} {x : ℚ} (ha : Shaped d a s sh [x]) (hx : RepX p x) (dflt : ℚ) :
    Ops.norm2 b d (rounded rn pow sqrt).toScalar a s dflt = .ok |x| := by
  rw [norm2_value b (Shaped.elems ha) (by simp) (dot_fold b ha ha 0) dflt]
  exact congrArg Res.ok (sqrt_square hp h hq hx)

/-- C119: `norm2` is at least `norm_inf`, although its square root is taken of a rounded sum of rounded squares. -/
theorem C119_norm2_covers (hp : 1 ≤ p) (h : NearestX p rn) (hq : NearestSqrt p sqrt) (b : Build) {a : Acc σ ℚ}
    {sh : Nat × Nat} {l : List ℚ} (ha : Shaped d a s sh l) (hne : l ≠ []) (hl : ∀ x ∈ l, RepX p x) (dflt dflt' : ℚ) :
    ∃ v w, Ops.normInf (rounded rn pow sqrt).toScalar a s dflt = .ok v ∧
      Ops.norm2 b d (rounded rn pow sqrt).toScalar a s dflt' = .ok w ∧ v ≤ w := by
  have hm := monoX h
  obtain ⟨v, h1, ⟨x, hx, rfl⟩, -⟩ := C119_norm_inf (rn := rn) (pow := pow) (sqrt := sqrt) (Shaped.elems ha) hne dflt
  obtain ⟨v, e1, -, e3⟩ := dot_self (pow := pow) (sqrt := sqrt) hm b ha hne 0
  refine ⟨_, _, h1, norm2_value b (Shaped.elems ha) hne e1 dflt', ?_⟩
  rw [← sqrt_square hp h hq (hl x hx)]
  exact sqrt_mono hq (hm.nonneg (mul_self_nonneg x)) (e3 x hx)

/-! ### Cases that meet the hypotheses -/

open Spp.Sample

/-- Double precision: the sum of `(1, 2, 3)` does not exceed that of `(1, 5/2, 4)` and is at least 3. -/
example : ∃ rn, Nearest 53 (-1074) rn ∧
    (∃ v v', Ops.sum (rounded rn (fun x _ => x) id).toScalar.toArith (lit [1, 2, 3]) () 0 = .ok v ∧
      Ops.sum (rounded rn (fun x _ => x) id).toScalar.toArith (lit [1, 5 / 2, 4]) () 0 = .ok v' ∧ v ≤ v') ∧
    ∃ v, Ops.sum (rounded rn (fun x _ => x) id).toScalar.toArith (lit [1, 2, 3]) () 0 = .ok v ∧ (3 : ℚ) ≤ v := by
  obtain ⟨rn, h⟩ := exists_nearest (p := 53) (by norm_num) (-1074)
  refine ⟨rn, h, C119_sum_monotone h (Shaped.elems (lit_shaped () _)) (Shaped.elems (lit_shaped () _)) (by simp)
    (.cons (by norm_num) (.cons (by norm_num) (.cons (by norm_num) .nil))) 0 0, ?_⟩
  obtain ⟨v, h1, h2⟩ := C119_sum_covers (pow := fun x _ => x) (sqrt := id) h (Shaped.elems (lit_shaped () [(1 : ℚ), 2, 3]))
    (by simp) (by
      intro x hx
      simp only [List.mem_cons, List.not_mem_nil, or_false] at hx
      rcases hx with rfl | rfl | rfl
      exacts [⟨by norm_num, 1, 0, by norm_num, by norm_num, by norm_num⟩,
        ⟨by norm_num, 2, 0, by norm_num, by norm_num, by norm_num⟩,
        ⟨by norm_num, 3, 0, by norm_num, by norm_num, by norm_num⟩]) 0
  exact ⟨v, h1, h2 3 (by simp)⟩

/-- Appending 5 to `(-1, 2)`. -/
example : ∃ rn, Nearest 24 (-149) rn ∧
    ∃ v v', Ops.sum (rounded rn (fun x _ => x) id).toScalar.toArith (lit [-1, 2]) () 0 = .ok v ∧
      Ops.sum (rounded rn (fun x _ => x) id).toScalar.toArith (lit [-1, 2, 5]) () 0 = .ok v' ∧ v ≤ v' := by
  obtain ⟨rn, h⟩ := exists_nearest (p := 24) (by norm_num) (-149)
  refine ⟨rn, h, C119_sum_grows h (l := [-1, 2]) (m := [5]) (Shaped.elems (lit_shaped () _))
    (Shaped.elems (lit_shaped () _)) (by simp) ?_ (by norm_num) 0 0⟩
  intro x hx
  simp only [List.mem_cons, List.not_mem_nil, or_false] at hx
  rcases hx with rfl | rfl
  exacts [⟨-1, 0, by norm_num, by norm_num, by norm_num⟩, ⟨2, 0, by norm_num, by norm_num, by norm_num⟩]

/-- Inner products: `(1, 2) · (3, 4)` and `(2, 2) · (3, 5)`. -/
example : ∃ rn, Nearest 24 (-149) rn ∧
    ∃ v v', Ops.dotProd ⟨false, true, false⟩ .one (rounded rn (fun x _ => x) id).toScalar.toArith (lit [1, 2]) (lit [3, 4]) () 0 = .ok v ∧
      Ops.dotProd ⟨false, true, false⟩ .one (rounded rn (fun x _ => x) id).toScalar.toArith (lit [2, 2]) (lit [3, 5]) () 0 = .ok v' ∧
      v ≤ v' := by
  obtain ⟨rn, h⟩ := exists_nearest (p := 24) (by norm_num) (-149)
  exact ⟨rn, h, C119_dot_monotone h _ _ (lit_shaped () [(1 : ℚ), 2]) (lit_shaped () [(3 : ℚ), 4]) (lit_shaped () [(2 : ℚ), 2])
    (lit_shaped () [(3 : ℚ), 5]) (by simp) (.cons (by norm_num) (.cons (by norm_num) .nil))
    (.cons (by norm_num) (.cons (by norm_num) .nil)) 0 0⟩

/-- Norms in double precision: a single -0.1 (nearest double), and three numbers. -/
example : ∃ rn sqrt, NearestX 53 rn ∧ NearestSqrt 53 sqrt ∧
    Ops.norm2 ⟨false, true, false⟩ .one (rounded rn (fun x _ => x) sqrt).toScalar
      (lit [-7205759403792794 / 2 ^ 56]) () 0 = .ok (7205759403792794 / 2 ^ 56) ∧
    (∃ v w, Ops.normInf (rounded rn (fun x _ => x) sqrt).toScalar (lit [1, -7, 3]) () 0 = .ok v ∧
      Ops.norm2 ⟨false, true, false⟩ .one (rounded rn (fun x _ => x) sqrt).toScalar (lit [1, -7, 3]) () 0 = .ok w ∧ v ≤ w) ∧
    ∃ v v', Ops.norm2 ⟨false, true, false⟩ .one (rounded rn (fun x _ => x) sqrt).toScalar (lit [1, -7, 3]) () 0 = .ok v ∧
      Ops.norm2 ⟨false, true, false⟩ .one (rounded rn (fun x _ => x) sqrt).toScalar (lit [-1, 8, 4]) () 0 = .ok v' ∧ v ≤ v' := by
  obtain ⟨rn, h⟩ := exists_nearestX (p := 53) (by norm_num)
  obtain ⟨sqrt, hq⟩ := exists_nearestSqrt (p := 53) (by norm_num)
  refine ⟨rn, sqrt, h, hq, ?_, C119_norm2_covers (by norm_num) h hq _ (lit_shaped () [(1 : ℚ), -7, 3]) (by simp) ?_ 0 0,
    C119_norm2_monotone h hq _ _ (lit_shaped () [(1 : ℚ), -7, 3]) (lit_shaped () [(-1 : ℚ), 8, 4]) (by simp)
      (.cons (by norm_num) (.cons (by norm_num [abs_of_pos, abs_of_neg]) (.cons (by norm_num [abs_of_pos]) .nil))) 0 0⟩
  · rw [C119_norm2_one (by norm_num) h hq _ (lit_shaped () [(-7205759403792794 / 2 ^ 56 : ℚ)])
      ⟨-7205759403792794, -56, by norm_num, by norm_num⟩ 0]
    exact congrArg Res.ok (by rw [abs_of_neg (by norm_num)]; norm_num)
  · intro x hx
    simp only [List.mem_cons, List.not_mem_nil, or_false] at hx
    rcases hx with rfl | rfl | rfl
    exacts [⟨1, 0, by norm_num, by norm_num⟩, ⟨-7, 0, by norm_num, by norm_num⟩, ⟨3, 0, by norm_num, by norm_num⟩]

/-- Means: of 1 and 4, and of five copies of the double nearest to 1/67. -/
example : ∃ rn, NearestX 53 rn ∧
    (∃ v, Ops.mean (rounded rn (fun x _ => x) id).toScalar.toArith (lit [4, 1]) () 0 = .ok v ∧ 1 ≤ v ∧ v ≤ 4) ∧
    ∃ v, Ops.mean (rounded rn (fun x _ => x) id).toScalar.toArith
      (lit (List.replicate 5 (8603891825424231 / 2 ^ 59))) () 0 = .ok v ∧ v < 8603891825424231 / 2 ^ 59 := by
  obtain ⟨rn, h⟩ := exists_nearestX (p := 53) (by norm_num)
  obtain ⟨v, h1, h2, h3⟩ := C119_mean_two (pow := fun x _ => x) (sqrt := id) (by norm_num) h
    (Shaped.elems (lit_shaped () [(4 : ℚ), 1])) ⟨4, 0, by norm_num, by norm_num⟩ ⟨1, 0, by norm_num, by norm_num⟩ 0
  rw [min_eq_right (by norm_num)] at h2
  rw [max_eq_left (by norm_num)] at h3
  exact ⟨rn, h, ⟨v, h1, h2, h3⟩, (C119_mean_outside h rfl (Shaped.elems (lit_shaped () _)) 0).2.2⟩

end Spp.Props
