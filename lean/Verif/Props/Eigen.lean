import Verif.Lemmas.Eigen
import Verif.Props.Storage
import Mathlib.Algebra.BigOperators.Ring.Finset
import Mathlib.Algebra.Order.Ring.Int

/- C89: arrays as matrices of the Eigen library. -/

set_option linter.unusedSectionVars false

namespace Spp.Props
open Spec Lemmas

variable {α : Type} [Inhabited α]

/-- C89: the alignment a map promises to Eigen is the alignment of the array if Eigen has a name for it. -/
theorem C89_alignment (n : Nat) :
    (eigenAlign n).bytes = if n ∈ [8, 16, 32, 64, 128] then n else 0 := by
  unfold eigenAlign
  by_cases h0 : n = 0
  · subst h0; rfl
  by_cases h1 : n = 8
  · subst h1; rfl
  by_cases h2 : n = 16
  · subst h2; rfl
  by_cases h3 : n = 32
  · subst h3; rfl
  by_cases h4 : n = 64
  · subst h4; rfl
  by_cases h5 : n = 128
  · subst h5; rfl
  simp [h0, h1, h2, h3, h4, h5, EigenAlignment.bytes]

/-- C89: after any history, the map of an array has the size of the array, is read-only exactly for const arrays, and
its alignment promise is kept by the pointer: 64 bytes for `Aligned` arrays, none for `Unaligned` ones.  Coefficient
(i, j) lies `i * cols + j` elements behind the pointer, where the array has its element (i, j). -/
theorem C89_map {b : Build} {m : Allocator} {h : Heap α} (hm : AllocatorContract m) (hr : Reach b m h) {x : Nat} {o : Obj}
    (ho : h.objs x = some o) (const : Bool) (rows cols : Int) :
    ∃ r, Heap.data x h = (.ok r, h) ∧
      (eigenMap const o.af r rows cols).ptr = r ∧ (eigenMap const o.af r rows cols).const = const ∧
      (eigenMap const o.af r rows cols).rows = rows ∧ (eigenMap const o.af r rows cols).cols = cols ∧
      (o.af = .aligned → (eigenMap const o.af r rows cols).align.bytes = 64) ∧
      (o.af = .unaligned → (eigenMap const o.af r rows cols).align.bytes = 0) ∧
      ∀ a, r = some a →
        ((eigenMap const o.af r rows cols).align.bytes = 0 ∨ (eigenMap const o.af r rows cols).align.bytes ∣ a) ∧
        ∀ size i j, (eigenMap const o.af r rows cols).address size i j = some (a + (i * cols + j) * size) := by
  obtain ⟨r, h1, _, h3⟩ := C87_aligned hm hr ho
  refine ⟨r, h1, rfl, rfl, rfl, rfl, ?_, ?_, fun a ha => ⟨?_, ?_⟩⟩
  · intro haf; rw [haf]; rfl
  · intro haf; rw [haf]; rfl
  · cases haf : o.af with
    | aligned => exact .inr ((h3 a ha).2.2 haf)
    | unaligned => exact .inl rfl
  · intro size i j
    rw [ha]; rfl

/-- C89: `map` can be called with every two-dimensional array that owns its elements, named or temporary: the map of a
temporary array is left with a pointer to elements that no longer exist. -/
theorem C89_temporaries (a : Cpp.Arg) :
    Cpp.compiles eigenMapSet (fun _ => true) [a] = true ↔ ∃ e, a.what = .array .two e true := by
  obtain ⟨w, c⟩ := a
  constructor
  · intro h
    cases w with
    | array d e o =>
      cases d <;> cases o <;> cases c <;> first | exact ⟨e, rfl⟩ | exact absurd h (by simp [Cpp.compiles, Cpp.resolve,
        eigenMapSet, Cpp.Cand.viable, Cpp.on1, Cpp.Ty.dimBase, Cpp.Ty.owner, Cpp.Form.deduce, Cpp.Ty.noRef])
    | _ => cases c <;> exact absurd h (by simp [Cpp.compiles, Cpp.resolve, eigenMapSet, Cpp.Cand.viable, Cpp.on1,
        Cpp.Ty.dimBase, Cpp.Ty.owner, Cpp.Form.deduce, Cpp.Ty.noRef])
  · rintro ⟨e, he⟩
    cases he
    cases c <;> simp [Cpp.compiles, Cpp.resolve, eigenMapSet, Cpp.Cand.viable, Cpp.on1, Cpp.Ty.dimBase, Cpp.Ty.owner,
      Cpp.Form.deduce, Cpp.Form.bind, Cpp.Ty.noRef, Cpp.Cand.beats, Cpp.Bound.better]

/-- C89: `matrix_prod(A, B, C)` of arrays whose sizes fit stores in `C` at (i, j) the sum of products of row `i` of `A`
and column `j` of `B` as the built-in arithmetic gives it; nothing else changes, and `C` may be `A` or `B`.  It is undefined
exactly if one of these sums is. -/
theorem C89_product (b : Build) (dot : List (α × α) → Option α) {s : Vars2 α} {i j k : Nat} {M N T : Mat α}
    (hA : IsMat (s i) M) (hB : IsMat (s j) N) (hC : IsMat (s k) T) (hf : M.Fits N T) :
    (∀ P : Nat → Nat → α, (∀ p q, p < M.m → q < N.n → dot (M.factors N p q) = some (P p q)) →
      ∃ c, matrixProd b dot i j k s = (.ok (), fun x => if x = k then c else s x) ∧ IsMat c ⟨M.m, N.n, P⟩) ∧
    ((∃ p q, p < M.m ∧ q < N.n ∧ dot (M.factors N p q) = none) → matrixProd b dot i j k s = (.ub, s)) := by
  have e : matrixProdInto b dot (s i) (s j) (s k) = eigenAssignProduct b dot (s i) (s j) (s k) := by
    obtain ⟨h1, h2, h3⟩ := hf
    unfold matrixProdInto
    rw [hA.cols, hB.rows, hC.rows, hA.rows, hC.cols, hB.cols, h1, h2, h3]
    simp
  have hP := eigenAssignProduct_ok b dot hA hB hC hf
  unfold matrixProd
  simp only [Op.bind_run, Op.get, Op.lift, Op.set, e]
  constructor
  · intro P hp
    obtain ⟨c, h1, h2⟩ := hP.1 P hp
    exact ⟨c, by rw [h1]; rfl, h2⟩
  · rintro ⟨p, q, hp, hq, hd⟩
    rw [hP.2 p q hp hq hd]

/-- C89: sizes that do not fit are rejected before anything changes in builds with debug checks. -/
theorem C89_mismatch {b : Build} (hb : b.Checked) (dot : List (α × α) → Option α) {s : Vars2 α} {i j k : Nat}
    {M N T : Mat α} (hA : IsMat (s i) M) (hB : IsMat (s j) N) (hC : IsMat (s k) T) (hf : ¬ M.Fits N T) :
    matrixProd b dot i j k s = (.trap b.kind, s) := by
  have e : matrixProdInto b dot (s i) (s j) (s k) = .trap b.kind := by
    unfold matrixProdInto
    rw [hA.cols, hB.rows, hC.rows, hA.rows, hC.cols, hB.cols]
    by_cases h1 : M.n = N.m
    · by_cases h2 : T.m = M.m
      · by_cases h3 : T.n = N.n
        · exact absurd ⟨h1, h2, h3⟩ hf
        · rw [show ((T.n : Int) == (N.n : Int)) = false by simpa using h3, assertDebug_false hb]
          simp [h1, h2]
      · rw [show ((T.m : Int) == (M.m : Int)) = false by simpa using h2, assertDebug_false hb]
        simp [h1]
    · rw [show ((M.n : Int) == (N.m : Int)) = false by simpa using h1, assertDebug_false hb]
      rfl
  unfold matrixProd
  simp only [Op.bind_run, Op.get, Op.lift, e]

theorem assertDebug_unchecked {b : Build} (hb : ¬ b.Checked) (c : Bool) : assertDebug b c = .ok () := by
  rcases b with ⟨_ | _, _ | _, _ | _⟩ <;> cases c <;> first | rfl | exact absurd (by decide) hb

/-- C89: without debug checks sizes that do not fit are left to Eigen: its own assertions abort the program unless they
are compiled out too; then the behaviour is undefined. -/
theorem C89_mismatch_unchecked {b : Build} (hb : ¬ b.Checked) (dot : List (α × α) → Option α) {s : Vars2 α} {i j k : Nat}
    {M N T : Mat α} (hA : IsMat (s i) M) (hB : IsMat (s j) N) (hC : IsMat (s k) T) (hf : ¬ M.Fits N T)
    (hd : ∀ p q, p < M.m → q < N.n → dot (M.factors N p q) ≠ none) :
    matrixProd b dot i j k s = (if b.ndebug then .ub else .trap .abort, s) := by
  have e : matrixProdInto b dot (s i) (s j) (s k) = if b.ndebug then .ub else .trap .abort := by
    unfold matrixProdInto
    rw [assertDebug_unchecked hb, assertDebug_unchecked hb, assertDebug_unchecked hb]
    simp only [Res.ok_bind]
    unfold eigenAssignProduct
    rw [hA.cols, hB.rows]
    by_cases h1 : M.n = N.m
    · have hz : M.m = 0 ↔ N.n = 0 := by rw [hA.zero, h1, hB.zero]
      have et : (⟨(s i).rows, (s j).cols, List.replicate ((s i).rows * (s j).cols).toNat default⟩ : Arr2 α) =
          ⟨(M.m : Int), (N.n : Int), List.replicate ((M.m : Int) * N.n).toNat default⟩ := by rw [hA.rows, hB.cols]
      obtain ⟨t', e2, _⟩ := (product_loop dot hA hB h1 (isMat_replicate (α := α) hz default) rfl rfl).1
        (fun p q => (dot (M.factors N p q)).getD default) (fun p q hp hq => by
          cases hx : dot (M.factors N p q) with
          | none => exact absurd hx (hd p q hp hq)
          | some v => rfl)
      have e3 : ((s k).rows == (s i).rows && (s k).cols == (s j).cols) = false := by
        rw [hA.rows, hB.cols, hC.rows, hC.cols]
        by_cases h2 : T.m = M.m
        · have h3 : T.n ≠ N.n := fun h3 => hf ⟨h1, h2, h3⟩
          simp [h3]
        · simp [h2]
      have e0 : ((M.n : Int) == (N.m : Int)) = true := by simp [h1]
      rw [et, e0, e2, e3]
      simp only [eigenAssert, if_true, Res.ok_bind]
      cases b.ndebug <;> rfl
    · have e0 : ((M.n : Int) == (N.m : Int)) = false := by simpa using h1
      rw [e0]
      simp only [eigenAssert]
      cases b.ndebug <;> rfl
  unfold matrixProd
  simp only [Op.bind_run, Op.get, Op.lift, e]
  cases b.ndebug <;> rfl

/-- C89: `matrix_prod(A, B)` is a new array with the rows of `A` and the columns of `B` that holds the product; sizes
that do not fit are rejected in builds with debug checks. -/
theorem C89_new (b : Build) (dot : List (α × α) → Option α) {A B : Arr2 α} {M N : Mat α} (hA : IsMat A M)
    (hB : IsMat B N) (hs : M.m * N.n < 2 ^ 63) :
    (M.n = N.m →
      (∀ P : Nat → Nat → α, (∀ p q, p < M.m → q < N.n → dot (M.factors N p q) = some (P p q)) →
        ∃ c, matrixProdNew b dot A B = .ok c ∧ IsMat c ⟨M.m, N.n, P⟩) ∧
      ((∃ p q, p < M.m ∧ q < N.n ∧ dot (M.factors N p q) = none) → matrixProdNew b dot A B = .ub)) ∧
    (M.n ≠ N.m → b.Checked → matrixProdNew b dot A B = .trap b.kind) := by
  constructor
  · intro h1
    have hz : M.m = 0 ↔ N.n = 0 := by rw [hA.zero, h1, hB.zero]
    obtain ⟨C, hC1, hC2⟩ := Arr2.make_ok (α := α) b (m := A.rows) (n := B.cols) (by rw [hA.rows]; omega)
      (by rw [hB.cols]; omega) (by rw [hA.rows, hB.cols]; omega) (by rw [hA.rows, hB.cols]; exact_mod_cast hs)
    have hC : IsMat C (Mat.const M.m N.n default) := by rw [hA.rows, hB.cols] at hC2; simpa using hC2
    have hf : M.Fits N (Mat.const M.m N.n default) := ⟨h1, rfl, rfl⟩
    have e : matrixProdNew b dot A B = eigenAssignProduct b dot A B C := by
      unfold matrixProdNew matrixProdInto
      rw [hC1, hA.cols, hB.rows, h1]
      simp only [beq_self_eq_true, assertDebug_true, Res.ok_bind]
      rw [hC.rows, hC.cols, hA.rows, hB.cols]
      simp [Mat.const]
    have hP := eigenAssignProduct_ok b dot hA hB hC hf
    rw [e]
    exact ⟨hP.1, fun ⟨p, q, hp, hq, hd⟩ => hP.2 p q hp hq hd⟩
  · intro h1 hb
    unfold matrixProdNew
    rw [hA.cols, hB.rows, show ((M.n : Int) == (N.m : Int)) = false by simpa using h1, assertDebug_false hb]
    rfl

theorem sum_map_range (n : Nat) (f : Nat → Int) : ((List.range n).map f).sum = ∑ k ∈ Finset.range n, f k := by
  induction n with
  | zero => simp
  | succ n ih => rw [List.range_succ, List.map_append, List.sum_append, ih, Finset.sum_range_succ]; simp

/-- C89, integers: in whatever order Eigen adds, the product is the exact matrix product as long as the sums of the
absolute values stay within the type. -/
theorem C89_exact (b : Build) {top : Int} {dot : List (Int × Int) → Option Int} (hdot : ExactDot top dot)
    {A B : Arr2 Int} {M N : Mat Int} (hA : IsMat A M) (hB : IsMat B N) (h1 : M.n = N.m) (hs : M.m * N.n < 2 ^ 63)
    (hfit : ∀ p q, p < M.m → q < N.n → sumOfAbsProducts (M.factors N p q) ≤ top) :
    ∃ c, matrixProdNew b dot A B = .ok c ∧
      IsMat c ⟨M.m, N.n, fun p q => ∑ k ∈ Finset.range M.n, M.el p k * N.el k q⟩ := by
  refine ((C89_new b dot hA hB hs).1 h1).1 _ (fun p q hp hq => ?_)
  rw [hdot _ (hfit p q hp hq)]
  congr 1
  simp only [sumOfProducts, Mat.factors, List.map_map]
  exact sum_map_range M.n fun k => M.el p k * N.el k q

/-- C89, integers: products of three matrices do not depend on the grouping, as long as nothing exceeds the type. -/
theorem C89_associative (b : Build) {top : Int} {dot : List (Int × Int) → Option Int} (hdot : ExactDot top dot)
    {A B C : Arr2 Int} {M N K : Mat Int} (hA : IsMat A M) (hB : IsMat B N) (hC : IsMat C K) (h1 : M.n = N.m)
    (h2 : N.n = K.m) (s1 : M.m * N.n < 2 ^ 63) (s2 : N.m * K.n < 2 ^ 63) (s3 : M.m * K.n < 2 ^ 63)
    (hfit1 : ∀ p q, p < M.m → q < N.n → sumOfAbsProducts (M.factors N p q) ≤ top)
    (hfit2 : ∀ p q, p < N.m → q < K.n → sumOfAbsProducts (N.factors K p q) ≤ top)
    (hfit3 : ∀ R : Mat Int, R.m = M.m → R.n = N.n → (∀ p q, R.el p q = ∑ k ∈ Finset.range M.n, M.el p k * N.el k q) →
      ∀ p q, p < M.m → q < K.n → sumOfAbsProducts (R.factors K p q) ≤ top)
    (hfit4 : ∀ R : Mat Int, R.m = N.m → R.n = K.n → (∀ p q, R.el p q = ∑ k ∈ Finset.range N.n, N.el p k * K.el k q) →
      ∀ p q, p < M.m → q < K.n → sumOfAbsProducts (M.factors R p q) ≤ top) :
    ∃ c, (do let r ← matrixProdNew b dot A B; matrixProdNew b dot r C) = .ok c ∧
      (do let r ← matrixProdNew b dot B C; matrixProdNew b dot A r) = .ok c := by
  obtain ⟨r, e1, m1⟩ := C89_exact b hdot hA hB h1 s1 hfit1
  obtain ⟨r', e2, m2⟩ := C89_exact b hdot hB hC h2 s2 hfit2
  obtain ⟨c, e3, m3⟩ := C89_exact b hdot m1 hC h2 s3 (hfit3 _ rfl rfl fun _ _ => rfl)
  obtain ⟨c', e4, m4⟩ := C89_exact b hdot hA m2 h1 s3 (hfit4 _ rfl rfl fun _ _ => rfl)
  have key : c' = c := by
    refine Arr2.isMat_unique m4 (Arr2.isMat_ext m3 ⟨rfl, rfl, fun p q _ _ => ?_⟩)
    simp only [Finset.sum_mul, Finset.mul_sum]
    rw [Finset.sum_comm]
    exact Finset.sum_congr rfl fun x _ => Finset.sum_congr rfl fun y _ => mul_assoc _ _ _
  exact ⟨c, by rw [e1]; exact e3, by rw [e2, Res.ok_bind, e4, key]⟩

/-- C89, floating point: in whatever order Eigen adds, and with or without fused multiply-add, every coefficient has the
usual error bound for an inner product of `n` terms, when no product underflows. -/
theorem C89_rounded (b : Build) {p : Nat} {emin : Int} {rn : ℚ → ℚ} (hp : 2 ≤ p) (hn : Nearest p emin rn)
    {dot : List (ℚ × ℚ) → Option ℚ} (hdot : ∀ l, ∃ v, dot l = some v ∧ Computes rn l v) {A B : Arr2 ℚ} {M N : Mat ℚ}
    (hA : IsMat A M) (hB : IsMat B N) (h1 : M.n = N.m) (hs : M.m * N.n < 2 ^ 63)
    (hu : ∀ i k j, i < M.m → k < M.n → j < N.n → ∃ z : Int, M.el i k * N.el k j = z * 2 ^ emin) :
    ∃ c P, matrixProdNew b dot A B = .ok c ∧ IsMat c ⟨M.m, N.n, P⟩ ∧
      ∀ i j, i < M.m → j < N.n →
        |P i j - ((List.range M.n).map fun k => M.el i k * N.el k j).sum| ≤
          ((1 + unit p) ^ M.n - 1) * ((List.range M.n).map fun k => |M.el i k * N.el k j|).sum := by
  obtain ⟨c, e1, e2⟩ := ((C89_new b dot hA hB hs).1 h1).1 (fun i j => (dot (M.factors N i j)).getD 0) (fun i j _ _ => by
    obtain ⟨v, hv, _⟩ := hdot (M.factors N i j)
    simp [hv])
  refine ⟨c, _, e1, e2, fun i j hi hj => ?_⟩
  obtain ⟨v, hv, hc⟩ := hdot (M.factors N i j)
  have := computes_err hp hn hc (fun q hq => by
    simp only [Mat.factors, List.mem_map, List.mem_range] at hq
    obtain ⟨k, hk, rfl⟩ := hq
    exact hu i k j hi hk hj)
  simp only [hv, Option.getD_some]
  simpa [sumOfProducts, sumOfAbsProducts, Mat.factors, Function.comp_def, abs] using this

/-! ### Concrete cases -/

/-- Adding from left to right with overflow checks, 32 bits. -/
def exampleDot (l : List (Int × Int)) : Option Int :=
  l.foldlM (fun acc q => if |q.1 * q.2| ≤ 2147483647 ∧ |acc + q.1 * q.2| ≤ 2147483647 then some (acc + q.1 * q.2) else none) 0

theorem exampleDot_exact : ExactDot 2147483647 exampleDot := by
  have nonneg : ∀ l : List (Int × Int), 0 ≤ sumOfAbsProducts l := by
    intro l
    induction l with
    | nil => simp [sumOfAbsProducts]
    | cons q l ih =>
      simp only [sumOfAbsProducts, List.map_cons, List.sum_cons] at ih ⊢
      omega
  have key : ∀ (l : List (Int × Int)) (acc : Int), |acc| + sumOfAbsProducts l ≤ 2147483647 →
      l.foldlM (fun acc q => if |q.1 * q.2| ≤ 2147483647 ∧ |acc + q.1 * q.2| ≤ 2147483647
        then some (acc + q.1 * q.2) else none) acc = some (acc + sumOfProducts l) := by
    intro l
    induction l with
    | nil => intro acc _; simp [sumOfProducts]
    | cons q l ih =>
      intro acc h
      have e : sumOfAbsProducts (q :: l) = |q.1 * q.2| + sumOfAbsProducts l := by
        simp only [sumOfAbsProducts, List.map_cons, List.sum_cons]; rfl
      have e' : sumOfProducts (q :: l) = q.1 * q.2 + sumOfProducts l := by simp [sumOfProducts]
      rw [e] at h
      have h0 := nonneg l
      have h1 := abs_add_le acc (q.1 * q.2)
      have h2 := abs_nonneg acc
      have h3 := abs_nonneg (q.1 * q.2)
      rw [List.foldlM_cons, if_pos ⟨by omega, by omega⟩]
      show List.foldlM _ (acc + q.1 * q.2) l = _
      rw [ih _ (by omega), e', add_assoc]
  intro l hl
  have := key l 0 (by simpa using hl)
  simpa [exampleDot] using this

example : matrixProdNew ⟨false, true, false⟩ exampleDot ⟨2, 3, [1, 2, 3, 4, 5, 6]⟩ ⟨3, 2, [1, 0, 0, 1, 1, -1]⟩ =
    .ok ⟨2, 2, [4, -1, 10, -1]⟩ := by decide +kernel

/-- The hypotheses of `C89_exact` for these matrices. -/
example : ∃ M N : Mat Int, IsMat ⟨2, 3, [1, 2, 3, 4, 5, 6]⟩ M ∧ IsMat ⟨3, 2, [1, 0, 0, 1, 1, -1]⟩ N ∧ M.n = N.m ∧
    M.m * N.n < 2 ^ 63 ∧ ∀ p q, p < M.m → q < N.n → sumOfAbsProducts (M.factors N p q) ≤ 2147483647 :=
  ⟨⟨2, 3, fun i j => 3 * i + j + 1⟩, ⟨3, 2, fun i j => [1, 0, 0, 1, 1, -1].getD (i * 2 + j) 0⟩,
    ⟨rfl, rfl, rfl, by decide, fun i j hi hj =>
      (by decide : ∀ i : Nat, i < 2 → ∀ j : Nat, j < 3 → ([1, 2, 3, 4, 5, 6] : List Int)[i * 3 + j]? = some (3 * (i : Int) + j + 1)) i hi j hj⟩,
    ⟨rfl, rfl, rfl, by decide, fun i j hi hj =>
      (by decide : ∀ i < 3, ∀ j < 2, ([1, 0, 0, 1, 1, -1] : List Int)[i * 2 + j]? =
        some ([1, 0, 0, 1, 1, -1].getD (i * 2 + j) 0)) i hi j hj⟩,
    rfl, by decide, fun p q hp hq =>
      (by decide : ∀ p < 2, ∀ q < 2, sumOfAbsProducts (Mat.factors (⟨2, 3, fun i j => 3 * i + j + 1⟩ : Mat Int)
        ⟨3, 2, fun i j => [1, 0, 0, 1, 1, -1].getD (i * 2 + j) 0⟩ p q) ≤ 2147483647) p hp q hq⟩

/-- A product stored in one of its factors, and one that overflows. -/
example : ((matrixProd ⟨false, true, false⟩ exampleDot 0 0 0 (fun _ => ⟨2, 2, [1, 1, 1, 0]⟩)).2 0,
    (matrixProd ⟨false, true, false⟩ exampleDot 0 0 1 (fun _ => ⟨1, 1, [65536]⟩)).1,
    (matrixProd ⟨false, true, false⟩ exampleDot 0 0 1 (fun _ => ⟨1, 2, [1, 2]⟩)).1,
    (matrixProd ⟨true, true, false⟩ exampleDot 0 0 1 (fun _ => ⟨1, 2, [1, 2]⟩)).1) =
    (⟨2, 2, [2, 1, 1, 1]⟩, .ub, .trap .exception, .trap .abort) := by decide +kernel

/-- Adding from left to right with rounding is one of the orders. -/
theorem computes_running (rn : ℚ → ℚ) (l : List (ℚ × ℚ)) :
    Computes rn l (l.foldl (fun acc q => rn (acc + rn (q.1 * q.2))) 0) := by
  have key : ∀ (l l' : List (ℚ × ℚ)) (acc : ℚ), Computes rn l' acc →
      Computes rn (l' ++ l) (l.foldl (fun acc q => rn (acc + rn (q.1 * q.2))) acc) := by
    intro l
    induction l with
    | nil => intro l' acc h; simpa using h
    | cons q l ih =>
      intro l' acc h
      have := ih (l' ++ [q]) _ (h.add (.prod q.1 q.2))
      simpa using this
  simpa using key l [] 0 .nil

example (rn : ℚ → ℚ) : ∃ dot : List (ℚ × ℚ) → Option ℚ, ∀ l, ∃ v, dot l = some v ∧ Computes rn l v :=
  ⟨fun l => some _, fun l => ⟨_, rfl, computes_running rn l⟩⟩

/-- Three factors. -/
example : ∃ c, (do let r ← matrixProdNew ⟨false, true, false⟩ exampleDot ⟨1, 1, [2]⟩ ⟨1, 1, [3]⟩
                   matrixProdNew ⟨false, true, false⟩ exampleDot r ⟨1, 1, [4]⟩) = .ok c ∧
    (do let r ← matrixProdNew ⟨false, true, false⟩ exampleDot ⟨1, 1, [3]⟩ ⟨1, 1, [4]⟩
        matrixProdNew ⟨false, true, false⟩ exampleDot ⟨1, 1, [2]⟩ r) = .ok c := by
  have h1 : ∀ x : Int, IsMat ⟨1, 1, [x]⟩ ⟨1, 1, fun _ _ => x⟩ := fun x =>
    ⟨rfl, rfl, rfl, by simp, fun i j hi hj => by
      have : i = 0 := by simp at hi; omega
      have : j = 0 := by simp at hj; omega
      subst i j; rfl⟩
  refine C89_associative _ exampleDot_exact (h1 2) (h1 3) (h1 4) rfl rfl (by decide) (by decide) (by decide)
    (fun _ _ _ _ => (by decide : (6 : Int) ≤ 2147483647)) (fun _ _ _ _ => (by decide : (12 : Int) ≤ 2147483647)) ?_ ?_
  · intro R _ h2 h3 p q _ _
    have e : R.el p 0 = 6 := by rw [h3]; rfl
    simp [sumOfAbsProducts, Mat.factors, h2, e, List.range_succ]
  · intro R _ _ h3 p q _ _
    have e : R.el 0 q = 12 := by rw [h3]; rfl
    simp [sumOfAbsProducts, Mat.factors, e, List.range_succ]

end Spp.Props
