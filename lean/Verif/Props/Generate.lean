import Verif.Props.Concat
import Mathlib.Algebra.CharZero.Defs
import Mathlib.Algebra.Field.Basic
import Mathlib.Data.Nat.Cast.Basic
import Mathlib.Tactic.FieldSimp
import Mathlib.Tactic.Ring

/-
Properties of generators (C47), reductions along rows and columns, broadcasts, tensor and
matrix-vector products (C48).
-/

set_option linter.unusedSectionVars false

namespace Spp.Props
open Spec

variable {α : Type} {b : Build} {s0 : Store α}

/-! ### Generators -/

/-- C47: `sequence(n, start, incr)` has the elements `start + incr * i`. -/
theorem C47_sequence (hs : Store.Ok s0) (ar : Arith α) {n : Nat} (hn : (n : Int) < 2 ^ 63 - 1)
    (start incr : α) :
    Gives b s0 (.sequence ar n start incr) (fun _ => (List.range n).map (fun i : Nat => do
      let c ← ar.ofIndex i
      let p ← ar.mul incr c
      ar.add start p)) := by
  obtain ⟨h1, a, h2, h3⟩ := Tm.main b hs (.sequence ar n start incr) hn (Int.natCast_nonneg n)
  exact ⟨h1, fun _ _ => rfl, a, h2, h3⟩

/-- The arithmetic of `index_t`. -/
def longs : Arith Int := ⟨0, 1, iadd, isub, imul, idiv ⟨true, true, true⟩, Res.ok⟩

/-- C47: `irange(n)` is `0, 1, ..., n-1`; no overflow occurs. -/
theorem C47_irange {s0 : Store Int} (hs : Store.Ok s0) {n : Nat} (hn : (n : Int) < 2 ^ 63 - 1) :
    Gives b s0 (Tm.irange longs n) (fun _ => (List.range n).map (fun i : Nat => Res.ok (i : Int))) := by
  have h := C47_sequence (b := b) hs longs hn 0 1
  have e : (List.range n).map (fun i : Nat => do
      let c ← longs.ofIndex i
      let p ← longs.mul 1 c
      longs.add 0 p) = (List.range n).map (fun i : Nat => Res.ok (i : Int)) := by
    refine List.map_congr_left fun i hi => ?_
    rw [List.mem_range] at hi
    show (do let p ← imul 1 (i : Int); iadd 0 p) = _
    rw [imul_ok (by unfold IsIndex; omega), Res.ok_bind, iadd_ok (by unfold IsIndex; omega)]
    simp
  rw [e] at h
  exact h

/-- Exact arithmetic in a field. -/
def exactly (K : Type) [Field K] : Arith K where
  zero := 0
  one := 1
  add x y := .ok (x + y)
  sub x y := .ok (x - y)
  mul x y := .ok (x * y)
  div x y := .ok (x / y)
  ofIndex i := .ok (i : K)

/-- C47: in exact arithmetic `linspace(n, a, b)` with `n >= 2` consists of `n` numbers; the first is `a`,
the last is `b`, and consecutive ones differ by `(b - a) / (n - 1)`. -/
theorem C47_linspace {K : Type} [Field K] [CharZero K] {s0 : Store K} (hs : Store.Ok s0) {n : Nat}
    (h2 : 2 ≤ n) (hn : (n : Int) < 2 ^ 63 - 1) (lo hi : K) :
    ∃ l : List K, Gives b s0 (.linspace (exactly K) n lo hi) (fun _ => l.map Res.ok) ∧
      l.length = n ∧ l[0]? = some lo ∧ l[n - 1]? = some hi ∧
      ∀ i u v, l[i]? = some u → l[i + 1]? = some v → v - u = (hi - lo) / ((n : K) - 1) := by
  have hV : Tm.Valid s0 (.linspace (exactly K) n lo hi) :=
    ⟨by omega, (hi - lo) / (((n : Int) - 1 : Int) : K), rfl⟩
  obtain ⟨k1, a, k2, k3⟩ := Tm.main b hs (.linspace (exactly K) n lo hi) hn hV
  have hm : Tm.meaning s0 (.linspace (exactly K) n lo hi) = ((List.range n).map (fun i : Nat =>
      lo + (hi - lo) / ((n : K) - 1) * (i : K))).map Res.ok := by
    rw [List.map_map]
    show (List.range n).map _ = _
    refine List.map_congr_left fun i _ => ?_
    show Res.ok (lo + (hi - lo) / (((n : Int) - 1 : Int) : K) * ((i : Int) : K)) = _
    simp
  have hne : (n : K) - 1 ≠ 0 := by
    intro h
    have : ((n - 1 : Nat) : K) = 0 := by rw [Nat.cast_sub (by omega)]; simpa using h
    have := Nat.cast_eq_zero.1 this
    omega
  refine ⟨(List.range n).map (fun i : Nat => lo + (hi - lo) / ((n : K) - 1) * (i : K)),
    ⟨?_, fun _ _ => rfl, a, k2, fun s h => ?_⟩, by simp, ?_, ?_, ?_⟩
  · rw [← hm]; exact k1
  · rw [← hm]; exact k3 s h
  · rw [List.getElem?_map, List.getElem?_range (by omega)]
    simp
  · rw [List.getElem?_map, List.getElem?_range (by omega)]
    simp only [Option.map_some, Option.some.injEq]
    rw [Nat.cast_sub (by omega)]
    field_simp
    push_cast
    ring
  · intro i u v hu hv
    have hlt : i + 1 < n := by
      by_contra hge
      rw [List.getElem?_eq_none (by simpa using hge)] at hv
      cases hv
    rw [List.getElem?_map, List.getElem?_range (by omega)] at hu hv
    simp only [Option.map_some, Option.some.injEq] at hu hv
    rw [← hu, ← hv]
    push_cast
    ring

/-- C47: for `n = 1` the step is computed by dividing by zero; the outcome is whatever the element type
does about that, and for floating-point elements it is not checked. -/
theorem C47_linspace_one (b : Build) (s : Store α) (ar : Arith α) (lo hi : α) :
    (Tm.linspace ar 1 lo hi).build b s = (do
      let diff ← ar.sub hi lo
      let z ← ar.ofIndex 0
      let step ← ar.div diff z
      Tm.mkSequence b ar 1 lo step) := by
  have e : isub 1 1 = .ok 0 := isub_ok (by unfold IsIndex; omega)
  simp only [Tm.build, decide_eq_true (show (1 : Int) > 0 by omega), assertDebug_true, Res.ok_bind, e]

/-- C47: `e_unit(k, n)` is the `k`-th unit vector. -/
theorem C47_unit (hs : Store.Ok s0) (ar : Arith α) {k n : Nat} (hk : k < n)
    (hn : (n : Int) < 2 ^ 63 - 1) :
    Gives b s0 (.eUnit ar k n)
      (fun _ => (List.range n).map (fun i => Res.ok (if i = k then ar.one else ar.zero))) := by
  obtain ⟨h1, a, h2, h3⟩ := Tm.main b hs (.eUnit ar k n) hn
    ⟨Int.natCast_nonneg k, Int.ofNat_lt.2 hk⟩
  have hm : ∀ s : Store α, Tm.meaning s (.eUnit ar k n) =
      (List.range n).map (fun i => Res.ok (if i = k then ar.one else ar.zero)) := by
    intro s
    show (List.range n).map _ = _
    refine List.map_congr_left fun i _ => ?_
    by_cases h : i = k
    · rw [if_pos h, if_pos (by omega)]
    · rw [if_neg h, if_neg (by omega)]
  exact ⟨by rw [← hm s0]; exact h1, fun _ _ => rfl, a, h2, fun s h => by rw [← hm s]; exact h3 s h⟩

/-- C47: `identity(n)` is the `n` by `n` identity matrix. -/
theorem C47_identity (hs : Store.Ok s0) (ar : Arith α) {n : Nat}
    (hn : ((n * n : Nat) : Int) < 2 ^ 63 - 1) :
    Gives b s0 (.identity ar n)
      (fun _ => (⟨n, n, fun i j => .ok (if i = j then ar.one else ar.zero)⟩ : Mat (Res α))) := by
  obtain ⟨h1, a, h2, h3⟩ := Tm.main b hs (.identity ar n)
    (by rw [Int.natCast_mul] at hn; exact hn) (Int.natCast_nonneg n)
  exact ⟨h1, fun _ _ => rfl, a, h2, h3⟩

/-- C47: `const1D(n, c)` and `const2D(m, n, c)` are constants; `m` and `n` are both zero or both
positive. -/
theorem C47_const (hs : Store.Ok s0) (c : α) {m n : Nat} (hz : m = 0 ↔ n = 0)
    (hm : (m : Int) < 2 ^ 63 - 1) (hn : ((m * n : Nat) : Int) < 2 ^ 63 - 1) :
    Gives b s0 (.const1D m c) (fun _ => List.replicate m (Res.ok c)) ∧
    Gives b s0 (.const2D m n c) (fun _ => (⟨m, n, fun _ _ => .ok c⟩ : Mat (Res α))) := by
  obtain ⟨h1, a, h2, h3⟩ := Tm.main b hs (.const1D m c) hm (Int.natCast_nonneg m)
  obtain ⟨k1, e, k2, k3⟩ := Tm.main b hs (.const2D m n c)
    (by rw [Int.natCast_mul] at hn; exact hn)
    ⟨Int.natCast_nonneg m, Int.natCast_nonneg n, by omega⟩
  exact ⟨⟨h1, fun _ _ => rfl, a, h2, h3⟩, ⟨k1, fun _ _ => rfl, e, k2, k3⟩⟩

/-- C47: checked builds reject negative sizes, a unit vector whose index is not in range, `linspace`
without elements, and a constant matrix with rows but no columns (or the other way round). -/
theorem C47_rejected (hb : b.Checked) (s : Store α) (ar : Arith α) (x y : α) :
    (∀ n : Int, n < 0 → (Tm.sequence ar n x y).build b s = .trap b.kind ∧
      (Tm.const1D n x).build b s = .trap b.kind ∧ (Tm.identity ar n).build b s = .trap b.kind) ∧
    (∀ n : Int, n ≤ 0 → (Tm.linspace ar n x y).build b s = .trap b.kind) ∧
    (∀ k n : Int, ¬ InRange n k → (Tm.eUnit ar k n).build b s = .trap b.kind) ∧
    (∀ m n : Int, ¬ (0 ≤ m ∧ 0 ≤ n ∧ (m = 0 ↔ n = 0)) → (Tm.const2D m n x).build b s = .trap b.kind) := by
  have neg : ∀ {n : Int}, n < 0 → decide (n > -1) = false := fun h => decide_eq_false (by omega)
  refine ⟨fun n h => ⟨?_, ?_, ?_⟩, fun n h => ?_, fun k n h => ?_, fun m n h => ?_⟩
  · simp only [Tm.build, Tm.mkSequence, neg h, assertDebug_false hb]; rfl
  · simp only [Tm.build, Tm.mkConst1D, neg h, assertDebug_false hb]; rfl
  · simp only [Tm.build, neg h, assertDebug_false hb]; rfl
  · simp only [Tm.build, decide_eq_false (show ¬ n > 0 by omega), assertDebug_false hb]; rfl
  · simp only [Tm.build]
    by_cases hk : 0 ≤ k
    · rw [gt_neg_one hk, assertDebug_true, Res.ok_bind,
        decide_eq_false (show ¬ n > k by unfold InRange at h; omega), assertDebug_false hb]; rfl
    · rw [neg (by omega), assertDebug_false hb]; rfl
  · simp only [Tm.build, Tm.mkConst2D]
    by_cases hm : 0 ≤ m
    · by_cases hn : 0 ≤ n
      · have hz : semiValid m n = false := by
          cases hz : semiValid m n with
          | false => rfl
          | true => exact absurd ⟨hm, hn, semiValid_iff.1 hz⟩ h
        rw [gt_neg_one hm, gt_neg_one hn, hz, assertDebug_true, Res.ok_bind, Res.ok_bind,
          assertDebug_false hb]; rfl
      · rw [gt_neg_one hm, neg (show n < 0 by omega), assertDebug_true, Res.ok_bind,
          assertDebug_false hb]; rfl
    · rw [neg (show m < 0 by omega), assertDebug_false hb]; rfl

/-! ### Reductions, broadcasts, products -/

/-- C48: `row_reduce(A, g)` applies `g` to every row (`col_reduce`: to every column), where `g` is given
the elements of the row from left to right (of the column from top to bottom). -/
theorem C48_reduce {t : Tm α .two} {x : Store α → Mat (Res α)} (h : Gives b s0 t x)
    (g : List (Res α) → Res α) :
    Gives b s0 (.reduce true g t) (fun s => (List.range (x s).m).map (fun i =>
      g ((List.range (x s).n).map (fun j => (x s).el i j)))) ∧
    Gives b s0 (.reduce false g t) (fun s => (List.range (x s).n).map (fun j =>
      g ((List.range (x s).m).map (fun i => (x s).el i j)))) := by
  have := gives_reduce h g
  simpa only [Mat.row, Mat.col] using this

/-- C48: `row_broadcast(v)` is the square matrix all of whose rows are `v`; `col_broadcast(v)` the one
all of whose columns are `v`. -/
theorem C48_broadcast {t : Tm α .one} {x : Store α → List (Res α)} (h : Gives b s0 t x)
    (hs : (((x s0).length * (x s0).length : Nat) : Int) < 2 ^ 63 - 1) :
    ∃ r c : Store α → Mat (Res α),
      Gives b s0 (.bcast true t) r ∧ Gives b s0 (.bcast false t) c ∧
      ∀ s, SameSizes s0 s →
        (r s).lines = List.replicate (x s).length (x s) ∧
        (c s).columns = List.replicate (x s).length (x s) := by
  obtain ⟨h1, h2⟩ := gives_bcast h hs
  refine ⟨_, _, h1, h2, fun s _ => ⟨?_, ?_⟩⟩
  · refine List.eq_replicate_iff.2 ⟨by simp [Mat.lines], fun l hl => ?_⟩
    simp only [Mat.lines, List.mem_map] at hl
    obtain ⟨i, _, rfl⟩ := hl
    apply List.ext_getElem
    · simp [Mat.row]
    · intro j _ h; simp [Mat.row, h]
  · refine List.eq_replicate_iff.2 ⟨by simp [Mat.columns], fun l hl => ?_⟩
    simp only [Mat.columns, List.mem_map] at hl
    obtain ⟨i, _, rfl⟩ := hl
    apply List.ext_getElem
    · simp [Mat.col]
    · intro j _ h; simp [Mat.col, h]

/-- C48: `tensor_prod(x, y)(i, j) = x[i] * y[j]`, with one row for each element of `x` and one column
for each element of `y`. -/
theorem C48_tensor {t1 t2 : Tm α .one} {x y : Store α → List (Res α)} (h1 : Gives b s0 t1 x)
    (h2 : Gives b s0 t2 y) (hs : (((x s0).length * (y s0).length : Nat) : Int) < 2 ^ 63 - 1)
    (ar : Arith α) :
    ∃ a, (Tm.tensor ar t1 t2).build b s0 = .ok a ∧ ∀ s, SameSizes s0 s →
      Den .two a s ⟨(x s).length, (y s).length, fun i j => do
        let u ← (x s).getD i .ub
        let v ← (y s).getD j .ub
        ar.mul u v⟩ :=
  tensor_den h1 h2 hs ar

/-- C48: element `i` of `matvec_prod(A, x)` is the dot product of row `i` with `x`, summed from left to
right. -/
theorem C48_matvec {t : Tm α .two} {v : Tm α .one} {x : Store α → Mat (Res α)}
    {y : Store α → List (Res α)} (h1 : Gives b s0 t x) (h2 : Gives b s0 v y)
    (hd : (x s0).n = (y s0).length) (ar : Arith α) :
    Gives b s0 (.matvec ar t v) (fun s => (List.range (x s).m).map (fun i =>
      inner ar ((List.range (x s).n).map (fun j => (x s).el i j)) (y s))) := by
  have := gives_matvec h1 h2 hd ar
  simpa only [Mat.row] using this

/-- C48: in exact arithmetic that is the sum of the products. -/
theorem C48_inner_exact {K : Type} [Field K] (us vs : List K) :
    inner (exactly K) (us.map Res.ok) (vs.map Res.ok) = .ok (List.zipWith (· * ·) us vs).sum := by
  have key : ∀ (ps : List (K × K)) (acc : K),
      (ps.map (fun p => ((Res.ok p.1 : Res K), (Res.ok p.2 : Res K)))).foldl (fun acc p => do
        let a ← acc
        let u ← p.1
        let v ← p.2
        let q ← (exactly K).mul u v
        (exactly K).add a q) (.ok acc) = .ok (acc + (ps.map (fun p => p.1 * p.2)).sum) := by
    intro ps
    induction ps with
    | nil => intro acc; simp
    | cons p ps ih =>
      intro acc
      rw [List.map_cons, List.foldl_cons]
      show List.foldl _ (Res.ok (acc + p.1 * p.2)) _ = _
      rw [ih]
      simp only [List.map_cons, List.sum_cons, add_assoc]
  unfold inner
  have e1 : List.zip (us.map Res.ok) (vs.map Res.ok) =
      (List.zip us vs).map (fun p => ((Res.ok p.1 : Res K), (Res.ok p.2 : Res K))) := by
    rw [List.zip_map]; rfl
  rw [e1]
  have := key (List.zip us vs) 0
  rw [show (exactly K).zero = 0 from rfl, this, zero_add, List.map_zip_eq_zipWith]
  rfl

/-- C48: a vector of the wrong length is rejected by checked builds. -/
theorem C48_matvec_mismatch (hb : b.Checked) {t : Tm α .two} {v : Tm α .one} {x : Store α → Mat (Res α)}
    {y : Store α → List (Res α)} (h1 : Gives b s0 t x) (h2 : Gives b s0 v y)
    (hd : (x s0).n ≠ (y s0).length) (ar : Arith α) :
    (Tm.matvec ar t v).build b s0 = .trap b.kind := by
  obtain ⟨a, e1, k1⟩ := h1.2.2
  obtain ⟨u, e2, k2⟩ := h2.2.2
  have rf := SameSizes.refl s0
  simp only [Tm.build, e1, e2, Res.ok_bind]
  rw [(k1 s0 rf).2.1, (k2 s0 rf).1, beq_eq_false_iff_ne.2 (by omega), assertDebug_false hb]
  rfl

/-! ### The hypotheses are satisfied by concrete expressions -/

section
open Sample

example : ∃ a, (Tm.matvec ints A y).build ⟨false, true, false⟩ store = .ok a ∧
    a.eval1 ⟨false, true, false⟩ store = .ok [32, 77] := by
  obtain ⟨a, h1, h2⟩ := C43_eval_1D _ (C48_matvec gA gy (by decide) ints)
  exact ⟨a, h1, by rw [h2 _ (SameSizes.refl _)]; rfl⟩

example : (Tm.matvec ints A (.append y 7)).build ⟨false, true, false⟩ store =
    .trap (Build.kind ⟨false, true, false⟩) :=
  C48_matvec_mismatch (by decide) gA (gives_append gy (by decide)) (by decide) ints

example : ∃ a, (Tm.tensor ints x y).build ⟨false, true, false⟩ store = .ok a ∧
    a.un2 store 1 2 = .ok 12 := by
  obtain ⟨a, h1, h2⟩ := C48_tensor gx gy (by decide) ints
  exact ⟨a, h1, by exact ((h2 store (SameSizes.refl _)).2.2.2 1 2 (by decide) (by decide)).1⟩

example : ∃ r c, Gives ⟨false, true, false⟩ store (.bcast true x) r ∧
    Gives ⟨false, true, false⟩ store (.bcast false x) c ∧
    (r store).lines = [[.ok 1, .ok 2, .ok 3], [.ok 1, .ok 2, .ok 3], [.ok 1, .ok 2, .ok 3]] := by
  obtain ⟨r, c, h1, h2, h3⟩ := C48_broadcast gx (by decide)
  exact ⟨r, c, h1, h2, by rw [(h3 store (SameSizes.refl _)).1]; rfl⟩

/-- Row sums and column maxima. -/
example : ∃ a, (Tm.reduce false (fun l => l.foldl (fun u v => do
      let u ← u
      let v ← v
      pure (max u v)) (.ok 0)) A).build ⟨false, true, false⟩ store = .ok a ∧
    a.eval1 ⟨false, true, false⟩ store = .ok [4, 5, 6] := by
  obtain ⟨a, h1, h2⟩ := C43_eval_1D _ (C48_reduce gA (fun l => l.foldl (fun u v => do
      let u ← u
      let v ← v
      pure (max u v)) (.ok 0))).2
  exact ⟨a, h1, by rw [h2 _ (SameSizes.refl _)]; rfl⟩

example : Gives ⟨false, true, false⟩ store (.identity ints (2 : Nat))
    (fun _ => (⟨2, 2, fun i j => .ok (if i = j then 1 else 0)⟩ : Mat (Res Int))) :=
  C47_identity store_ok ints (by decide)

example : ∃ a, (Tm.irange longs (4 : Nat)).build ⟨false, true, false⟩ store = .ok a ∧
    a.eval1 ⟨false, true, false⟩ store = .ok [0, 1, 2, 3] := by
  obtain ⟨a, h1, h2⟩ := C43_eval_1D _ (C47_irange (b := ⟨false, true, false⟩) store_ok (n := 4) (by decide))
  exact ⟨a, h1, by rw [h2 _ (SameSizes.refl _)]; rfl⟩

end

end Spp.Props
