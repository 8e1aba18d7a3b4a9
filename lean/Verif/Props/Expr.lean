import Verif.Lemmas.NoUb
import Verif.Lemmas.Sample
import Verif.Spec.Decide
import Verif.Model.Variadic

/-
Properties of expressions: lazy evaluation (C43), linear and two-index access (C33).
-/

set_option linter.unusedSectionVars false

namespace Spp.Props
open Spec

variable {α : Type} [Inhabited α]

/-- C43: if a checked build accepts the text of an expression, then all sizes agree and all positions
exist (`Valid`), and the object reads as the list or matrix the expression means: not only now, but
also later, when the arrays have other contents (it is evaluated lazily). -/
theorem C43_accepted {b : Build} (hb : b.Checked) {s0 : Store α} (hs : Store.Ok s0) {d : Dim}
    {t : Tm α d} (hS : t.Sound s0) {a : Acc (Store α) α} (h : t.build b s0 = .ok a) :
    t.Valid s0 ∧ ∀ s, SameSizes s0 s → Den d a s (t.meaning s) := by
  have hV := t.only hb hs hS h
  obtain ⟨_, a', h1, h2⟩ := t.main b hs hS hV
  rw [h] at h1; cases h1
  exact ⟨hV, h2⟩

/-- C43: an expression whose sizes agree and whose positions exist is accepted by every build, and
reads as what it means. -/
theorem C43_reads (b : Build) {s0 : Store α} (hs : Store.Ok s0) {d : Dim} {t : Tm α d}
    (hS : t.Sound s0) (hV : t.Valid s0) : Gives b s0 t (fun s => t.meaning s) := by
  obtain ⟨h1, a, h2, h3⟩ := t.main b hs hS hV
  exact ⟨h1, fun s h => t.meaning_dims h, a, h2, h3⟩

/-- C43: no element of an accepted expression touches memory outside the arrays, provided the element
operations themselves are well defined: evaluating any element never is undefined behaviour. -/
theorem C43_no_outside_access {b : Build} (hb : b.Checked) {s0 : Store α} (hs : Store.Ok s0) {d : Dim}
    {t : Tm α d} (hS : t.Sound s0) (hT : t.Total) {a : Acc (Store α) α}
    (h : t.build b s0 = .ok a) {s : Store α} (hsame : SameSizes s0 s) :
    (∀ k : Int, 0 ≤ k → (∀ n, a.size s = .ok n → k < n) → a.un s k ≠ .ub) ∧
    (d = .two → ∀ i j : Int, InRange (a.rows s) i → InRange (a.cols s) j → a.un2 s i j ≠ .ub) := by
  obtain ⟨hV, hden⟩ := C43_accepted hb hs hS h
  have hno := t.noUb (ok_same hsame hs) (Tm.sound_same hsame hS) (Tm.valid_same hsame hV) hT
  have hd := hden s hsame
  cases d with
  | one =>
    refine ⟨fun k hk hn => ?_, fun h => by cases h⟩
    have hk2 := hn _ hd.2.1
    obtain ⟨i, rfl⟩ := Int.eq_ofNat_of_zero_le hk
    rw [hd.2.2 i (by omega)]
    exact hno _ (getD_mem (by omega))
  | two =>
    obtain ⟨e1, e2, e3, e4⟩ := hd
    refine ⟨fun k hk hn => ?_, fun _ i j hi hj => ?_⟩
    · have hk2 := hn _ e3
      obtain ⟨i, rfl⟩ := Int.eq_ofNat_of_zero_le hk
      obtain ⟨u, v⟩ := unflat_lt (by omega : i < Mat.m (t.meaning s) * Mat.n (t.meaning s))
      have := (e4 _ _ u v).2
      rw [unflat] at this
      rw [this]
      exact hno _ _ u v
    · rw [e1] at hi
      rw [e2] at hj
      obtain ⟨i', rfl, hi'⟩ := inRange_nat hi
      obtain ⟨j', rfl, hj'⟩ := inRange_nat hj
      rw [(e4 i' j' hi' hj').1]
      exact hno _ _ hi' hj'

/-- C43: evaluating the whole expression with `eval()` computes the elements in order; the result is
the array of the values, or the first failure. -/
theorem C43_eval_1D (b : Build) {s0 : Store α} {t : Tm α .one} {x : Store α → List (Res α)}
    (h : Gives b s0 t x) :
    ∃ a, t.build b s0 = .ok a ∧ ∀ s, SameSizes s0 s → a.eval1 b s = evalAll (x s) := by
  obtain ⟨_, _, a, h1, h2⟩ := h
  exact ⟨a, h1, fun s hs => eval1_eq b (h2 s hs)⟩

/-- C43: the same in two dimensions; elements are computed row by row. -/
theorem C43_eval_2D (b : Build) {s0 : Store α} {t : Tm α .two} {x : Store α → Mat (Res α)}
    (h : Gives b s0 t x) :
    ∃ a, t.build b s0 = .ok a ∧ ∀ s, SameSizes s0 s →
      a.eval2 b s = (do
        let xs ← evalAll (x s).flat
        pure ⟨(x s).m, (x s).n, xs⟩) := by
  obtain ⟨hsm, hd, a, h1, h2⟩ := h
  exact ⟨a, h1, fun s hs => eval2_eq b (h2 s hs) (small_congr (hd s hs).symm hsm)⟩

/-- C43: element-wise operations.  Operands of the same size give the list of results; elements that
fail do so when they are read, not when the expression is built. -/
theorem C43_elementwise (b : Build) {s0 : Store α} {d : Dim} {t1 t2 : Tm α d} {x y : Store α → Sem α d}
    (h1 : Gives b s0 t1 x) (h2 : Gives b s0 t2 y) (f : α → α → Res α) (g : α → Res α) (c : α) :
    Gives b s0 (.unary g t1) (fun s => (x s).map g) ∧
    Gives b s0 (.scalarL f c t1) (fun s => (x s).map (fun v => f c v)) ∧
    Gives b s0 (.scalarR f t1 c) (fun s => (x s).map (fun v => f v c)) ∧
    ((x s0).dims = (y s0).dims → Gives b s0 (.binary f t1 t2) (fun s => Sem.zip f (x s) (y s))) := by
  obtain ⟨hsm, hd, a1, e1, k1⟩ := h1
  obtain ⟨_, hd2, a2, e2, k2⟩ := h2
  have rf := SameSizes.refl s0
  obtain ⟨cc, h3, h4⟩ := mkConstLike_ok b c (k1 s0 rf) hsm
  refine ⟨⟨small_congr (map_dims _ _).symm hsm, fun s h => ?_, a1.unary g, ?_, fun s h => den_unary g (k1 s h)⟩,
    ⟨small_congr (map_dims _ _).symm hsm, fun s h => ?_, .binary f cc a1, ?_, fun s h => ?_⟩,
    ⟨small_congr (map_dims _ _).symm hsm, fun s h => ?_, .binary f a1 cc, ?_, fun s h => ?_⟩,
    fun hxy => ⟨small_congr (zip_dims_left f hxy).symm hsm, fun s h => ?_, .binary f a1 a2, ?_, fun s h => ?_⟩⟩
  · rw [map_dims, map_dims, hd s h]
  · simp only [Tm.build, e1, Res.ok_bind, Res.pure_eq]
  · rw [map_dims, map_dims, hd s h]
  · simp only [Tm.build, e1, h3, Res.ok_bind]
    exact mkBinary_ok b f (h4 s0 _ rfl) (k1 s0 rf) (constSem_dims _ _)
  · have := den_binary f (h4 s _ (hd s h)) (k1 s h) (constSem_dims _ _)
    rw [zip_constL] at this
    exact this
  · rw [map_dims, map_dims, hd s h]
  · simp only [Tm.build, e1, h3, Res.ok_bind]
    exact mkBinary_ok b f (k1 s0 rf) (h4 s0 _ rfl) (constSem_dims _ _).symm
  · have := den_binary f (k1 s h) (h4 s _ (hd s h)) (constSem_dims _ _).symm
    rw [zip_constR] at this
    exact this
  · exact zip_dims f (hd s h) (hd2 s h)
  · simp only [Tm.build, e1, e2, Res.ok_bind]
    exact mkBinary_ok b f (k1 s0 rf) (k2 s0 rf) hxy
  · exact den_binary f (k1 s h) (k2 s h) (by rw [hd s h, hd2 s h, hxy])

/-- C43: operands of different sizes are rejected by checked builds. -/
theorem C43_mismatch {b : Build} (hb : b.Checked) {s0 : Store α} {d : Dim} {t1 t2 : Tm α d}
    {x y : Store α → Sem α d} (h1 : Gives b s0 t1 x) (h2 : Gives b s0 t2 y)
    (hxy : (x s0).dims ≠ (y s0).dims) (f : α → α → Res α) :
    (Tm.binary f t1 t2).build b s0 = .trap b.kind := by
  obtain ⟨_, _, a1, e1, k1⟩ := h1
  obtain ⟨_, _, a2, e2, k2⟩ := h2
  have rf := SameSizes.refl s0
  have hc : Acc.sameSize d a1 a2 s0 = false := by
    cases hc : Acc.sameSize d a1 a2 s0 with
    | false => rfl
    | true => exact absurd ((sameSize_iff (k1 s0 rf) (k2 s0 rf)).1 hc) hxy
  simp only [Tm.build, e1, e2, Res.ok_bind, Tm.mkBinary, hc, assertDebug_false hb]
  rfl

/-- C43: `E[i]` on an expression checks the index in checked builds and gives the element. -/
theorem C43_subscript (b : Build) {s0 : Store α} {t : Tm α .one} {x : Store α → List (Res α)}
    (h : Gives b s0 t x) :
    ∃ a, t.build b s0 = .ok a ∧ ∀ s, SameSizes s0 s →
      (∀ i : Nat, i < (x s).length → a.sub b s i = (x s).getD i .ub) ∧
      (b.Checked → ∀ i : Int, ¬ InRange (x s).length i → a.sub b s i = .trap b.kind) := by
  obtain ⟨_, _, a, h1, h2⟩ := h
  refine ⟨a, h1, fun s hs => ⟨fun i hi => ?_, fun hb i hi => ?_⟩⟩
  · have e := (h2 s hs).2.2 i hi
    unfold Acc.sub
    rw [(h2 s hs).1, validIndex_iff.2 (by unfold InRange; omega), assertDebug_true, Res.ok_bind, e]
  · unfold Acc.sub
    have hv : validIndex (((x s).length : Nat) : Int) i = false := by
      cases hc : validIndex (((x s).length : Nat) : Int) i with
      | false => rfl
      | true => exact absurd (validIndex_iff.1 hc) hi
    rw [(h2 s hs).1, hv, assertDebug_false hb]
    rfl

/-- C33: for every accepted two-dimensional expression `size() = rows() * cols()`, and element `k` in
linear order is element `(k / cols(), k % cols())`. -/
theorem C33_linear_is_two_index {b : Build} (hb : b.Checked) {s0 : Store α} (hs : Store.Ok s0)
    {t : Tm α .two} (hS : t.Sound s0) {a : Acc (Store α) α} (h : t.build b s0 = .ok a)
    {s : Store α} (hsame : SameSizes s0 s) :
    0 ≤ a.rows s ∧ 0 ≤ a.cols s ∧ a.size s = .ok (a.rows s * a.cols s) ∧
    ∀ k : Int, 0 ≤ k → k < a.rows s * a.cols s →
      InRange (a.rows s) (k / a.cols s) ∧ InRange (a.cols s) (k % a.cols s) ∧
      a.un s k = a.un2 s (k / a.cols s) (k % a.cols s) := by
  obtain ⟨_, hden⟩ := C43_accepted hb hs hS h
  obtain ⟨e1, e2, e3, e4⟩ := hden s hsame
  rw [e1, e2, e3]
  refine ⟨by omega, by omega, by rw [Int.natCast_mul], ?_⟩
  intro k hk hlt
  obtain ⟨i, rfl⟩ := Int.eq_ofNat_of_zero_le hk
  have hlt' : i < Mat.m (t.meaning s) * Mat.n (t.meaning s) := by exact_mod_cast hlt
  obtain ⟨u, v⟩ := unflat_lt hlt'
  have w := e4 _ _ u v
  rw [unflat] at w
  rw [← Int.natCast_ediv, ← Int.natCast_emod]
  exact ⟨⟨Int.natCast_nonneg _, by exact_mod_cast u⟩, ⟨Int.natCast_nonneg _, by exact_mod_cast v⟩,
    by rw [w.1, w.2]⟩

/-- C33: the converse direction: element `(i, j)` is element `i * cols() + j` in linear order. -/
theorem C33_two_index_is_linear {b : Build} (hb : b.Checked) {s0 : Store α} (hs : Store.Ok s0)
    {t : Tm α .two} (hS : t.Sound s0) {a : Acc (Store α) α} (h : t.build b s0 = .ok a)
    {s : Store α} (hsame : SameSizes s0 s) {i j : Int} (hi : InRange (a.rows s) i)
    (hj : InRange (a.cols s) j) : a.un2 s i j = a.un s (i * a.cols s + j) := by
  obtain ⟨_, hden⟩ := C43_accepted hb hs hS h
  obtain ⟨e1, e2, e3, e4⟩ := hden s hsame
  rw [e1] at hi
  rw [e2] at hj
  obtain ⟨i', rfl, hi'⟩ := inRange_nat hi
  obtain ⟨j', rfl, hj'⟩ := inRange_nat hj
  obtain ⟨w1, w2⟩ := e4 i' j' hi' hj'
  rw [e2, w1, ← w2]
  push_cast; rfl

/-! ### The hypotheses are satisfied by concrete expressions -/

section
open Sample

/-- `(x + y)(reverse)`, a concatenation and a row of a transposed matrix. -/
example : ∃ a, (Tm.merge (.view (.slice .reverse) (.binary ints.add x y))
      (.view (.row (.at 1)) (.transpose A))).build ⟨false, true, false⟩ store = .ok a ∧
    a.eval1 ⟨false, true, false⟩ store = .ok [9, 7, 5, 2, 5] := by
  have h := C43_reads (α := Int) ⟨false, true, false⟩ store_ok
    (t := Tm.merge (.view (.slice .reverse) (.binary ints.add x y))
      (.view (.row (.at 1)) (.transpose A))) (by decide) (by decide)
  obtain ⟨a, h1, h2⟩ := C43_eval_1D _ h
  exact ⟨a, h1, by rw [h2 store (SameSizes.refl _)]; rfl⟩

example : (Tm.merge (.view (.slice .reverse) (.binary ints.add x y))
      (.view (.row (.at 1)) (.transpose A))).Total :=
  ⟨⟨fun u v (h : Res.ok (u + v) = Res.ub) => (nomatch h), trivial, trivial⟩, trivial⟩

/-- A matrix beside its own product with a number, transposed. -/
example : ∃ a, (Tm.transpose (.mergeH A (.scalarL ints.mul 10 A))).build ⟨false, true, false⟩ store = .ok a ∧
    a.eval2 ⟨false, true, false⟩ store = .ok ⟨6, 2, [1, 4, 2, 5, 3, 6, 10, 40, 20, 50, 30, 60]⟩ := by
  have h := C43_reads (α := Int) ⟨false, true, false⟩ store_ok
    (t := .transpose (.mergeH A (.scalarL ints.mul 10 A))) (by decide) (by decide)
  obtain ⟨a, h1, h2⟩ := C43_eval_2D _ h
  exact ⟨a, h1, by rw [h2 store (SameSizes.refl _)]; rfl⟩

/-- An element that fails makes `eval()` fail, although the expression can be built. -/
example : ∃ a, (Tm.scalarL (fun u v => if v = 2 then Res.trap .abort else .ok (u * v)) 7 x).build
      ⟨false, true, false⟩ store = .ok a ∧ a.eval1 ⟨false, true, false⟩ store = .trap .abort := by
  have h := C43_reads (α := Int) ⟨false, true, false⟩ store_ok
    (t := .scalarL (fun u v => if v = 2 then Res.trap .abort else .ok (u * v)) 7 x) (by decide) (by decide)
  obtain ⟨a, h1, h2⟩ := C43_eval_1D _ h
  exact ⟨a, h1, by rw [h2 store (SameSizes.refl _)]; rfl⟩

/-- Operands of sizes 3 and 2 (a slice) do not fit. -/
example : (Tm.binary ints.add x (.view (.slice (.firstN 2)) y)).build ⟨false, true, false⟩ store =
    .trap (Build.kind ⟨false, true, false⟩) :=
  C43_mismatch (by decide)
    (C43_reads (α := Int) (t := x) _ store_ok (by decide) (by decide))
    (C43_reads (α := Int) (t := .view (.slice (.firstN 2)) y) _ store_ok (by decide) (by decide))
    (by decide) _

end

end Spp.Props
