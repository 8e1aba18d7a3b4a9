import Verif.Spec.Agree
import Verif.Lemmas.Agree
import Verif.Lemmas.Sample
import Verif.Spec.Decide
import Verif.Model.Ieee

/-
C108: what a reduction returns depends on the elements and their order, not on whether the object is one- or
two-dimensional, an array, a view or an expression.  Not "up to rounding": the two calls return the same value, with NaN,
or fail in the same way.
-/

namespace Spp.Props

open Spec

variable {σ τ α β : Type} {d d' : Dim} {a a1 a2 : Acc σ α} {a' a1' a2' : Acc τ α} {s : σ} {t : τ}

private theorem agree (h : SameSequence d a s d' a' t) : ∃ n, Agree a s a' t n := by
  obtain ⟨X, Y, h1, h2, e⟩ := h
  exact ⟨_, Agree.of_den h1 h2 e⟩

/-- The length of the list of elements is the product of the extents. -/
private theorem flat_len (X : Sem α d) : X.flat.length = X.dims.1 * X.dims.2 := by
  cases d with
  | one => exact (Nat.mul_one _).symm
  | two => exact flat_length X

private theorem agree2 (h : SamePairs d a1 a2 s d' a1' a2' t) : ∃ n, Agree a1 s a1' t n ∧ Agree a2 s a2' t n ∧
    Acc.sameSize d a1 a2 s = true ∧ Acc.sameSize d' a1' a2' t = true := by
  obtain ⟨X1, X2, Y1, Y2, h1, h2, h3, h4, e1, e2, e3, e4⟩ := h
  have hl : X2.flat.length = X1.flat.length := by rw [flat_len, flat_len, e1]
  have h5 := Agree.of_den h2 h4 e4
  rw [hl] at h5
  exact ⟨_, Agree.of_den h1 h3 e3, h5, (sameSize_iff h1 h2).2 e1, (sameSize_iff h3 h4).2 e2⟩

/-- C108: sums, products, means and extrema. -/
theorem C108_sums (h : SameSequence d a s d' a' t) (ar : Arith α) (sc : Scalar α) (x : α) :
    Ops.sum ar a s x = Ops.sum ar a' t x ∧ Ops.prod ar a s x = Ops.prod ar a' t x ∧
    Ops.mean ar a s x = Ops.mean ar a' t x ∧ Ops.min sc a s x = Ops.min sc a' t x ∧
    Ops.max sc a s x = Ops.max sc a' t x := by
  obtain ⟨n, q⟩ := agree h
  exact ⟨q.sum ar x, q.prod ar x, q.mean ar x, q.min sc x, q.max sc x⟩

/-- C108: questions about all elements. -/
theorem C108_quantifiers (h : SameSequence d a s d' a' t) (sc : Scalar α) (f : α → Res Bool) (is : α → Bool) (x : Bool) :
    Ops.anyOf f a s x = Ops.anyOf f a' t x ∧ Ops.allOf f a s x = Ops.allOf f a' t x ∧
    Ops.noneOf f a s x = Ops.noneOf f a' t x ∧ Ops.allFinite is a s x = Ops.allFinite is a' t x ∧
    Ops.hasSuch is a s x = Ops.hasSuch is a' t x ∧ Ops.hasZero sc a s x = Ops.hasZero sc a' t x ∧
    Ops.allZeros sc a s x = Ops.allZeros sc a' t x ∧ Ops.allPos sc a s x = Ops.allPos sc a' t x ∧
    Ops.allNeg sc a s x = Ops.allNeg sc a' t x ∧ Ops.allNonPos sc a s x = Ops.allNonPos sc a' t x ∧
    Ops.allNonNeg sc a s x = Ops.allNonNeg sc a' t x := by
  obtain ⟨n, q⟩ := agree h
  exact ⟨q.anyOf f x, q.allOf f x, q.noneOf f x, q.allFinite is x, q.hasSuch is x, q.anyOf _ x, q.allOf _ x,
    q.allOf _ x, q.allOf _ x, q.allOf _ x, q.allOf _ x⟩

/-- C108: norms, for every exponent and in every build. -/
theorem C108_norms (h : SameSequence d a s d' a' t) (b : Build) (sc : Scalar α) (lp : Int) (x : α) :
    Ops.normInf sc a s x = Ops.normInf sc a' t x ∧ Ops.norm1 sc a s x = Ops.norm1 sc a' t x ∧
    Ops.norm1Scaled sc a s x = Ops.norm1Scaled sc a' t x ∧ Ops.norm2 b d sc a s x = Ops.norm2 b d' sc a' t x ∧
    Ops.norm2Scaled b d sc a s x = Ops.norm2Scaled b d' sc a' t x ∧
    Ops.normLp b sc a s lp x = Ops.normLp b sc a' t lp x ∧
    Ops.normLpScaled b sc a s lp x = Ops.normLpScaled b sc a' t lp x := by
  obtain ⟨n, q⟩ := agree h
  exact ⟨q.normInf sc x, q.norm1 sc x, q.norm1Scaled sc x, q.norm2 b d d' sc x, q.norm2Scaled b d d' sc x,
    q.normLp b sc lp x, q.normLpScaled b sc lp x⟩

/-- C108: the compensated versions. -/
theorem C108_stable (h : SameSequence d a s d' a' t) (b : Build) (fs : FScalar α) (x : α) :
    Stable.sum fs a s x = Stable.sum fs a' t x ∧ Stable.semiSum b fs a s x = Stable.semiSum b fs a' t x ∧
    Stable.prod fs a s x = Stable.prod fs a' t x ∧ Stable.mean fs a s x = Stable.mean fs a' t x ∧
    Stable.norm1 fs a s x = Stable.norm1 fs a' t x ∧ Stable.norm1Scaled fs a s x = Stable.norm1Scaled fs a' t x ∧
    Stable.norm2 b d fs a s x = Stable.norm2 b d' fs a' t x ∧
    Stable.norm2Scaled b d fs a s x = Stable.norm2Scaled b d' fs a' t x := by
  obtain ⟨n, q⟩ := agree h
  exact ⟨q.stableSum fs x, q.semiSum b fs x, q.stableProd fs x, q.stableMean fs x, q.stableNorm1 fs x,
    q.stableNorm1Scaled fs x, q.stableNorm2 b d d' fs x, q.stableNorm2Scaled b d d' fs x⟩

/-- C108: the compensated norms with an exponent, which take different routes to a one-dimensional view. -/
theorem C108_stable_lp (h : SameSequence d a s d' a' t) (hn : ∀ k, a.size s = .ok k → k < 2 ^ 63 - 1) (b : Build)
    (fs : FScalar α) (lp : Int) (x : α) :
    Stable.normLp b d fs a s lp x = Stable.normLp b d' fs a' t lp x ∧
    Stable.normLpScaled b d fs a s lp x = Stable.normLpScaled b d' fs a' t lp x := by
  obtain ⟨X, Y, h1, h2, e⟩ := h
  have hs := hn _ (linDen_of h1).1
  exact ⟨Agree.stableNormLp h1 h2 e hs b fs lp x, Agree.stableNormLpScaled h1 h2 e hs b fs lp x⟩

/-- C108: inner products, questions about pairs, comparisons within tolerances and errors. -/
theorem C108_pairs (h : SamePairs d a1 a2 s d' a1' a2' t) (b : Build) (ar : Arith α) (sc : Scalar α) (fs : FScalar α)
    (f : α → α → Res Bool) (tol nz x : α) (e : Bool) :
    Ops.dotProd b d ar a1 a2 s x = Ops.dotProd b d' ar a1' a2' t x ∧
    Stable.dotProd b d fs a1 a2 s x = Stable.dotProd b d' fs a1' a2' t x ∧
    Stable.semiDotProd b d fs a1 a2 s x = Stable.semiDotProd b d' fs a1' a2' t x ∧
    Ops.anyOf2 b d f a1 a2 s e = Ops.anyOf2 b d' f a1' a2' t e ∧
    Ops.allOf2 b d f a1 a2 s e = Ops.allOf2 b d' f a1' a2' t e ∧
    Ops.noneOf2 b d f a1 a2 s e = Ops.noneOf2 b d' f a1' a2' t e ∧
    ErrorTools.withinTolAbsArray b d sc a1 a2 tol s e = ErrorTools.withinTolAbsArray b d' sc a1' a2' tol t e ∧
    ErrorTools.withinTolRelArray b d sc a1 a2 tol nz s e = ErrorTools.withinTolRelArray b d' sc a1' a2' tol nz t e ∧
    ErrorTools.maxAbsError b d sc a1 a2 s x = ErrorTools.maxAbsError b d' sc a1' a2' t x ∧
    ErrorTools.maxRelError b d sc a1 a2 s x = ErrorTools.maxRelError b d' sc a1' a2' t x := by
  obtain ⟨n, p, q, u, v⟩ := agree2 h
  exact ⟨Agree.dotProd p q u v b ar x, Agree.stableDotProd p q u v b fs x, Agree.semiDotProd p q u v b fs x,
    Agree.anyOf2 p q u v b f e, Agree.allOf2 p q u v b f e, Agree.noneOf2 p q u v b f e,
    Agree.withinTolAbs p q u v b sc tol e, Agree.withinTolRel p q u v b sc tol nz e,
    Agree.maxAbsError p q u v b sc x, Agree.maxRelError p q u v b sc x⟩

/-- C108: copying out for BLAS, and visiting the elements. -/
theorem C108_traversals (h : SameSequence d a s d' a' t) (f : α → β → Res β) (x : β) :
    Ops.blasArray a s = Ops.blasArray a' t ∧ Ops.forEachIn f a s x = Ops.forEachIn f a' t x := by
  obtain ⟨n, q⟩ := agree h
  exact ⟨q.blasArray, q.forEachIn f x⟩

/-- C108: if the one-dimensional object has its extremum `v` in position `k`, the two-dimensional one with `c` columns has
it in row `k / c` and column `k % c`, and if one search fails the other fails in the same way.  All that is asked of the
comparison is that nothing is less than itself, which is true with NaN. -/
theorem C108_positions {a : Acc σ α} {a' : Acc τ α} {sc : Scalar α} (hlt : ∀ x, sc.lt x x = false)
    {M : Mat (Res α)} (h : Den .two a s M) (h' : Den .one a' t M.flat) (hne : M.flat ≠ []) (x : Int × Int × α)
    (y : Int × α) :
    Ops.minIndex2 sc a s x =
      (Ops.minIndex1 sc a' t y >>= fun q => Res.ok (q.1 / (M.n : Int), q.1 % (M.n : Int), q.2)) ∧
    Ops.maxIndex2 sc a s x =
      (Ops.maxIndex1 sc a' t y >>= fun q => Res.ok (q.1 / (M.n : Int), q.1 % (M.n : Int), q.2)) :=
  ⟨Agree.extIndex (better := fun u v => sc.lt u v) hlt h h' rfl hne x y,
    Agree.extIndex (better := fun u v => sc.lt v u) hlt h h' rfl hne x y⟩

/-- C108: in particular an object and its `view1D()`, in every build. -/
theorem C108_view (b : Build) {X : Sem α d} (h : Den d a s X) (hn : (X.flat.length : Int) < 2 ^ 63 - 1) :
    ∃ v, Stable.view1D b d a s = .ok v ∧ SameSequence d a s .one v s := by
  obtain ⟨v, h1, h2⟩ := Agree.view1D_den b h hn
  exact ⟨v, h1, X, X.flat, h, h2, rfl⟩

/-- C108: and every two accepted expressions, whatever they are built from, if their elements agree. -/
theorem C108_expressions [Inhabited α] (b : Build) {s : Store α} (hs : Store.Ok s) {e : Tm α d} {e' : Tm α d'}
    (h1 : e.Sound s) (h2 : e.Valid s) (h1' : e'.Sound s) (h2' : e'.Valid s)
    (he : (e.meaning s).flat = (e'.meaning s).flat) :
    ∃ a a', e.build b s = .ok a ∧ e'.build b s = .ok a' ∧ SameSequence d a s d' a' s := by
  obtain ⟨_, a, q1, q2⟩ := e.main b hs h1 h2
  obtain ⟨_, a', q1', q2'⟩ := e'.main b hs h1' h2'
  exact ⟨a, a', q1, q1', _, _, q2 s (SameSizes.refl s), q2' s (SameSizes.refl s), he⟩

end Spp.Props

namespace Spp.Props
open Spec Sample

private def fl : FScalar Int where
  toArith := ints
  neg u := .ok (-u)
  lt u v := decide (u < v)
  le u v := decide (u ≤ v)
  eq u v := decide (u = v)
  pow u v := .ok (u ^ v.toNat)
  sqrt u := .ok u
  fma u v w := .ok (u * v + w)

private def bd : Build := ⟨false, true, false⟩

/-- The matrix `[[1,2,3],[4,5,6]]` and `merge([1,2,3], [4,5,6])`. -/
private theorem sample : ∃ a a', A.build bd store = .ok a ∧ (Tm.merge x y).build bd store = .ok a' ∧
    SameSequence .two a store .one a' store :=
  C108_expressions bd store_ok (by decide) (by decide) (by decide) (by decide) rfl

example : ∃ a a', A.build bd store = .ok a ∧ (Tm.merge x y).build bd store = .ok a' ∧
    Ops.sum ints a store 0 = Ops.sum ints a' store 0 ∧ Ops.sum ints a store 0 = .ok 21 := by
  obtain ⟨a, a', h1, h2, h3⟩ := sample
  refine ⟨a, a', h1, h2, (C108_sums h3 ints fl.toScalar 0).1, ?_⟩
  obtain rfl := Res.ok.inj h1
  rfl

example : ∃ a a', A.build bd store = .ok a ∧ (Tm.merge x y).build bd store = .ok a' ∧
    Ops.allPos fl.toScalar a store false = Ops.allPos fl.toScalar a' store false ∧
    Ops.norm1 fl.toScalar a store 0 = Ops.norm1 fl.toScalar a' store 0 ∧
    Stable.prod fl a store 0 = Stable.prod fl a' store 0 ∧
    Stable.normLp bd .two fl a store 2 0 = Stable.normLp bd .one fl a' store 2 0 ∧
    Ops.blasArray a store = Ops.blasArray a' store := by
  obtain ⟨a, a', h1, h2, h3⟩ := sample
  refine ⟨a, a', h1, h2, (C108_quantifiers h3 fl.toScalar (fun _ => .ok true) (fun _ => true) false).2.2.2.2.2.2.2.1,
    (C108_norms h3 bd fl.toScalar 2 0).2.1, (C108_stable h3 bd fl 0).2.2.1, (C108_stable_lp h3 ?_ bd fl 2 0).1,
    (C108_traversals h3 (fun _ (u : Unit) => .ok u) ()).1⟩
  obtain rfl := Res.ok.inj h1
  intro k hk
  obtain rfl : (6 : Int) = k := Res.ok.inj hk
  decide

/-- Elements that fail: `6 / (A - 2)` and `6 / (merge(x, y) - 2)` divide by zero in the second element. -/
example : ∃ a a', (Tm.scalarL ints.div 6 (Tm.scalarR ints.sub A 2)).build bd store = .ok a ∧
    (Tm.scalarL ints.div 6 (Tm.scalarR ints.sub (Tm.merge x y) 2)).build bd store = .ok a' ∧
    Ops.sum ints a store 0 = Ops.sum ints a' store 0 ∧ Ops.sum ints a' store 0 = .ub := by
  obtain ⟨a, a', h1, h2, h3⟩ := C108_expressions bd store_ok
    (e := Tm.scalarL ints.div 6 (Tm.scalarR ints.sub A 2))
    (e' := Tm.scalarL ints.div 6 (Tm.scalarR ints.sub (Tm.merge x y) 2))
    (by decide) (by decide) (by decide) (by decide) rfl
  refine ⟨a, a', h1, h2, (C108_sums h3 ints fl.toScalar 0).1, ?_⟩
  obtain rfl := Res.ok.inj h2
  rfl

/-- The inner product of the matrix with itself, and of the merged vector with itself. -/
example : ∃ a a', A.build bd store = .ok a ∧ (Tm.merge x y).build bd store = .ok a' ∧
    Ops.dotProd bd .two ints a a store 0 = Ops.dotProd bd .one ints a' a' store 0 := by
  obtain ⟨a, a', h1, h2, X, Y, h3, h4, h5⟩ := sample
  exact ⟨a, a', h1, h2, (C108_pairs ⟨X, X, Y, Y, h3, h3, h4, h4, rfl, rfl, h5, h5⟩ bd ints fl.toScalar fl
    (fun _ _ => .ok true) 0 0 0 false).1⟩

/-- The largest element of the matrix is element 5 of its `view1D()`, so it is in row 1 and column 2. -/
example : ∃ a v, A.build bd store = .ok a ∧ Stable.view1D bd .two a store = .ok v ∧
    Ops.maxIndex1 fl.toScalar v store (0, 0) = .ok (5, 6) ∧
    Ops.maxIndex2 fl.toScalar a store (0, 0, 0) = .ok (1, 2, 6) := by
  obtain ⟨_, a, h1, h2⟩ := A.main bd store_ok (by decide) (by decide)
  have h3 := h2 store (SameSizes.refl store)
  obtain ⟨v, h4, h5⟩ := Agree.view1D_den bd h3 (by decide)
  have h := (C108_positions (sc := fl.toScalar) (fun u => by simp [fl]) h3 h5 (by decide) (0, 0, 0) (0, 0)).2
  obtain rfl := Res.ok.inj h1
  obtain rfl := Res.ok.inj h4
  exact ⟨_, _, h1, h4, rfl, h⟩

/-- Nothing is less than itself in IEEE arithmetic. -/
example (F : Fmt) (u : FVal) : F.scalar.lt u u = false := by
  show FVal.lt u u = false
  cases u <;> simp [FVal.lt]

end Spp.Props
