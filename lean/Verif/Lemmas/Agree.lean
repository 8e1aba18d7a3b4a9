import Verif.Model.ErrorTools
import Verif.Model.StableOps
import Verif.Lemmas.View

/- Reductions use nothing of their operands but the number of elements and the elements in linear order. -/

namespace Spp

open Spec

variable {σ τ α β : Type}

/-- The two objects have the same number of elements, and reading an element of one is like reading the same element of
the other. -/
structure Agree (a : Acc σ α) (s : σ) (a' : Acc τ α) (t : τ) (n : Nat) : Prop where
  left : a.size s = .ok (n : Int)
  right : a'.size t = .ok (n : Int)
  un : ∀ k : Nat, k < n → a.un s k = a'.un t k

namespace Agree

variable {a a1 a2 : Acc σ α} {a' a1' a2' : Acc τ α} {s : σ} {t : τ} {n : Nat}

theorem of_den {d d' : Dim} {X : Sem α d} {Y : Sem α d'} (h : Den d a s X) (h' : Den d' a' t Y)
    (e : X.flat = Y.flat) : Agree a s a' t X.flat.length := by
  obtain ⟨h1, h2⟩ := linDen_of h
  obtain ⟨h3, h4⟩ := linDen_of h'
  refine ⟨h1, by rw [h3, e], fun k hk => ?_⟩
  rw [h2 k hk, h4 k (by rw [← e]; exact hk), e]

theorem empty (h : Agree a s a' t n) : a.empty s = a'.empty t := by
  simp only [Acc.empty, h.left, h.right]

theorem size (h : Agree a s a' t n) : a.size s = a'.size t := by rw [h.left, h.right]

theorem unary (h : Agree a s a' t n) (f : α → Res α) : Agree (a.unary f) s (a'.unary f) t n :=
  ⟨h.left, h.right, fun k hk => by
    show (a.un s k >>= _) = (a'.un t k >>= _)
    rw [h.un k hk]⟩

theorem binary (h1 : Agree a1 s a1' t n) (h2 : Agree a2 s a2' t n) (f : α → α → Res α) :
    Agree (Acc.binary f a1 a2) s (Acc.binary f a1' a2') t n :=
  ⟨h1.left, h1.right, fun k hk => by
    show (a1.un s k >>= fun x => a2.un s k >>= _) = (a1'.un t k >>= fun x => a2'.un t k >>= _)
    rw [h1.un k hk, h2.un k hk]⟩

theorem anyLoop_congr {p q : Nat → Res Bool} : ∀ (n i : Nat), (∀ k, i ≤ k → k < i + n → p k = q k) →
    Ops.anyLoop p n i = Ops.anyLoop q n i
  | 0, _, _ => rfl
  | n + 1, i, h => by
      rw [Ops.anyLoop, Ops.anyLoop, h i (Nat.le_refl _) (by omega),
        anyLoop_congr n (i + 1) (fun k h1 h2 => h k (by omega) (by omega))]

theorem allLoop_congr {p q : Nat → Res Bool} : ∀ (n i : Nat), (∀ k, i ≤ k → k < i + n → p k = q k) →
    Ops.allLoop p n i = Ops.allLoop q n i
  | 0, _, _ => rfl
  | n + 1, i, h => by
      rw [Ops.allLoop, Ops.allLoop, h i (Nat.le_refl _) (by omega),
        allLoop_congr n (i + 1) (fun k h1 h2 => h k (by omega) (by omega))]

theorem sumLoop_congr (fs : FScalar α) {n : Nat} {f g : Nat → β → Res (α × β)} {st : β}
    (h : ∀ k q, k < n → f k q = g k q) : Stable.sumLoop fs n f st = Stable.sumLoop fs n g st := by
  unfold Stable.sumLoop
  rw [foldN_congr n (fun k q hk => by rw [h k q.2 hk])]

theorem foldElems (h : Agree a s a' t n) (f : α → α → Res α) (x : α) :
    Ops.foldElems f a s x = Ops.foldElems f a' t x := by
  unfold Ops.foldElems
  rw [h.empty]
  simp only [h.left, h.right, Acc.empty, Res.ok_bind, Res.pure_eq]
  by_cases h0 : n = 0
  · simp [h0]
  · have e0 : a.un s 0 = a'.un t 0 := h.un 0 (by omega)
    rw [e0]
    refine congrArg (fun z => if ((n : Int) == 0) = true then Res.ok x else (a'.un t 0 >>= z)) ?_
    funext y
    refine foldN_congr _ (fun k acc hk => ?_)
    rw [h.un (k + 1) (by simp at hk; omega)]

theorem sum (h : Agree a s a' t n) (ar : Arith α) (x : α) : Ops.sum ar a s x = Ops.sum ar a' t x := h.foldElems _ x
theorem prod (h : Agree a s a' t n) (ar : Arith α) (x : α) : Ops.prod ar a s x = Ops.prod ar a' t x := h.foldElems _ x
theorem min (h : Agree a s a' t n) (sc : Scalar α) (x : α) : Ops.min sc a s x = Ops.min sc a' t x := h.foldElems _ x
theorem max (h : Agree a s a' t n) (sc : Scalar α) (x : α) : Ops.max sc a s x = Ops.max sc a' t x := h.foldElems _ x

theorem mean (h : Agree a s a' t n) (ar : Arith α) (x : α) : Ops.mean ar a s x = Ops.mean ar a' t x := by
  unfold Ops.mean
  rw [h.empty, h.sum, h.size]

theorem anyOf (h : Agree a s a' t n) (f : α → Res Bool) (x : Bool) : Ops.anyOf f a s x = Ops.anyOf f a' t x := by
  unfold Ops.anyOf
  rw [h.empty]
  simp only [h.left, h.right, Res.ok_bind, Int.toNat_natCast]
  rw [anyLoop_congr n 0 (fun k _ hk => by rw [h.un k (by omega)])]

theorem allOf (h : Agree a s a' t n) (f : α → Res Bool) (x : Bool) : Ops.allOf f a s x = Ops.allOf f a' t x := by
  unfold Ops.allOf
  rw [h.empty]
  simp only [h.left, h.right, Res.ok_bind, Int.toNat_natCast]
  rw [allLoop_congr n 0 (fun k _ hk => by rw [h.un k (by omega)])]

theorem noneOf (h : Agree a s a' t n) (f : α → Res Bool) (x : Bool) : Ops.noneOf f a s x = Ops.noneOf f a' t x := by
  unfold Ops.noneOf
  rw [h.empty, h.anyOf]

theorem allFinite (h : Agree a s a' t n) (f : α → Bool) (x : Bool) :
    Ops.allFinite f a s x = Ops.allFinite f a' t x := by
  unfold Ops.allFinite
  rw [h.empty, h.allOf]

theorem hasSuch (h : Agree a s a' t n) (f : α → Bool) (x : Bool) : Ops.hasSuch f a s x = Ops.hasSuch f a' t x := by
  unfold Ops.hasSuch
  rw [h.empty, h.anyOf]

theorem normInf (h : Agree a s a' t n) (sc : Scalar α) (x : α) : Ops.normInf sc a s x = Ops.normInf sc a' t x := by
  unfold Ops.normInf
  rw [h.empty, (h.unary _).max]

theorem norm1 (h : Agree a s a' t n) (sc : Scalar α) (x : α) : Ops.norm1 sc a s x = Ops.norm1 sc a' t x := by
  unfold Ops.norm1
  rw [h.empty, (h.unary _).sum]

theorem norm1Scaled (h : Agree a s a' t n) (sc : Scalar α) (x : α) :
    Ops.norm1Scaled sc a s x = Ops.norm1Scaled sc a' t x := by
  unfold Ops.norm1Scaled
  rw [h.empty, (h.unary _).mean]

theorem normLp (h : Agree a s a' t n) (b : Build) (sc : Scalar α) (lp : Int) (x : α) :
    Ops.normLp b sc a s lp x = Ops.normLp b sc a' t lp x := by
  unfold Ops.normLp
  rw [h.empty]
  simp only [fun c => ((h.unary (fun x => sc.pow x c)).unary sc.abss).sum sc.toArith sc.zero]

theorem normLpScaled (h : Agree a s a' t n) (b : Build) (sc : Scalar α) (lp : Int) (x : α) :
    Ops.normLpScaled b sc a s lp x = Ops.normLpScaled b sc a' t lp x := by
  unfold Ops.normLpScaled
  rw [h.empty, h.normLp, h.size]

theorem stableSum (h : Agree a s a' t n) (fs : FScalar α) (x : α) : Stable.sum fs a s x = Stable.sum fs a' t x := by
  unfold Stable.sum
  rw [h.empty]
  simp only [h.left, h.right, Res.ok_bind, Int.toNat_natCast, Stable.sumLoop]
  rw [foldN_congr n (fun k q hk => by rw [h.un k hk])]

theorem stableMean (h : Agree a s a' t n) (fs : FScalar α) (x : α) : Stable.mean fs a s x = Stable.mean fs a' t x := by
  unfold Stable.mean
  rw [h.empty, h.stableSum, h.size]

theorem stableNorm1 (h : Agree a s a' t n) (fs : FScalar α) (x : α) :
    Stable.norm1 fs a s x = Stable.norm1 fs a' t x := by
  unfold Stable.norm1
  rw [h.empty, (h.unary _).stableSum]

theorem stableNorm1Scaled (h : Agree a s a' t n) (fs : FScalar α) (x : α) :
    Stable.norm1Scaled fs a s x = Stable.norm1Scaled fs a' t x := by
  unfold Stable.norm1Scaled
  rw [h.empty, h.stableNorm1, h.size]

theorem stableProd (h : Agree a s a' t n) (fs : FScalar α) (x : α) :
    Stable.prod fs a s x = Stable.prod fs a' t x := by
  unfold Stable.prod
  rw [h.empty]
  simp only [h.left, h.right, Acc.empty, Res.ok_bind, Res.pure_eq]
  by_cases h0 : n = 0
  · simp [h0]
  · have hne : ((n : Int) == 0) = false := by simpa using h0
    simp only [hne, Bool.false_eq_true, if_false]
    rcases hm : isub (n : Int) 1 with m | k | _
    · have hm' : m = (n : Int) - 1 := by
        rcases isub_cases (n : Int) 1 with ⟨_, e⟩ | ⟨_, e⟩ <;> rw [e] at hm
        · exact (Res.ok.inj hm).symm
        · cases hm
      have e0 : a.un s 0 = a'.un t 0 := h.un 0 (by omega)
      simp only [Res.ok_bind, e0]
      refine congrArg (fun z => (a'.un t 0 >>= z)) ?_
      funext p0
      rw [foldN_congr m.toNat (fun k q hk => by
        rw [show ((k : Int) + 1) = ((k + 1 : Nat) : Int) by push_cast; rfl, h.un (k + 1) (by omega)])]
      refine congrArg (fun z => (foldN m.toNat _ (p0, List.replicate m.toNat fs.zero) >>= z)) ?_
      funext pr
      by_cases hm0 : m = 0
      · simp [hm0]
      · simp only [if_neg hm0]
        refine congrArg (fun z => z >>= fun t => fs.add pr.1 t) (sumLoop_congr fs (fun k q hk => ?_))
        rcases isub_cases m k with ⟨_, e⟩ | ⟨_, e⟩
        · have e2 : a.un s (m - k) = a'.un t (m - k) := by
            rw [show m - (k : Int) = ((m - k).toNat : Int) by omega, h.un (m - k).toNat (by omega)]
          simp only [hm, e, Res.ok_bind, e2]
        · simp only [hm, e, Res.ok_bind]
          rfl
    · simp
    · simp

theorem div_block {b : Build} {n : Nat} {q : Int} (h : idiv b (n : Int) Stable.blockSize = .ok q) :
    q = (n : Int) / 64 := by
  unfold idiv SInt.div SInt.builtinDiv Stable.blockSize at h
  simp [assertDebug] at h
  unfold IntTy.arith at h
  rw [if_pos (show IntTy.long.signed = true from rfl)] at h
  split at h
  · exact (Res.ok.inj h).symm
  · cases h

theorem rem_block {b : Build} {n : Nat} {q : Int} (h : irem b (n : Int) Stable.blockSize = .ok q) :
    q = (n : Int) % 64 := by
  unfold irem SInt.rem SInt.builtinRem Stable.blockSize at h
  simp [assertDebug] at h
  split at h <;> simp_all [Int.tmod_eq_emod_of_nonneg]

theorem semiSum (h : Agree a s a' t n) (b : Build) (fs : FScalar α) (x : α) :
    Stable.semiSum b fs a s x = Stable.semiSum b fs a' t x := by
  unfold Stable.semiSum
  rw [h.empty]
  simp only [h.left, h.right, Acc.empty, Res.ok_bind, Res.pure_eq]
  by_cases h0 : n = 0
  · simp [h0]
  · have hne : ((n : Int) == 0) = false := by simpa using h0
    simp only [hne, Bool.false_eq_true, if_false]
    rcases hd : idiv b (n : Int) Stable.blockSize with q | k | _
    · rcases hr : irem b (n : Int) Stable.blockSize with r | k | _
      · have hq : q = (n : Int) / 64 := div_block hd
        have hrr : r = (n : Int) % 64 := rem_block hr
        simp only [Res.ok_bind]
        have e1 : ∀ init : List α, foldN q.toNat (fun i sb => foldN Stable.blockSize.toNat (fun j sb => do
              let k ← imul i Stable.blockSize
              let k ← iadd k j
              let x ← a.un s k
              let old ← rd sb i
              let new ← fs.add old x
              wr sb i new) sb) init = foldN q.toNat (fun i sb => foldN Stable.blockSize.toNat (fun j sb => do
              let k ← imul i Stable.blockSize
              let k ← iadd k j
              let x ← a'.un t k
              let old ← rd sb i
              let new ← fs.add old x
              wr sb i new) sb) init := by
          intro init
          refine foldN_congr _ (fun i sb hi => foldN_congr _ (fun j sb hj => ?_))
          have hj' : j < 64 := hj
          rcases imul_cases (i : Int) Stable.blockSize with ⟨_, e⟩ | ⟨_, e⟩
          · rcases iadd_cases ((i : Int) * Stable.blockSize) j with ⟨_, e'⟩ | ⟨_, e'⟩
            · have e2 : a.un s ((i : Int) * Stable.blockSize + j) = a'.un t ((i : Int) * Stable.blockSize + j) := by
                have := h.un (i * 64 + j) (by omega)
                simpa [Stable.blockSize] using this
              simp only [e, e', Res.ok_bind, e2]
            · simp only [e, e', Res.ok_bind]
              rfl
          · simp only [e]
            rfl
        have e2 : ∀ init : α, foldN r.toNat (fun i r => do
              let k ← isub (n : Int) 1
              let k ← isub k i
              let x ← a.un s k
              fs.add r x) init = foldN r.toNat (fun i r => do
              let k ← isub (n : Int) 1
              let k ← isub k i
              let x ← a'.un t k
              fs.add r x) init := by
          intro init
          refine foldN_congr _ (fun i acc hi => ?_)
          rcases isub_cases (n : Int) 1 with ⟨_, e⟩ | ⟨_, e⟩
          · rcases isub_cases ((n : Int) - 1) i with ⟨_, e'⟩ | ⟨_, e'⟩
            · have e2 : a.un s ((n : Int) - 1 - i) = a'.un t ((n : Int) - 1 - i) := by
                rw [show (n : Int) - 1 - i = ((n - 1 - i : Nat) : Int) by omega, h.un (n - 1 - i) (by omega)]
              simp only [e, e', Res.ok_bind, e2]
            · simp only [e, e', Res.ok_bind]
              rfl
          · simp only [e]
            rfl
        simp only [e1, e2]
      · simp
      · simp
    · simp
    · simp

/-! ### Two operands of the same extents -/

section Pairs

variable {d d' : Dim} (h1 : Agree a1 s a1' t n) (h2 : Agree a2 s a2' t n)
  (hs : Acc.sameSize d a1 a2 s = true) (hs' : Acc.sameSize d' a1' a2' t = true)

include h1 h2 hs hs'

theorem dotProd (b : Build) (ar : Arith α) (x : α) : Ops.dotProd b d ar a1 a2 s x = Ops.dotProd b d' ar a1' a2' t x := by
  unfold Ops.dotProd Tm.mkBinary
  simp only [hs, hs', assertDebug_true, Res.ok_bind, Res.pure_eq, h1.empty, (h1.binary h2 _).sum]

theorem anyOf2 (b : Build) (f : α → α → Res Bool) (x : Bool) :
    Ops.anyOf2 b d f a1 a2 s x = Ops.anyOf2 b d' f a1' a2' t x := by
  unfold Ops.anyOf2
  simp only [hs, hs', assertDebug_true, Res.ok_bind, h1.empty, h1.left, h1.right, Int.toNat_natCast]
  rw [anyLoop_congr n 0 (fun k _ hk => by rw [h1.un k (by omega), h2.un k (by omega)])]

theorem allOf2 (b : Build) (f : α → α → Res Bool) (x : Bool) :
    Ops.allOf2 b d f a1 a2 s x = Ops.allOf2 b d' f a1' a2' t x := by
  unfold Ops.allOf2
  simp only [hs, hs', assertDebug_true, Res.ok_bind, h1.empty, h1.left, h1.right, Int.toNat_natCast]
  rw [allLoop_congr n 0 (fun k _ hk => by rw [h1.un k (by omega), h2.un k (by omega)])]

theorem noneOf2 (b : Build) (f : α → α → Res Bool) (x : Bool) :
    Ops.noneOf2 b d f a1 a2 s x = Ops.noneOf2 b d' f a1' a2' t x := by
  unfold Ops.noneOf2
  simp only [hs, hs', assertDebug_true, Res.ok_bind, h1.empty, anyOf2 h1 h2 hs hs']

theorem withinTolAbs (b : Build) (sc : Scalar α) (tol : α) (x : Bool) :
    ErrorTools.withinTolAbsArray b d sc a1 a2 tol s x = ErrorTools.withinTolAbsArray b d' sc a1' a2' tol t x := by
  unfold ErrorTools.withinTolAbsArray
  simp only [hs, hs', assertDebug_true, Res.ok_bind, h1.empty, allOf2 h1 h2 hs hs']

theorem withinTolRel (b : Build) (sc : Scalar α) (tol nz : α) (x : Bool) :
    ErrorTools.withinTolRelArray b d sc a1 a2 tol nz s x = ErrorTools.withinTolRelArray b d' sc a1' a2' tol nz t x := by
  unfold ErrorTools.withinTolRelArray
  simp only [hs, hs', assertDebug_true, Res.ok_bind, h1.empty, allOf2 h1 h2 hs hs']

theorem maxAbsError (b : Build) (sc : Scalar α) (x : α) :
    ErrorTools.maxAbsError b d sc a1 a2 s x = ErrorTools.maxAbsError b d' sc a1' a2' t x := by
  unfold ErrorTools.maxAbsError Tm.mkBinary
  simp only [hs, hs', assertDebug_true, Res.ok_bind, Res.pure_eq, h1.empty, (h1.binary h2 _).normInf]

theorem maxRelError (b : Build) (sc : Scalar α) (x : α) :
    ErrorTools.maxRelError b d sc a1 a2 s x = ErrorTools.maxRelError b d' sc a1' a2' t x := by
  have q : Acc.sameSize d (Acc.binary sc.sub a1 a2) a2 s = true := by cases d <;> exact hs
  have q' : Acc.sameSize d' (Acc.binary sc.sub a1' a2') a2' t = true := by cases d' <;> exact hs'
  unfold ErrorTools.maxRelError Tm.mkBinary Ops.hasZero
  simp only [hs, hs', q, q', assertDebug_true, Res.ok_bind, Res.pure_eq, h1.empty, h1.anyOf, h2.anyOf,
    ((h1.binary h2 _).binary h2 _).normInf]

theorem stableDotProd (b : Build) (fs : FScalar α) (x : α) :
    Stable.dotProd b d fs a1 a2 s x = Stable.dotProd b d' fs a1' a2' t x := by
  unfold Stable.dotProd
  simp only [hs, hs', assertDebug_true, Acc.empty, h1.left, h1.right, Res.ok_bind, Res.pure_eq]
  by_cases h0 : n = 0
  · simp [h0]
  · have e1 : a1.un s 0 = a1'.un t 0 := h1.un 0 (by omega)
    have e2 : a2.un s 0 = a2'.un t 0 := h2.un 0 (by omega)
    have e3 : ∀ init : α × α, foldN (n - 1) (fun k (ps : α × α) => do
        let x ← a1.un s ((k + 1 : Nat) : Int)
        let y ← a2.un s ((k + 1 : Nat) : Int)
        let hr ← fs.twoProds x y
        let pq ← fs.twoSums ps.1 hr.1
        let t ← fs.add pq.2 hr.2
        let t ← fs.add ps.2 t
        Res.ok (pq.1, t)) init = foldN (n - 1) (fun k (ps : α × α) => do
        let x ← a1'.un t ((k + 1 : Nat) : Int)
        let y ← a2'.un t ((k + 1 : Nat) : Int)
        let hr ← fs.twoProds x y
        let pq ← fs.twoSums ps.1 hr.1
        let t ← fs.add pq.2 hr.2
        let t ← fs.add ps.2 t
        Res.ok (pq.1, t)) init := fun init => foldN_congr _ (fun k ps hk => by
          rw [h1.un (k + 1) (by omega), h2.un (k + 1) (by omega)])
    simp only [e1, e2, Int.toNat_natCast, e3]

theorem semiDotProd (b : Build) (fs : FScalar α) (x : α) :
    Stable.semiDotProd b d fs a1 a2 s x = Stable.semiDotProd b d' fs a1' a2' t x := by
  unfold Stable.semiDotProd Tm.mkBinary
  simp only [hs, hs', assertDebug_true, Res.ok_bind, Res.pure_eq, h1.empty, (h1.binary h2 _).semiSum]

end Pairs

theorem sameSize_self (d : Dim) (a : Acc σ α) (s : σ) : Acc.sameSize d a a s = true := by
  cases d <;> simp [Acc.sameSize]

theorem norm2 (h : Agree a s a' t n) (b : Build) (d d' : Dim) (sc : Scalar α) (x : α) :
    Ops.norm2 b d sc a s x = Ops.norm2 b d' sc a' t x := by
  unfold Ops.norm2
  rw [h.empty, dotProd h h (sameSize_self d a s) (sameSize_self d' a' t)]

theorem norm2Scaled (h : Agree a s a' t n) (b : Build) (d d' : Dim) (sc : Scalar α) (x : α) :
    Ops.norm2Scaled b d sc a s x = Ops.norm2Scaled b d' sc a' t x := by
  unfold Ops.norm2Scaled
  rw [h.empty, h.norm2 b d d', h.size]

theorem stableNorm2 (h : Agree a s a' t n) (b : Build) (d d' : Dim) (fs : FScalar α) (x : α) :
    Stable.norm2 b d fs a s x = Stable.norm2 b d' fs a' t x := by
  unfold Stable.norm2
  rw [h.empty, stableDotProd h h (sameSize_self d a s) (sameSize_self d' a' t)]

theorem stableNorm2Scaled (h : Agree a s a' t n) (b : Build) (d d' : Dim) (fs : FScalar α) (x : α) :
    Stable.norm2Scaled b d fs a s x = Stable.norm2Scaled b d' fs a' t x := by
  unfold Stable.norm2Scaled
  rw [h.empty, h.stableNorm2 b d d', h.size]

theorem blasArray (h : Agree a s a' t n) : Ops.blasArray a s = Ops.blasArray a' t := by
  unfold Ops.blasArray
  rw [h.empty]
  simp only [h.left, h.right, Res.ok_bind, Int.toNat_natCast]
  rw [foldN_congr n (fun k l hk => by rw [h.un k hk])]

theorem forEachIn (h : Agree a s a' t n) (f : α → β → Res β) (x : β) :
    Ops.forEachIn f a s x = Ops.forEachIn f a' t x := by
  unfold Ops.forEachIn
  simp only [h.left, h.right, Res.ok_bind, Int.toNat_natCast]
  exact foldN_congr n (fun k l hk => by rw [h.un k hk])

/-! ### `stable_norm_lp` goes through one-dimensional expressions -/

/-- Like `Agree`, for one-dimensional objects: the number of rows counts. -/
structure Lin (a : Acc σ β) (s : σ) (a' : Acc τ β) (t : τ) (n : Nat) : Prop where
  rowsL : a.rows s = (n : Int)
  rowsR : a'.rows t = (n : Int)
  agree : Agree a s a' t n

theorem Lin.oneD {f : σ → Int} {g : σ → Int → Res β} {f' : τ → Int} {g' : τ → Int → Res β}
    (h : f s = n) (h' : f' t = n) (hg : ∀ k : Nat, k < n → g s k = g' t k) :
    Lin (Acc.oneD f g) s (Acc.oneD f' g') t n :=
  ⟨h, h', ⟨by show Res.ok (f s) = _; rw [h], by show Res.ok (f' t) = _; rw [h'], hg⟩⟩

theorem Lin.same {x : Acc σ β} {x' : Acc τ β} {y : Acc σ α} {y' : Acc τ α} (h : Lin x s x' t n)
    (h' : Lin y s y' t n) : Acc.sameSize .one x y s = true ∧ Acc.sameSize .one x' y' t = true := by
  simp [Acc.sameSize, h.rowsL, h.rowsR, h'.rowsL, h'.rowsR]

theorem Lin.merge {x y : Acc σ β} {x' y' : Acc τ β} (b : Build) (h : Lin x s x' t n) (h' : Lin y s y' t n) :
    (∃ z z', Stable.merge b x y s = .ok z ∧ Stable.merge b x' y' t = .ok z' ∧ Lin z s z' t (n + n)) ∨
    (Stable.merge b x y s = .ub ∧ Stable.merge b x' y' t = .ub) := by
  unfold Stable.merge Tm.mkGen1
  simp only [h.rowsL, h.rowsR, h'.rowsL, h'.rowsR]
  rcases iadd_cases (n : Int) n with ⟨_, e⟩ | ⟨_, e⟩
  · have hp : decide ((n : Int) + n > -1) = true := by simp; omega
    simp only [e, Res.ok_bind, hp, assertDebug_true, Res.pure_eq]
    refine .inl ⟨_, _, rfl, rfl, Lin.oneD (by push_cast; rfl) (by push_cast; rfl) (fun k hk => ?_)⟩
    rcases imul_cases 1 (k : Int) with ⟨_, e1⟩ | ⟨_, e1⟩
    · rcases iadd_cases 0 (1 * (k : Int)) with ⟨_, e2⟩ | ⟨_, e2⟩
      · simp only [e1, e2, Res.ok_bind, Acc.mergeOp, h.rowsL, h.rowsR]
        rw [show (0 : Int) + 1 * k = k by omega]
        by_cases hlt : k < n
        · rw [if_pos (by omega), if_pos (by omega), h.agree.un k hlt]
        · rw [if_neg (by omega), if_neg (by omega)]
          rcases isub_cases (k : Int) n with ⟨_, e3⟩ | ⟨_, e3⟩
          · simp only [e3, Res.ok_bind]
            rw [show (k : Int) - n = ((k - n : Nat) : Int) by omega, h'.agree.un (k - n) (by omega)]
          · simp only [e3]
            rfl
      · simp only [e1, e2, Res.ok_bind]
        rfl
    · simp only [e1]
      rfl
  · simp only [e]
    exact .inr ⟨rfl, rfl⟩

theorem Lin.powProd {X : Acc σ α} {X' : Acc τ α} {P : Acc σ Int} {P' : Acc τ Int} (b : Build) (fs : FScalar α)
    (pick : α × α → α) (h : Lin X s X' t n) (h' : Lin P s P' t n) :
    ∃ z z', Stable.powProd b fs pick X P s = .ok z ∧ Stable.powProd b fs pick X' P' t = .ok z' ∧
      Lin z s z' t n := by
  unfold Stable.powProd
  simp only [(h.same h').1, (h.same h').2, assertDebug_true, Res.ok_bind, Res.pure_eq]
  exact ⟨_, _, rfl, rfl, Lin.oneD h.rowsL h.rowsR (fun k hk => by rw [h.agree.un k hk, h'.agree.un k hk])⟩

theorem Lin.gpolynomial {C X : Acc σ α} {C' X' : Acc τ α} {P : Acc σ Int} {P' : Acc τ Int} (b : Build)
    (fs : FScalar α) (hc : Lin C s C' t n) (hx : Lin X s X' t n) (hp : Lin P s P' t n) (x : α) :
    Stable.gpolynomial b fs C X P s x = Stable.gpolynomial b fs C' X' P' t x := by
  obtain ⟨R, R', r1, r2, hR⟩ := hx.powProd b fs (·.1) hp
  obtain ⟨S, S', s1, s2, hS⟩ := hx.powProd b fs (·.2) hp
  have hn : Ops.nonNegPowers P s = Ops.nonNegPowers P' t := by
    unfold Ops.nonNegPowers
    exact hp.agree.allOf _ _
  unfold Stable.gpolynomial
  simp only [(hc.same hx).1, (hc.same hx).2, (hx.same hp).1, (hx.same hp).2, Bool.and_self, assertDebug_true,
    Res.ok_bind, hc.agree.empty, hn, r1, r2, s1, s2]
  rcases Lin.merge b hc hc with ⟨cc, cc', c1, c2, hcc⟩ | ⟨c1, c2⟩
  · rcases Lin.merge b hR hS with ⟨rs, rs', m1, m2, hrs⟩ | ⟨m1, m2⟩
    · simp only [c1, c2, m1, m2, Res.ok_bind,
        stableDotProd hcc.agree hrs.agree (hcc.same hrs).1 (hcc.same hrs).2]
    · simp only [c1, c2, m1, m2, Res.ok_bind]
      rfl
  · simp only [c1, c2]
    rfl

theorem Lin.const {σ τ : Type} {s : σ} {t : τ} (b : Build) (n : Nat) (x : β) :
    ∃ z z', Tm.mkConst1D (σ := σ) b n x = .ok z ∧ Tm.mkConst1D (σ := τ) b n x = .ok z' ∧ Lin z s z' t n := by
  have hp : decide ((n : Int) > -1) = true := by simp; omega
  unfold Tm.mkConst1D
  simp only [hp, assertDebug_true, Res.ok_bind, Res.pure_eq]
  exact ⟨_, _, rfl, rfl, Lin.oneD rfl rfl (fun k _ => rfl)⟩

theorem view1D_den (b : Build) {d : Dim} {X : Sem α d} (h : Den d a s X) (hn : (X.flat.length : Int) < 2 ^ 63 - 1) :
    ∃ v, Stable.view1D b d a s = .ok v ∧ Den .one v s X.flat := by
  cases d with
  | one =>
    change List (Res α) at X
    change (X.length : Int) < _ at hn
    obtain ⟨v, h1, h2⟩ := mkSlice1_ok b (r := .all) h.1 hn (by trivial) (by trivial)
    refine ⟨v, h1, ?_⟩
    have := h2 s X rfl (linDen_of h)
    rw [show selection (X.length : Int) .all = upto (X.length : Int) from rfl, map_pick_upto rfl] at this
    exact this
  | two =>
    obtain ⟨v, h1, _, h2⟩ := mkView1D_ok b (linDen_of h).1 hn
    exact ⟨v, h1, h2 s _ rfl (linDen_of h)⟩

theorem stableNormLp {d d' : Dim} {X : Sem α d} {Y : Sem α d'} (h : Den d a s X) (h' : Den d' a' t Y)
    (e : X.flat = Y.flat) (hn : (X.flat.length : Int) < 2 ^ 63 - 1) (b : Build) (fs : FScalar α) (lp : Int) (x : α) :
    Stable.normLp b d fs a s lp x = Stable.normLp b d' fs a' t lp x := by
  have hA := of_den h h' e
  obtain ⟨v, v1, v2⟩ := view1D_den b h hn
  obtain ⟨v', v1', v2'⟩ := view1D_den b h' (by rw [← e]; exact hn)
  have hv : Lin (v.unary fs.abss) s (v'.unary fs.abss) t X.flat.length :=
    ⟨v2.1, by rw [e]; exact v2'.1, (of_den v2 v2' e).unary _⟩
  obtain ⟨P, P', p1, p2, hP⟩ := Lin.const (s := s) (t := t) b X.flat.length lp
  unfold Stable.normLp
  rw [hA.empty]
  simp only [hA.left, hA.right, Res.ok_bind, v1, v1', p1, p2]
  have key : ∀ o, (Tm.mkConst1D b (X.flat.length : Int) o >>= fun c =>
      Stable.gpolynomial b fs c (v.unary fs.abss) P s fs.zero) =
      (Tm.mkConst1D b (X.flat.length : Int) o >>= fun c =>
      Stable.gpolynomial b fs c (v'.unary fs.abss) P' t fs.zero) := by
    intro o
    obtain ⟨C, C', c1, c2, hC⟩ := Lin.const (s := s) (t := t) b X.flat.length o
    simp only [c1, c2, Res.ok_bind, Lin.gpolynomial b fs hC hv hP]
  simp only [← bind_assoc, key]

theorem stableNormLpScaled {d d' : Dim} {X : Sem α d} {Y : Sem α d'} (h : Den d a s X) (h' : Den d' a' t Y)
    (e : X.flat = Y.flat) (hn : (X.flat.length : Int) < 2 ^ 63 - 1) (b : Build) (fs : FScalar α) (lp : Int) (x : α) :
    Stable.normLpScaled b d fs a s lp x = Stable.normLpScaled b d' fs a' t lp x := by
  have hA := of_den h h' e
  unfold Stable.normLpScaled
  rw [hA.empty, stableNormLp h h' e hn, hA.size]

/-! ### Positions -/

theorem res_bind_ok {γ : Type} (x : Res γ) : (x >>= fun y => Res.ok y) = x := by cases x <;> rfl

theorem foldN_nested {γ : Type} (c : Nat) (f : Nat → Nat → γ → Res γ) (x : γ) : ∀ m : Nat,
    foldN m (fun i y => foldN c (fun j y => f i j y) y) x = foldN (m * c) (fun k y => f (k / c) (k % c) y) x := by
  have row : ∀ (i q : Nat), q ≤ c → foldN (i * c + q) (fun k y => f (k / c) (k % c) y) x =
      (foldN (i * c) (fun k y => f (k / c) (k % c) y) x >>= fun y => foldN q (fun j y => f i j y) y) := by
    intro i q
    induction q with
    | zero => intro _; simp [res_bind_ok]
    | succ q ih =>
      intro hq
      rw [← Nat.add_assoc, foldN_succ, ih (by omega), bind_assoc]
      have h1 : (i * c + q) / c = i := by
        rw [Nat.mul_comm, Nat.mul_add_div (by omega), Nat.div_eq_of_lt (by omega)]; rfl
      have h2 : (i * c + q) % c = q := by
        rw [Nat.mul_comm, Nat.mul_add_mod, Nat.mod_eq_of_lt (by omega)]
      rw [h1, h2]
      rfl
  intro m
  induction m with
  | zero => simp
  | succ m ih => rw [foldN_succ, ih, Nat.succ_mul, row m c (Nat.le_refl c)]

theorem foldN_front {γ : Type} (f : Nat → γ → Res γ) (x : γ) : ∀ n : Nat,
    foldN (n + 1) f x = (f 0 x >>= fun y => foldN n (fun k => f (k + 1)) y)
  | 0 => by simp [foldN_succ, res_bind_ok]
  | n + 1 => by
      rw [foldN_succ, foldN_front f x n, bind_assoc]
      rfl

theorem foldN_image {γ δ : Type} (φ : γ → δ) {f : Nat → γ → Res γ} {g : Nat → δ → Res δ} (x : γ) : ∀ n : Nat,
    (∀ k y, k < n → g k (φ y) = (f k y >>= fun z => Res.ok (φ z))) →
    foldN n g (φ x) = (foldN n f x >>= fun z => Res.ok (φ z))
  | 0, _ => by simp
  | n + 1, h => by
      rw [foldN_succ, foldN_succ, foldN_image φ x n (fun k y hk => h k y (by omega)), bind_assoc, bind_assoc]
      congr 1
      funext z
      exact h n z (by omega)

/-- Where the `k`-th element in linear order is, with its value. -/
def place (c : Nat) (q : Int × α) : Int × Int × α := (q.1 / c, q.1 % c, q.2)

theorem extIndex {M : Mat (Res α)} {Y : List (Res α)} {better : α → α → Bool} (hirr : ∀ x, better x x = false)
    (h : Den .two a s M) (h' : Den .one a' t Y) (e : M.flat = Y) (hY : Y ≠ []) (x : Int × Int × α) (y : Int × α) :
    Ops.extIndex2 better a s x = (Ops.extIndex1 better a' t y >>= fun q => Res.ok (place M.n q)) := by
  subst e
  have hA := of_den (d := .two) (d' := .one) (X := M) (Y := M.flat) h h' rfl
  have hl : (Sem.flat (d := .two) M).length = M.m * M.n := flat_length M
  rw [hl] at hA
  have hpos : 0 < M.m * M.n := by
    rw [← flat_length M]
    exact List.length_pos_iff.2 hY
  have hn : 0 < M.n := Nat.pos_of_mul_pos_left hpos
  have hm : 0 < M.m := Nat.pos_of_mul_pos_right hpos
  obtain ⟨e1, e2, e3, e4⟩ := h
  have un2 : ∀ k : Nat, k < M.m * M.n → a.un2 s ((k / M.n : Nat) : Int) ((k % M.n : Nat) : Int) = a'.un t k := by
    intro k hk
    have hi : k / M.n < M.m := Nat.div_lt_of_lt_mul (by rw [Nat.mul_comm]; exact hk)
    have hj : k % M.n < M.n := Nat.mod_lt _ hn
    have q := e4 _ _ hi hj
    rw [q.1, ← q.2, ← hA.un k hk]
    congr 2
    rw [Nat.mul_comm]; exact Nat.div_add_mod k M.n
  unfold Ops.extIndex2 Ops.extIndex1
  have hne : (((M.m * M.n : Nat) : Int) == 0) = false := beq_false_of_ne (by omega)
  simp only [Acc.empty, hA.left, hA.right, Res.ok_bind, Res.pure_eq, hne, Bool.false_eq_true, if_false, e1, e2,
    Int.toNat_natCast]
  have z : a.un2 s 0 0 = a'.un t 0 := by simpa using un2 0 hpos
  rw [z, bind_assoc]
  rcases hx : a'.un t 0 with v | k | _
  · simp only [Res.ok_bind]
    rw [foldN_nested]
    obtain ⟨N, hN⟩ := Nat.exists_eq_succ_of_ne_zero (Nat.pos_iff_ne_zero.1 hpos)
    rw [hN, Nat.succ_eq_add_one, foldN_front]
    have z' : a.un2 s ((0 / M.n : Nat) : Int) ((0 % M.n : Nat) : Int) = .ok v := by rw [un2 0 hpos]; exact hx
    simp only [z', Res.ok_bind, hirr, Bool.false_eq_true, if_false, Nat.add_sub_cancel]
    have p0 : ((0 : Int), (0 : Int), v) = place M.n (0, v) := by simp [place]
    rw [p0]
    refine foldN_image (place M.n) (0, v) N (fun k q hk => ?_)
    rw [un2 (k + 1) (by omega)]
    rcases a'.un t ((k + 1 : Nat) : Int) with w | k' | _
    · simp only [Res.ok_bind, place]
      by_cases hb : better w q.2 = true
      · simp [hb]
      · simp [hb]
    · rfl
    · rfl
  · rfl
  · rfl

end Agree

end Spp
