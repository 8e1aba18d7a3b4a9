import Verif.Model.Assign

/-
Operations on whole arrays, slices and expressions: strictpp/array_ops.hpp:313-864 and
strictpp/ArrayCommon/array_auxiliary.hpp:65-91.

An operation gets the object it is called with (`Acc`) and the state in which it is called.  `size()`
in loop conditions is evaluated once: these operations do not change any array.  The overloads that
take `Value<>`, `Low<>`, `High<>` only unwrap their arguments and are not repeated.  `shuffle` is in
Model/Algorithm.lean.
-/

namespace Spp

/-- Element types with an order and the floating-point functions the operations call
(strict_val.hpp:128-132, 382-513; strict_math.hpp).  Comparisons are separate functions because with
NaN none of them determines the others. -/
structure Scalar (α : Type) extends Arith α where
  neg : α → Res α
  lt : α → α → Bool
  le : α → α → Bool
  eq : α → α → Bool
  pow : α → α → Res α
  sqrt : α → Res α

namespace Scalar

variable {α : Type}

/-- `mins`, strict_math.hpp:35-38. -/
def mins (sc : Scalar α) (x y : α) : α := if sc.lt x y then x else y

/-- `maxs`, strict_math.hpp:41-44: `x > y ? x : y`. -/
def maxs (sc : Scalar α) (x y : α) : α := if sc.lt y x then x else y

/-- `abss`, strict_math.hpp:25-32 for types with a sign: `x > 0 ? x : -x`. -/
def abss (sc : Scalar α) (x : α) : Res α := if sc.lt sc.zero x then .ok x else sc.neg x

/-- `invs`, strict_math.hpp:48-51. -/
def invs (sc : Scalar α) (x : α) : Res α := sc.div sc.one x

end Scalar

namespace Ops

variable {σ α : Type}

/-! ### Loops with an early return -/

/-- `for(i...) if(p(i)) return true; return false;` for the `n` values `i`, `i + 1`, ....
The loops of array_ops.hpp:686-761. -/
def anyLoop (p : Nat → Res Bool) : Nat → Nat → Res Bool
  | 0, _ => .ok false
  | n + 1, i => do
      let c ← p i
      if c then .ok true else anyLoop p n (i + 1)

/-- `for(i...) if(!p(i)) return false; return true;`. The loops of array_ops.hpp:686-761. -/
def allLoop (p : Nat → Res Bool) : Nat → Nat → Res Bool
  | 0, _ => .ok true
  | n + 1, i => do
      let c ← p i
      if !c then .ok false else allLoop p n (i + 1)

/-! ### Equality, array_auxiliary.hpp:65-91 -/

/-- `A1 == A2`, array_auxiliary.hpp:65-77; `ne` is `!=` of the element type. -/
def equal (d : Dim) (ne : α → α → Bool) (a1 a2 : Acc σ α) (s : σ) : Res Bool :=
  if !Acc.sameSize d a1 a2 s then .ok false
  else do
    let n ← a1.size s
    allLoop (fun i => do
      let x ← a1.un s i
      let y ← a2.un s i
      pure (!ne x y)) n.toNat 0

/-- `A1 != A2`, array_auxiliary.hpp:80-84. -/
def notEqual (d : Dim) (ne : α → α → Bool) (a1 a2 : Acc σ α) (s : σ) : Res Bool := do
  let r ← equal d ne a1 a2 s
  pure (!r)

/-! ### Sums, products, extrema, array_ops.hpp:314-438 -/

/-- `s = A.un(0); for(i = 1; i < A.size(); ++i) s = f(s, A.un(i))`, the common shape of
array_ops.hpp:318-322, 331-335, 353-357, 366-370. -/
def foldElems (f : α → α → Res α) (a : Acc σ α) (s : σ) (dflt : α) : Res α := do
  let e ← a.empty s
  if e then .ok dflt
  else do
    let x ← a.un s 0
    let n ← a.size s
    foldN (n.toNat - 1) (fun k acc => do
      let y ← a.un s ((k + 1 : Nat) : Int)
      f acc y) x

/-- `sum(A, empty_default)`, array_ops.hpp:314-323. -/
def sum (ar : Arith α) (a : Acc σ α) (s : σ) (dflt : α) : Res α :=
  foldElems (fun acc y => ar.add acc y) a s dflt

/-- `prod(A, empty_default)`, array_ops.hpp:327-336. -/
def prod (ar : Arith α) (a : Acc σ α) (s : σ) (dflt : α) : Res α :=
  foldElems (fun acc y => ar.mul acc y) a s dflt

/-- `mean(A, empty_default)`, array_ops.hpp:340-345. -/
def mean (ar : Arith α) (a : Acc σ α) (s : σ) (dflt : α) : Res α := do
  let e ← a.empty s
  if e then .ok dflt
  else do
    let t ← sum ar a s ar.zero
    let n ← a.size s
    let c ← ar.ofIndex n
    ar.div t c

/-- `min(A, empty_default)`, array_ops.hpp:349-358. -/
def min (sc : Scalar α) (a : Acc σ α) (s : σ) (dflt : α) : Res α :=
  foldElems (fun acc y => .ok (sc.mins y acc)) a s dflt

/-- `max(A, empty_default)`, array_ops.hpp:362-371. -/
def max (sc : Scalar α) (a : Acc σ α) (s : σ) (dflt : α) : Res α :=
  foldElems (fun acc y => .ok (sc.maxs y acc)) a s dflt

/-- `min_index` and `max_index` of a one-dimensional object, array_ops.hpp:376-388, 410-422;
`better x y` is `x < y` respectively `x > y`. -/
def extIndex1 (better : α → α → Bool) (a : Acc σ α) (s : σ) (dflt : Int × α) : Res (Int × α) := do
  let e ← a.empty s
  if e then .ok dflt
  else do
    let x ← a.un s 0
    let n ← a.size s
    foldN (n.toNat - 1) (fun k (best : Int × α) => do
      let y ← a.un s ((k + 1 : Nat) : Int)
      pure (if better y best.2 then (((k + 1 : Nat) : Int), y) else best)) (0, x)

/-- `min_index` and `max_index` of a two-dimensional object, array_ops.hpp:392-406, 426-440. -/
def extIndex2 (better : α → α → Bool) (a : Acc σ α) (s : σ) (dflt : Int × Int × α) :
    Res (Int × Int × α) := do
  let e ← a.empty s
  if e then .ok dflt
  else do
    let x ← a.un2 s 0 0
    foldN (a.rows s).toNat (fun i best => foldN (a.cols s).toNat (fun j (best : Int × Int × α) => do
      let y ← a.un2 s i j
      pure (if better y best.2.2 then ((i : Int), (j : Int), y) else best)) best) (0, 0, x)

/-- `min_index(A)`, one-dimensional. array_ops.hpp:375-388. -/
def minIndex1 (sc : Scalar α) (a : Acc σ α) (s : σ) (dflt : Int × α) : Res (Int × α) :=
  extIndex1 (fun x y => sc.lt x y) a s dflt
/-- `max_index(A)`, one-dimensional. array_ops.hpp:409-422. -/
def maxIndex1 (sc : Scalar α) (a : Acc σ α) (s : σ) (dflt : Int × α) : Res (Int × α) :=
  extIndex1 (fun x y => sc.lt y x) a s dflt
/-- `min_index(A)`, two-dimensional. array_ops.hpp:391-406. -/
def minIndex2 (sc : Scalar α) (a : Acc σ α) (s : σ) (dflt : Int × Int × α) : Res (Int × Int × α) :=
  extIndex2 (fun x y => sc.lt x y) a s dflt
/-- `max_index(A)`, two-dimensional. array_ops.hpp:425-438. -/
def maxIndex2 (sc : Scalar α) (a : Acc σ α) (s : σ) (dflt : Int × Int × α) : Res (Int × Int × α) :=
  extIndex2 (fun x y => sc.lt y x) a s dflt

/-! ### Quantifiers, array_ops.hpp:443-466, 598-761 -/

/-- `any_of(A, f, empty_default)`, array_ops.hpp:688-699. -/
def anyOf (f : α → Res Bool) (a : Acc σ α) (s : σ) (dflt : Bool) : Res Bool := do
  let e ← a.empty s
  if e then .ok dflt
  else do
    let n ← a.size s
    anyLoop (fun i => do let x ← a.un s i; f x) n.toNat 0

/-- `all_of(A, f, empty_default)`, array_ops.hpp:733-744. -/
def allOf (f : α → Res Bool) (a : Acc σ α) (s : σ) (dflt : Bool) : Res Bool := do
  let e ← a.empty s
  if e then .ok dflt
  else do
    let n ← a.size s
    allLoop (fun i => do let x ← a.un s i; f x) n.toNat 0

/-- `none_of(A, f, empty_default)`, array_ops.hpp:653-660. -/
def noneOf (f : α → Res Bool) (a : Acc σ α) (s : σ) (dflt : Bool) : Res Bool := do
  let e ← a.empty s
  if e then .ok dflt
  else do
    let r ← anyOf f a s false
    pure (!r)

/-- `any_of(A1, A2, f, empty_default)`, array_ops.hpp:702-716. -/
def anyOf2 (b : Build) (d : Dim) (f : α → α → Res Bool) (a1 a2 : Acc σ α) (s : σ) (dflt : Bool) :
    Res Bool := do
  assertDebug b (Acc.sameSize d a1 a2 s)
  let e ← a1.empty s
  if e then .ok dflt
  else do
    let n ← a1.size s
    anyLoop (fun i => do let x ← a1.un s i; let y ← a2.un s i; f x y) n.toNat 0

/-- `all_of(A1, A2, f, empty_default)`, array_ops.hpp:747-761. -/
def allOf2 (b : Build) (d : Dim) (f : α → α → Res Bool) (a1 a2 : Acc σ α) (s : σ) (dflt : Bool) :
    Res Bool := do
  assertDebug b (Acc.sameSize d a1 a2 s)
  let e ← a1.empty s
  if e then .ok dflt
  else do
    let n ← a1.size s
    allLoop (fun i => do let x ← a1.un s i; let y ← a2.un s i; f x y) n.toNat 0

/-- `none_of(A1, A2, f, empty_default)`, array_ops.hpp:663-672. -/
def noneOf2 (b : Build) (d : Dim) (f : α → α → Res Bool) (a1 a2 : Acc σ α) (s : σ) (dflt : Bool) :
    Res Bool := do
  assertDebug b (Acc.sameSize d a1 a2 s)
  let e ← a1.empty s
  if e then .ok dflt
  else do
    let r ← anyOf2 b d f a1 a2 s false
    pure (!r)

/-- The overloads that compare with a value: `f = [x](auto y) { return y == x; }`,
array_ops.hpp:640-642, 675-677, 720-722. -/
def isValue (sc : Scalar α) (x : α) : α → Res Bool := fun y => .ok (sc.eq y x)

/-- `has_zero(A, empty_default)`, array_ops.hpp:598-602. -/
def hasZero (sc : Scalar α) (a : Acc σ α) (s : σ) (dflt : Bool) : Res Bool :=
  anyOf (fun x => .ok (sc.eq x sc.zero)) a s dflt
/-- `all_zeros(A, empty_default)`, array_ops.hpp:605-609. -/
def allZeros (sc : Scalar α) (a : Acc σ α) (s : σ) (dflt : Bool) : Res Bool :=
  allOf (fun x => .ok (sc.eq x sc.zero)) a s dflt
/-- `all_pos(A, empty_default)`, array_ops.hpp:612-616: `x > 0`. -/
def allPos (sc : Scalar α) (a : Acc σ α) (s : σ) (dflt : Bool) : Res Bool :=
  allOf (fun x => .ok (sc.lt sc.zero x)) a s dflt
/-- `all_neg(A, empty_default)`, array_ops.hpp:619-623. -/
def allNeg (sc : Scalar α) (a : Acc σ α) (s : σ) (dflt : Bool) : Res Bool :=
  allOf (fun x => .ok (sc.lt x sc.zero)) a s dflt
/-- `all_non_pos(A, empty_default)`, array_ops.hpp:626-630. -/
def allNonPos (sc : Scalar α) (a : Acc σ α) (s : σ) (dflt : Bool) : Res Bool :=
  allOf (fun x => .ok (sc.le x sc.zero)) a s dflt
/-- `all_non_neg(A, empty_default)`, array_ops.hpp:633-637: `x >= 0`. -/
def allNonNeg (sc : Scalar α) (a : Acc σ α) (s : σ) (dflt : Bool) : Res Bool :=
  allOf (fun x => .ok (sc.le sc.zero x)) a s dflt

/-- `all_finite(A, empty_default)`, array_ops.hpp:443-448; the argument stands for `isfinites`. -/
def allFinite (isfinite : α → Bool) (a : Acc σ α) (s : σ) (dflt : Bool) : Res Bool := do
  let e ← a.empty s
  if e then .ok dflt else allOf (fun x => .ok (isfinite x)) a s false
/-- `has_inf` and `has_nan`, array_ops.hpp:452-466; the argument stands for `isinfs`, `isnans`. -/
def hasSuch (is : α → Bool) (a : Acc σ α) (s : σ) (dflt : Bool) : Res Bool := do
  let e ← a.empty s
  if e then .ok dflt else anyOf (fun x => .ok (is x)) a s false

/-! ### Inner products and norms, array_ops.hpp:471-548 -/

/-- `dot_prod(A1, A2, empty_default)`, array_ops.hpp:471-479. -/
def dotProd (b : Build) (d : Dim) (ar : Arith α) (a1 a2 : Acc σ α) (s : σ) (dflt : α) : Res α := do
  assertDebug b (Acc.sameSize d a1 a2 s)
  let e ← a1.empty s
  if e then .ok dflt
  else do
    let p ← Tm.mkBinary b d ar.mul a1 a2 s
    sum ar p s ar.zero

/-- `norm_inf(A, empty_default)`, array_ops.hpp:482-488. -/
def normInf (sc : Scalar α) (a : Acc σ α) (s : σ) (dflt : α) : Res α := do
  let e ← a.empty s
  if e then .ok dflt else max sc (a.unary sc.abss) s sc.zero

/-- `norm1(A, empty_default)`, array_ops.hpp:491-497. -/
def norm1 (sc : Scalar α) (a : Acc σ α) (s : σ) (dflt : α) : Res α := do
  let e ← a.empty s
  if e then .ok dflt else sum sc.toArith (a.unary sc.abss) s sc.zero

/-- `norm1_scaled(A, empty_default)`, array_ops.hpp:500-506. -/
def norm1Scaled (sc : Scalar α) (a : Acc σ α) (s : σ) (dflt : α) : Res α := do
  let e ← a.empty s
  if e then .ok dflt else mean sc.toArith (a.unary sc.abss) s sc.zero

/-- `norm2(A, empty_default)`, array_ops.hpp:509-515. -/
def norm2 (b : Build) (d : Dim) (sc : Scalar α) (a : Acc σ α) (s : σ) (dflt : α) : Res α := do
  let e ← a.empty s
  if e then .ok dflt
  else do
    let t ← dotProd b d sc.toArith a a s sc.zero
    sc.sqrt t

/-- `norm2_scaled(A, empty_default)`, array_ops.hpp:518-525. -/
def norm2Scaled (b : Build) (d : Dim) (sc : Scalar α) (a : Acc σ α) (s : σ) (dflt : α) : Res α := do
  let e ← a.empty s
  if e then .ok dflt
  else do
    let t ← norm2 b d sc a s sc.zero
    let n ← a.size s
    let c ← sc.ofIndex n
    let q ← sc.sqrt c
    sc.div t q

/-- `norm_lp(A, lp, empty_default)`, array_ops.hpp:528-537; `pow_int` (unary.hpp:323-326) converts the
exponent and calls the floating-point `pows`. -/
def normLp (b : Build) (sc : Scalar α) (a : Acc σ α) (s : σ) (lp : Int) (dflt : α) : Res α := do
  assertDebug b (decide (lp > 0))
  let e ← a.empty s
  if e then .ok dflt
  else do
    let c ← sc.ofIndex lp
    let t ← sum sc.toArith ((a.unary (fun x => sc.pow x c)).unary sc.abss) s sc.zero
    let c ← sc.ofIndex lp
    let r ← sc.invs c
    sc.pow t r

/-- `norm_lp_scaled(A, lp, empty_default)`, array_ops.hpp:540-549. -/
def normLpScaled (b : Build) (sc : Scalar α) (a : Acc σ α) (s : σ) (lp : Int) (dflt : α) : Res α := do
  assertDebug b (decide (lp > 0))
  let e ← a.empty s
  if e then .ok dflt
  else do
    let t ← normLp b sc a s lp sc.zero
    let n ← a.size s
    let m ← sc.ofIndex n
    let c ← sc.ofIndex lp
    let r ← sc.invs c
    let q ← sc.pow m r
    sc.div t q

/-! ### Polynomials, array_ops.hpp:552-595 -/

/-- `polynomial(coeffs, x, empty_default)`, array_ops.hpp:552-562; `coeffs[last]` is derived1D.hpp:56-68
with `Last` (auxiliary_types.hpp:183-194). -/
def polynomial (b : Build) (ar : Arith α) (coeffs : Acc σ α) (x : α) (s : σ) (dflt : α) : Res α := do
  let e ← coeffs.empty s
  if e then .ok dflt
  else do
    let p ← Pos.resolve (coeffs.rows s) (.fromLast 0)
    let c ← coeffs.sub b s p
    let top ← isub (coeffs.rows s) 2
    foldN (top + 1).toNat (fun k acc => do
      let c ← coeffs.un s (top - k)
      let q ← ar.mul acc x
      ar.add c q) c

/-- The check `all_non_neg(powers)`, array_ops.hpp:574, 587, 633-637, on integers. -/
def nonNegPowers (powers : Acc σ Int) (s : σ) : Res Bool :=
  allOf (fun p => .ok (decide (p ≥ 0))) powers s false

/-- `gpolynomial(coeffs, X, powers, empty_default)`, array_ops.hpp:580-595.  `pow` is `pows` applied to
the power converted to the element type. -/
def gpolynomial (b : Build) (ar : Arith α) (pow : α → α → Res α) (coeffs X : Acc σ α)
    (powers : Acc σ Int) (s : σ) (dflt : α) : Res α := do
  assertDebug b (Acc.sameSize .one coeffs X s && Acc.sameSize .one X powers s)
  let e ← coeffs.empty s
  if e then .ok dflt
  else do
    assertDebugM b (nonNegPowers powers s)
    let n ← X.size s
    foldN n.toNat (fun i z => do
      let c ← coeffs.un s i
      let x ← X.un s i
      let p ← powers.un s i
      let p ← ar.ofIndex p
      let y ← pow x p
      let t ← ar.mul c y
      ar.add z t) ar.zero

/-- `polynomial(coeffs, x, powers, empty_default)`, array_ops.hpp:566-577. -/
def polynomialPowers (b : Build) (ar : Arith α) (pow : α → α → Res α) (coeffs : Acc σ α) (x : α)
    (powers : Acc σ Int) (s : σ) (dflt : α) : Res α := do
  assertDebug b (Acc.sameSize .one coeffs powers s)
  let e ← coeffs.empty s
  if e then .ok dflt
  else do
    assertDebugM b (nonNegPowers powers s)
    let X ← Tm.mkConst1D b (coeffs.rows s) x
    gpolynomial b ar pow coeffs X powers s ar.zero

/-! ### Copying out, selecting, traversing, sorting, array_ops.hpp:765-854 -/

/-- `blas_array(A)`, array_ops.hpp:765-778: `none` is the null pointer.  The new buffer is filled in
order. -/
def blasArray (a : Acc σ α) (s : σ) : Res (Option (List α)) := do
  let e ← a.empty s
  if e then .ok none
  else do
    let n ← a.size s
    let l ← foldN n.toNat (fun i l => do
      let x ← a.un s i
      pure (l ++ [x])) []
    pure (some l)

/-- `in_cond_range(A, f)`, array_ops.hpp:813-820: the indexes for which `f` holds, in increasing order,
then `A(indexes)`.  `place` is the object `A` itself and `value` the same object read through its
references; for expressions both coincide. -/
def inCondRange {β : Type} (b : Build) (f : α → Bool) (place : Acc σ β) (value : Acc σ α) (s : σ) :
    Res (Acc σ β) := do
  let idx ← foldN (place.rows s).toNat (fun i (idx : List Int) => do
    let x ← value.un s i
    pure (if f x then idx ++ [(i : Int)] else idx)) []
  View.mkSlice1 b place s (.vec idx)

/-- `in_open_range(A, low, high)`, array_ops.hpp:781-786. -/
def inOpenRange {β : Type} (b : Build) (sc : Scalar α) (low high : α) (place : Acc σ β)
    (value : Acc σ α) (s : σ) : Res (Acc σ β) := do
  assertDebug b (sc.le low high)
  inCondRange b (fun x => sc.lt low x && sc.lt x high) place value s

/-- `in_closed_range(A, low, high)`, array_ops.hpp:797-803. -/
def inClosedRange {β : Type} (b : Build) (sc : Scalar α) (low high : α) (place : Acc σ β)
    (value : Acc σ α) (s : σ) : Res (Acc σ β) := do
  assertDebug b (sc.le low high)
  inCondRange b (fun x => sc.le low x && sc.le x high) place value s

/-- `for_each(A, f)`, array_ops.hpp:826-832, where `f` changes the element it gets a reference to. -/
def forEach (f : α → Res α) (a : Acc (Store α) Loc) : Op (Store α) Unit :=
  updateAll a (fun _ _ x => f x)

/-- `for_each(A, f)` where `f` only looks at the element and changes something else (of type `τ`).
array_ops.hpp:825-832. -/
def forEachIn {τ : Type} (f : α → τ → Res τ) (a : Acc σ α) (s : σ) (t : τ) : Res τ := do
  let n ← a.size s
  foldN n.toNat (fun i t => do
    let x ← a.un s i
    f x t) t

/-- `sort(A, f)`, array_ops.hpp:835-840: `std::sort` on the iterators of `A`.  `srt` stands for
`std::sort` on a sequence of values: the elements are read in order, rearranged and stored back.
(How `std::sort` moves the elements in between is not modelled.) -/
def sort (srt : (α → α → Bool) → List α → List α) (f : α → α → Bool) (a : Acc (Store α) Loc) :
    Op (Store α) Unit := do
  let s : Store α ← Op.get
  let n ← Op.lift (a.size s)
  let l ← Op.lift (foldN n.toNat (fun i l => do
    let p ← a.un s i
    let x ← s.read p
    pure (l ++ [x])) [])
  copyList a (srt f l)

/-- `sort_increasing(A)`, array_ops.hpp:843-848. -/
def sortIncreasing (srt : (α → α → Bool) → List α → List α) (sc : Scalar α)
    (a : Acc (Store α) Loc) : Op (Store α) Unit :=
  sort srt (fun x y => sc.lt x y) a
/-- `sort_decreasing(A)`, array_ops.hpp:851-856. -/
def sortDecreasing (srt : (α → α → Bool) → List α → List α) (sc : Scalar α)
    (a : Acc (Store α) Loc) : Op (Store α) Unit :=
  sort srt (fun x y => sc.lt y x) a

end Ops

end Spp
