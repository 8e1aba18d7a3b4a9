import Verif.Model.Ops

/-
Error-free transformations and compensated operations: strictpp/StrictCommon/strict_val_ops.hpp:119-208
and strictpp/array_stable_ops.hpp:90-324.

Simplifications.  `volatile` in `two_sums` and `stable_sum` forces every intermediate result to be
rounded to the element type; the model rounds after every operation everywhere, so it also excludes
that the compiler contracts expressions such as `x * s + sp1` into one fused operation.  Overloads that
take `Size`, `Value`, ... only unwrap and are not repeated.  Scratch buffers are lists; an access outside
of them is undefined behaviour.
-/

namespace Spp

/-- Floating-point element types: `Scalar` and `std::fma` (`fmas`, strict_math.hpp:299-310). -/
structure FScalar (α : Type) extends Scalar α where
  fma : α → α → α → Res α

namespace FScalar

variable {α : Type}

/-- `two_sums(x, y)`, strict_val_ops.hpp:119-128. -/
def twoSums (fs : FScalar α) (x y : α) : Res (α × α) := do
  let r ← fs.add x y
  let z ← fs.sub r x
  let rz ← fs.sub r z
  let yz ← fs.sub y z
  let xrz ← fs.sub x rz
  let s ← fs.add xrz yz
  pure (r, s)

/-- `two_prods(x, y)`, strict_val_ops.hpp:131-136. -/
def twoProds (fs : FScalar α) (x y : α) : Res (α × α) := do
  let r ← fs.mul x y
  let m ← fs.neg r
  let s ← fs.fma x y m
  pure (r, s)

/-- The general case of `pow_prods` (`pw >= 6`), strict_val_ops.hpp:173-205.  The buffer has
`2 * sz` elements; `rtemp` is its first half and `stemp[i]` is element `sz + i`.  `Strict<T>` is
zero-initialised by `make_unique`. -/
def powProdsGeneral (fs : FScalar α) (x : α) (pw : Int) : Res (α × α) := do
  let rs ← fs.twoProds x x
  let r := rs.1
  let s := rs.2
  let n := pw / 2
  let sz := n - 1
  let buf := List.replicate (2 * sz).toNat fs.zero
  let buf ← wr buf 0 fs.one
  let buf ← wr buf 1 r
  let buf ← foldN (sz - 2).toNat (fun k buf => do
    let i : Int := (k : Int) + 2
    let prev ← rd buf (i - 1)
    let cur ← fs.twoProds prev r
    let buf ← wr buf i cur.1
    wr buf (sz + (i - 2)) cur.2) buf
  let lastr ← rd buf (sz - 1)
  let m1 ← fs.twoProds lastr r
  let buf ← wr buf (sz + (sz - 2)) m1.2
  let rn ← fs.twoProds m1.1 r
  let buf ← wr buf (sz + (sz - 1)) rn.2
  let sumLoc ← foldN sz.toNat (fun i acc => do
    let a ← rd buf i
    let e ← rd buf (sz + (sz - 1 - i))
    let t ← fs.mul a e
    fs.add acc t) fs.zero
  let cn ← fs.ofIndex n
  if pw % 2 = 0 then do
    let t ← fs.mul cn m1.1
    let t ← fs.mul t s
    let t ← fs.add t sumLoc
    pure (rn.1, t)
  else do
    let q ← fs.twoProds rn.1 x
    let t ← fs.mul cn x
    let t ← fs.mul t m1.1
    let t ← fs.mul t s
    let u ← fs.mul x sumLoc
    let t ← fs.add t u
    let t ← fs.add t q.2
    pure (q.1, t)

/-- `pow_prods(x, p)`, strict_val_ops.hpp:139-208.  A negative exponent that is not trapped falls
through to the general case, where `make_unique` gets the huge number `size_t(2 * sz)` and throws
`std::bad_array_new_length` (or `bad_alloc`); `two_prods(x, x)` before it has no effect. -/
def powProds (b : Build) (fs : FScalar α) (x : α) (p : Int) : Res (α × α) := do
  assertDebug b (decide (p > -1))
  if p < 0 then .trap .exception
  else if p = 0 then do
    let o ← fs.ofIndex 1
    let z ← fs.ofIndex 0
    pure (o, z)
  else if p = 1 then do
    let z ← fs.ofIndex 0
    pure (x, z)
  else if p = 2 then fs.twoProds x x
  else if p = 3 then do
    let rs ← fs.twoProds x x
    let q ← fs.twoProds rs.1 x
    let t ← fs.mul x rs.2
    let t ← fs.add t q.2
    pure (q.1, t)
  else if p = 4 then do
    let rs ← fs.twoProds x x
    let r2 ← fs.twoProds rs.1 rs.1
    let c ← fs.ofIndex 2
    let t ← fs.mul c rs.1
    let t ← fs.mul t rs.2
    let t ← fs.add t r2.2
    pure (r2.1, t)
  else if p = 5 then do
    let rs ← fs.twoProds x x
    let r2 ← fs.twoProds rs.1 rs.1
    let q ← fs.twoProds r2.1 x
    let c ← fs.ofIndex 2
    let t ← fs.mul c x
    let t ← fs.mul t rs.1
    let t ← fs.mul t rs.2
    let u ← fs.mul x r2.2
    let t ← fs.add t u
    let t ← fs.add t q.2
    pure (q.1, t)
  else fs.powProdsGeneral x p

end FScalar

namespace Stable

variable {σ α τ : Type}

/-- One pass of the loop of `stable_sum`, array_stable_ops.hpp:100-111, on `(s, c)`. -/
def sumStep (fs : FScalar α) (x : α) (sc : α × α) : Res (α × α) := do
  let t ← fs.add sc.1 x
  let as ← fs.abss sc.1
  let ax ← fs.abss x
  if fs.le ax as then do
    let z ← fs.sub sc.1 t
    let d ← fs.add z x
    let c ← fs.add sc.2 d
    pure (t, c)
  else do
    let z ← fs.sub x t
    let d ← fs.add z sc.1
    let c ← fs.add sc.2 d
    pure (t, c)

/-- The loop of `stable_sum`, array_stable_ops.hpp:97-113, on an object of `n` elements whose `un(i)`
may have side effects on a state `τ`. -/
def sumLoop (fs : FScalar α) (n : Nat) (next : Nat → τ → Res (α × τ)) (st : τ) : Res α := do
  let r ← foldN n (fun i (q : (α × α) × τ) => do
    let x ← next i q.2
    let sc ← sumStep fs x.1 q.1
    pure (sc, x.2)) ((fs.zero, fs.zero), st)
  fs.add r.1.1 r.1.2

/-- `stable_sum(A, empty_default)`, array_stable_ops.hpp:90-114. -/
def sum (fs : FScalar α) (a : Acc σ α) (s : σ) (dflt : α) : Res α := do
  let e ← a.empty s
  if e then .ok dflt
  else do
    let n ← a.size s
    sumLoop fs n.toNat (fun i (u : Unit) => do
      let x ← a.un s i
      pure (x, u)) ()

/-- `block_size`, array_stable_ops.hpp:123. -/
def blockSize : Int := 64

/-- `semi_stable_sum(A, empty_default)`, array_stable_ops.hpp:117-144.  `sb` is a zero-initialised
array (array_base1D.hpp); `sb[i]` is in range, so its check (derived1D.hpp:56-68) is `rd` and `wr`. -/
def semiSum (b : Build) (fs : FScalar α) (a : Acc σ α) (s : σ) (dflt : α) : Res α := do
  let e ← a.empty s
  if e then .ok dflt
  else do
    let n ← a.size s
    let nblocks ← idiv b n blockSize
    let rem ← irem b n blockSize
    let sb ← foldN nblocks.toNat (fun i sb => foldN blockSize.toNat (fun j sb => do
        let k ← imul i blockSize
        let k ← iadd k j
        let x ← a.un s k
        let old ← rd sb i
        let new ← fs.add old x
        wr sb i new) sb) (List.replicate nblocks.toNat fs.zero)
    let r ← foldN rem.toNat (fun i r => do
        let k ← isub n 1
        let k ← isub k i
        let x ← a.un s k
        fs.add r x) fs.zero
    if nblocks = 0 then pure r
    else do
      let t ← sumLoop fs sb.length (fun i (u : Unit) => do
        let x ← rd sb i
        pure (x, u)) ()
      fs.add t r

/-- `stable_prod(A, empty_default)`, array_stable_ops.hpp:147-169.  The closure behind `offset` is called
by `stable_sum` once per index, in order; its state is `prod_temp`.  `irange(n)` yields `i` itself
(Model/Expr.lean, `gen1`). -/
def prod (fs : FScalar α) (a : Acc σ α) (s : σ) (dflt : α) : Res α := do
  let e ← a.empty s
  if e then .ok dflt
  else do
    let n ← a.size s
    let m ← isub n 1
    let p0 ← a.un s 0
    let pr ← foldN m.toNat (fun k (q : α × List α) => do
      let i : Int := (k : Int) + 1
      let y ← a.un s i
      let e ← fs.twoProds q.1 y
      let res ← wr q.2 (i - 1) e.2
      let y ← a.un s i
      let p ← fs.mul q.1 y
      pure (p, res)) (p0, List.replicate m.toNat fs.zero)
    let t ← (if m = 0 then .ok fs.zero
      else sumLoop fs m.toNat (fun i (temp : α) => do
        let k ← isub m 1
        let k ← isub k i
        let y ← rd pr.2 k
        let t ← fs.mul temp y
        let k ← isub n 1
        let k ← isub k i
        let y ← a.un s k
        let temp ← fs.mul temp y
        pure (t, temp)) fs.one)
    fs.add pr.1 t

/-- `stable_mean(A, empty_default)`, array_stable_ops.hpp:172-178. -/
def mean (fs : FScalar α) (a : Acc σ α) (s : σ) (dflt : α) : Res α := do
  let e ← a.empty s
  if e then .ok dflt
  else do
    let t ← sum fs a s fs.zero
    let n ← a.size s
    let c ← fs.ofIndex n
    fs.div t c

/-- `stable_dot_prod(A1, A2, empty_default)`, array_stable_ops.hpp:181-199. -/
def dotProd (b : Build) (d : Dim) (fs : FScalar α) (a1 a2 : Acc σ α) (s : σ) (dflt : α) : Res α := do
  assertDebug b (Acc.sameSize d a1 a2 s)
  let e ← a1.empty s
  if e then .ok dflt
  else do
    let x ← a1.un s 0
    let y ← a2.un s 0
    let ps ← fs.twoProds x y
    let n ← a1.size s
    let ps ← foldN (n.toNat - 1) (fun k (ps : α × α) => do
      let x ← a1.un s ((k + 1 : Nat) : Int)
      let y ← a2.un s ((k + 1 : Nat) : Int)
      let hr ← fs.twoProds x y
      let pq ← fs.twoSums ps.1 hr.1
      let t ← fs.add pq.2 hr.2
      let t ← fs.add ps.2 t
      pure (pq.1, t)) ps
    fs.add ps.1 ps.2

/-- `semi_stable_dot_prod(A1, A2, empty_default)`, array_stable_ops.hpp:202-211. -/
def semiDotProd (b : Build) (d : Dim) (fs : FScalar α) (a1 a2 : Acc σ α) (s : σ) (dflt : α) :
    Res α := do
  assertDebug b (Acc.sameSize d a1 a2 s)
  let e ← a1.empty s
  if e then .ok dflt
  else do
    let p ← Tm.mkBinary b d fs.mul a1 a2 s
    semiSum b fs p s fs.zero

/-- `stable_norm1(A, empty_default)`, array_stable_ops.hpp:214-220. -/
def norm1 (fs : FScalar α) (a : Acc σ α) (s : σ) (dflt : α) : Res α := do
  let e ← a.empty s
  if e then .ok dflt else sum fs (a.unary fs.abss) s fs.zero

/-- `stable_norm1_scaled(A, empty_default)`, array_stable_ops.hpp:223-229. -/
def norm1Scaled (fs : FScalar α) (a : Acc σ α) (s : σ) (dflt : α) : Res α := do
  let e ← a.empty s
  if e then .ok dflt
  else do
    let t ← norm1 fs a s fs.zero
    let n ← a.size s
    let c ← fs.ofIndex n
    fs.div t c

/-- `stable_norm2(A, empty_default)`, array_stable_ops.hpp:232-238. -/
def norm2 (b : Build) (d : Dim) (fs : FScalar α) (a : Acc σ α) (s : σ) (dflt : α) : Res α := do
  let e ← a.empty s
  if e then .ok dflt
  else do
    let t ← dotProd b d fs a a s fs.zero
    fs.sqrt t

/-- `stable_norm2_scaled(A, empty_default)`, array_stable_ops.hpp:241-247. -/
def norm2Scaled (b : Build) (d : Dim) (fs : FScalar α) (a : Acc σ α) (s : σ) (dflt : α) : Res α := do
  let e ← a.empty s
  if e then .ok dflt
  else do
    let t ← norm2 b d fs a s fs.zero
    let n ← a.size s
    let c ← fs.ofIndex n
    let q ← fs.sqrt c
    fs.div t q

/-- One component of `pow_prod(X, powers)`, binary.hpp:551-554 with functors.hpp:296-309: a
`BinaryExpr` (types.hpp:114-120, 134-139) on operands of different element types. -/
def powProd (b : Build) (fs : FScalar α) (pick : α × α → α) (X : Acc σ α) (powers : Acc σ Int)
    (s : σ) : Res (Acc σ α) := do
  assertDebug b (Acc.sameSize .one X powers s)
  pure (.oneD X.rows (fun s i => do
    let x ← X.un s i
    let p ← powers.un s i
    let q ← fs.powProds b x p
    pure (pick q)))

/-- `merge(A1, A2)`, special.hpp:297-303, on objects that are already built. -/
def merge (b : Build) (a1 a2 : Acc σ α) (s : σ) : Res (Acc σ α) := do
  let n ← iadd (a1.rows s) (a2.rows s)
  Tm.mkGen1 b n (Acc.mergeOp a1 a2)

/-- `stable_gpolynomial(coeffs, X, powers, empty_default)`, array_stable_ops.hpp:308-324. -/
def gpolynomial (b : Build) (fs : FScalar α) (coeffs X : Acc σ α) (powers : Acc σ Int) (s : σ)
    (dflt : α) : Res α := do
  assertDebug b (Acc.sameSize .one coeffs X s && Acc.sameSize .one X powers s)
  let e ← coeffs.empty s
  if e then .ok dflt
  else do
    assertDebugM b (Ops.nonNegPowers powers s)
    let R ← powProd b fs (·.1) X powers s
    let S ← powProd b fs (·.2) X powers s
    let cc ← merge b coeffs coeffs s
    let RS ← merge b R S s
    dotProd b .one fs cc RS s fs.zero

/-- The element type of `sequence(Size{n}, Start{0}, Incr{1})`: `int`; `strict_cast<int>` of an index
that does not fit wraps (strict_val.hpp:333-366). -/
def intSeq (b : Build) : Arith Int :=
  ⟨0, 1, SInt.add .int, SInt.sub .int, SInt.mul .int, SInt.div b .int,
   fun i => .ok (SInt.cast .int i)⟩

/-- `stable_polynomial(coeffs, x, empty_default)`, array_stable_ops.hpp:281-290. -/
def polynomial (b : Build) (fs : FScalar α) (coeffs : Acc σ α) (x : α) (s : σ) (dflt : α) :
    Res α := do
  let e ← coeffs.empty s
  if e then .ok dflt
  else do
    let X ← Tm.mkConst1D b (coeffs.rows s) x
    let powers ← Tm.mkSequence b (intSeq b) (coeffs.rows s) 0 1
    gpolynomial b fs coeffs X powers s fs.zero

/-- `stable_polynomial(coeffs, x, powers, empty_default)`, array_stable_ops.hpp:293-305. -/
def polynomialPowers (b : Build) (fs : FScalar α) (coeffs : Acc σ α) (x : α) (powers : Acc σ Int)
    (s : σ) (dflt : α) : Res α := do
  assertDebug b (Acc.sameSize .one coeffs powers s)
  let e ← coeffs.empty s
  if e then .ok dflt
  else do
    assertDebugM b (Ops.nonNegPowers powers s)
    let X ← Tm.mkConst1D b (coeffs.rows s) x
    gpolynomial b fs coeffs X powers s fs.zero

/-- `view1D()`: of a one-dimensional object the slice `place::all` (derived1D.hpp:195-197, 216-218), of
a two-dimensional one `View.mkView1D`. -/
def view1D (b : Build) (d : Dim) (a : Acc σ α) (s : σ) : Res (Acc σ α) :=
  match d with
  | .one => View.mkSlice1 b a s .all
  | .two => View.mkView1D b a s

/-- `stable_norm_lp(A, lp, empty_default)`, array_stable_ops.hpp:250-265. -/
def normLp (b : Build) (d : Dim) (fs : FScalar α) (a : Acc σ α) (s : σ) (lp : Int) (dflt : α) :
    Res α := do
  assertDebug b (decide (lp > 0))
  let e ← a.empty s
  if e then .ok dflt
  else do
    let sz ← a.size s
    let o ← fs.ofIndex 1
    let coeff ← Tm.mkConst1D b sz o
    let P ← Tm.mkConst1D b sz lp
    let v ← view1D b d a s
    let t ← gpolynomial b fs coeff (v.unary fs.abss) P s fs.zero
    let c ← fs.ofIndex lp
    let r ← fs.invs c
    fs.pow t r

/-- `stable_norm_lp_scaled(A, lp, empty_default)`, array_stable_ops.hpp:268-278. -/
def normLpScaled (b : Build) (d : Dim) (fs : FScalar α) (a : Acc σ α) (s : σ) (lp : Int) (dflt : α) :
    Res α := do
  assertDebug b (decide (lp > 0))
  let e ← a.empty s
  if e then .ok dflt
  else do
    let t ← normLp b d fs a s lp fs.zero
    let n ← a.size s
    let m ← fs.ofIndex n
    let c ← fs.ofIndex lp
    let r ← fs.invs c
    let q ← fs.pow m r
    fs.div t q

end Stable

end Spp
