import Verif.Model.StdRandom
import Verif.Model.Array2D

/-
Random expressions: `RandUnaryExpr` (strictpp/Expr/types.hpp:397-427), made by `generate_random`
(strictpp/Expr/unary.hpp:201-212) from a constant expression and a function object that holds a generator.  The
generator is the only state of the expression; it changes with every access.  The expressions cannot be copied
(types.hpp:41-43), so there is one generator for each expression.
-/

namespace Spp.RandExpr

/-- Go on with the result of a computation that may not return (`none`).
Loops over the objects of Expr/types.hpp:397-427. -/
def next {β γ : Type} (r : Res (Option β)) (f : β → Res (Option γ)) : Res (Option γ) := do
  match ← r with
  | none => .ok none
  | some x => f x

/-- `for(index_t i = 0; i < n; ++i)`. Loops over the objects of Expr/types.hpp:397-427. -/
def loop {β : Type} : Nat → (Nat → β → Res (Option β)) → β → Res (Option β)
  | 0, _, x => .ok (some x)
  | n + 1, f, x => next (loop n f x) (f n)

variable {α G : Type}

/-- `A2.un(o + i) = A1.un(i)` for `i < k`, where `A1` is a random expression: every access draws a number, whatever
the index (types.hpp:47-49, 81-83; semi_random.hpp:218, 228, 274-280, 292-298; random.hpp:237, 246, 290-296, 307-313). -/
def copyFrom (access : G → Res (Option (α × G))) (o k : Nat) (x : List α × G) : Res (Option (List α × G)) :=
  loop k (fun i x => next (access x.2) fun r => do
    let t ← wr x.1 (o + i : Nat) r.1
    pure (some (t, r.2))) x

/-- `Array1D A = e`, array_base1D.hpp:209-213 with `copy`, algorithm.hpp:61-66. -/
def construct1 [Inhabited α] (b : Build) (access : G → Res (Option (α × G))) (n : Int) (g : G) : Res (Option (List α × G)) := do
  let l ← Arr1.make b n
  copyFrom access 0 n.toNat (l, g)

/-- `A = e`, array_base1D.hpp:252-257. -/
def assign1 (b : Build) (access : G → Res (Option (α × G))) (n : Int) (l : List α) (g : G) : Res (Option (List α × G)) := do
  assertDebug b (len l == n)
  copyFrom access 0 n.toNat (l, g)

/-- The loop over rows and columns, algorithm.hpp:77-84, on the elements of an array with `c` columns. -/
def copyRows (access : G → Res (Option (α × G))) (m c : Nat) (x : List α × G) : Res (Option (List α × G)) :=
  loop m (fun i x => copyFrom access (i * c) c x) x

/-- `Array2D A = e`, array_base2D.hpp:191-195. -/
def construct2 [Inhabited α] (b : Build) (access : G → Res (Option (α × G))) (m n : Int) (g : G) : Res (Option (Arr2 α × G)) := do
  let a ← Arr2.make b m n
  next (copyRows access m.toNat n.toNat (a.data, g)) fun x => .ok (some (⟨m, n, x.1⟩, x.2))

/-- `A = e` for two-dimensional arrays, array_base2D.hpp:230-234. -/
def assign2 (b : Build) (access : G → Res (Option (α × G))) (m n : Int) (a : Arr2 α) (g : G) : Res (Option (Arr2 α × G)) := do
  assertDebug b (a.rows == m && a.cols == n)
  next (copyRows access m.toNat n.toNat (a.data, g)) fun x => .ok (some (⟨a.rows, a.cols, x.1⟩, x.2))

/-- `e[i]`, derived1D.hpp:63-68. -/
def elem (b : Build) (access : G → Res (Option (α × G))) (n i : Int) (g : G) : Res (Option (α × G)) := do
  assertDebug b (validIndex n i)
  access g

/-- `e(i, j)`, derived2D.hpp:69-75. -/
def elem2 (b : Build) (access : G → Res (Option (α × G))) (m n i j : Int) (g : G) : Res (Option (α × G)) := do
  assertDebug b (validIndex m i && validIndex n j)
  access g

/-- Access to an expression whose numbers may be zero: `g.random()`, semi_random.hpp:218, 228, random.hpp:237, 246. -/
def plain (draw : G → Res (α × G)) (g : G) : Res (Option (α × G)) := do
  let r ← draw g
  pure (some r)

/-- `semi_random<T>(n, low, high, seed)` for integers: the checks, and the state of the generator,
semi_random.hpp:213-220. -/
def semi1 (b : Build) (clock low high n seed : Int) : Res Int := do
  let p ← Semi.exprState b clock low high n seed
  let _ ← Tm.mkConst1D (σ := Unit) b n (0 : Int)
  pure p

/-- `semi_random<T>(m, n, low, high, seed)` for integers, semi_random.hpp:223-230: the seed depends on `n` only. -/
def semi2 (b : Build) (clock low high m n seed : Int) : Res Int := do
  let p ← Semi.exprState b clock low high n seed
  let _ ← Tm.mkConst2D (σ := Unit) b m n (0 : Int)
  pure p

/-- The checks of `semi_random_not0<T>(...)` and its generator, semi_random.hpp:267-273, 285-291. -/
def not0State (b : Build) (clock low high n seed : Int) : Res Int := do
  assertDebug b (decide (low ≤ high))
  assertDebug b (!(decide (low = 0) && decide (high = 0)))
  let sd ← SInt.add .uint seed (SInt.cast .uint n)
  Semi.seeded clock sd

/-- `semi_random_not0<T>(n, low, high, seed)` for integers, semi_random.hpp:267-282. -/
def semiNot01 (b : Build) (clock low high n seed : Int) : Res Int := do
  let p ← not0State b clock low high n seed
  let _ ← Tm.mkConst1D (σ := Unit) b n (0 : Int)
  pure p

/-- `semi_random_not0<T>(m, n, low, high, seed)` for integers, semi_random.hpp:285-300. -/
def semiNot02 (b : Build) (clock low high m n seed : Int) : Res Int := do
  let p ← not0State b clock low high n seed
  let _ ← Tm.mkConst2D (σ := Unit) b m n (0 : Int)
  pure p

variable [LinearOrder α]

/-- `random<T>(n, low, high)`, random.hpp:233-239. -/
def std1 (b : Build) (gen : StdRandom.Gen α G) (low high : α) (n : Int) : Res Unit := do
  StdRandom.randomExpr b gen low high
  let _ ← Tm.mkConst1D (σ := Unit) b n (0 : Int)
  pure ()

/-- `random<T>(m, n, low, high)`, random.hpp:242-248. -/
def std2 (b : Build) (gen : StdRandom.Gen α G) (low high : α) (m n : Int) : Res Unit := do
  StdRandom.randomExpr b gen low high
  let _ ← Tm.mkConst2D (σ := Unit) b m n (0 : Int)
  pure ()

/-- The checks of `random_not0<T>(...)` and its generator, random.hpp:284-289, 301-306. -/
def stdNot0 (b : Build) (zero : α) (gen : StdRandom.Gen α G) (low high : α) : Res Unit := do
  assertDebug b (decide (low ≤ high))
  assertDebug b (!(decide (low = zero) && decide (high = zero)))
  gen.make low high

/-- `random_not0<T>(n, low, high)`, random.hpp:284-298. -/
def stdNot01 (b : Build) (zero : α) (gen : StdRandom.Gen α G) (low high : α) (n : Int) : Res Unit := do
  stdNot0 b zero gen low high
  let _ ← Tm.mkConst1D (σ := Unit) b n (0 : Int)
  pure ()

/-- `random_not0<T>(m, n, low, high)`, random.hpp:301-315. -/
def stdNot02 (b : Build) (zero : α) (gen : StdRandom.Gen α G) (low high : α) (m n : Int) : Res Unit := do
  stdNot0 b zero gen low high
  let _ ← Tm.mkConst2D (σ := Unit) b m n (0 : Int)
  pure ()

end Spp.RandExpr
