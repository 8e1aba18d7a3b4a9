import Verif.Model.Iter
import Verif.Model.StrictMath
import Verif.Model.Array1D

/-
Construction of one-dimensional arrays from two iterators, `Array1D A(b, e)` and `FixedArray1D<T, N> A(b, e)`:
strictpp/array_base1D.hpp:185-192, strictpp/fixed_array_base1D.hpp:104-110 and the loop of
strictpp/ArrayCommon/algorithm.hpp:34-39.  The constructors accept the iterators over indexes and their reverse
iterators (`LinearIteratorType`, iterator.hpp:145-147).  The new array is not the object iterated over, so the state
`s` of that object stays as it is.
-/

namespace Spp

/-- `x >= y` for reverse iterators: `x.base() <= y.base()`, [reverse.iter.cmp].
The operators are iterator.hpp:323-401; they are used in array_base1D.hpp:185-192. -/
def RIt.ge (b : Build) (x y : RIt) : Res Bool := It.le b x.cur y.cur

namespace RangeCtor

/-- The operators of an iterator that the constructors use.
The operators are iterator.hpp:323-401; they are used in array_base1D.hpp:185-192. -/
structure Ops (ι α : Type) where
  diff : ι → ι → Res Int
  ge : ι → ι → Res Bool
  ne : ι → ι → Res Bool
  inc : ι → Res ι
  deref : ι → Res α

/-- Those of iterators, iterator.hpp:254-401, 494-646. -/
def fwd {σ α : Type} (b : Build) (mem : Nat → Flag σ α) (s : σ) : Ops It α :=
  ⟨It.diff b, It.ge b, It.ne b, It.inc b, fun it => It.deref b mem it s⟩

/-- Those of reverse iterators.
The operators are iterator.hpp:323-401; they are used in array_base1D.hpp:185-192. -/
def rev {σ α : Type} (b : Build) (mem : Nat → Flag σ α) (s : σ) : Ops RIt α :=
  ⟨RIt.diff b, RIt.ge b, RIt.ne b, RIt.inc b, fun it => RIt.deref b mem it s⟩

variable {ι α : Type}

/-- `for(index_t count = 0; b != e; ++b) A.un(count++) = *b`, algorithm.hpp:34-39, followed for at most `fuel` steps.
`none`: the loop has not ended by then. -/
def copyRange (o : Ops ι α) (e : ι) : Nat → ι → Int → List α → Res (Option (List α))
  | 0, _, _, _ => .ok none
  | fuel + 1, it, count, l => do
    let d ← o.ne it e
    if d then do
      let x ← o.deref it
      let count' ← iadd count 1
      let l ← wr l count x
      let it ← o.inc it
      copyRange o e fuel it count' l
    else .ok (some l)

variable [Inhabited α]

/-- `ArrayBase1D(b, e)`, array_base1D.hpp:185-192. -/
def make (b : Build) (o : Ops ι α) (x e : ι) (fuel : Nat) : Res (Option (List α)) := do
  let d ← o.diff e x
  let n ← abss .long d
  let l ← Arr1.make b n
  assertDebugM b (o.ge e x)
  copyRange o e fuel x 0 l

/-- `FixedArrayBase1D(b, e)`, fixed_array_base1D.hpp:104-110; the `N` elements are zero before. -/
def makeFixed (b : Build) (N : Nat) (o : Ops ι α) (x e : ι) (fuel : Nat) : Res (Option (List α)) := do
  assertDebugM b (do
    let d ← o.diff e x
    pure (d == (N : Int)))
  assertDebugM b (o.ge e x)
  copyRange o e fuel x 0 (List.replicate N default)

end RangeCtor

end Spp
