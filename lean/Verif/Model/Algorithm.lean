import Verif.Model.Iter

/-
Algorithms that work through random-access iterators, such as those of `<algorithm>` and `<numeric>`, on the iterators of
strictpp/iterator.hpp; and `shuffle`, strictpp/array_ops.hpp:859-864.

An algorithm that gets the iterators `first` and `last` of an object can only use the operations of iterators: it moves
them, takes distances, compares them, and reads and assigns elements.  What it does next may depend on all results.  So
an algorithm is a tree of such operations.  All iterators it has are of the form `first + p`, and the tree names
them by `p`.
-/

namespace Spp

/-- The comparisons of iterators.
The C++ library, [algorithms]; the operations it uses are iterator.hpp:236-407 and 480-652. -/
inductive ItCmp where
  | eq | ne | lt | le | gt | ge
  deriving DecidableEq, Repr

namespace ItCmp

/-- What they mean for positions.
The C++ library, [algorithms]; the operations it uses are iterator.hpp:236-407 and 480-652. -/
def holds : ItCmp → Int → Int → Bool
  | eq, p, q => decide (p = q)
  | ne, p, q => decide (p ≠ q)
  | lt, p, q => decide (p < q)
  | le, p, q => decide (p ≤ q)
  | gt, p, q => decide (p > q)
  | ge, p, q => decide (p ≥ q)

/-- The operators of `Iterator` and `ConstIterator`, iterator.hpp:357-401, 604-646. -/
def forward (b : Build) : ItCmp → It → It → Res Bool
  | eq => It.eq b
  | ne => It.ne b
  | lt => It.lt b
  | le => It.le b
  | gt => It.gt b
  | ge => It.ge b

/-- The operators of `std::reverse_iterator`, [reverse.iter.cmp].
The C++ library, [algorithms]; the operations it uses are iterator.hpp:236-407 and 480-652. -/
def backward (b : Build) : ItCmp → RIt → RIt → Res Bool
  | eq, x, y => It.eq b x.cur y.cur
  | ne, x, y => It.ne b x.cur y.cur
  | lt, x, y => It.gt b x.cur y.cur
  | le, x, y => It.ge b x.cur y.cur
  | gt, x, y => It.lt b x.cur y.cur
  | ge, x, y => It.le b x.cur y.cur

end ItCmp

/-- The operations of random-access iterators of an object, for iterators named by their distance from the first.
The C++ library, [algorithms]; the operations it uses are iterator.hpp:236-407 and 480-652. -/
structure Walk (σ ρ : Type) where
  inc : Int → Res Int
  dec : Int → Res Int
  plus : Int → Int → Res Int
  minus : Int → Int → Res Int
  diff : Int → Int → Res Int
  cmp : ItCmp → Int → Int → Res Bool
  deref : Int → σ → Res ρ
  get : Int → Int → σ → Res ρ

namespace Walk

variable {σ ρ : Type}

/-- The iterators from `A.begin()` to `A.end()` of the object at address `a`, iterator.hpp:254-401 and 494-646. -/
def forward (b : Build) (mem : Nat → Flag σ ρ) (a : Nat) : Walk σ ρ where
  inc p := do let i ← (It.mk' a p).inc b; pure i.pos
  dec p := do let i ← (It.mk' a p).dec b; pure i.pos
  plus p n := do let i ← (It.mk' a p).plus b n; pure i.pos
  minus p n := do let i ← (It.mk' a p).minus b n; pure i.pos
  diff p q := (It.mk' a p).diff b (It.mk' a q)
  cmp c p q := c.forward b (It.mk' a p) (It.mk' a q)
  deref p s := (It.mk' a p).deref b mem s
  get p n s := (It.mk' a p).at' b mem n s

/-- The iterators from `A.rbegin()` to `A.rend()` of an object with `n` elements: the one with distance `p` from the
first holds the iterator at `n - p`.
The C++ library, [algorithms]; the operations it uses are iterator.hpp:236-407 and 480-652. -/
def backward (b : Build) (mem : Nat → Flag σ ρ) (a : Nat) (n : Int) : Walk σ ρ where
  inc p := do let i ← (RIt.mk (It.mk' a (n - p))).inc b; pure (n - i.cur.pos)
  dec p := do let i ← (RIt.mk (It.mk' a (n - p))).dec b; pure (n - i.cur.pos)
  plus p k := do let i ← (RIt.mk (It.mk' a (n - p))).plus b k; pure (n - i.cur.pos)
  minus p k := do let i ← (RIt.mk (It.mk' a (n - p))).minus b k; pure (n - i.cur.pos)
  diff p q := (RIt.mk (It.mk' a (n - p))).diff b (RIt.mk (It.mk' a (n - q)))
  cmp c p q := c.backward b (RIt.mk (It.mk' a (n - p))) (RIt.mk (It.mk' a (n - q)))
  deref p s := (RIt.mk (It.mk' a (n - p))).deref b mem s
  get p k s := (RIt.mk (It.mk' a (n - p))).at' b mem k s

end Walk

/-- An algorithm on elements of type `α` with a result of type `β`.
The C++ library, [algorithms]; the operations it uses are iterator.hpp:236-407 and 480-652. -/
inductive Alg (α β : Type) where
  /-- `return x` -/
  | ret (x : β)
  /-- `++p` -/
  | inc (p : Int) (k : Int → Alg α β)
  /-- `--p` -/
  | dec (p : Int) (k : Int → Alg α β)
  /-- `p + n`, `p += n` -/
  | plus (p n : Int) (k : Int → Alg α β)
  /-- `p - n`, `p -= n` -/
  | minus (p n : Int) (k : Int → Alg α β)
  /-- `p - q` -/
  | diff (p q : Int) (k : Int → Alg α β)
  /-- `p == q`, `p < q`, ... -/
  | cmp (c : ItCmp) (p q : Int) (k : Bool → Alg α β)
  /-- `x = *p` -/
  | read (p : Int) (k : α → Alg α β)
  /-- `x = p[n]` -/
  | readAt (p n : Int) (k : α → Alg α β)
  /-- `*p = x` -/
  | write (p : Int) (x : α) (k : Alg α β)
  /-- `p[n] = x` -/
  | writeAt (p n : Int) (x : α) (k : Alg α β)

namespace Alg

variable {σ α β : Type}

/-- Running an algorithm on iterators that give access to places (`Iterator`).
The C++ library, [algorithms]; the operations it uses are iterator.hpp:236-407 and 480-652. -/
def run (w : Walk (Store α) Loc) : Alg α β → Op (Store α) β
  | ret x => pure x
  | inc p k => do let q ← Op.lift (w.inc p); (k q).run w
  | dec p k => do let q ← Op.lift (w.dec p); (k q).run w
  | plus p n k => do let q ← Op.lift (w.plus p n); (k q).run w
  | minus p n k => do let q ← Op.lift (w.minus p n); (k q).run w
  | diff p q k => do let n ← Op.lift (w.diff p q); (k n).run w
  | cmp c p q k => do let x ← Op.lift (w.cmp c p q); (k x).run w
  | read p k => do
      let s : Store α ← Op.get
      let c ← Op.lift (w.deref p s)
      let x ← Op.lift (s.read c)
      (k x).run w
  | readAt p n k => do
      let s : Store α ← Op.get
      let c ← Op.lift (w.get p n s)
      let x ← Op.lift (s.read c)
      (k x).run w
  | write p x k => do
      let s : Store α ← Op.get
      let c ← Op.lift (w.deref p s)
      put c x
      k.run w
  | writeAt p n x k => do
      let s : Store α ← Op.get
      let c ← Op.lift (w.get p n s)
      put c x
      k.run w

/-- Running an algorithm on iterators that only read (`ConstIterator`); assigning through one does not compile, and the
last two cases do not occur.
The C++ library, [algorithms]; the operations it uses are iterator.hpp:236-407 and 480-652. -/
def look (w : Walk σ α) : Alg α β → σ → Res β
  | ret x, _ => .ok x
  | inc p k, s => do let q ← w.inc p; (k q).look w s
  | dec p k, s => do let q ← w.dec p; (k q).look w s
  | plus p n k, s => do let q ← w.plus p n; (k q).look w s
  | minus p n k, s => do let q ← w.minus p n; (k q).look w s
  | diff p q k, s => do let n ← w.diff p q; (k n).look w s
  | cmp c p q k, s => do let x ← w.cmp c p q; (k x).look w s
  | read p k, s => do let x ← w.deref p s; (k x).look w s
  | readAt p n k, s => do let x ← w.get p n s; (k x).look w s
  | write _ _ _, _ => .ub
  | writeAt _ _ _ _, _ => .ub

/-- `std::iter_swap(p, q)`.
The C++ library, [algorithms]; the operations it uses are iterator.hpp:236-407 and 480-652. -/
def iterSwap (p q : Int) (k : Alg α β) : Alg α β :=
  read p fun x => read q fun y => write p y (write q x k)

/-- The loop of `std::shuffle`: `for(; i != last; ++i) iter_swap(i, first + draw)`, where `draw j` is the random number
between 0 and `j` for the position `j = i - first`.  The number of iterations left bounds the recursion.
The C++ library, [algorithms]; the operations it uses are iterator.hpp:236-407 and 480-652. -/
def shuffleLoop (draw : Nat → Nat) (first last : Int) : Nat → Int → Alg α Unit
  | 0, _ => ret ()
  | m + 1, i => cmp .ne i last fun go =>
      if go then
        diff i first fun j => plus first (draw j.toNat) fun q =>
          iterSwap i q (inc i fun i => shuffleLoop draw first last m i)
      else ret ()

/-- `std::shuffle(first, last, g)` as in libstdc++ (stl_algo.h): it draws the numbers one by one or in pairs, which makes
no difference here. The C++ library, [algorithms]; the operations it uses are iterator.hpp:236-407 and 480-652. -/
def shuffle (draw : Nat → Nat) (first last : Int) : Alg α Unit :=
  cmp .eq first last fun e =>
    if e then ret ()
    else diff last first fun n => plus first 1 fun i => shuffleLoop draw first last n.toNat i

/-- `std::accumulate(first, last, x, f)` and other loops `for(; first != last; ++first) x = f(x, *first)`.
The C++ library, [algorithms]; the operations it uses are iterator.hpp:236-407 and 480-652. -/
def foldLoop (f : β → α → β) (last : Int) : Nat → Int → β → Alg α β
  | 0, _, x => ret x
  | m + 1, p, x => cmp .ne p last fun go =>
      if go then read p fun y => inc p fun p => foldLoop f last m p (f x y) else ret x

/-- see `foldLoop`; the distance only bounds the recursion.
The C++ library, [algorithms]; the operations it uses are iterator.hpp:236-407 and 480-652. -/
def accumulate (f : β → α → β) (x : β) (first last : Int) : Alg α β :=
  diff last first fun n => foldLoop f last (n.toNat + 1) first x

/-- `std::reverse(first, last)`: `while(first < last) iter_swap(first++, --last)` as in libstdc++, which starts with
`--last`. The C++ library, [algorithms]; the operations it uses are iterator.hpp:236-407 and 480-652. -/
def reverseLoop : Nat → Int → Int → Alg α Unit
  | 0, _, _ => ret ()
  | m + 1, p, q => cmp .lt p q fun go =>
      if go then iterSwap p q (inc p fun p => dec q fun q => reverseLoop m p q) else ret ()

/-- see `reverseLoop` The C++ library, [algorithms]; the operations it uses are iterator.hpp:236-407 and 480-652. -/
def reverse (first last : Int) : Alg α Unit :=
  cmp .eq first last fun e =>
    if e then ret () else diff last first fun n => dec last fun q => reverseLoop n.toNat first q

end Alg

namespace Ops

variable {α : Type}

/-- `shuffle(A)`, array_ops.hpp:859-864; the numbers drawn from the generator are given. -/
def shuffle (b : Build) (draw : Nat → Nat) (a : Acc (Store α) Loc) : Op (Store α) Unit := do
  let s : Store α ← Op.get
  let n ← Op.lift (a.size s)
  (Alg.shuffle draw 0 n).run (Walk.forward b (fun _ => Flag.index a) 0)

end Ops

end Spp
