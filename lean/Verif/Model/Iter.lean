import Verif.Model.Ops

/-
Iterators: strictpp/iterator.hpp, the `begin`/`end` members of strictpp/derived1D.hpp:103-157 and
strictpp/derived2D.hpp:142-196, and `std::reverse_iterator` as the C++20 standard describes it
([reverse.iterators]).

`Iterator` and `ConstIterator` are the same code (iterator.hpp:165-407 and 411-652) and are modelled once:
an iterator that gives access to elements for writing iterates over locations (`Acc (Store α) Loc`), one
that only reads iterates over values.  `begin() &` and `begin() const&` choose between the two.
`crbegin()` wraps an iterator that is a `std::reverse_iterator` already in braces without template
arguments, which copies it ([over.match.class.deduct]); it is `rbegin()`.
-/

namespace Spp

/-- What an iterator applies to a position: `IndexFlag`, `RowFlag`, `ColFlag` and their constant versions,
iterator.hpp:22-139. -/
structure Flag (σ ρ : Type) where
  size : σ → Res Int
  get : σ → Int → Res ρ

namespace Flag

variable {σ β : Type}

/-- `IndexFlag`, `ConstIndexFlag`, iterator.hpp:22-42, 82-101. -/
def index (a : Acc σ β) : Flag σ β := ⟨a.size, a.un⟩
/-- `RowFlag`, `ConstRowFlag`, iterator.hpp:45-61, 104-120. -/
def row (b : Build) (a : Acc σ β) : Flag σ (Acc σ β) :=
  ⟨fun s => .ok (a.rows s), fun s i => View.mkRow b a s (.at i)⟩
/-- `ColFlag`, `ConstColFlag`, iterator.hpp:64-80, 123-139. -/
def col (b : Build) (a : Acc σ β) : Flag σ (Acc σ β) :=
  ⟨fun s => .ok (a.cols s), fun s i => View.mkCol b a s (.at i)⟩

end Flag

/-- `Iterator`, `ConstIterator`: the object it points to (`A_ptr_`; `f_` holds the same pointer) and
`pos_`, iterator.hpp:222-225, 461-464. -/
structure It where
  ptr : Option Nat
  pos : Int
  deriving DecidableEq, Repr

namespace It

variable {σ ρ : Type}

/-- The default constructor, iterator.hpp:238-243, 478-483. -/
def default : It := ⟨none, -1⟩
/-- The constructor with an object and a position, iterator.hpp:246-251, 486-491. -/
def mk' (obj : Nat) (pos : Int) : It := ⟨some obj, pos⟩

/-- `points_somewhere`, iterator.hpp:404-407, 649-652. -/
def points (it : It) : Bool := it.ptr.isSome

/-- `operator++()`, iterator.hpp:254-259, 494-499. -/
def inc (b : Build) (it : It) : Res It := do
  assertDebug b it.points
  let p ← iadd it.pos 1
  pure { it with pos := p }
/-- `operator--()`, iterator.hpp:262-267, 502-507. -/
def dec (b : Build) (it : It) : Res It := do
  assertDebug b it.points
  let p ← isub it.pos 1
  pure { it with pos := p }
/-- `operator++(int)`: the value returned and the iterator afterwards, iterator.hpp:270-276, 510-516. -/
def postInc (b : Build) (it : It) : Res (It × It) := do
  assertDebug b it.points
  let n ← it.inc b
  pure (it, n)
/-- `operator--(int)`, iterator.hpp:279-285, 519-525. -/
def postDec (b : Build) (it : It) : Res (It × It) := do
  assertDebug b it.points
  let n ← it.dec b
  pure (it, n)

/-- `operator+=`, iterator.hpp:288-293, 528-533. -/
def addAssign (b : Build) (it : It) (n : Int) : Res It := do
  assertDebug b it.points
  let p ← iadd it.pos n
  pure { it with pos := p }
/-- `operator-=`, iterator.hpp:296-301, 536-541. -/
def subAssign (b : Build) (it : It) (n : Int) : Res It := do
  assertDebug b it.points
  let p ← isub it.pos n
  pure { it with pos := p }
/-- `it + n`, iterator.hpp:304-311, 544-551. -/
def plus (b : Build) (it : It) (n : Int) : Res It := do
  assertDebug b it.points
  it.addAssign b n
/-- `n + it`, iterator.hpp:230-234, 469-474. -/
def plusLeft (b : Build) (n : Int) (it : It) : Res It := do
  assertDebug b it.points
  it.plus b n
/-- `it - n`, iterator.hpp:314-321, 554-561. -/
def minus (b : Build) (it : It) (n : Int) : Res It := do
  assertDebug b it.points
  it.subAssign b n
/-- `it1 - it2`, iterator.hpp:324-330, 564-570. -/
def diff (b : Build) (x y : It) : Res Int := do
  assertDebug b x.points
  assertDebug b (x.ptr == y.ptr)
  isub x.pos y.pos

/-- `f_(i)`: a null pointer must not be dereferenced.
iterator.hpp:22-80 (the function objects), 332-345 (the calls). -/
def apply (mem : Nat → Flag σ ρ) (it : It) (s : σ) (i : Int) : Res ρ :=
  match it.ptr with
  | none => .ub
  | some a => (mem a).get s i

/-- The condition `i > -1 && i < f_.size()`, where `i` is an expression that is evaluated each time,
iterator.hpp:335, 343, 351, 575, 583, 591.  The `&&` of strict booleans (strict_val.hpp:461-464) evaluates both
operands. -/
def inRange (mem : Nat → Flag σ ρ) (it : It) (s : σ) (i : Res Int) : Res Bool := do
  let p ← i
  let q ← i
  let n ← (match it.ptr with
    | none => .ub
    | some a => (mem a).size s)
  pure (decide (p > -1) && decide (q < n))

/-- `it[n]`, iterator.hpp:333-338, 573-579. -/
def at' (b : Build) (mem : Nat → Flag σ ρ) (it : It) (n : Int) (s : σ) : Res ρ := do
  assertDebug b it.points
  assertDebugM b (it.inRange mem s (iadd it.pos n))
  let p ← iadd it.pos n
  it.apply mem s p
/-- `*it` (and `*` of the pointer returned by `operator->`), iterator.hpp:341-354, 582-601. -/
def deref (b : Build) (mem : Nat → Flag σ ρ) (it : It) (s : σ) : Res ρ := do
  assertDebug b it.points
  assertDebugM b (it.inRange mem s (.ok it.pos))
  it.apply mem s it.pos

/-- The comparisons, iterator.hpp:357-401, 604-646. -/
def compare (b : Build) (r : Int → Int → Bool) (x y : It) : Res Bool := do
  assertDebug b x.points
  assertDebug b (x.ptr == y.ptr)
  pure (r x.pos y.pos)
/-- see `compare` iterator.hpp:356-361, 597-602. -/
def eq (b : Build) (x y : It) : Res Bool := compare b (fun p q => decide (p = q)) x y
/-- see `compare` iterator.hpp:364-369. -/
def ne (b : Build) (x y : It) : Res Bool := compare b (fun p q => decide (p ≠ q)) x y
/-- see `compare` iterator.hpp:372-377. -/
def lt (b : Build) (x y : It) : Res Bool := compare b (fun p q => decide (p < q)) x y
/-- see `compare` iterator.hpp:380-385. -/
def le (b : Build) (x y : It) : Res Bool := compare b (fun p q => decide (p ≤ q)) x y
/-- see `compare` iterator.hpp:388-393. -/
def gt (b : Build) (x y : It) : Res Bool := compare b (fun p q => decide (p > q)) x y
/-- see `compare` iterator.hpp:396-401. -/
def ge (b : Build) (x y : It) : Res Bool := compare b (fun p q => decide (p ≥ q)) x y

/-- `begin()` of the object at address `a`: derived1D.hpp:103-113, derived2D.hpp:142-152, iterator.hpp:752-767,
845-858. -/
def begin (a : Nat) : It := mk' a 0
/-- `end()`: derived1D.hpp:115-125, derived2D.hpp:154-164, iterator.hpp:769-781, 860-872. -/
def «end» (mem : Nat → Flag σ ρ) (a : Nat) (s : σ) : Res It := do
  let n ← (mem a).size s
  pure (mk' a n)

end It

/-- `std::reverse_iterator`, [reverse.iterators]: it holds the iterator one past its element.
Made in derived1D.hpp:134-157, derived2D.hpp:173-196 and
iterator.hpp:789-812, 880-903. -/
structure RIt where
  cur : It
  deriving DecidableEq, Repr

namespace RIt

variable {σ ρ : Type}

/-- `operator++`: `--current`. The C++ library, [reverse.iterators], over iterator.hpp:236-407. -/
def inc (b : Build) (r : RIt) : Res RIt := do
  let c ← r.cur.dec b
  pure ⟨c⟩
/-- `operator--`: `++current`. The C++ library, [reverse.iterators], over iterator.hpp:236-407. -/
def dec (b : Build) (r : RIt) : Res RIt := do
  let c ← r.cur.inc b
  pure ⟨c⟩
/-- `r + n`: `reverse_iterator(current - n)`. The C++ library, [reverse.iterators], over iterator.hpp:236-407. -/
def plus (b : Build) (r : RIt) (n : Int) : Res RIt := do
  let c ← r.cur.minus b n
  pure ⟨c⟩
/-- `r - n`: `reverse_iterator(current + n)`. The C++ library, [reverse.iterators], over iterator.hpp:236-407. -/
def minus (b : Build) (r : RIt) (n : Int) : Res RIt := do
  let c ← r.cur.plus b n
  pure ⟨c⟩
/-- `x - y`: `y.base() - x.base()`. The C++ library, [reverse.iterators], over iterator.hpp:236-407. -/
def diff (b : Build) (x y : RIt) : Res Int := It.diff b y.cur x.cur
/-- `operator*`: `auto tmp = current; return *--tmp;`.
The C++ library, [reverse.iterators], over iterator.hpp:236-407. -/
def deref (b : Build) (mem : Nat → Flag σ ρ) (r : RIt) (s : σ) : Res ρ := do
  let t ← r.cur.dec b
  t.deref b mem s
/-- `r[n]`: `*(r + n)`. The C++ library, [reverse.iterators], over iterator.hpp:236-407. -/
def at' (b : Build) (mem : Nat → Flag σ ρ) (r : RIt) (n : Int) (s : σ) : Res ρ := do
  let q ← r.plus b n
  q.deref b mem s
/-- `x != y`: `x.base() != y.base()`. The C++ library, [reverse.iterators], over iterator.hpp:236-407. -/
def ne (b : Build) (x y : RIt) : Res Bool := It.ne b x.cur y.cur
/-- `x < y`: `x.base() > y.base()`. The C++ library, [reverse.iterators], over iterator.hpp:236-407. -/
def lt (b : Build) (x y : RIt) : Res Bool := It.gt b x.cur y.cur

/-- `rbegin()`, `crbegin()`: derived1D.hpp:135-141, 151-153, derived2D.hpp:174-180, 190-192,
iterator.hpp:791-797, 807-809, 882-888, 898-900. -/
def rbegin (mem : Nat → Flag σ ρ) (a : Nat) (s : σ) : Res RIt := do
  let e ← It.end mem a s
  pure ⟨e⟩
/-- `rend()`, `crend()`: derived1D.hpp:143-149, 155-157, derived2D.hpp:182-188, 194-196,
iterator.hpp:799-805, 811-813, 890-896, 902-904. -/
def rend (a : Nat) : RIt := ⟨It.begin a⟩

end RIt

/-- `for(auto&& x : range) body(x)`: `for(; it != e; ++it) { auto&& x = *it; body(x); }`, followed for at
most `fuel` steps.  `none`: the loop has not ended by then.
`begin()` and `end()` are derived1D.hpp:103-133,
derived2D.hpp:142-172. -/
def rangeFor {ι σ ρ : Type} (ne : ι → ι → Res Bool) (inc : ι → Res ι) (deref : ι → σ → Res ρ)
    (body : ρ → Op σ Unit) : Nat → ι → ι → Op σ (Option Unit)
  | 0, _, _ => pure none
  | fuel + 1, it, e => do
      let c ← Op.lift (ne it e)
      if c then do
        let s : σ ← Op.get
        let x ← Op.lift (deref it s)
        body x
        let it ← Op.lift (inc it)
        rangeFor ne inc deref body fuel it e
      else pure (some ())

namespace It

variable {σ ρ : Type}

/-- `for(auto&& x : A) body(x)` for the object at address `a`; likewise for `RowIt(A)` and `ColIt(A)`.
derived1D.hpp:103-133, iterator.hpp:737-820. -/
def each (b : Build) (mem : Nat → Flag σ ρ) (a : Nat) (body : ρ → Op σ Unit) (fuel : Nat) :
    Op σ (Option Unit) := do
  let s : σ ← Op.get
  let e ← Op.lift (It.end mem a s)
  rangeFor (ne b) (inc b) (deref b mem) body fuel (begin a) e

end It

namespace RIt

variable {σ ρ : Type}

/-- `for(auto it = A.rbegin(); it != A.rend(); ++it) body(*it)`. derived1D.hpp:134-157. -/
def each (b : Build) (mem : Nat → Flag σ ρ) (a : Nat) (body : ρ → Op σ Unit) (fuel : Nat) :
    Op σ (Option Unit) := do
  let s : σ ← Op.get
  let r ← Op.lift (rbegin mem a s)
  rangeFor (ne b) (inc b) (deref b mem) body fuel r (rend a)

end RIt

/-- `PlaneIterator`, iterator.hpp:655-726. -/
structure PlaneIt where
  i : Int
  j : Int
  rows : Int
  cols : Int
  deriving DecidableEq, Repr

namespace PlaneIt

/-- The constructor, iterator.hpp:660-670. -/
def mk' (b : Build) (i j rows cols : Int) : Res PlaneIt := do
  assertDebug b (decide (i ≥ 0))
  assertDebug b (decide (j ≥ 0))
  assertDebug b (decide (rows ≥ i))
  assertDebug b (decide (cols ≥ j))
  pure ⟨i, j, rows, cols⟩

/-- `operator=`, iterator.hpp:672-678. -/
def assign (b : Build) (x y : PlaneIt) : Res PlaneIt := do
  assertDebug b (decide (x.rows = y.rows))
  assertDebug b (decide (x.cols = y.cols))
  pure { x with i := y.i, j := y.j }

/-- `operator++()`, iterator.hpp:680-697. -/
def inc (b : Build) (x : PlaneIt) : Res PlaneIt := do
  assertDebug b (decide (x.i < x.rows))
  assertDebug b (decide (x.j < x.cols))
  let r1 ← isub x.rows 1
  let c1 ← isub x.cols 1
  if x.i = r1 ∧ x.j = c1 then do
    let i ← iadd x.i 1
    let j ← iadd x.j 1
    pure { x with i := i, j := j }
  else do
    let j1 ← iadd x.j 1
    let i ← iadd x.i (if j1 = x.cols then 1 else 0)
    let j1 ← iadd x.j 1
    let j ← irem b j1 x.cols
    pure { x with i := i, j := j }

/-- `operator++(int)`, iterator.hpp:699-703. -/
def postInc (b : Build) (x : PlaneIt) : Res (PlaneIt × PlaneIt) := do
  let n ← x.inc b
  pure (x, n)

/-- `operator==`, iterator.hpp:705-709. -/
def eq (b : Build) (x y : PlaneIt) : Res Bool := do
  assertDebug b (decide (x.rows = y.rows))
  assertDebug b (decide (x.cols = y.cols))
  pure (decide (x.i = y.i) && decide (x.j = y.j))

/-- `operator!=`, iterator.hpp:711-715. -/
def ne (b : Build) (x y : PlaneIt) : Res Bool := do
  assertDebug b (decide (x.rows = y.rows))
  assertDebug b (decide (x.cols = y.cols))
  let e ← eq b x y
  pure (!e)

/-- `operator*`, iterator.hpp:717-721. -/
def deref (b : Build) (x : PlaneIt) : Res (Int × Int) := do
  assertDebug b (decide (x.i < x.rows))
  assertDebug b (decide (x.j < x.cols))
  pure (x.i, x.j)

end PlaneIt

/-- `IndexRange2D`, iterator.hpp:914-943. -/
structure IndexRange2D where
  rows : Int
  cols : Int
  deriving DecidableEq, Repr

namespace IndexRange2D

/-- The default constructor, iterator.hpp:916. -/
def default : IndexRange2D := ⟨0, 0⟩

/-- The constructor with two extents, iterator.hpp:919-925. -/
def mk' (b : Build) (rows cols : Int) : Res IndexRange2D := do
  assertDebug b (decide (rows > -1))
  assertDebug b (decide (cols > -1))
  assertDebug b (semiValid rows cols)
  pure ⟨rows, cols⟩

/-- The constructor with an array, iterator.hpp:927-929. -/
def ofArray {σ β : Type} (b : Build) (a : Acc σ β) (s : σ) : Res IndexRange2D :=
  mk' b (a.rows s) (a.cols s)

/-- `begin()`, iterator.hpp:933-935. -/
def begin (b : Build) (r : IndexRange2D) : Res PlaneIt := PlaneIt.mk' b 0 0 r.rows r.cols
/-- `end()`, iterator.hpp:937-939. -/
def «end» (b : Build) (r : IndexRange2D) : Res PlaneIt := PlaneIt.mk' b r.rows r.cols r.rows r.cols

/-- `for(auto [i, j] : IndexRange2D{m, n}) body(i, j)`. iterator.hpp:914-942. -/
def each {σ : Type} (b : Build) (m n : Int) (body : Int × Int → Op σ Unit) (fuel : Nat) :
    Op σ (Option Unit) := do
  let r ← Op.lift (mk' b m n)
  let x ← Op.lift (r.begin b)
  let e ← Op.lift (r.end b)
  rangeFor (PlaneIt.ne b) (PlaneIt.inc b) (fun x _ => PlaneIt.deref b x) body fuel x e

end IndexRange2D

end Spp
