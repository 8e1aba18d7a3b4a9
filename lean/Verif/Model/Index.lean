import Verif.Model.StrictInt

/-
Positions and element access.

Sources: strictpp/StrictCommon/auxiliary_types.hpp (Last), strictpp/ArrayCommon/index_helper.hpp,
strictpp/ArrayCommon/valid.hpp:24-46, strictpp/derived1D.hpp:56-100, strictpp/derived2D.hpp:62-125,
the `un` members of the storage classes.

`index_t` is `Strict<long int>` (strict_traits.hpp:69); its arithmetic is that of `IntTy.long`.
-/

namespace Spp

/-- `index_t` addition, subtraction, multiplication (strict_val.hpp:382-397 at `long int`). -/
def iadd (x y : Int) : Res Int := SInt.add IntTy.long x y
/-- see `iadd` `index_t` is `Strict<long int>`, strict_traits.hpp:69, strict_val.hpp:382-397. -/
def isub (x y : Int) : Res Int := SInt.sub IntTy.long x y
/-- see `iadd` `index_t` is `Strict<long int>`, strict_traits.hpp:69, strict_val.hpp:382-397. -/
def imul (x y : Int) : Res Int := SInt.mul IntTy.long x y
/-- `index_t` division (strict_val.hpp:400-406 at `long int`). -/
def idiv (b : Build) (x y : Int) : Res Int := SInt.div b IntTy.long x y
/-- `index_t` remainder (strict_val.hpp:409-413 at `long int`). -/
def irem (b : Build) (x y : Int) : Res Int := SInt.rem b IntTy.long x y

/-- A position argument: an integer or a `Last` object (auxiliary_types.hpp:183-194), which stores
the distance from the last position.  Integer arguments of type int are converted to long. -/
inductive Pos where
  | at (i : Int)
  | fromLast (k : Int)
  deriving DecidableEq, Repr

namespace Pos

/-- `place::last`, auxiliary_types.hpp:202. -/
def last : Pos := fromLast 0

/-- `lst + i` and `i + lst`, auxiliary_types.hpp:210-217; for integers 225-227. -/
def plus (p : Pos) (i : Int) : Res Pos :=
  match p with
  | fromLast k => do let r ← isub k i; pure (fromLast r)
  | .at j => do let r ← iadd j i; pure (.at r)

/-- `lst - i`, auxiliary_types.hpp:220-222; for integers 230-232. -/
def minus (p : Pos) (i : Int) : Res Pos :=
  match p with
  | fromLast k => do let r ← iadd k i; pure (fromLast r)
  | .at j => do let r ← isub j i; pure (.at r)

/-- `IndexWrapper::get`, `get_row`, `get_col`, index_helper.hpp:32-73, for an extent `n`. -/
def resolve (n : Int) (p : Pos) : Res Int :=
  match p with
  | .at i => .ok i
  | fromLast k => do let r ← isub n k; isub r 1

end Pos

/-- `valid_index` / `valid_row` / `valid_col`, valid.hpp:24-36, for an extent `n`. -/
def validIndex (n i : Int) : Bool := decide (i > -1) && decide (i < n)

/-- `semi_valid_row_col_sizes`, valid.hpp:44-46. -/
def semiValid (m n : Int) : Bool := !(xor (m == 0) (n == 0))

/-- Reading `data_[i]` of a buffer; outside the buffer it is undefined behaviour.
array_base1D.hpp:471-479, fixed_array_base1D.hpp:188-196, attach1D.hpp `un`. -/
def rd (l : List α) (i : Int) : Res α :=
  if 0 ≤ i then (match l[i.toNat]? with | some a => .ok a | none => .ub) else .ub

/-- Writing `data_[i] = x`. `index_t` is `Strict<long int>`, strict_traits.hpp:69, strict_val.hpp:382-397. -/
def wr (l : List α) (i : Int) (x : α) : Res (List α) :=
  if 0 ≤ i ∧ i.toNat < l.length then .ok (l.set i.toNat x) else .ub

/-- The size of a buffer as an `index_t`.
`index_t` is `Strict<long int>`, strict_traits.hpp:69, strict_val.hpp:382-397. -/
def len (l : List α) : Int := l.length

namespace Elem1

/-- `operator[]`, derived1D.hpp:56-68 (ASSERT_STRICT_RANGE_DEBUG, then `Base::un`). -/
def sub (b : Build) (l : List α) (p : Pos) : Res α := do
  assertDebugM b (do let i ← p.resolve (len l); pure (validIndex (len l) i))
  let i ← p.resolve (len l)
  rd l i

/-- `un`, derived1D.hpp:70-78. -/
def un (l : List α) (p : Pos) : Res α := do
  let i ← p.resolve (len l)
  rd l i

/-- `at`, derived1D.hpp:80-92 (ASSERT_STRICT_RANGE_ALWAYS, whose condition is evaluated in every build).
`resolve` is evaluated again for the access, with the same outcome. -/
def at_ (b : Build) (l : List α) (p : Pos) : Res α := do
  let i ← p.resolve (len l)
  assertAlways b (validIndex (len l) i)
  rd l i

/-- `A[p] = x` through the reference returned by `operator[]`.
`index_t` is `Strict<long int>`, strict_traits.hpp:69, strict_val.hpp:382-397. -/
def subSet (b : Build) (p : Pos) (x : α) : Op (List α) Unit := do
  let l ← Op.get
  Op.lift (assertDebugM b (do let i ← p.resolve (len l); pure (validIndex (len l) i)))
  let i ← Op.lift (p.resolve (len l))
  let l' ← Op.lift (wr l i x)
  Op.set l'

/-- `A.at(p) = x`. `index_t` is `Strict<long int>`, strict_traits.hpp:69, strict_val.hpp:382-397. -/
def atSet (b : Build) (p : Pos) (x : α) : Op (List α) Unit := do
  let l ← Op.get
  let i ← Op.lift (p.resolve (len l))
  Op.lift (assertAlways b (validIndex (len l) i))
  let l' ← Op.lift (wr l i x)
  Op.set l'

end Elem1

namespace Elem2

/-- Offset of element (i, j) in row-major storage: array_base2D.hpp:682-692,
fixed_array_base2D.hpp:175-187, attach2D.hpp `un(i, j)`: `data_[i * cols + j]`. -/
def off (cols i j : Int) : Res Int := do
  let r ← imul i cols
  iadd r j

/-- `operator()(i, j)`, derived2D.hpp:62-75, on row-major storage with the given dimensions. -/
def sub (b : Build) (rows cols : Int) (l : List α) (p q : Pos) : Res α := do
  let i ← p.resolve rows
  let j ← q.resolve cols
  assertDebug b (validIndex rows i && validIndex cols j)
  let o ← off cols i j
  rd l o

/-- `at(i, j)`, derived2D.hpp:98-111. -/
def at_ (b : Build) (rows cols : Int) (l : List α) (p q : Pos) : Res α := do
  let i ← p.resolve rows
  let j ← q.resolve cols
  assertAlways b (validIndex rows i && validIndex cols j)
  let o ← off cols i j
  rd l o

/-- `un(i, j)`, derived2D.hpp:85-95. -/
def un (rows cols : Int) (l : List α) (p q : Pos) : Res α := do
  let i ← p.resolve rows
  let j ← q.resolve cols
  let o ← off cols i j
  rd l o

/-- `A(p, q) = x` through the reference returned by `operator()`.
`index_t` is `Strict<long int>`, strict_traits.hpp:69, strict_val.hpp:382-397. -/
def subSet (b : Build) (rows cols : Int) (p q : Pos) (x : α) : Op (List α) Unit := do
  let l ← Op.get
  let i ← Op.lift (p.resolve rows)
  let j ← Op.lift (q.resolve cols)
  Op.lift (assertDebug b (validIndex rows i && validIndex cols j))
  let o ← Op.lift (off cols i j)
  let l' ← Op.lift (wr l o x)
  Op.set l'

/-- `index_map_one_to_two_dim`, index_helper.hpp:97-102. -/
def unflatten (b : Build) (cols i : Int) : Res (Int × Int) := do
  let r ← idiv b i cols
  let c ← irem b i cols
  pure (r, c)

end Elem2

end Spp
