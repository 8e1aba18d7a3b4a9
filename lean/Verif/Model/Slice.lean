import Verif.Model.Index

/-
Slices: strictpp/slice.hpp, strictpp/ArrayCommon/valid.hpp:92-145,
strictpp/ArrayCommon/index_helper.hpp:111-127.

A slice request is what the user writes; resolving it against an extent `n` (the size of a 1D
object, or the number of rows or columns of a 2D object) gives a slice object.
The same code is used for sizes, rows and columns (slice.hpp `get`, `get_row`, `get_col` differ only
in which extent and which validity function they use), so it is modelled once.
-/

namespace Spp

/-- A resolved slice: `SliceArrayWrapper<seqN>` (slice.hpp:553-588) or
`SliceArrayWrapper<std::vector<ImplicitInt>>` (slice.hpp:592-630). -/
inductive Slice where
  | seqN (start size stride : Int)
  | vec (idx : List Int)
  deriving DecidableEq, Repr

/-- What can be passed to `A(...)`: slice.hpp:224-234. -/
inductive SliceReq where
  | seqN (start size stride : Int)
  | seq (first last stride : Int)
  | all
  | even
  | odd
  | reverse
  | skipN (stride : Int)
  | firstN (n : Int)
  | lastN (n : Int)
  | vec (idx : List Int)
  | complement (idx : List Int)
  deriving DecidableEq, Repr

/-- Constructor of `seqN`, slice.hpp:19-26. -/
def mkSeqN (b : Build) (start size stride : Int) : Res Slice := do
  assertDebug b (decide (start > -1))
  assertDebug b (decide (size > -1))
  pure (.seqN start size stride)

/-- `seqN::valid`, `valid_first`, `valid_second`, slice.hpp:45-70.  `&&` on `StrictBool` is an
overloaded operator (strict_val.hpp:455-459), so both operands are always evaluated. -/
def seqNValid (n start size stride : Int) : Res Bool :=
  if size ≠ 0 then do
    let s1 ← isub size 1
    let p ← imul stride s1
    let e ← iadd start p
    pure (validIndex n start && validIndex n e)
  else .ok true

/-- Checks performed when the request object is constructed by the user:
seqN slice.hpp:19-26, seq 82-92, skipN 147-150, firstN 166-168, lastN 184-186. -/
def SliceReq.construct (b : Build) : SliceReq → Res Unit
  | .seqN start size _ => do
      assertDebug b (decide (start > -1))
      assertDebug b (decide (size > -1))
  | .seq first last stride => do
      assertDebug b (decide (first > -1))
      assertDebug b (decide (last > -1))
      assertDebug b ((decide (stride > 0) && decide (first ≤ last))
        || (decide (stride < 0) && decide (first ≥ last))
        || (stride == 0 && first == last))
  | .skipN stride => assertDebug b (decide (stride > 0))
  | .firstN k => assertDebug b (decide (k > -1))
  | .lastN k => assertDebug b (decide (k > -1))
  | _ => .ok ()

/-- `seq::to_slice`, slice.hpp:98-105. -/
def seqToSlice (b : Build) (first last stride : Int) : Res Slice :=
  if stride ≠ 0 then do
    let d ← isub last first
    let q ← idiv b d stride
    let m ← iadd q 1
    mkSeqN b first m stride
  else mkSeqN b first 1 0

/-- `std::ranges::is_sorted` with the comparison `x <= y`, valid.hpp:121-124: no element is `<=`
its predecessor. -/
def increasing : List Int → Bool
  | [] => true
  | [_] => true
  | x :: y :: l => !decide (y ≤ x) && increasing (y :: l)

/-- `valid_complement_index_vector`, valid.hpp:113-125. -/
def validComplement (n : Int) (idx : List Int) : Bool :=
  match idx with
  | [] => true
  | x :: l =>
    if !validIndex n x || !validIndex n ((x :: l).getLast (by simp)) then false
    else increasing (x :: l)

/-- Body of the loop of `complement_index_vector`, valid.hpp:136-143: state is (cnt, cmpl). -/
def complementStep (idx : List Int) (i : Nat) (st : Nat × List Int) : Res (Nat × List Int) :=
  if idx[st.1]? = some (i : Int) then .ok (st.1 + 1, st.2) else .ok (st.1, st.2 ++ [(i : Int)])

/-- `complement_index_vector`, valid.hpp:128-145.  `reserve` throws `std::length_error` when
`n - indexes.size()` wraps around (valid.hpp:135). -/
def complementVec (b : Build) (n : Int) (idx : List Int) : Res (List Int) := do
  assertDebug b (validComplement n idx)
  let _ ← (if n < idx.length then (.trap .exception : Res Unit) else .ok ())
  let st ← foldN n.toNat (complementStep idx) (0, [])
  pure st.2

/-- `SliceWrapper<T>::get` / `get_row` / `get_col`, slice.hpp:244-520, for extent `n` of an object
that is `empty()` iff `emp`. -/
def SliceReq.get (b : Build) (n : Int) (emp : Bool) : SliceReq → Res Slice
  | .seqN start size stride => do                                   -- 250-263
      assertDebugM b (seqNValid n start size stride)
      pure (.seqN start size stride)
  | .seq first last stride => do                                    -- 276-292
      assertDebug b (!emp)
      assertDebug b (validIndex n first && validIndex n last)
      seqToSlice b first last stride
  | .all => mkSeqN b 0 n 1                                          -- 305-315
  | .even => do                                                     -- 325-335
      let s ← iadd n 1
      let m ← idiv b s 2
      mkSeqN b 0 m 2
  | .odd => do                                                      -- 345-355
      let m ← idiv b n 2
      mkSeqN b 1 m 2
  | .reverse => do                                                  -- 365-375
      let s ← (if emp then Res.ok 0 else isub n 1)
      mkSeqN b s n (-1)
  | .skipN stride => do                                             -- 385-395
      let s ← iadd n stride
      let s ← isub s 1
      let m ← idiv b s stride
      mkSeqN b 0 m stride
  | .firstN k => do                                                 -- 408-421
      assertDebug b (decide (k ≤ n))
      mkSeqN b 0 k 1
  | .lastN k => do                                                  -- 434-447
      assertDebug b (decide (k ≤ n))
      let s ← isub n k
      mkSeqN b s k 1
  | .vec idx => .ok (.vec idx)                                      -- 460-470, 483-493
  | .complement idx => do                                           -- 506-516
      let v ← complementVec b n idx
      pure (.vec v)

namespace Slice

/-- `SliceArrayWrapper::size`, slice.hpp:558-560, 598-600. -/
def size : Slice → Int
  | seqN _ size _ => size
  | vec idx => idx.length

/-- `SliceArrayWrapper::valid`, `valid_first`, `valid_second`, slice.hpp:562-572, 604-614 and
valid.hpp:92-110. -/
def valid (n : Int) : Slice → Res Bool
  | seqN start size stride => seqNValid n start size stride
  | vec idx => .ok (idx.all (validIndex n))

/-- `SliceArrayWrapper::map`, slice.hpp:574-576, 616-618.  Reading a vector outside its range is
undefined behaviour. -/
def map (sl : Slice) (i : Int) : Res Int :=
  match sl with
  | seqN start _ stride => do
      let p ← imul i stride
      iadd start p
  | vec idx => rd idx i

end Slice

/-- `A(request)`: construct the request (user side), resolve it (derived1D.hpp:177-188, 203-209),
construct the slice object, whose constructor checks validity once more
(slicearray_base1D.hpp:55-59, 136-142). -/
def mkSlice (b : Build) (n : Int) (emp : Bool) (r : SliceReq) : Res Slice := do
  r.construct b
  let sl ← r.get b n emp
  assertDebugM b (sl.valid n)
  pure sl

/-- `default_wrapper`, slice.hpp:633-642: the empty slice of the same kind. -/
def Slice.default : Slice → Slice
  | .seqN _ _ _ => .seqN 0 0 1
  | .vec _ => .vec []

/-- `A(rowRequest, colRequest)`: derived2D.hpp:365-432 (slice_row_col_helper, slice.hpp:538-542) and
the constructor slicearray_base2D.hpp:53-65, 205-217, which turns a slice with an empty factor into
a 0x0 slice. -/
def mkSlice2 (b : Build) (rows cols : Int) (emp : Bool) (r1 r2 : SliceReq) :
    Res (Slice × Slice) := do
  r1.construct b
  r2.construct b
  let s1 ← r1.get b rows emp
  let s2 ← r2.get b cols emp
  assertDebugM b (s1.valid rows)
  assertDebugM b (s2.valid cols)
  pure (if s1.size = 0 then (s1, s2.default)
    else if s2.size = 0 then (s1.default, s2)
    else (s1, s2))

/-- Slices of slices: each request is resolved against the size of the previous slice
(`A(r1)(r2)...`), derived1D.hpp:177-188 applied repeatedly; the head of the result is the innermost
(first applied) slice. -/
def mkNested (b : Build) : Int → List SliceReq → Res (List Slice)
  | _, [] => .ok []
  | n, r :: rs => do
      let sl ← mkSlice b n (n == 0) r
      let rest ← mkNested b sl.size rs
      pure (sl :: rest)

/-- `un(i)` of the nested slice: slicearray_base1D.hpp:97-107 forwards `map(i)` to its base. -/
def nestedMap : List Slice → Int → Res Int
  | [], i => .ok i
  | sl :: rest, i => do
      let j ← nestedMap rest i
      sl.map j

/-- `implicit_vector_sequence(size, start, incr)`, index_helper.hpp:111-120. -/
def implicitVectorSequence (b : Build) (size start incr : Int) : Res (List Int) := do
  assertDebug b (decide (size > -1))
  foldN size.toNat (fun i l => do
    let p ← imul (i : Int) incr
    let e ← iadd start p
    pure (l ++ [e])) []

end Spp
