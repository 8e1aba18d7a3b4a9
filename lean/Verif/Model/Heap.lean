import Verif.Model.Array1D

/-
Storage management of owning arrays: the pointer `data_` and the size `n_` of
strictpp/array_base1D.hpp:125-126, `new[]`, `delete[]`, swaps of pointers and temporaries.

`ArrayBase2D` owns its elements through one `ArrayBase1D` member (array_base2D.hpp:149) and manages
no memory itself, so the same operations cover two-dimensional arrays.

The heap hands out a fresh block for each allocation, or refuses (`std::bad_alloc`); `delete[]` of a
block that is not allocated (double release) or was allocated by the other form of `new[]`, and any
access to such a block, are undefined behaviour.
Temporaries of member functions are local objects; they are destroyed at the end of the call and
also when an exception leaves the call.
-/

namespace Spp

/-- `AlignmentFlag`, ArrayCommon/alignment.hpp:10. -/
inductive AlignmentFlag where
  | aligned
  | unaligned
  deriving DecidableEq, Repr

/-- `alignment_of<T, AF>()`, ArrayCommon/alignment.hpp:16-20, also the static member `alignment()` of all arrays
that own elements: array_base1D.hpp:512-514, array_base2D.hpp:724-726, fixed_array_base1D.hpp:230-232,
fixed_array_base2D.hpp:219-221. -/
def alignmentOf : AlignmentFlag → Nat
  | .aligned => 64
  | .unaligned => 0

/-- The alignment an allocation asks for: `new (std::align_val_t{alignment_of<T, AF>()})`,
array_base1D.hpp:143, or plain `new`, 155, which asks for `__STDCPP_DEFAULT_NEW_ALIGNMENT__` (16 on x86-64). -/
def newAlign : AlignmentFlag → Nat
  | .aligned => alignmentOf .aligned
  | .unaligned => 16

/-- The memory allocator: which requests it refuses, and the machine address of a block, given the alignment that was
asked for. The memory that array_base1D.hpp:125-160, 260-273 works on. -/
structure Allocator where
  fails : Nat → Bool
  address : Nat → Nat → Nat

/-- An `ArrayBase1D<T, AF>` object: `data_` (null or a block) and `n_`, array_base1D.hpp:125-126; `af` is the
template argument `AF`. -/
structure Obj where
  af : AlignmentFlag
  ptr : Option Nat
  n : Int
  deriving DecidableEq

/-- `ArrayBase1D()`, array_base1D.hpp:130-133. -/
def Obj.empty (af : AlignmentFlag) : Obj := ⟨af, none, 0⟩

/-- Memory and the named array objects of a program. The memory that array_base1D.hpp:125-160, 260-273 works on. -/
structure Heap (α : Type) where
  /-- the allocator -/
  mem : Allocator
  /-- number of allocation requests so far -/
  requests : Nat
  /-- next fresh block -/
  next : Nat
  /-- live blocks and their contents -/
  blocks : Nat → Option (List α)
  /-- the form of `new[]` a block was allocated with -/
  flag : Nat → AlignmentFlag
  /-- the released blocks, most recent first -/
  released : List Nat
  /-- the live array objects -/
  objs : Nat → Option Obj

namespace Heap

variable {α : Type} [Inhabited α]

/-- The program start: no memory in use, no objects. The memory that array_base1D.hpp:125-160, 260-273 works on. -/
def init (m : Allocator) : Heap α := ⟨m, 0, 0, fun _ => none, fun _ => .unaligned, [], fun _ => none⟩

/-- `new (std::align_val_t{...}) value_type[...]` or `new value_type[...]`, array_base1D.hpp:143, 155. -/
def alloc (af : AlignmentFlag) (l : List α) : Op (Heap α) Nat := fun h =>
  if h.mem.fails h.requests then (.trap .exception, { h with requests := h.requests + 1 })
  else (.ok h.next,
    { h with
      requests := h.requests + 1
      next := h.next + 1
      blocks := fun p => if p = h.next then some l else h.blocks p
      flag := fun p => if p = h.next then af else h.flag p })

/-- `operator delete[](p, std::align_val_t{...})` or `delete[] p`, array_base1D.hpp:260-273: null is ignored; the form
must match the form of `new[]`. -/
def free (af : AlignmentFlag) (p : Option Nat) : Op (Heap α) Unit := fun h =>
  match p with
  | none => (.ok (), h)
  | some a =>
    match h.blocks a with
    | none => (.ub, h)
    | some _ =>
      if h.flag a = af then (.ok (), { h with
        blocks := fun q => if q = a then none else h.blocks q
        released := a :: h.released })
      else (.ub, h)

/-- Reading all elements of an object through its pointer.
The memory that array_base1D.hpp:125-160, 260-273 works on. -/
def contents (o : Obj) : Op (Heap α) (List α) := fun h =>
  match o.ptr with
  | none => if o.n = 0 then (.ok [], h) else (.ub, h)
  | some a =>
    match h.blocks a with
    | none => (.ub, h)
    | some l => if o.n = l.length then (.ok l, h) else (.ub, h)

/-- Overwriting elements of an object in place (the block keeps its length).
The memory that array_base1D.hpp:125-160, 260-273 works on. -/
def store (o : Obj) (l : List α) : Op (Heap α) Unit := fun h =>
  match o.ptr with
  | none => if l = [] then (.ok (), h) else (.ub, h)
  | some a =>
    match h.blocks a with
    | none => (.ub, h)
    | some l0 =>
      if l.length = l0.length
      then (.ok (), { h with blocks := fun q => if q = a then some l else h.blocks q })
      else (.ub, h)

/-- Access to a live object; using a dead one is undefined behaviour.
The memory that array_base1D.hpp:125-160, 260-273 works on. -/
def obj (i : Nat) : Op (Heap α) Obj := fun h =>
  match h.objs i with
  | none => (.ub, h)
  | some o => (.ok o, h)

/-- Bind or update a named object. The memory that array_base1D.hpp:125-160, 260-273 works on. -/
def setObj (i : Nat) (o : Option Obj) : Op (Heap α) Unit := fun h =>
  (.ok (), { h with objs := fun k => if k = i then o else h.objs k })

/-- `try { body } catch(...) { cleanup; throw; }`: what the language does for a live temporary.
The memory that array_base1D.hpp:125-160, 260-273 works on. -/
def onTrap (body : Op (Heap α) β) (cleanup : Op (Heap α) Unit) : Op (Heap α) β := fun h =>
  match body h with
  | (.ok a, h') => (.ok a, h')
  | (.trap k, h') =>
    match cleanup h' with
    | (.ok _, h'') => (.trap k, h'')
    | (.trap k', h'') => (.trap k', h'')
    | (.ub, h'') => (.ub, h'')
  | (.ub, h') => (.ub, h')

/-- `ArrayBase1D(n)`, array_base1D.hpp:136-157. -/
def ctor (b : Build) (af : AlignmentFlag) (n : Int) : Op (Heap α) Obj := do
  Op.lift (assertDebug b (decide (n > -1)))
  if n = 0 then pure (Obj.empty af)
  else if n < 0 then Op.lift (.trap .exception)
  else do
    let p ← alloc af (List.replicate n.toNat default)
    pure ⟨af, some p, n⟩

/-- A constructor that delegates to `ArrayBase1D(n)` and then fills the elements with `g` (which may
fail: an element expression that traps): 165-169, 178-182, 195-199, 209-213.  After the delegate
has finished, an exception runs the destructor. -/
def ctorFill (b : Build) (af : AlignmentFlag) (n : Int) (g : List α → Res (List α)) : Op (Heap α) Obj := do
  let o ← ctor b af n
  onTrap (do
    let l ← contents o
    let l' ← Op.lift (g l)
    store o l'
    pure o) (free o.af o.ptr)

/-- Construct object `i`. The memory that array_base1D.hpp:125-160, 260-273 works on. -/
def construct (b : Build) (i : Nat) (af : AlignmentFlag) (n : Int) (g : List α → Res (List α)) : Op (Heap α) Unit := do
  let o ← ctorFill b af n g
  setObj i (some o)

/-- Copy constructor, array_base1D.hpp:195-199, and construction from an array with the other flag, 209-213. -/
def copyConstruct (b : Build) (i : Nat) (af : AlignmentFlag) (j : Nat) : Op (Heap α) Unit := do
  let oj ← obj j
  let l ← contents oj
  construct b i af oj.n (fun _ => .ok l)

/-- Move constructor, array_base1D.hpp:202-206: `std::exchange` with null and zero. -/
def moveConstruct (i j : Nat) : Op (Heap α) Unit := do
  let oj ← obj j
  setObj j (some (Obj.empty oj.af))
  setObj i (some oj)

/-- Destructor, array_base1D.hpp:260-273. -/
def destroy (i : Nat) : Op (Heap α) Unit := do
  let o ← obj i
  free o.af o.ptr
  setObj i none

/-- `swap(A)`, array_base1D.hpp:276-280: two `std::swap`s of the members. -/
def swap (i j : Nat) : Op (Heap α) Unit := do
  let oi ← obj i
  let oj ← obj j
  setObj i (some oj)
  setObj j (some oi)

/-- In-place modification of the elements of object `i` by `g` (assignment of a value, list or
expression, compound assignment, element writes): the state reached is stored even if `g` traps.
The memory that array_base1D.hpp:125-160, 260-273 works on. -/
def modify (i : Nat) (g : List α → Res Unit × List α) : Op (Heap α) Unit := do
  let o ← obj i
  let l ← contents o
  store o (g l).2
  Op.lift (g l).1

/-- Copy assignment, array_base1D.hpp:231-238, and assignment of an array with the other flag, 252-257. -/
def copyAssign (b : Build) (i j : Nat) : Op (Heap α) Unit :=
  if i ≠ j then do
    let oi ← obj i
    let oj ← obj j
    Op.lift (assertDebug b (oi.n == oj.n))
    let l ← contents oj
    modify i (Arr1.copy (Src.ofList l))
  else pure ()

/-- `A.swap(ArrayBase1D{})` on object `j`: the temporary takes over the old pointer and releases it
at the end of the statement (array_base1D.hpp:246, 283-286). -/
def clear (j : Nat) : Op (Heap α) Unit := do
  let oj ← obj j
  let tmp := oj
  setObj j (some (Obj.empty oj.af))
  free tmp.af tmp.ptr

/-- Move assignment, array_base1D.hpp:241-249. -/
def moveAssign (b : Build) (i j : Nat) : Op (Heap α) Unit :=
  if i ≠ j then do
    let oi ← obj i
    let oj ← obj j
    Op.lift (assertNormal b (oi.n == oj.n))
    swap i j
    clear j
  else pure ()

/-- `resize_and_assign(A&&)`, array_base1D.hpp:312-317. -/
def resizeAndAssignMove (i j : Nat) : Op (Heap α) Unit := do
  swap i j
  clear j

/-- The common body of `resize`, `resize_and_assign(const&)`, `remove*` and `insert*`
(array_base1D.hpp:293-298, 305-306, 325-330, 375-382, 392-397, 435-440): a temporary of size `n` is
filled by `g` from the old elements, swapped in, and the temporary (now holding the old pointer) is
destroyed. -/
def rebuild (b : Build) (i : Nat) (n : Int) (g : List α → List α → Res (List α)) :
    Op (Heap α) Unit := do
  let o ← obj i
  let old ← contents o
  let tmp ← ctorFill b o.af n (g old)
  let oi ← obj i
  setObj i (some tmp)
  free oi.af oi.ptr

/-- `resize(n, preserve)`, array_base1D.hpp:289-301. -/
def resize (b : Build) (i : Nat) (n : Int) (preserve : Bool) : Op (Heap α) Unit := do
  Op.lift (assertDebug b (decide (n > -1)))
  let o ← obj i
  if n ≠ o.n then
    rebuild b i n (fun old tmp => if preserve then copyn0 (rd old) tmp (min (len old) n) else .ok tmp)
  else pure ()

/-- `data()` and `blas_data()`, array_base1D.hpp:484-509 (two-dimensional arrays: array_base2D.hpp:693-721): null or the
address of the block. -/
def data (i : Nat) : Op (Heap α) (Option Nat) := do
  let o ← obj i
  let h ← Op.get
  pure (if o.n ≠ 0 then o.ptr.map fun p => h.mem.address p (newAlign (h.flag p)) else none)

end Heap

/-- A statement of a program over owning arrays. The memory that array_base1D.hpp:125-160, 260-273 works on. -/
inductive HCmd (α : Type) where
  | construct (i : Nat) (af : AlignmentFlag) (n : Int) (g : List α → Res (List α))
  | copyConstruct (i : Nat) (af : AlignmentFlag) (j : Nat)
  | moveConstruct (i j : Nat)
  | destroy (i : Nat)
  | modify (i : Nat) (g : List α → Res Unit × List α)
  | copyAssign (i j : Nat)
  | moveAssign (i j : Nat)
  | swap (i j : Nat)
  | resize (i : Nat) (n : Int) (preserve : Bool)
  | rebuild (i : Nat) (n : Int) (g : List α → List α → Res (List α))
  | resizeAndAssignMove (i j : Nat)

/-- Execution of a statement. The memory that array_base1D.hpp:125-160, 260-273 works on. -/
def HCmd.exec [Inhabited α] (b : Build) : HCmd α → Op (Heap α) Unit
  | .construct i af n g => Heap.construct b i af n g
  | .copyConstruct i af j => Heap.copyConstruct b i af j
  | .moveConstruct i j => Heap.moveConstruct i j
  | .destroy i => Heap.destroy i
  | .modify i g => Heap.modify i g
  | .copyAssign i j => Heap.copyAssign b i j
  | .moveAssign i j => Heap.moveAssign b i j
  | .swap i j => Heap.swap i j
  | .resize i n p => Heap.resize b i n p
  | .rebuild i n g => Heap.rebuild b i n g
  | .resizeAndAssignMove i j => Heap.resizeAndAssignMove i j

end Spp
