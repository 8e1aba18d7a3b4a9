import Verif.Model.Heap

/- What correct ownership of storage means. -/

namespace Spp.Spec

variable {α : Type}

/-- Ownership discipline of a program state. -/
structure Owned (h : Heap α) : Prop where
  /-- no block is shared by two live arrays -/
  exclusive : ∀ {i j oi oj p}, h.objs i = some oi → h.objs j = some oj →
    oi.ptr = some p → oj.ptr = some p → i = j
  /-- the pointer of a live array is a live block with exactly as many elements as the array says;
  an array without a block is empty -/
  valid : ∀ {i o}, h.objs i = some o →
    (o.ptr = none ∧ o.n = 0) ∨
    (∃ p l, o.ptr = some p ∧ h.blocks p = some l ∧ o.n = (l.length : Int) ∧ l ≠ [])
  /-- the block of a live array was allocated by the form of `new[]` that its destructor expects -/
  matched : ∀ {i o p}, h.objs i = some o → o.ptr = some p → h.flag p = o.af
  /-- every live block belongs to a live array (nothing is leaked) -/
  noLeak : ∀ {p l}, h.blocks p = some l → ∃ i o, h.objs i = some o ∧ o.ptr = some p
  /-- no block is released twice -/
  once : h.released.Nodup
  /-- every block ever handed out is either live or released, never both -/
  accounted : ∀ p, p < h.next → (h.blocks p = none ↔ p ∈ h.released)
  /-- blocks not handed out yet are neither -/
  fresh : ∀ p, h.next ≤ p → h.blocks p = none ∧ p ∉ h.released

/-- The elements of live array `i`. -/
def view (h : Heap α) (i : Nat) : Option (List α) :=
  match h.objs i with
  | none => none
  | some o =>
    match o.ptr with
    | none => some []
    | some p => h.blocks p

/-- Arrays `i` and `j` are live and have the same type. -/
def SameType (h : Heap α) (i j : Nat) : Prop :=
  ∃ oi oj, h.objs i = some oi ∧ h.objs j = some oj ∧ oi.af = oj.af

/-- The statement is well scoped in state `h`: it constructs only dead objects and uses only live
ones of the right type (which the language enforces), element computations keep the number of elements and
are not undefined behaviour themselves, and copy assignment has equal sizes unless the build checks
them. -/
def Scoped (b : Build) (h : Heap α) : HCmd α → Prop
  | .construct i _ n g => h.objs i = none ∧
      ∀ l : List α, (l.length : Int) = n → g l ≠ .ub ∧ ∀ l', g l = .ok l' → l'.length = l.length
  | .copyConstruct i _ j => h.objs i = none ∧ h.objs j ≠ none
  | .moveConstruct i j => h.objs i = none ∧ h.objs j ≠ none
  | .destroy i => h.objs i ≠ none
  | .modify i g => h.objs i ≠ none ∧ ∀ l, (g l).1 ≠ .ub ∧ (g l).2.length = l.length
  | .copyAssign i j => h.objs i ≠ none ∧ h.objs j ≠ none ∧
      (b.Checked ∨ (view h i).map List.length = (view h j).map List.length)
  | .moveAssign i j => SameType h i j
  | .swap i j => SameType h i j
  | .resize i _ _ => h.objs i ≠ none
  | .rebuild i n g => h.objs i ≠ none ∧
      ∀ old l : List α, view h i = some old → (l.length : Int) = n →
        g old l ≠ .ub ∧ ∀ l', g old l = .ok l' → l'.length = l.length
  | .resizeAndAssignMove i j => SameType h i j

/-- The states a program can reach: any finite history of well-scoped statements, each of which
either succeeds or throws (the exception being caught); the allocator may refuse any request. -/
inductive Reach [Inhabited α] (b : Build) (m : Allocator) : Heap α → Prop where
  | init : Reach b m (Heap.init m)
  | step {h h' : Heap α} {c : HCmd α} {r : Res Unit} : Reach b m h → Scoped b h c →
      c.exec b h = (r, h') → Reach b m h'

/-- The arrays a statement may give other storage. -/
def Replaces (c : HCmd α) (k : Nat) : Prop :=
  match c with
  | .construct i .. | .copyConstruct i .. | .destroy i | .resize i .. | .rebuild i .. => k = i
  | .moveConstruct i j | .moveAssign i j | .swap i j | .resizeAndAssignMove i j => k = i ∨ k = j
  | .modify .. | .copyAssign .. => False

/-- The next request for memory is refused. -/
def OutOfMemory (h : Heap α) : Prop := h.mem.fails h.requests = true

/-- What the C++ library promises of `new[]`: the address is not null and a multiple of the alignment asked for. -/
structure AllocatorContract (m : Allocator) : Prop where
  aligned : ∀ p a, a ≠ 0 → a ∣ m.address p a
  nonnull : ∀ p a, a ≠ 0 → m.address p a ≠ 0

/-- Blocks that are in use at the same time have different addresses. -/
def DistinctBlocks (h : Heap α) : Prop :=
  ∀ p q, p ≠ q → h.blocks p ≠ none → h.blocks q ≠ none →
    h.mem.address p (newAlign (h.flag p)) ≠ h.mem.address q (newAlign (h.flag q))

end Spp.Spec
