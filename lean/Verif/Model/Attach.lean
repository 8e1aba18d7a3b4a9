import Verif.Model.Expr

/-
Views of memory that belongs to the caller: strictpp/attach1D.hpp and strictpp/attach2D.hpp.  The
memory that starts at the pointer is array `id` of the store; it need not be an array of the library.
The read-only versions (const_strict_attach_ptr1D/2D) have the same accessors.
-/

namespace Spp

variable {α : Type}

/-- `data_[i]` for a pointer into the memory `id`, attach1D.hpp:38-44, attach2D.hpp:40-46: outside
the memory this is undefined behaviour. -/
def ptrAt (s : Store α) (id : Nat) (i : Int) : Res Loc :=
  if 0 ≤ i ∧ i < len (s.a1 id) then .ok (.one id i.toNat) else .ub

/-- `strict_attach_ptr1D`, `const_strict_attach_ptr1D`: attach1D.hpp:27-78. -/
def attachPtr1 (α : Type) (id : Nat) (n : Int) : Acc (Store α) Loc :=
  Acc.oneD (fun _ => n) (fun s i => ptrAt s id i)

/-- `strict_attach_ptr2D`, `const_strict_attach_ptr2D`: attach2D.hpp:28-109.  The offset is computed
in the built-in type `long`, where overflow is undefined behaviour too. -/
def attachPtr2 (α : Type) (id : Nat) (m n : Int) : Acc (Store α) Loc :=
  ⟨fun _ => m, fun _ => n, fun _ => imul m n, fun s i => ptrAt s id i,
   fun s i j => do
     let o ← Elem2.off n i j
     ptrAt s id o⟩

/-- `attach1D(data, n)`, attach1D.hpp:85-102: the proxy wrapped in a slice `seqN{0, n}`; the
constructor of the slice checks it against the size of the proxy (slicearray_base1D.hpp:54-59). -/
def attach1D (α : Type) (b : Build) (id : Nat) (n : Int) : Res (Acc (Store α) Loc) := do
  let sl ← mkSeqN b 0 n 1
  assertDebugM b (sl.valid n)
  pure ((attachPtr1 α id n).slice sl)

/-- `attach2D(data, m, n)`, attach2D.hpp:293-312: as above with two slices; the constructor turns a
view without elements into a 0x0 one (slicearray_base2D.hpp:53-65). -/
def attach2D (α : Type) (b : Build) (id : Nat) (m n : Int) : Res (Acc (Store α) Loc) := do
  let s1 ← mkSeqN b 0 m 1
  let s2 ← mkSeqN b 0 n 1
  assertDebugM b (s1.valid m)
  assertDebugM b (s2.valid n)
  let q := if s1.size = 0 then (s1, s2.default)
    else if s2.size = 0 then (s1.default, s2)
    else (s1, s2)
  pure ((attachPtr2 α id m n).slice2 b q.1 q.2)

end Spp
