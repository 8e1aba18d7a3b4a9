import Verif.Model.Expr

/-
What an expression object refers to: strictpp/ArrayCommon/array_traits.hpp:75-107
(`CopyOrReferenceExpr`), strictpp/Expr/types.hpp, special.hpp, binary.hpp, unary.hpp,
strictpp/slicearray_base1D.hpp, slicearray_base2D.hpp, strictpp/attach2D.hpp.

The objects are those of Model/Expr.lean, but their members now run in a state that also says which
C++ objects are alive.  Wherever the C++ object contains a reference, reading through it is undefined
behaviour unless the object referred to is alive.  Operands that are stored by copy are part of the
object.

Simplification: only the members that can fail (`un`, `size`) notice a dead object; `rows` and `cols`
do not.
-/

namespace Spp

/-- What a reference can refer to: an owning array, the temporary object that a subexpression of the
program text evaluates to (subexpressions are named by their position in the text), or a local
variable of the function called at that position.
Lifetimes of the objects that array_traits.hpp:75-107 and Expr/types.hpp:29-427 refer to. -/
inductive Ref where
  | array1 (id : Nat)
  | array2 (id : Nat)
  | temp (p : List Nat)
  | loc (p : List Nat)
  deriving DecidableEq, Repr

/-- The contents of the arrays and the set of objects that are alive.
Lifetimes of the objects that array_traits.hpp:75-107 and Expr/types.hpp:29-427 refer to. -/
structure Mem (α : Type) where
  store : Store α
  alive : Ref → Bool

/-- When the statement has been executed all its temporaries and the local variables of the functions it
called are gone. Lifetimes of the objects that array_traits.hpp:75-107 and Expr/types.hpp:29-427 refer to. -/
def Mem.later {α : Type} (s : Store α) : Mem α :=
  ⟨s, fun r => match r with
    | .array1 _ => true
    | .array2 _ => true
    | .temp _ => false
    | .loc _ => false⟩

/-- While the statement is being executed its temporaries are still alive.
Lifetimes of the objects that array_traits.hpp:75-107 and Expr/types.hpp:29-427 refer to. -/
def Mem.during {α : Type} (s : Store α) : Mem α :=
  ⟨s, fun r => match r with
    | .loc _ => false
    | _ => true⟩

namespace Acc

variable {α β : Type}

/-- Access through a reference to `r`.
Lifetimes of the objects that array_traits.hpp:75-107 and Expr/types.hpp:29-427 refer to. -/
def through (r : Ref) (a : Acc (Mem α) β) : Acc (Mem α) β :=
  ⟨a.rows, a.cols,
   fun m => if m.alive r then a.size m else .ub,
   fun m i => if m.alive r then a.un m i else .ub,
   fun m i j => if m.alive r then a.un2 m i j else .ub⟩

/-- The members of an owning array do not depend on other objects.
Lifetimes of the objects that array_traits.hpp:75-107 and Expr/types.hpp:29-427 refer to. -/
def inMem (a : Acc (Store α) β) : Acc (Mem α) β :=
  ⟨fun m => a.rows m.store, fun m => a.cols m.store, fun m => a.size m.store,
   fun m => a.un m.store, fun m => a.un2 m.store⟩

end Acc

/-- The object a subexpression evaluates to: what its members do and, if it is an owning array, which
one. Lifetimes of the objects that array_traits.hpp:75-107 and Expr/types.hpp:29-427 refer to. -/
structure Operand (α β : Type) where
  acc : Acc (Mem α) β
  array : Option Ref

namespace Operand

variable {α β : Type}

/-- `CopyOrReferenceExpr`, array_traits.hpp:91-107: owning arrays (`ReferenceBase1D`, `ReferenceBase2D`)
are stored by reference, everything else by copy. -/
def stored (o : Operand α β) : Acc (Mem α) β :=
  match o.array with
  | some r => o.acc.through r
  | none => o.acc

/-- A capture `[&A]`: a reference to the operand, which is a temporary object unless it is an array.
Lifetimes of the objects that array_traits.hpp:75-107 and Expr/types.hpp:29-427 refer to. -/
def captured (p : List Nat) (o : Operand α β) : Acc (Mem α) β :=
  match o.array with
  | some r => o.acc.through r
  | none => o.acc.through (.temp p)

/-- A view or an expression.
Lifetimes of the objects that array_traits.hpp:75-107 and Expr/types.hpp:29-427 refer to. -/
def object (a : Acc (Mem α) β) : Operand α β := ⟨a, none⟩

end Operand

/-- As `Lv.build`: views store what they are a view of, slicearray_base1D.hpp:49, 156,
slicearray_base2D.hpp:46, 198, attach2D.hpp:165, 210. -/
def Lv.make {α : Type} (b : Build) (m : Mem α) : Lv d → Res (Operand α Loc)
  | .arr1 id => .ok ⟨(Lv.acc1 α id).inMem, some (.array1 id)⟩
  | .arr2 id => .ok ⟨(Lv.acc2 α id).inMem, some (.array2 id)⟩
  | .view v l => do
      let o ← l.make b m
      let a ← v.mk b o.stored m
      pure (.object a)

/-- As `Tm.build`: executing the program text at position `p`.  Every node stores its operands with
`CopyOrReferenceExpr` (types.hpp:62, 144-145, 306, 351, 393-394; the closures of `merge`, `exclude`,
`merge_horizontal`, `merge_vertical` capture `generate(A, id)` by copy, special.hpp:286-403), except
`transpose` (special.hpp:515, `[&A]`) and `matvec_prod` (binary.hpp:727, `[&x, &dot]`, where `dot` is a local
variable). -/
def Tm.make {α : Type} (b : Build) (m : Mem α) (p : List Nat) : Tm α d → Res (Operand α α)
  | .lv l => do
      let o ← l.make b m
      pure ⟨o.acc.deref (fun m => m.store.read), o.array⟩
  | .view v t => do
      let o ← t.make b m (0 :: p)
      let a ← v.mk b o.stored m
      pure (.object a)
  | .unary f t => do
      let o ← t.make b m (0 :: p)
      pure (.object (o.stored.unary f))
  | .binary f t1 t2 => do
      let o1 ← t1.make b m (0 :: p)
      let o2 ← t2.make b m (1 :: p)
      let a ← Tm.mkBinary b d f o1.stored o2.stored m
      pure (.object a)
  | .scalarL f x t => do
      let o ← t.make b m (0 :: p)
      let c ← Tm.mkConstLike b d o.acc m x
      let a ← Tm.mkBinary b d f c o.stored m
      pure (.object a)
  | .scalarR f t x => do
      let o ← t.make b m (0 :: p)
      let c ← Tm.mkConstLike b d o.acc m x
      let a ← Tm.mkBinary b d f o.stored c m
      pure (.object a)
  | .sequence ar n start incr => do
      let a ← Tm.mkSequence b ar n start incr
      pure (.object a)
  | .linspace ar n start stop => do
      assertDebug b (decide (n > 0))
      let diff ← ar.sub stop start
      let k ← isub n 1
      let c ← ar.ofIndex k
      let incr ← ar.div diff c
      let a ← Tm.mkSequence b ar n start incr
      pure (.object a)
  | .eUnit ar k n => do
      assertDebug b (decide (k > -1))
      assertDebug b (decide (n > k))
      let a ← Tm.mkGen1 b n (fun _ i => .ok (if i = k then ar.one else ar.zero))
      pure (.object a)
  | .const1D n x => do
      let a ← Tm.mkConst1D b n x
      pure (.object a)
  | .const2D k n x => do
      let a ← Tm.mkConst2D b k n x
      pure (.object a)
  | .identity ar n => do
      assertDebug b (decide (n > -1))
      assertDebug b (decide (n > -1))
      assertDebug b (decide (n > -1))
      pure (.object (.twoD b (fun _ => n) (fun _ => n)
        (fun _ i j => .ok (if i = j then ar.one else ar.zero))))
  | .merge t1 t2 => do
      let o1 ← t1.make b m (0 :: p)
      let o2 ← t2.make b m (1 :: p)
      let n ← iadd (o1.acc.rows m) (o2.acc.rows m)
      let a ← Tm.mkGen1 b n (Acc.mergeOp o1.stored o2.stored)
      pure (.object a)
  | .append t x => do
      let o ← t.make b m (0 :: p)
      let n ← iadd (o.acc.rows m) 1
      let a ← Tm.mkGen1 b n (o.stored.appendOp x)
      pure (.object a)
  | .prepend x t => do
      let o ← t.make b m (0 :: p)
      let n ← iadd (o.acc.rows m) 1
      let a ← Tm.mkGen1 b n (Acc.prependOp x o.stored)
      pure (.object a)
  | .exclude t pos count => do
      let o ← t.make b m (0 :: p)
      let a ← Tm.mkExclude b o.stored m pos count
      pure (.object a)
  | .excludeLast t _ => do
      let o ← t.make b m (0 :: p)
      let k ← isub (o.acc.rows m) 1
      let a ← Tm.mkExclude b o.stored m k 1
      pure (.object a)
  | .reduce rowwise g t => do
      let o ← t.make b m (0 :: p)
      pure (.object (Tm.reduceAcc b rowwise (fun r m => g (Tm.elems r m)) o.stored))
  | .matvec ar t x => do
      let o ← t.make b m (0 :: p)
      let v ← x.make b m (1 :: p)
      assertDebug b (o.acc.cols m == v.acc.rows m)
      pure (.object (Tm.reduceAcc b true (fun r m =>
        if m.alive (.loc p) then Tm.dotOp b ar r (v.captured (1 :: p)) m else .ub) o.stored))
  | .bcast rowwise t => do
      let o ← t.make b m (0 :: p)
      pure (.object (o.stored.bcast b rowwise))
  | .tensor ar t1 t2 => do
      let o1 ← t1.make b m (0 :: p)
      let o2 ← t2.make b m (1 :: p)
      pure (.object (Acc.tensor b ar.mul o1.stored o2.stored))
  | .transpose t => do
      let o ← t.make b m (0 :: p)
      assertDebug b (decide (o.acc.cols m > -1))
      assertDebug b (decide (o.acc.rows m > -1))
      pure (.object ((o.captured (0 :: p)).transpose b (o.acc.cols m) (o.acc.rows m)))
  | .mergeH t1 t2 => do
      let o1 ← t1.make b m (0 :: p)
      let o2 ← t2.make b m (1 :: p)
      let a ← Tm.mkMergeH b o1.stored o2.stored m
      pure (.object a)
  | .mergeV t1 t2 => do
      let o1 ← t1.make b m (0 :: p)
      let o2 ← t2.make b m (1 :: p)
      let a ← Tm.mkMergeV b o1.stored o2.stored m
      pure (.object a)

end Spp
