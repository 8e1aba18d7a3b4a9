import Verif.Model.Expr

/-
Statements that evaluate expressions: assignment to arrays and views (array_base1D.hpp:216-257,
array_base2D.hpp:198-236, slicearray_base1D.hpp:63-93, slicearray_base2D.hpp:68-104), compound
assignment (derived_base.hpp:56-207) and `eval()` (derived1D.hpp:264-270, derived2D.hpp:619-625),
with the loops of ArrayCommon/algorithm.hpp.

The right operand is built before the left one (C++17 sequencing of assignment operators).
`size()`, `rows()` and `cols()` in loop conditions are evaluated once: assignment does not change
any size.  The qualifier `__restrict` on the parameters of `copy` (algorithm.hpp:62, 70, 78) is not
modelled.
-/

namespace Spp

variable {α : Type}

/-- `*place = x`.
Statements: array_base1D.hpp:216-257, array_base2D.hpp:198-236, slicearray_base1D.hpp:63-93, slicearray_base2D.hpp:68-104,
derived_base.hpp:56-207. -/
def put (l : Loc) (x : α) : Op (Store α) Unit := do
  let s : Store α ← Op.get
  let s' ← Op.lift (s.write l x)
  Op.set s'

/-- `fill(x, A)`, algorithm.hpp:149-154. -/
def fillTo (dst : Acc (Store α) Loc) (x : α) : Op (Store α) Unit := do
  let s : Store α ← Op.get
  let n ← Op.lift (dst.size s)
  Op.forN n.toNat (fun i => do
    let s : Store α ← Op.get
    let l ← Op.lift (dst.un s i)
    put l x)

/-- `copy(list, A)` for a one-dimensional `A`, algorithm.hpp:34-45. -/
def copyList (dst : Acc (Store α) Loc) (xs : List α) : Op (Store α) Unit :=
  Op.forN xs.length (fun i => do
    let s : Store α ← Op.get
    let v ← Op.lift (rd xs i)
    let l ← Op.lift (dst.un s i)
    put l v)

/-- `copy(list, A)` for a two-dimensional `A`, algorithm.hpp:48-58; `rd L i` is the `i`-th inner
list of the loop. -/
def copyList2 (dst : Acc (Store α) Loc) (L : List (List α)) : Op (Store α) Unit :=
  Op.forN L.length (fun i => do
    let row ← Op.lift (rd L i)
    Op.forN row.length (fun j => do
      let s : Store α ← Op.get
      let v ← Op.lift (rd row j)
      let l ← Op.lift (dst.un2 s i j)
      put l v))

/-- `copy(A1, A2)` with linear access, algorithm.hpp:61-74. -/
def copyLin (dst : Acc (Store α) Loc) (src : Acc (Store α) α) : Op (Store α) Unit := do
  let s : Store α ← Op.get
  let n ← Op.lift (src.size s)
  Op.forN n.toNat (fun i => do
    let s : Store α ← Op.get
    let v ← Op.lift (src.un s i)
    let l ← Op.lift (dst.un s i)
    put l v)

/-- `copy(A1, A2)` with two indices, algorithm.hpp:77-84. -/
def copyTwo (dst : Acc (Store α) Loc) (src : Acc (Store α) α) : Op (Store α) Unit := do
  let s : Store α ← Op.get
  Op.forN (src.rows s).toNat (fun i => Op.forN (src.cols s).toNat (fun j => do
    let s : Store α ← Op.get
    let v ← Op.lift (src.un2 s i j)
    let l ← Op.lift (dst.un2 s i j)
    put l v))

/-- `A.un(i) = f(A.un(i), x)` for every `i`: `apply0`, algorithm.hpp:18-23, with the bodies of
derived_base.hpp:56-126. -/
def updateAll (dst : Acc (Store α) Loc) (g : Store α → Nat → α → Res α) : Op (Store α) Unit := do
  let s : Store α ← Op.get
  let n ← Op.lift (dst.size s)
  Op.forN n.toNat (fun i => do
    let s : Store α ← Op.get
    let l ← Op.lift (dst.un s i)
    let v ← Op.lift (do let u ← s.read l; g s i u)
    put l v)

/-- Is the assignable object an owning two-dimensional array (`ArrayTwoDimType`)?
Statements: array_base1D.hpp:216-257, array_base2D.hpp:198-236, slicearray_base1D.hpp:63-93, slicearray_base2D.hpp:68-104,
derived_base.hpp:56-207. -/
def Lv.isArray2 : Lv d → Bool
  | .arr2 _ => true
  | _ => false

/-- Is the expression an owning two-dimensional array?
Statements: array_base1D.hpp:216-257, array_base2D.hpp:198-236, slicearray_base1D.hpp:63-93, slicearray_base2D.hpp:68-104,
derived_base.hpp:56-207. -/
def Tm.isArray2 : Tm α d → Bool
  | .lv l => l.isArray2
  | _ => false

/-- Statements.
Statements: array_base1D.hpp:216-257, array_base2D.hpp:198-236, slicearray_base1D.hpp:63-93, slicearray_base2D.hpp:68-104,
derived_base.hpp:56-207. -/
inductive AStmt (α : Type) where
  /-- `l = t` -/
  | assign {d : Dim} (l : Lv d) (t : Tm α d)
  /-- `l = x` -/
  | fill {d : Dim} (l : Lv d) (x : α)
  /-- `l = {x0, x1, ...}` -/
  | list (l : Lv .one) (xs : List α)
  /-- `l = {{...}, {...}, ...}` for a view `l` -/
  | list2 (l : Lv .two) (L : List (List α))
  /-- `l op= t` -/
  | compound {d : Dim} (op : α → α → Res α) (l : Lv d) (t : Tm α d)
  /-- `l op= x` -/
  | compoundX {d : Dim} (op : α → α → Res α) (l : Lv d) (x : α)

/-- Overload resolution of `copy(A1, A2)`, algorithm.hpp:61-84. -/
def copyTo (d : Dim) (arrays : Bool) (dst : Acc (Store α) Loc) (src : Acc (Store α) α) :
    Op (Store α) Unit :=
  match d with
  | .one => copyLin dst src
  | .two => if arrays then copyLin dst src else copyTwo dst src

/-- Executing a statement.
Statements: array_base1D.hpp:216-257, array_base2D.hpp:198-236, slicearray_base1D.hpp:63-93, slicearray_base2D.hpp:68-104,
derived_base.hpp:56-207. -/
def AStmt.run (b : Build) : AStmt α → Op (Store α) Unit
  -- slicearray_base1D.hpp:80-93, slicearray_base2D.hpp:88-104, array_base1D.hpp:231-238, 252-257,
  -- array_base2D.hpp:214-219, 231-236.  (Self-assignment of an owning array writes nothing; here it
  -- writes every element to itself.)
  | .assign (d := d) l t => do
      let s : Store α ← Op.get
      let src ← Op.lift (t.build b s)
      let dst ← Op.lift (l.build b s)
      Op.lift (assertDebug b (Acc.sameSize d dst src s))
      copyTo d (l.isArray2 && t.isArray2) dst src
  -- slicearray_base1D.hpp:63-67, slicearray_base2D.hpp:68-73, array_base1D.hpp:216-220,
  -- array_base2D.hpp:198-202
  | .fill l x => do
      let s : Store α ← Op.get
      let dst ← Op.lift (l.build b s)
      fillTo dst x
  -- slicearray_base1D.hpp:70-76, array_base1D.hpp:223-228
  | .list l xs => do
      let s : Store α ← Op.get
      let dst ← Op.lift (l.build b s)
      Op.lift (assertDebug b (dst.rows s == len xs))
      copyList dst xs
  -- slicearray_base2D.hpp:76-85
  | .list2 l L => do
      let s : Store α ← Op.get
      let dst ← Op.lift (l.build b s)
      Op.lift (assertDebug b (Arr2.validList L))
      Op.lift (assertDebug b (dst.rows s == (Arr2.listSizes L).1))
      Op.lift (assertDebug b (dst.cols s == (Arr2.listSizes L).2))
      copyList2 dst L
  -- derived_base.hpp:129-207
  | .compound (d := d) op l t => do
      let s : Store α ← Op.get
      let src ← Op.lift (t.build b s)
      let dst ← Op.lift (l.build b s)
      Op.lift (assertDebug b (Acc.sameSize d dst src s))
      updateAll dst (fun s i u => do let v ← src.un s i; op u v)
  -- derived_base.hpp:56-126
  | .compoundX op l x => do
      let s : Store α ← Op.get
      let dst ← Op.lift (l.build b s)
      updateAll dst (fun _ _ u => op u x)

/-- A sequence of statements; a trap ends it.
Statements: array_base1D.hpp:216-257, array_base2D.hpp:198-236, slicearray_base1D.hpp:63-93, slicearray_base2D.hpp:68-104,
derived_base.hpp:56-207. -/
def AStmt.runAll (b : Build) : List (AStmt α) → Op (Store α) Unit
  | [] => pure ()
  | st :: sts => do
      st.run b
      AStmt.runAll b sts

variable [Inhabited α]

/-- `eval()` of a one-dimensional expression, derived1D.hpp:264-270: a new array of the same size,
then assignment. -/
def Acc.eval1 {σ : Type} (b : Build) (a : Acc σ α) (s : σ) : Res (List α) := do
  let l ← Arr1.make b (a.rows s)
  let r := Arr1.assign b ⟨a.rows s, fun _ i => a.un s i⟩ l
  r.1
  pure r.2

/-- `eval()` of a two-dimensional expression, derived2D.hpp:619-625. -/
def Acc.eval2 {σ : Type} (b : Build) (a : Acc σ α) (s : σ) : Res (Arr2 α) := do
  let l ← Arr2.make b (a.rows s) (a.cols s)
  let r := Arr2.assign b ⟨a.rows s, a.cols s, fun _ i => a.un s i, fun _ i j => a.un2 s i j, false⟩ l
  r.1
  pure r.2

end Spp
