import Verif.Model.Ops
import Verif.Model.Scalar
import Verif.Model.StrictMath
import Verif.Model.FloatLit

/-
The sizes of arrays in bytes (strictpp/derived1D.hpp:385-400, strictpp/derived2D.hpp:757-772) and comparison with
lists (strictpp/derived1D.hpp:412-421, strictpp/derived2D.hpp:783-792).
-/

namespace Spp.Sizes

variable {σ α : Type}

/-- `bytes()`, derived1D.hpp:386-388, derived2D.hpp:757-759; `w` is `sizeof(value_type)`. -/
def bytes (a : Acc σ α) (w : Nat) (s : σ) : Res Int := do
  let n ← a.size s
  imul n (Conv.toIndexT w)

/-- `kbytes()`, derived1D.hpp:390-392, derived2D.hpp:761-763; `rl` and `rn` round to `long double` and `double`. -/
def kbytes (rl rn : ℚ → ℚ) (a : Acc σ α) (w : Nat) (s : σ) : Res ℚ := do
  let k ← bytes a w s
  pure (rn (Conv.intToFloat rn k / Literal.sd rl rn 1024))

/-- `mbytes()`, derived1D.hpp:394-396, derived2D.hpp:765-767. -/
def mbytes (rn : ℚ → ℚ) (a : Acc σ α) (w : Nat) (s : σ) : Res ℚ := do
  let k ← bytes a w s
  let q ← squares imul 1024
  pure (rn (Conv.intToFloat rn k / Conv.intToFloat rn q))

/-- `gbytes()`, derived1D.hpp:398-400, derived2D.hpp:769-771. -/
def gbytes (rn : ℚ → ℚ) (a : Acc σ α) (w : Nat) (s : σ) : Res ℚ := do
  let k ← bytes a w s
  let q ← cubes imul 1024
  pure (rn (Conv.intToFloat rn k / Conv.intToFloat rn q))

/-- A one-dimensional array with elements `l`. derived1D.hpp:385-421. -/
def ofArr1 (l : List α) : Acc σ α := Acc.oneD (fun _ => len l) (fun _ i => rd l i)

/-- A two-dimensional array; `size()`, array_base2D.hpp:662-665, is the number of stored elements. -/
def ofArr2 (a : Arr2 α) : Acc σ α :=
  ⟨fun _ => a.rows, fun _ => a.cols, fun _ => .ok (len a.data), fun _ i => rd a.data i, fun _ i j => Arr2.rd2 a i j⟩

variable [Inhabited α]

/-- `equal(A, list)`, derived1D.hpp:412-415. -/
def equalList (b : Build) (ne : α → α → Bool) (a : Acc σ α) (L : List α) (s : σ) : Res Bool := do
  let t ← Arr1.makeFrom b (Src.ofList L)
  Ops.equal .one ne a (ofArr1 t) s

/-- `equal(list, A)`, derived1D.hpp:418-421. -/
def listEqual (b : Build) (ne : α → α → Bool) (L : List α) (a : Acc σ α) (s : σ) : Res Bool := do
  let t ← Arr1.makeFrom b (Src.ofList L)
  Ops.equal .one ne (ofArr1 t) a s

/-- `equal(A, list)`, derived2D.hpp:783-786. -/
def equalList2 (b : Build) (ne : α → α → Bool) (a : Acc σ α) (L : List (List α)) (s : σ) : Res Bool := do
  let t ← Arr2.makeList b L
  Ops.equal .two ne a (ofArr2 t) s

/-- `equal(list, A)`, derived2D.hpp:789-792. -/
def listEqual2 (b : Build) (ne : α → α → Bool) (L : List (List α)) (a : Acc σ α) (s : σ) : Res Bool := do
  let t ← Arr2.makeList b L
  Ops.equal .two ne (ofArr2 t) a s

end Spp.Sizes
