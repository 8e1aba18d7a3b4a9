import Verif.Model.ArrayOps
import Verif.Model.StableOps
import Verif.Model.IndexRange
import Verif.Model.Ops
import Verif.Model.Variadic
import Verif.Model.EProg

/-
The assertions of the project's own tests, evaluated in the model.  These are tests, not proofs of
properties, and no claim rests on them: they compare the model with the values the authors of the
library expect of the code.  `ASSERT(equal(A, {...}))` is `values A = .ok [...]`, `REQUIRE_THROW` is
`raises`, `REQUIRE_NOT_THROW` is `allowed`.  The tests are built with the checks and with exceptions
(tests/CMakeLists.txt:14-26; tests/test.hpp:42-66).
-/

namespace Spp.Conformance

/-- The build of the tests. -/
def tb : Build := ⟨false, true, false⟩

/-- Arrays number 0: empty and 0 by 0; number 1: 0, ..., 9 and 3 by 3 with 0, ..., 8; number 2: 0, ..., 4;
numbers 3, 4, 5: the arrays of `run_gpoly_ops`. -/
def mem : Store Int :=
  ⟨fun i => if i = 1 then [0, 1, 2, 3, 4, 5, 6, 7, 8, 9] else if i = 2 then [0, 1, 2, 3, 4]
    else if i = 3 then [1, 2, 2] else if i = 4 then [2, 2, 3] else if i = 5 then [3, 2, 1] else [],
   fun i => if i = 1 then ⟨3, 3, [0, 1, 2, 3, 4, 5, 6, 7, 8]⟩ else ⟨0, 0, []⟩⟩

/-- The elements read one by one. -/
def readFrom {α : Type} (a : Acc (Store α) α) (s : Store α) : Nat → Int → Res (List α)
  | 0, _ => .ok []
  | n + 1, i => do
      let x ← a.un s i
      let r ← readFrom a s n (i + 1)
      pure (x :: r)

/-- The elements of an object, in the state `s`. -/
def valuesIn {α : Type} (s : Store α) (t : Tm α d) : Res (List α) := do
  let a ← t.build tb s
  let n ← a.size s
  readFrom a s n.toNat 0

def values (t : Tm Int d) : Res (List Int) := valuesIn mem t

/-- The shape and the elements of a two-dimensional object. -/
def table (t : Tm Int .two) : Res (Int × Int × List Int) := do
  let a ← t.build tb mem
  let l ← values t
  pure (a.rows mem, a.cols mem, l)

/-- Building the object raises an exception. -/
def raises (t : Tm Int d) : Bool := match t.build tb mem with | .trap .exception => true | _ => false

/-- Building the object raises no exception. -/
def allowed (t : Tm Int d) : Bool := match t.build tb mem with | .ok _ => true | _ => false

/-- `sequence<int>(n)`. -/
def sq (n : Int) : Tm Int .one := .sequence (Stable.intSeq tb) n 0 1

def sqFrom (n a k : Int) : Tm Int .one := .sequence (Stable.intSeq tb) n a k

/-- `A(r)`. -/
def Tm.at1 (t : Tm Int .one) (r : SliceReq) : Tm Int .one := .view (.slice r) t

/-- `A(r1, r2)`. -/
def Tm.at2 (t : Tm Int .two) (r1 r2 : SliceReq) : Tm Int .two := .view (.slice2 r1 r2) t

/-- `sequence<int>(m * n).view2D(m, n)`. -/
def sq2 (m n : Int) : Tm Int .two := .view (.view2D .one m n) (sq (m * n))

/-! ### tests/slicearray.cpp, both for an array and for an expression -/

example : values (Tm.at1 (.lv (.arr1 1)) (.seqN 10 0 1)) = .ok [] := by decide +kernel
example : values (Tm.at1 (.lv (.arr1 1)) (.seqN 0 3 1)) = .ok [0, 1, 2] := by decide +kernel
example : values (Tm.at1 (.lv (.arr1 1)) (.seqN 2 3 (-1))) = .ok [2, 1, 0] := by decide +kernel
example : values (Tm.at1 (.lv (.arr1 1)) (.seqN 0 3 2)) = .ok [0, 2, 4] := by decide +kernel
example : values (Tm.at1 (.lv (.arr1 1)) (.seqN 4 3 (-2))) = .ok [4, 2, 0] := by decide +kernel
example : values (Tm.at1 (.lv (.arr1 1)) (.seqN 1 3 2)) = .ok [1, 3, 5] := by decide +kernel
example : values (Tm.at1 (.lv (.arr1 1)) (.seq 0 2 1)) = .ok [0, 1, 2] := by decide +kernel
example : values (Tm.at1 (.lv (.arr1 1)) (.seq 2 0 (-1))) = .ok [2, 1, 0] := by decide +kernel
example : values (Tm.at1 (.lv (.arr1 1)) (.seq 0 4 2)) = .ok [0, 2, 4] := by decide +kernel
example : values (Tm.at1 (.lv (.arr1 1)) (.seq 4 0 (-2))) = .ok [4, 2, 0] := by decide +kernel
example : values (Tm.at1 (.lv (.arr1 1)) (.seq 1 5 2)) = .ok [1, 3, 5] := by decide +kernel
example : values (Tm.at1 (.lv (.arr1 1)) (.skipN 3)) = .ok [0, 3, 6, 9] := by decide +kernel
example : values (Tm.at1 (.lv (.arr1 1)) (.skipN 4)) = .ok [0, 4, 8] := by decide +kernel
example : values (Tm.at1 (.lv (.arr1 1)) (.skipN 20)) = .ok [0] := by decide +kernel
example : values (Tm.at1 (.lv (.arr1 1)) (.skipN 1)) = .ok [0, 1, 2, 3, 4, 5, 6, 7, 8, 9] := by decide +kernel
example : values (Tm.at1 (.lv (.arr1 1)) (.firstN 5)) = .ok [0, 1, 2, 3, 4] := by decide +kernel
example : values (Tm.at1 (.lv (.arr1 1)) (.firstN 0)) = .ok [] := by decide +kernel
example : values (Tm.at1 (.lv (.arr1 1)) (.lastN 5)) = .ok [5, 6, 7, 8, 9] := by decide +kernel
example : values (Tm.at1 (.lv (.arr1 1)) (.lastN 0)) = .ok [] := by decide +kernel
example : values (Tm.at1 (.lv (.arr1 1)) (.even)) = .ok [0, 2, 4, 6, 8] := by decide +kernel
example : values (Tm.at1 (.lv (.arr1 1)) (.odd)) = .ok [1, 3, 5, 7, 9] := by decide +kernel
example : values (Tm.at1 (.lv (.arr1 1)) (.vec [])) = .ok [] := by decide +kernel
example : values (Tm.at1 (.lv (.arr1 1)) (.vec [0, 1, 2])) = .ok [0, 1, 2] := by decide +kernel
example : values (Tm.at1 (.lv (.arr1 1)) (.vec [0, 2, 4])) = .ok [0, 2, 4] := by decide +kernel
example : values (Tm.at1 (.lv (.arr1 1)) (.vec [4, 2, 0])) = .ok [4, 2, 0] := by decide +kernel
example : values (Tm.at1 (.lv (.arr1 1)) (.vec [4, 4, 3, 3, 5, 5])) = .ok [4, 4, 3, 3, 5, 5] := by decide +kernel
example : values (Tm.at1 (.lv (.arr1 1)) (.complement [1, 2, 3, 4, 5])) = .ok [0, 6, 7, 8, 9] := by decide +kernel
example : values (Tm.at1 (.lv (.arr1 1)) (.complement [0, 1, 2, 3, 4, 5, 6, 7, 8, 9])) = .ok [] := by decide +kernel
example : values (Tm.at1 (sq 10) (.seqN 10 0 1)) = .ok [] := by decide +kernel
example : values (Tm.at1 (sq 10) (.seqN 0 3 1)) = .ok [0, 1, 2] := by decide +kernel
example : values (Tm.at1 (sq 10) (.seqN 2 3 (-1))) = .ok [2, 1, 0] := by decide +kernel
example : values (Tm.at1 (sq 10) (.seqN 0 3 2)) = .ok [0, 2, 4] := by decide +kernel
example : values (Tm.at1 (sq 10) (.seqN 4 3 (-2))) = .ok [4, 2, 0] := by decide +kernel
example : values (Tm.at1 (sq 10) (.seqN 1 3 2)) = .ok [1, 3, 5] := by decide +kernel
example : values (Tm.at1 (sq 10) (.seq 0 2 1)) = .ok [0, 1, 2] := by decide +kernel
example : values (Tm.at1 (sq 10) (.seq 2 0 (-1))) = .ok [2, 1, 0] := by decide +kernel
example : values (Tm.at1 (sq 10) (.seq 0 4 2)) = .ok [0, 2, 4] := by decide +kernel
example : values (Tm.at1 (sq 10) (.seq 4 0 (-2))) = .ok [4, 2, 0] := by decide +kernel
example : values (Tm.at1 (sq 10) (.seq 1 5 2)) = .ok [1, 3, 5] := by decide +kernel
example : values (Tm.at1 (sq 10) (.skipN 3)) = .ok [0, 3, 6, 9] := by decide +kernel
example : values (Tm.at1 (sq 10) (.skipN 4)) = .ok [0, 4, 8] := by decide +kernel
example : values (Tm.at1 (sq 10) (.skipN 20)) = .ok [0] := by decide +kernel
example : values (Tm.at1 (sq 10) (.skipN 1)) = .ok [0, 1, 2, 3, 4, 5, 6, 7, 8, 9] := by decide +kernel
example : values (Tm.at1 (sq 10) (.firstN 5)) = .ok [0, 1, 2, 3, 4] := by decide +kernel
example : values (Tm.at1 (sq 10) (.firstN 0)) = .ok [] := by decide +kernel
example : values (Tm.at1 (sq 10) (.lastN 5)) = .ok [5, 6, 7, 8, 9] := by decide +kernel
example : values (Tm.at1 (sq 10) (.lastN 0)) = .ok [] := by decide +kernel
example : values (Tm.at1 (sq 10) (.even)) = .ok [0, 2, 4, 6, 8] := by decide +kernel
example : values (Tm.at1 (sq 10) (.odd)) = .ok [1, 3, 5, 7, 9] := by decide +kernel
example : values (Tm.at1 (sq 10) (.vec [])) = .ok [] := by decide +kernel
example : values (Tm.at1 (sq 10) (.vec [0, 1, 2])) = .ok [0, 1, 2] := by decide +kernel
example : values (Tm.at1 (sq 10) (.vec [0, 2, 4])) = .ok [0, 2, 4] := by decide +kernel
example : values (Tm.at1 (sq 10) (.vec [4, 2, 0])) = .ok [4, 2, 0] := by decide +kernel
example : values (Tm.at1 (sq 10) (.vec [4, 4, 3, 3, 5, 5])) = .ok [4, 4, 3, 3, 5, 5] := by decide +kernel
example : values (Tm.at1 (sq 10) (.complement [1, 2, 3, 4, 5])) = .ok [0, 6, 7, 8, 9] := by decide +kernel
example : values (Tm.at1 (sq 10) (.complement [0, 1, 2, 3, 4, 5, 6, 7, 8, 9])) = .ok [] := by decide +kernel
example : values (Tm.at1 (.lv (.arr1 2)) (.reverse)) = .ok [4, 3, 2, 1, 0] := by decide +kernel
example : values (Tm.at1 (sq 5) (.reverse)) = .ok [4, 3, 2, 1, 0] := by decide +kernel
example : values (Tm.at1 (.lv (.arr1 0)) (.seqN 0 0 1)) = .ok [] := by decide +kernel
example : values (Tm.at1 (.lv (.arr1 0)) (.skipN 1)) = .ok [] := by decide +kernel
example : values (Tm.at1 (.lv (.arr1 0)) (.firstN 0)) = .ok [] := by decide +kernel
example : values (Tm.at1 (.lv (.arr1 0)) (.lastN 0)) = .ok [] := by decide +kernel
example : values (Tm.at1 (.lv (.arr1 0)) (.even)) = .ok [] := by decide +kernel
example : values (Tm.at1 (.lv (.arr1 0)) (.odd)) = .ok [] := by decide +kernel
example : values (Tm.at1 (.lv (.arr1 0)) (.reverse)) = .ok [] := by decide +kernel
example : values (Tm.at1 (.lv (.arr1 0)) (.vec [])) = .ok [] := by decide +kernel
example : values (Tm.at1 (sq 0) (.seqN 0 0 1)) = .ok [] := by decide +kernel
example : values (Tm.at1 (sq 0) (.skipN 1)) = .ok [] := by decide +kernel
example : values (Tm.at1 (sq 0) (.firstN 0)) = .ok [] := by decide +kernel
example : values (Tm.at1 (sq 0) (.lastN 0)) = .ok [] := by decide +kernel
example : values (Tm.at1 (sq 0) (.even)) = .ok [] := by decide +kernel
example : values (Tm.at1 (sq 0) (.odd)) = .ok [] := by decide +kernel
example : values (Tm.at1 (sq 0) (.reverse)) = .ok [] := by decide +kernel
example : values (Tm.at1 (sq 0) (.vec [])) = .ok [] := by decide +kernel
example : raises (Tm.at1 (.lv (.arr1 1)) (.seqN (-1) 1 0)) = true := by decide +kernel
example : raises (Tm.at1 (.lv (.arr1 1)) (.seqN 1 10 1)) = true := by decide +kernel
example : raises (Tm.at1 (.lv (.arr1 1)) (.seqN 0 2 10)) = true := by decide +kernel
example : raises (Tm.at1 (.lv (.arr1 1)) (.seq 0 10 1)) = true := by decide +kernel
example : raises (Tm.at1 (.lv (.arr1 1)) (.seq (-1) 1 1)) = true := by decide +kernel
example : raises (Tm.at1 (.lv (.arr1 1)) (.seq 0 1 (-1))) = true := by decide +kernel
example : raises (Tm.at1 (.lv (.arr1 1)) (.skipN 0)) = true := by decide +kernel
example : raises (Tm.at1 (.lv (.arr1 1)) (.skipN (-1))) = true := by decide +kernel
example : raises (Tm.at1 (.lv (.arr1 1)) (.firstN 11)) = true := by decide +kernel
example : raises (Tm.at1 (.lv (.arr1 1)) (.lastN 11)) = true := by decide +kernel
example : raises (Tm.at1 (.lv (.arr1 1)) (.vec [-1])) = true := by decide +kernel
example : raises (Tm.at1 (.lv (.arr1 1)) (.complement [-1])) = true := by decide +kernel
example : allowed (Tm.at1 (.lv (.arr1 1)) (.seqN 0 0 100)) = true := by decide +kernel
example : allowed (Tm.at1 (.lv (.arr1 1)) (.seqN 100 0 100)) = true := by decide +kernel
example : allowed (Tm.at1 (.lv (.arr1 1)) (.seq 0 0 0)) = true := by decide +kernel
example : allowed (Tm.at1 (.lv (.arr1 1)) (.seq 0 0 100)) = true := by decide +kernel
example : allowed (Tm.at1 (.lv (.arr1 1)) (.skipN 100)) = true := by decide +kernel
example : values (Tm.at1 (Tm.at1 (.lv (.arr1 1)) (.seqN 0 3 1)) .reverse) = .ok [2, 1, 0] := by decide +kernel
example : values (Tm.at1 (Tm.at1 (.lv (.arr1 1)) .even) .even) = .ok [0, 4, 8] := by decide +kernel
example : values (Tm.at1 (Tm.at1 (.lv (.arr1 1)) .even) (.vec [0, 1, 3])) = .ok [0, 2, 6] := by decide +kernel
example : values (Tm.at1 (Tm.at1 (Tm.at1 (.lv (.arr1 1)) (.seqN 0 3 1)) .reverse) .odd) = .ok [1] := by decide +kernel
example : raises (Tm.at1 (sq 10) (.seqN (-1) 1 0)) = true := by decide +kernel
example : raises (Tm.at1 (sq 10) (.seqN 1 10 1)) = true := by decide +kernel
example : raises (Tm.at1 (sq 10) (.seqN 0 2 10)) = true := by decide +kernel
example : raises (Tm.at1 (sq 10) (.seq 0 10 1)) = true := by decide +kernel
example : raises (Tm.at1 (sq 10) (.seq (-1) 1 1)) = true := by decide +kernel
example : raises (Tm.at1 (sq 10) (.seq 0 1 (-1))) = true := by decide +kernel
example : raises (Tm.at1 (sq 10) (.skipN 0)) = true := by decide +kernel
example : raises (Tm.at1 (sq 10) (.skipN (-1))) = true := by decide +kernel
example : raises (Tm.at1 (sq 10) (.firstN 11)) = true := by decide +kernel
example : raises (Tm.at1 (sq 10) (.lastN 11)) = true := by decide +kernel
example : raises (Tm.at1 (sq 10) (.vec [-1])) = true := by decide +kernel
example : raises (Tm.at1 (sq 10) (.complement [-1])) = true := by decide +kernel
example : allowed (Tm.at1 (sq 10) (.seqN 0 0 100)) = true := by decide +kernel
example : allowed (Tm.at1 (sq 10) (.seqN 100 0 100)) = true := by decide +kernel
example : allowed (Tm.at1 (sq 10) (.seq 0 0 0)) = true := by decide +kernel
example : allowed (Tm.at1 (sq 10) (.seq 0 0 100)) = true := by decide +kernel
example : allowed (Tm.at1 (sq 10) (.skipN 100)) = true := by decide +kernel
example : values (Tm.at1 (Tm.at1 (sq 10) (.seqN 0 3 1)) .reverse) = .ok [2, 1, 0] := by decide +kernel
example : values (Tm.at1 (Tm.at1 (sq 10) .even) .even) = .ok [0, 4, 8] := by decide +kernel
example : values (Tm.at1 (Tm.at1 (sq 10) .even) (.vec [0, 1, 3])) = .ok [0, 2, 6] := by decide +kernel
example : values (Tm.at1 (Tm.at1 (Tm.at1 (sq 10) (.seqN 0 3 1)) .reverse) .odd) = .ok [1] := by decide +kernel
example : table (Tm.at2 (.lv (.arr2 1)) (.seqN 0 3 1) (.seqN 0 2 1)) = .ok (3, 2, [0, 1, 3, 4, 6, 7]) := by decide +kernel
example : table (Tm.at2 (.lv (.arr2 1)) (.seq 0 2 1) (.seq 0 1 1)) = .ok (3, 2, [0, 1, 3, 4, 6, 7]) := by decide +kernel
example : table (Tm.at2 (.lv (.arr2 1)) (.skipN 2) (.skipN 2)) = .ok (2, 2, [0, 2, 6, 8]) := by decide +kernel
example : table (Tm.at2 (.lv (.arr2 1)) .even .odd) = .ok (2, 1, [1, 7]) := by decide +kernel
example : table (Tm.at2 (.lv (.arr2 1)) (.firstN 2) (.lastN 2)) = .ok (2, 2, [1, 2, 4, 5]) := by decide +kernel
example : table (Tm.at2 (.lv (.arr2 1)) (.vec [0, 2]) (.vec [1, 2])) = .ok (2, 2, [1, 2, 7, 8]) := by decide +kernel
example : table (Tm.at2 (.lv (.arr2 1)) (.vec [0, 1]) (.vec [])) = .ok (0, 0, []) := by decide +kernel
example : table (Tm.at2 (.lv (.arr2 1)) (.vec []) (.vec [0, 1])) = .ok (0, 0, []) := by decide +kernel
example : table (Tm.at2 (sq2 3 3) (.seqN 0 3 1) (.seqN 0 2 1)) = .ok (3, 2, [0, 1, 3, 4, 6, 7]) := by decide +kernel
example : table (Tm.at2 (sq2 3 3) (.seq 0 2 1) (.seq 0 1 1)) = .ok (3, 2, [0, 1, 3, 4, 6, 7]) := by decide +kernel
example : table (Tm.at2 (sq2 3 3) (.skipN 2) (.skipN 2)) = .ok (2, 2, [0, 2, 6, 8]) := by decide +kernel
example : table (Tm.at2 (sq2 3 3) .even .odd) = .ok (2, 1, [1, 7]) := by decide +kernel
example : table (Tm.at2 (sq2 3 3) (.firstN 2) (.lastN 2)) = .ok (2, 2, [1, 2, 4, 5]) := by decide +kernel
example : table (Tm.at2 (sq2 3 3) (.vec [0, 2]) (.vec [1, 2])) = .ok (2, 2, [1, 2, 7, 8]) := by decide +kernel
example : table (Tm.at2 (sq2 3 3) (.vec [0, 1]) (.vec [])) = .ok (0, 0, []) := by decide +kernel
example : table (Tm.at2 (sq2 3 3) (.vec []) (.vec [0, 1])) = .ok (0, 0, []) := by decide +kernel
example : table (Tm.at2 (sq2 0 0) .even .odd) = .ok (0, 0, []) := by decide +kernel

/-! ### tests/empty.cpp:60-126 -/

example : allowed (Tm.at1 (.lv (.arr1 0)) (.all)) = true := by decide +kernel
example : allowed (Tm.at2 (.lv (.arr2 0)) (.all) (.all)) = true := by decide +kernel
example : allowed (Tm.at1 (.lv (.arr1 0)) (.even)) = true := by decide +kernel
example : allowed (Tm.at2 (.lv (.arr2 0)) (.even) (.even)) = true := by decide +kernel
example : allowed (Tm.at1 (.lv (.arr1 0)) (.odd)) = true := by decide +kernel
example : allowed (Tm.at2 (.lv (.arr2 0)) (.odd) (.odd)) = true := by decide +kernel
example : allowed (Tm.at1 (.lv (.arr1 0)) (.firstN 0)) = true := by decide +kernel
example : allowed (Tm.at2 (.lv (.arr2 0)) (.firstN 0) (.firstN 0)) = true := by decide +kernel
example : allowed (Tm.at1 (.lv (.arr1 0)) (.lastN 0)) = true := by decide +kernel
example : allowed (Tm.at2 (.lv (.arr2 0)) (.lastN 0) (.lastN 0)) = true := by decide +kernel
example : allowed (Tm.at1 (.lv (.arr1 0)) (.reverse)) = true := by decide +kernel
example : allowed (Tm.at2 (.lv (.arr2 0)) (.reverse) (.reverse)) = true := by decide +kernel
example : allowed (Tm.at1 (.lv (.arr1 0)) (.skipN 1)) = true := by decide +kernel
example : allowed (Tm.at2 (.lv (.arr2 0)) (.skipN 1) (.skipN 1)) = true := by decide +kernel
example : allowed (Tm.at1 (.lv (.arr1 0)) (.complement [])) = true := by decide +kernel
example : allowed (Tm.at2 (.lv (.arr2 0)) (.complement []) (.complement [])) = true := by decide +kernel
example : allowed (Tm.at1 (.lv (.arr1 0)) (.vec [])) = true := by decide +kernel
example : allowed (Tm.at2 (.lv (.arr2 0)) (.vec []) (.vec [])) = true := by decide +kernel
example : allowed (Tm.at1 (.lv (.arr1 0)) (.seqN 1 0 1)) = true := by decide +kernel
example : allowed (Tm.at2 (.lv (.arr2 0)) (.seqN 1 0 1) (.seqN 1 0 1)) = true := by decide +kernel
example : raises (Tm.at1 (.lv (.arr1 0)) (.seq 0 0 1)) = true := by decide +kernel
example : raises (Tm.at2 (.lv (.arr2 0)) (.seq 0 0 1) (.seq 0 0 1)) = true := by decide +kernel
example : allowed (d := .one) (.unary .ok (.view .view1D (.lv (.arr2 0)))) = true := by decide +kernel
example : allowed (d := .one) (.binary (fun x _ => .ok x) (.view .view1D (.lv (.arr2 0))) (.view .view1D (.lv (.arr2 0)))) = true := by decide +kernel
example : allowed (d := .one) (.merge (.view .view1D (.lv (.arr2 0))) (.view .view1D (.lv (.arr2 0)))) = true := by decide +kernel
example : allowed (d := .one) (.append (.view .view1D (.lv (.arr2 0))) 0) = true := by decide +kernel
example : allowed (d := .one) (.prepend 0 (.view .view1D (.lv (.arr2 0)))) = true := by decide +kernel
example : allowed (d := .one) (sq 0) = true := by decide +kernel
example : allowed (d := .one) (.const1D 0 0) = true := by decide +kernel
example : allowed (d := .two) (.unary .ok (.lv (.arr2 0))) = true := by decide +kernel
example : allowed (d := .two) (.binary (fun x _ => .ok x) (.lv (.arr2 0)) (.lv (.arr2 0))) = true := by decide +kernel
example : allowed (d := .two) (.identity (Stable.intSeq tb) 0) = true := by decide +kernel
example : allowed (d := .two) (.const2D 0 0 0) = true := by decide +kernel
example : raises (d := .one) (.exclude (.view .view1D (.lv (.arr2 0))) 0 1) = true := by decide +kernel
example : raises (d := .one) (.eUnit (Stable.intSeq tb) 0 0) = true := by decide +kernel
example : raises (d := .one) (.linspace (Stable.intSeq tb) 0 0 1) = true := by decide +kernel

/-- The sum of a row or column, `[](auto row) { return sum(row); }`. -/
def addAll (l : List (Res Int)) : Res Int := l.foldlM (fun x y => do SInt.add .int x (← y)) 0

/-- The elements of `irange(A)` and its variants. -/
def rangeOf (k : Range) (t : Tm Int d) : Res (List Int) := do
  let a ← t.build tb mem
  let r ← k.mk tb a mem
  let n ← r.size mem
  readFrom r mem n.toNat 0

def bools : Store Bool :=
  ⟨fun i => if i = 0 then [true, true, false] else [true, false, false], fun _ => ⟨0, 0, []⟩⟩

/-- `int` with its order; powers are computed by multiplication, square roots are not used. -/
def sc : Scalar Int where
  toArith := Stable.intSeq tb
  neg := SInt.neg .int
  lt x y := decide (x < y)
  le x y := decide (x ≤ y)
  eq x y := decide (x = y)
  pow x y := .ok (x ^ y.toNat)
  sqrt x := .ok x

def power (x y : Int) : Res Int := .ok (x ^ y.toNat)

/-- An operation applied to an object. -/
def on {β : Type} (t : Tm Int d) (f : Acc (Store Int) Int → Res β) : Res β := do
  let a ← t.build tb mem
  f a

def readAll (a : Acc (Store Int) Int) : Res (List Int) := do
  let n ← a.size mem
  readFrom a mem n.toNat 0

/-! ### tests/expr.cpp -/

example : values (d := .one) (ArrOp.one .int .plus (sq 3)) = .ok [0, 1, 2] := by decide +kernel
example : values (d := .one) (ArrOp.one .int .minus (sq 3)) = .ok [0, -1, -2] := by decide +kernel
example : values (d := .one) (ArrOp.one .int .not (sq 3)) = .ok [-1, -2, -3] := by decide +kernel
example : values (d := .one) (ArrOp.one .int .abs (sqFrom 3 (-1) 1)) = .ok [1, 0, 1] := by decide +kernel
example : values (d := .one) (ArrOp.cast .long (sq 3)) = .ok [0, 1, 2] := by decide +kernel
example : values (d := .one) (ArrOp.right tb .int .add (sq 3) 1) = .ok [1, 2, 3] := by decide +kernel
example : values (d := .one) (ArrOp.left tb .int .add 1 (sq 3)) = .ok [1, 2, 3] := by decide +kernel
example : values (d := .one) (ArrOp.right tb .int .sub (sq 3) 1) = .ok [-1, 0, 1] := by decide +kernel
example : values (d := .one) (ArrOp.left tb .int .sub 1 (sq 3)) = .ok [1, 0, -1] := by decide +kernel
example : values (d := .one) (ArrOp.right tb .int .mul (sq 3) 2) = .ok [0, 2, 4] := by decide +kernel
example : values (d := .one) (ArrOp.left tb .int .mul 2 (sq 3)) = .ok [0, 2, 4] := by decide +kernel
example : values (d := .one) (ArrOp.right tb .int .band (sq 3) 1) = .ok [0, 1, 0] := by decide +kernel
example : values (d := .one) (ArrOp.left tb .int .band 1 (sq 3)) = .ok [0, 1, 0] := by decide +kernel
example : values (d := .one) (ArrOp.right tb .int .bor (sq 3) 1) = .ok [1, 1, 3] := by decide +kernel
example : values (d := .one) (ArrOp.left tb .int .bor 1 (sq 3)) = .ok [1, 1, 3] := by decide +kernel
example : values (d := .one) (ArrOp.right tb .int .bxor (sq 3) 1) = .ok [1, 0, 3] := by decide +kernel
example : values (d := .one) (ArrOp.left tb .int .bxor 1 (sq 3)) = .ok [1, 0, 3] := by decide +kernel
example : values (d := .one) (ArrOp.right tb .int .div (sq 3) 2) = .ok [0, 0, 1] := by decide +kernel
example : values (d := .one) (ArrOp.left tb .int .div 2 (ArrOp.right tb .int .add (sq 3) 1)) = .ok [2, 1, 0] := by decide +kernel
example : values (d := .one) (ArrOp.right tb .int .rem (sq 3) 2) = .ok [0, 1, 0] := by decide +kernel
example : values (d := .one) (ArrOp.left tb .int .rem 2 (ArrOp.right tb .int .add (sq 3) 1)) = .ok [0, 0, 2] := by decide +kernel
example : values (d := .one) (ArrOp.right tb .int .shl (sq 3) 1) = .ok [0, 2, 4] := by decide +kernel
example : values (d := .one) (ArrOp.left tb .int .shl 2 (sq 3)) = .ok [2, 4, 8] := by decide +kernel
example : values (d := .one) (ArrOp.right tb .int .shr (sq 3) 1) = .ok [0, 0, 1] := by decide +kernel
example : values (d := .one) (ArrOp.left tb .int .shr 2 (sq 3)) = .ok [2, 1, 0] := by decide +kernel
example : values (d := .one) (.append (.append (sq 3) 3) 4) = .ok [0, 1, 2, 3, 4] := by decide +kernel
example : values (d := .one) (.merge (sq 3) (sq 3)) = .ok [0, 1, 2, 0, 1, 2] := by decide +kernel
example : table (.mergeH (sq2 2 2) (.const2D 2 1 1)) = .ok (2, 3, [0, 1, 1, 2, 3, 1]) := by decide +kernel
example : table (.mergeH (.mergeH (sq2 2 2) (.const2D 2 1 1)) (.const2D 2 1 2)) = .ok (2, 4, [0, 1, 1, 2, 2, 3, 1, 2]) := by decide +kernel
example : table (.mergeV (sq2 2 2) (.const2D 1 2 1)) = .ok (3, 2, [0, 1, 2, 3, 1, 1]) := by decide +kernel
example : table (.mergeV (.mergeV (sq2 2 2) (.const2D 1 2 1)) (.const2D 1 2 2)) = .ok (4, 2, [0, 1, 2, 3, 1, 1, 2, 2]) := by decide +kernel
example : values (d := .one) (.excludeLast (sq 4) 0) = .ok [0, 1, 2] := by decide +kernel
example : values (d := .one) (.exclude (sq 4) 0 1) = .ok [1, 2, 3] := by decide +kernel
example : values (d := .one) (.exclude (sq 4) 0 2) = .ok [2, 3] := by decide +kernel
example : values (d := .one) (sq 4) = .ok [0, 1, 2, 3] := by decide +kernel
example : values (d := .one) (sqFrom 4 1 1) = .ok [1, 2, 3, 4] := by decide +kernel
example : values (d := .one) (sqFrom 4 1 2) = .ok [1, 3, 5, 7] := by decide +kernel
example : values (d := .one) (.eUnit (Stable.intSeq tb) 2 5) = .ok [0, 0, 1, 0, 0] := by decide +kernel
example : table (.identity (Stable.intSeq tb) 2) = .ok (2, 2, [1, 0, 0, 1]) := by decide +kernel
example : table (.transpose (sq2 3 2)) = .ok (2, 3, [0, 2, 4, 1, 3, 5]) := by decide +kernel
example : values (d := .one) (.const1D 3 1) = .ok [1, 1, 1] := by decide +kernel
example : table (.const2D 2 3 1) = .ok (2, 3, [1, 1, 1, 1, 1, 1]) := by decide +kernel
example : values (d := .one) (Tm.prependN (-2) [-1] (sq 3)) = .ok [-2, -1, 0, 1, 2] := by decide +kernel
example : values (d := .one) (.reduce true addAll (sq2 2 3)) = .ok [3, 12] := by decide +kernel
example : values (d := .one) (.reduce false addAll (sq2 2 3)) = .ok [3, 5, 7] := by decide +kernel
example : rangeOf .elems (sq 4) = .ok [0, 1, 2, 3] := by decide +kernel
example : rangeOf .elemsM1 (sq 4) = .ok [0, 1, 2] := by decide +kernel
example : rangeOf .rows (sq2 3 2) = .ok [0, 1, 2] := by decide +kernel
example : rangeOf .rowsM1 (sq2 3 2) = .ok [0, 1] := by decide +kernel
example : rangeOf .cols (sq2 3 2) = .ok [0, 1] := by decide +kernel
example : rangeOf .colsM1 (sq2 3 2) = .ok [0] := by decide +kernel
example : valuesIn bools (ArrOp.arraysBool .and (.lv (.arr1 0)) (.lv (.arr1 1))) = .ok [true, false, false] := by decide +kernel
example : valuesIn bools (ArrOp.arraysBool .or (.lv (.arr1 0)) (.lv (.arr1 1))) = .ok [true, true, false] := by decide +kernel
example : valuesIn bools (ArrOp.arraysBool .xor (.lv (.arr1 0)) (.lv (.arr1 1))) = .ok [false, true, false] := by decide +kernel
example : valuesIn bools (ArrOp.notBool (.lv (.arr1 0))) = .ok [false, false, true] := by decide +kernel

/-! ### tests/array_ops.cpp -/

example : on (sqFrom 5 1 1) (fun a => Ops.sum sc.toArith a mem 0) = .ok 15 := by decide +kernel
example : on (sqFrom 5 1 1) (fun a => Ops.prod sc.toArith a mem 0) = .ok 120 := by decide +kernel
example : on (sqFrom 5 1 1) (fun a => Ops.mean sc.toArith a mem 0) = .ok 3 := by decide +kernel
example : on (sqFrom 5 1 1) (fun a => Ops.min sc a mem 0) = .ok 1 := by decide +kernel
example : on (sqFrom 5 1 1) (fun a => Ops.max sc a mem 0) = .ok 5 := by decide +kernel
example : on (sqFrom 5 1 1) (fun a => Ops.minIndex1 sc a mem (-1, 0)) = .ok (0, 1) := by decide +kernel
example : on (sqFrom 5 1 1) (fun a => Ops.maxIndex1 sc a mem (-1, 0)) = .ok (4, 5) := by decide +kernel
example : on (sqFrom 5 1 1) (fun a => Ops.dotProd tb .one sc.toArith a a mem 0) = .ok 55 := by decide +kernel
example : on (sqFrom 5 1 1) (fun a => Ops.polynomial tb sc.toArith a 2 mem 0) = .ok 129 := by decide +kernel
example : on (sqFrom 5 1 1) (fun a => Ops.normInf sc a mem 0) = .ok 5 := by decide +kernel
example : on (sqFrom 5 1 1) (fun a => Ops.norm1 sc a mem 0) = .ok 15 := by decide +kernel
example : on (sqFrom 5 1 1) (fun a => Ops.norm1Scaled sc a mem 0) = .ok 3 := by decide +kernel
example : on (sqFrom 5 1 1) (fun a => Ops.hasZero sc a mem false) = .ok false := by decide +kernel
example : on (sq 5) (fun a => Ops.hasZero sc a mem false) = .ok true := by decide +kernel
example : on (.const1D 5 0) (fun a => Ops.allZeros sc a mem false) = .ok true := by decide +kernel
example : on (.eUnit (Stable.intSeq tb) 2 5) (fun a => Ops.allZeros sc a mem false) = .ok false := by decide +kernel
example : on (sqFrom 5 1 1) (fun a => Ops.allPos sc a mem false) = .ok true := by decide +kernel
example : on (sq 5) (fun a => Ops.allPos sc a mem false) = .ok false := by decide +kernel
example : on (sqFrom 5 (-1) (-1)) (fun a => Ops.allNeg sc a mem false) = .ok true := by decide +kernel
example : on (sqFrom 5 0 (-1)) (fun a => Ops.allNeg sc a mem false) = .ok false := by decide +kernel
example : on (sqFrom 5 0 (-1)) (fun a => Ops.allNonPos sc a mem false) = .ok true := by decide +kernel
example : on (sqFrom 5 1 (-1)) (fun a => Ops.allNonPos sc a mem false) = .ok false := by decide +kernel
example : on (sq 5) (fun a => Ops.allNonNeg sc a mem false) = .ok true := by decide +kernel
example : on (sqFrom 5 (-1) 1) (fun a => Ops.allNonNeg sc a mem false) = .ok false := by decide +kernel
example : on (.const1D 5 2) (fun a => Ops.allOf (Ops.isValue sc 2) a mem false) = .ok true := by decide +kernel
example : on (sq 5) (fun a => Ops.anyOf (Ops.isValue sc 2) a mem false) = .ok true := by decide +kernel
example : on (sq 5) (fun a => Ops.noneOf (Ops.isValue sc 5) a mem false) = .ok true := by decide +kernel
example : on (sq 5) (fun a1 => on (d := .one) (ArrOp.right tb .int .add (sq 5) 1) (fun a2 => Ops.allOf2 tb .one (fun x y => .ok (x + 1 == y)) a1 a2 mem false)) = .ok true := by decide +kernel
example : on (sq 5) (fun a1 => on (d := .one) (ArrOp.right tb .int .add (sq 5) 1) (fun a2 => Ops.anyOf2 tb .one (fun x y => .ok (x + y == 5)) a1 a2 mem false)) = .ok true := by decide +kernel
example : on (sq 5) (fun a1 => on (d := .one) (ArrOp.right tb .int .add (sq 5) 1) (fun a2 => Ops.noneOf2 tb .one (fun x y => .ok (x + y == 0)) a1 a2 mem false)) = .ok true := by decide +kernel
example : on (sq 5) (fun a => (do readAll (← Ops.inOpenRange tb sc 1 4 a a mem))) = .ok [2, 3] := by decide +kernel
example : on (sq 5) (fun a => (do readAll (← Ops.inClosedRange tb sc 1 4 a a mem))) = .ok [1, 2, 3, 4] := by decide +kernel
example : on (sq 5) (fun a => (do readAll (← Ops.inCondRange tb (fun x => x % 2 == 0) a a mem))) = .ok [0, 2, 4] := by decide +kernel
example : on (.lv (.arr1 3)) (fun c => on (.lv (.arr1 4)) (fun x => on (.lv (.arr1 5)) (fun p => Ops.gpolynomial tb sc.toArith power c x p mem 0))) = .ok 22 := by decide +kernel
example : on (.exclude (sqFrom 5 1 1) 2 1) (fun c => on (.exclude (sq 5) 2 1) (fun p => Ops.polynomialPowers tb sc.toArith power c 2 p mem 0)) = .ok 117 := by decide +kernel
example : on (.lv (.arr1 0)) (fun a => Ops.sum sc.toArith a mem 0) = .ok 0 := by decide +kernel
example : on (.lv (.arr1 0)) (fun a => Ops.prod sc.toArith a mem 0) = .ok 0 := by decide +kernel
example : on (.lv (.arr1 0)) (fun a => Ops.mean sc.toArith a mem 0) = .ok 0 := by decide +kernel
example : on (.lv (.arr1 0)) (fun a => Ops.min sc a mem 0) = .ok 0 := by decide +kernel
example : on (.lv (.arr1 0)) (fun a => Ops.max sc a mem 0) = .ok 0 := by decide +kernel
example : on (.lv (.arr1 0)) (fun a => Ops.normInf sc a mem 0) = .ok 0 := by decide +kernel
example : on (.lv (.arr1 0)) (fun a => Ops.norm1 sc a mem 0) = .ok 0 := by decide +kernel
example : on (.lv (.arr1 0)) (fun a => Ops.norm1Scaled sc a mem 0) = .ok 0 := by decide +kernel
example : on (.lv (.arr1 0)) (fun a => Ops.norm2 tb .one sc a mem 0) = .ok 0 := by decide +kernel
example : on (.lv (.arr1 0)) (fun a => Ops.norm2Scaled tb .one sc a mem 0) = .ok 0 := by decide +kernel
example : on (.lv (.arr1 0)) (fun a => Ops.normLp tb sc a mem 3 0) = .ok 0 := by decide +kernel
example : on (.lv (.arr1 0)) (fun a => Ops.normLpScaled tb sc a mem 3 0) = .ok 0 := by decide +kernel
example : on (.lv (.arr1 0)) (fun a => Ops.minIndex1 sc a mem (-1, 0)) = .ok (-1, 0) := by decide +kernel
example : on (.lv (.arr1 0)) (fun a => Ops.maxIndex1 sc a mem (-1, 0)) = .ok (-1, 0) := by decide +kernel
example : on (.lv (.arr1 0)) (fun a => Ops.dotProd tb .one sc.toArith a a mem 0) = .ok 0 := by decide +kernel
example : on (.lv (.arr1 0)) (fun a => Ops.allFinite (fun _ => true) a mem true) = .ok true := by decide +kernel
example : on (.lv (.arr1 0)) (fun a => Ops.hasSuch (fun _ => true) a mem false) = .ok false := by decide +kernel
example : on (.lv (.arr1 0)) (fun a => Ops.hasZero sc a mem false) = .ok false := by decide +kernel
example : on (.lv (.arr1 0)) (fun a => Ops.allZeros sc a mem false) = .ok false := by decide +kernel
example : on (.lv (.arr1 0)) (fun a => Ops.allPos sc a mem false) = .ok false := by decide +kernel
example : on (.lv (.arr1 0)) (fun a => Ops.allNeg sc a mem false) = .ok false := by decide +kernel
example : on (.lv (.arr1 0)) (fun a => Ops.allNonPos sc a mem false) = .ok false := by decide +kernel
example : on (.lv (.arr1 0)) (fun a => Ops.allNonNeg sc a mem false) = .ok false := by decide +kernel
example : on (.lv (.arr1 0)) (fun a => Ops.noneOf (Ops.isValue sc 0) a mem false) = .ok false := by decide +kernel
example : on (.lv (.arr1 0)) (fun a => Ops.noneOf (fun _ => .ok true) a mem false) = .ok false := by decide +kernel
example : on (.lv (.arr1 0)) (fun a => Ops.anyOf (Ops.isValue sc 0) a mem false) = .ok false := by decide +kernel
example : on (.lv (.arr1 0)) (fun a => Ops.anyOf (fun _ => .ok true) a mem false) = .ok false := by decide +kernel
example : on (.lv (.arr1 0)) (fun a => Ops.allOf (Ops.isValue sc 0) a mem false) = .ok false := by decide +kernel
example : on (.lv (.arr1 0)) (fun a => Ops.allOf (fun _ => .ok true) a mem false) = .ok false := by decide +kernel

/-- What a statement does: the outcome, and the arrays after it. -/
def runs (c : Spec.EStmt Int) : Res Unit := (estmtRun tb c mem).1

def after1 (c : Spec.EStmt Int) (i : Nat) : List Int := (estmtRun tb c mem).2.a1 i

def after2 (c : Spec.EStmt Int) (i : Nat) : Arr2 Int := (estmtRun tb c mem).2.a2 i


/-! ### tests/array1D.cpp:150-335 and tests/array2D.cpp:160-345; array number 1 has 10 elements, or 3 rows and columns -/

example : runs (.eval (.list (.arr1 1) [0, 0, 0])) = .trap .exception := by decide +kernel
example : runs (.list (.copyAssign 1 2)) = .trap .exception := by decide +kernel
example : runs (.eval (.assign (.arr1 1) (Tm.at1 (.lv (.arr1 2)) .all))) = .trap .exception := by decide +kernel
example : runs (.list (.resize 0 (-1) false)) = .trap .exception := by decide +kernel
example : runs (.list (.resize 0 0 false)) = .ok () := by decide +kernel
example : runs (.list (.remove 1 0 0)) = .trap .exception := by decide +kernel
example : runs (.list (.remove 1 (-1) 1)) = .trap .exception := by decide +kernel
example : runs (.list (.remove 1 0 11)) = .trap .exception := by decide +kernel
example : runs (.list (.remove 1 0 10)) = .ok () := by decide +kernel
example : runs (.use1 1 (.insert (-1)) (.lv (.arr1 1))) = .trap .exception := by decide +kernel
example : runs (.use1 1 (.insert 11) (.lv (.arr1 1))) = .trap .exception := by decide +kernel
example : runs (.use1 1 (.insert 10) (.lv (.arr1 1))) = .ok () := by decide +kernel
example : runs (.mat (.call 0 (.resize (-1) (-1) false))) = .trap .exception := by decide +kernel
example : runs (.mat (.call 0 (.resize 0 5 false))) = .trap .exception := by decide +kernel
example : runs (.mat (.call 0 (.resize 0 0 false))) = .ok () := by decide +kernel
example : runs (.mat (.call 1 (.removeRows 0 0))) = .trap .exception := by decide +kernel
example : runs (.mat (.call 1 (.removeRows (-1) 1))) = .trap .exception := by decide +kernel
example : runs (.mat (.call 1 (.removeRows 0 4))) = .trap .exception := by decide +kernel
example : runs (.mat (.call 1 (.removeCols 0 0))) = .trap .exception := by decide +kernel
example : runs (.mat (.call 1 (.removeCols (-1) 1))) = .trap .exception := by decide +kernel
example : runs (.mat (.call 1 (.removeCols 0 4))) = .trap .exception := by decide +kernel
example : runs (.mat (.call 1 (.removeRows 0 3))) = .ok () := by decide +kernel
example : runs (.use2 1 (.insertRows (-1)) (.lv (.arr2 1))) = .trap .exception := by decide +kernel
example : runs (.use2 1 (.insertCols (-1)) (.lv (.arr2 1))) = .trap .exception := by decide +kernel
example : runs (.use2 1 (.insertRows 4) (.lv (.arr2 1))) = .trap .exception := by decide +kernel
example : runs (.use2 1 (.insertCols 4) (.lv (.arr2 1))) = .trap .exception := by decide +kernel
example : runs (.use2 1 (.insertRows 3) (.lv (.arr2 1))) = .ok () := by decide +kernel
example : after1 (.list (.remove 1 0 1)) 1 = [1, 2, 3, 4, 5, 6, 7, 8, 9] := by decide +kernel
example : after1 (.list (.remove 1 4 3)) 1 = [0, 1, 2, 3, 7, 8, 9] := by decide +kernel
example : after1 (.list (.removeFront 1 4)) 1 = [4, 5, 6, 7, 8, 9] := by decide +kernel
example : after1 (.list (.removeBack 1 4)) 1 = [0, 1, 2, 3, 4, 5] := by decide +kernel
example : after1 (.list (.removeLast 1 0)) 1 = [0, 1, 2, 3, 4, 5, 6, 7, 8] := by decide +kernel
example : after1 (.list (.removeVec 1 [0, 2, 5, 9])) 1 = [1, 3, 4, 6, 7, 8] := by decide +kernel
example : after1 (.list (.insert 2 0 9)) 2 = [9, 0, 1, 2, 3, 4] := by decide +kernel
example : after1 (.list (.insert 2 2 9)) 2 = [0, 1, 9, 2, 3, 4] := by decide +kernel
example : after1 (.list (.insert 2 5 9)) 2 = [0, 1, 2, 3, 4, 9] := by decide +kernel
example : after1 (.use1 2 (.insert 2) (.lv (.arr1 3))) 2 = [0, 1, 1, 2, 2, 2, 3, 4] := by decide +kernel
example : after1 (.use1 2 .insertFront (.lv (.arr1 3))) 2 = [1, 2, 2, 0, 1, 2, 3, 4] := by decide +kernel
example : after1 (.use1 2 .insertBack (.lv (.arr1 3))) 2 = [0, 1, 2, 3, 4, 1, 2, 2] := by decide +kernel
example : after1 (.list (.swap 1 3)) 1 = [1, 2, 2] := by decide +kernel
example : after1 (.list (.swap 1 3)) 3 = [0, 1, 2, 3, 4, 5, 6, 7, 8, 9] := by decide +kernel
example : after1 (.list (.swap 1 1)) 1 = [0, 1, 2, 3, 4, 5, 6, 7, 8, 9] := by decide +kernel
example : after1 (.list (.moveAssign 3 4)) 3 = [2, 2, 3] := by decide +kernel
example : after1 (.list (.moveAssign 3 4)) 4 = [] := by decide +kernel
example : after1 (.list (.moveAssign 3 3)) 3 = [1, 2, 2] := by decide +kernel
example : after1 (.list (.resizeAndAssignMove 1 3)) 1 = [1, 2, 2] := by decide +kernel
example : after1 (.list (.resizeAndAssignMove 1 3)) 3 = [] := by decide +kernel
example : runs (.use1 2 .resizeAndAssign (ArrOp.arrays tb .int .div (.lv (.arr1 2)) (.lv (.arr1 2)))) = .trap .exception := by decide +kernel
example : after1 (.use1 2 .resizeAndAssign (ArrOp.arrays tb .int .div (.lv (.arr1 2)) (.lv (.arr1 2)))) 2 = [0, 1, 2, 3, 4] := by decide +kernel
example : after2 (.mat (.call 1 (.removeRows 1 2))) 1 = ⟨1, 3, [0, 1, 2]⟩ := by decide +kernel
example : after2 (.mat (.call 1 (.removeRows 0 3))) 1 = ⟨0, 0, []⟩ := by decide +kernel
example : after2 (.mat (.call 1 (.removeCols 1 2))) 1 = ⟨3, 1, [0, 3, 6]⟩ := by decide +kernel
example : after2 (.mat (.call 1 (.removeCols 0 3))) 1 = ⟨0, 0, []⟩ := by decide +kernel
example : after2 (.use2 1 (.insertRows 1) (.const2D 1 3 9)) 1 = ⟨4, 3, [0, 1, 2, 9, 9, 9, 3, 4, 5, 6, 7, 8]⟩ := by decide +kernel
example : after2 (.use2 1 (.insertCols 3) (.const2D 3 1 9)) 1 = ⟨3, 4, [0, 1, 2, 9, 3, 4, 5, 9, 6, 7, 8, 9]⟩ := by decide +kernel
example : after2 (.useRow 1 (.insertRow 0) (.lv (.arr1 3))) 1 = ⟨4, 3, [1, 2, 2, 0, 1, 2, 3, 4, 5, 6, 7, 8]⟩ := by decide +kernel
example : after2 (.useRow 1 (.insertCol 1) (.lv (.arr1 3))) 1 = ⟨3, 4, [0, 1, 1, 2, 3, 2, 4, 5, 6, 2, 7, 8]⟩ := by decide +kernel

end Spp.Conformance
