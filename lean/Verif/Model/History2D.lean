import Verif.Spec.History2D

/- Executing the statements of Spec/History2D.lean with the modelled member functions. -/

namespace Spp
open Spec (Stmt2 Call2 CallArr2)

variable {α : Type} [Inhabited α]

/-- The operand `Aj` of a member function of `Ai`: if it is the same object its elements are those
of the array being modified. Statements that call the member functions of array_base2D.hpp:153-732. -/
def Vars2.operand (s : Vars2 α) (i j : Nat) : Src2 (Arr2 α) α :=
  if i = j then ⟨(s i).rows, (s i).cols, fun a k => rd a.data k, fun a p q => Arr2.rd2 a p q, true⟩
  else Arr2.toSrc (s j)

/-- Calls the member functions of array_base2D.hpp as cited in Model/Array2D.lean. -/
def execCall2 (b : Build) : Call2 α → Op (Arr2 α) Unit
  | .fill x => Arr2.assignValue x
  | .assignList L => Arr2.assignList b L
  | .resize m n p => Arr2.resize b m n p
  | .removeRows p c => Arr2.removeRows b p c
  | .removeCols p c => Arr2.removeCols b p c
  | .removeRow p => Arr2.removeRow b p
  | .removeCol p => Arr2.removeCol b p
  | .removeLastRow => Arr2.removeRowLast b 0
  | .removeLastCol => Arr2.removeColLast b 0
  | .removeRowsFront c => Arr2.removeRowsFront b c
  | .removeRowsBack c => Arr2.removeRowsBack b c
  | .removeColsFront c => Arr2.removeColsFront b c
  | .removeColsBack c => Arr2.removeColsBack b c
  | .removeRowsVec idx => Arr2.removeRowsVec b idx
  | .removeColsVec idx => Arr2.removeColsVec b idx
  | .insertRow p xs => Arr2.insertRow b p (Src.ofList xs)
  | .insertRowFront xs => Arr2.insertRowFront b (Src.ofList xs)
  | .insertRowBack xs => Arr2.insertRowBack b (Src.ofList xs)
  | .insertCol p xs => Arr2.insertCol b p (Src.ofList xs)
  | .insertColFront xs => Arr2.insertColFront b (Src.ofList xs)
  | .insertColBack xs => Arr2.insertColBack b (Src.ofList xs)

/-- Calls with an array operand, array_base2D.hpp as cited in Model/Array2D.lean. -/
def execCallArr2 (b : Build) (src : Src2 (Arr2 α) α) : CallArr2 → Op (Arr2 α) Unit
  | .assign => Arr2.assign b src
  | .resizeAndAssign => Arr2.resizeAndAssign b src
  | .insertRows p => Arr2.insertRows b p src
  | .insertRowsFront => Arr2.insertRowsFront b src
  | .insertRowsBack => Arr2.insertRowsBack b src
  | .insertCols p => Arr2.insertCols b p src
  | .insertColsFront => Arr2.insertColsFront b src
  | .insertColsBack => Arr2.insertColsBack b src

/-- Execute one statement. Statements that call the member functions of array_base2D.hpp:153-732. -/
def exec2 (b : Build) : Stmt2 α → Op (Vars2 α) Unit
  | .call i c => Vars2.on i (execCall2 b c)
  | .callArr i j c => fun s => Vars2.on i (execCallArr2 b (s.operand i j) c) s
  | .copyAssign i j => Vars2.copyAssign b i j
  | .moveAssign i j => Vars2.moveAssign b i j
  | .swap i j => Vars2.swap i j
  | .resizeAndAssignMove i j => Vars2.resizeAndAssignMove i j

/-- Run a program that catches the exception of every rejected statement and goes on.
Statements that call the member functions of array_base2D.hpp:153-732. -/
def execAll2 (b : Build) (s : Vars2 α) : List (Stmt2 α) → Res (Vars2 α)
  | [] => .ok s
  | c :: cs =>
    match exec2 b c s with
    | (.ok _, s') => execAll2 b s' cs
    | (.trap .exception, s') => execAll2 b s' cs
    | (.trap .abort, _) => .trap .abort
    | (.ub, _) => .ub

end Spp
