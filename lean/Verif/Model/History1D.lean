import Verif.Spec.History1D

/- Executing the statements of Spec/History1D.lean with the modelled member functions. -/

namespace Spp
open Spec (Stmt)

variable {α : Type} [Inhabited α]

/-- The operand `Aj` of a member function of `Ai`: if it is the same object its elements are those
of the array being modified. Statements that call the member functions of array_base1D.hpp:130-520. -/
def Vars.operand (s : Vars α) (i j : Nat) : Src (List α) α :=
  if i = j then ⟨(s i).length, fun l k => rd l k⟩ else Src.ofList (s j)

/-- Execute one statement: calls the member functions of array_base1D.hpp as cited in
Model/Array1D.lean. -/
def exec (b : Build) : Stmt α → Op (Vars α) Unit
  | .fill i x => Vars.on i (Arr1.assignValue x)
  | .assignList i xs => Vars.on i (Arr1.assign b (Src.ofList xs))
  | .copyAssign i j => Vars.copyAssign b i j
  | .moveAssign i j => Vars.moveAssign b i j
  | .swap i j => Vars.swap i j
  | .resize i n p => Vars.on i (Arr1.resize b n p)
  | .resizeAndAssign i j => fun s => Vars.on i (Arr1.resizeAndAssign b (s.operand i j)) s
  | .resizeAndAssignMove i j => Vars.resizeAndAssignMove i j
  | .remove i p c => Vars.on i (Arr1.remove b p c)
  | .removeFront i c => Vars.on i (Arr1.removeFront b c)
  | .removeBack i c => Vars.on i (Arr1.removeBack b c)
  | .removeLast i k => Vars.on i (Arr1.removeLast b k)
  | .removeVec i idx => Vars.on i (Arr1.removeVec b idx)
  | .insert i p x => Vars.on i (Arr1.insert b p x)
  | .insertFront i x => Vars.on i (Arr1.insertFront b x)
  | .insertBack i x => Vars.on i (Arr1.insertBack b x)
  | .insertArr i p j => fun s => Vars.on i (Arr1.insertArr b p (s.operand i j)) s
  | .insertFrontArr i j => fun s => Vars.on i (Arr1.insertFrontArr b (s.operand i j)) s
  | .insertBackArr i j => fun s => Vars.on i (Arr1.insertBackArr b (s.operand i j)) s

/-- Run a program that catches the exception of every rejected statement and goes on.
Statements that call the member functions of array_base1D.hpp:130-520. -/
def execAll (b : Build) (s : Vars α) : List (Stmt α) → Res (Vars α)
  | [] => .ok s
  | c :: cs =>
    match exec b c s with
    | (.ok _, s') => execAll b s' cs
    | (.trap .exception, s') => execAll b s' cs
    | (.trap .abort, _) => .trap .abort
    | (.ub, _) => .ub

end Spp
