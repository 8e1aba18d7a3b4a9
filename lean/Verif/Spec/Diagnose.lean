import Verif.Core

/-
What the library says when it rejects something: the text of its exceptions and of `print_config_info`.
-/

namespace Spp.Spec

/-- Why something is rejected, as far as the text tells. -/
inductive Reason where
  | unnamed
  | range
  | division
  | remainder
  | shiftFirst
  | shiftSecond
  | input
  | path
  deriving DecidableEq

/-- The words for it. -/
def Reason.words : Reason → String
  | .unnamed => ""
  | .range => "OUT OF RANGE!"
  | .division => "INTEGER DIVISION BY 0!"
  | .remainder => "MODULO DIVISION BY 0!"
  | .shiftFirst => "FIRST SHIFT OPERAND HAS A NEGATIVE VALUE!"
  | .shiftSecond => "SECOND SHIFT OPERAND HAS A NEGATIVE VALUE!"
  | .input => "Invalid input.\n"
  | .path => "Invalid file path.\n"

/-- Where in the source the check is, and its condition. -/
structure Place where
  file : List Char
  func : String
  line : Nat
  cond : String

/-- The text of the exception. -/
def message (r : Reason) (p : Place) : List Char :=
  r.words.toList ++ "File: ".toList ++ p.file ++ s!", function: {p.func}, line: {p.line}:\n".toList ++
    s!"{p.cond} failed, exception thrown.".toList

/-- What a checked operation ends with: the exceptions carry their text. -/
inductive Told (α : Type) where
  | ok (a : α)
  | thrown (what : List Char)
  | aborted
  | ub
  deriving DecidableEq

/-- The outcome without the text. -/
def Told.outcome {α : Type} : Told α → Res α
  | .ok a => .ok a
  | .thrown _ => .trap .exception
  | .aborted => .trap .abort
  | .ub => .ub

/-- The macros with which the library is compiled. -/
structure Config where
  debugOff : Bool
  exceptions : Bool
  quad : Bool
  stacktrace : Bool
  deriving DecidableEq

end Spp.Spec
