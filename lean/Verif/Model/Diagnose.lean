import Verif.Spec.Diagnose
import Verif.Model.IO

/-
The text of exceptions: the macros of strictpp/StrictCommon/error.hpp with their messages, and the checks of the integer
operators, of element access and of file access with the place where they stand.  The path of the header file is whatever
`__FILE__` is on the machine that compiles; it is the parameter `file`.
-/

namespace Spp

open Spec (Place Told Reason Config)

/-- What the `;` between two statements does: an exception, an abort and undefined behaviour end the function.
Used for strict_val.hpp:172-212, 400-433 and derived1D.hpp:56-92, derived2D.hpp:61-111. -/
instance : Monad Told where
  pure := .ok
  bind x f := match x with
    | .ok a => f a
    | .thrown w => .thrown w
    | .aborted => .aborted
    | .ub => .ub

namespace Diag

/-- An operation that has no check of its own, as a part of a function that has one.
The built-in operators that strict_val.hpp:172-212, 400-433 calls, and array_base1D.hpp:471-479. -/
def part {α : Type} : Res α → Told α
  | .ok a => .ok a
  | .trap .exception => .thrown []
  | .trap .abort => .aborted
  | .ub => .ub

/-- `trace_err(file, func, line)`, error.hpp:33-37. -/
def traceErr (file : List Char) (func : String) (line : Nat) : List Char :=
  "File: ".toList ++ file ++ ", function: ".toList ++ func.toList ++ ", line: ".toList ++ IO.digits line ++
    ":".toList ++ "\n".toList

/-- The argument of `StrictException`, error.hpp:77-78. -/
def text (msg : String) (p : Place) : List Char :=
  msg.toList ++ traceErr p.file p.func p.line ++ p.cond.toList ++ " failed, exception thrown.".toList

/-- `ASSERT_STRICT_ALWAYS_MSG(condition, msg)`, error.hpp:62-82. -/
def always (b : Build) (msg : String) (p : Place) (c : Bool) : Told Unit :=
  if c then .ok ()
  else if b.exceptions then .thrown (text msg p)
  else if b.ndebug then .ok ()
  else .aborted

/-- `ASSERT_STRICT_DEBUG_MSG(condition, msg)`, error.hpp:86-94. -/
def debug (b : Build) (msg : String) (p : Place) (c : Bool) : Told Unit :=
  if b.debugOff then .ok () else always b msg p c

/-- `ASSERT_STRICT_RANGE_DEBUG`, error.hpp:98. -/
def rangeDebug (b : Build) : Place → Bool → Told Unit := debug b "OUT OF RANGE!"

/-- `ASSERT_STRICT_RANGE_ALWAYS`, error.hpp:100. -/
def rangeAlways (b : Build) : Place → Bool → Told Unit := always b "OUT OF RANGE!"

/-- `ASSERT_STRICT_DIVISION_DEBUG`, error.hpp:104-105. -/
def divisionDebug (b : Build) : Place → Bool → Told Unit := debug b "INTEGER DIVISION BY 0!"

/-- `ASSERT_STRICT_REMAINDER_DEBUG`, error.hpp:107-108. -/
def remainderDebug (b : Build) : Place → Bool → Told Unit := debug b "MODULO DIVISION BY 0!"

/-- `ASSERT_STRICT_SHIFT_FIRST_DEBUG`, error.hpp:110-111. -/
def shiftFirstDebug (b : Build) : Place → Bool → Told Unit :=
  debug b "FIRST SHIFT OPERAND HAS A NEGATIVE VALUE!"

/-- `ASSERT_STRICT_SHIFT_SECOND_DEBUG`, error.hpp:113-114. -/
def shiftSecondDebug (b : Build) : Place → Bool → Told Unit :=
  debug b "SECOND SHIFT OPERAND HAS A NEGATIVE VALUE!"

/-! ### Integers -/

/-- `operator/`, strict_val.hpp:400-406. -/
def div (b : Build) (file : List Char) (t : IntTy) (x y : Int) : Told Int := do
  divisionDebug b ⟨file, "operator/", 403, "T{y} != 0"⟩ (y != 0)
  part (SInt.builtinDiv t x y)

/-- `operator%`, strict_val.hpp:409-413. -/
def rem (b : Build) (file : List Char) (t : IntTy) (x y : Int) : Told Int := do
  remainderDebug b ⟨file, "operator%", 411, "T{y} != 0"⟩ (y != 0)
  part (SInt.builtinRem t x y)

/-- `operator<<`, strict_val.hpp:416-423. -/
def shl (b : Build) (file : List Char) (t : IntTy) (x y : Int) : Told Int := do
  if t.signed then do
    shiftFirstDebug b ⟨file, "operator<<", 419, "T{x} > -1"⟩ (decide (x > -1))
    shiftSecondDebug b ⟨file, "operator<<", 420, "T{y} > -1"⟩ (decide (y > -1))
    part (SInt.builtinShl t x y)
  else part (SInt.builtinShl t x y)

/-- `operator>>`, strict_val.hpp:426-433. -/
def shr (b : Build) (file : List Char) (t : IntTy) (x y : Int) : Told Int := do
  if t.signed then do
    shiftFirstDebug b ⟨file, "operator>>", 429, "T{x} > -1"⟩ (decide (x > -1))
    shiftSecondDebug b ⟨file, "operator>>", 430, "T{y} > -1"⟩ (decide (y > -1))
    part (SInt.builtinShr t x y)
  else part (SInt.builtinShr t x y)

/-! ### Elements -/

section

variable {α : Type}

/-- `operator[]`, derived1D.hpp:56-68; `const` tells which of the two overloads.  The position is resolved twice, with
the same outcome. -/
def sub1 (b : Build) (file : List Char) (const : Bool) (l : List α) (p : Pos) : Told α := do
  let i ← part (p.resolve (len l))
  rangeDebug b ⟨file, "operator[]", if const then 66 else 59, "valid_index(*this, index_helper(*this, i))"⟩
    (validIndex (len l) i)
  part (rd l i)

/-- `at`, derived1D.hpp:80-92. -/
def at1 (b : Build) (file : List Char) (const : Bool) (l : List α) (p : Pos) : Told α := do
  let i ← part (p.resolve (len l))
  rangeAlways b ⟨file, "at", if const then 90 else 83, "valid_index(*this, index_helper(*this, i))"⟩
    (validIndex (len l) i)
  part (rd l i)

/-- `operator()(i, j)`, derived2D.hpp:61-75. -/
def sub2 (b : Build) (file : List Char) (const : Bool) (rows cols : Int) (l : List α) (p q : Pos) : Told α := do
  let i ← part (p.resolve rows)
  let j ← part (q.resolve cols)
  rangeDebug b ⟨file, "operator()", if const then 73 else 65, "valid_index(*this, ih, jh)"⟩
    (validIndex rows i && validIndex cols j)
  let o ← part (Elem2.off cols i j)
  part (rd l o)

/-- `at(i, j)`, derived2D.hpp:97-111. -/
def at2 (b : Build) (file : List Char) (const : Bool) (rows cols : Int) (l : List α) (p q : Pos) : Told α := do
  let i ← part (p.resolve rows)
  let j ← part (q.resolve cols)
  rangeAlways b ⟨file, "at", if const then 109 else 101, "valid_index(*this, ih, jh)"⟩
    (validIndex rows i && validIndex cols j)
  let o ← part (Elem2.off cols i j)
  part (rd l o)

end

/-! ### Files -/

/-- Opening the file in `read_from_file`, array_IO.hpp:359-374; `line` is 362 or 371. -/
def openFile (b : Build) (file : List Char) (line : Nat) (contents : Option (List Char)) : Told IO.Stream := do
  let s : IO.Stream := match contents with
    | some t => .ofText t
    | none => ⟨[], false, true⟩
  always b "Invalid file path.\n" ⟨file, "read_from_file", line, "ifs"⟩ (!s.fail)
  pure s

/-- The check of `istream_base_read` for one-dimensional arrays, array_IO.hpp:120. -/
def readEnd (b : Build) (file : List Char) (eof : Bool) : Told Unit :=
  always b "Invalid input.\n" ⟨file, "istream_base_read", 120, "is.eof()"⟩ eof

/-! ### Configuration -/

/-- `print_config_info()`, config.hpp:130-154. -/
def configInfo (c : Config) : List Char :=
  "compute mode: ".toList ++ (if c.debugOff then "RELEASE" else "DEBUG").toList ++ "\n".toList ++
  "error handling: ".toList ++ (if c.exceptions then "EXCEPTIONS" else "ASSERTIONS").toList ++ "\n".toList ++
  "quadruple precision: ".toList ++ (if c.quad then "ON" else "OFF").toList ++ "\n".toList ++
  "C++23 stacktrace: ".toList ++ (if c.stacktrace then "ON" else "OFF").toList ++ "\n".toList

end Diag

end Spp
