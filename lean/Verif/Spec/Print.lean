import Verif.Spec.IO

/- Printed texts. -/

namespace Spp.Spec

/-- Every piece on a line of its own. -/
def column (ws : List (List Char)) : List Char := (ws.map (fun w => w ++ ['\n'])).flatten

/-- The pieces on one line, two spaces apart. -/
def row (ws : List (List Char)) : List Char := [' ', ' '].intercalate ws

/-- The title line of a print with a name. -/
def title (name : List Char) : List Char := if name = [] then [] else name ++ ":\n".toList

/-- How a number of the type is written: decimal, with a sign if and only if the type is signed. -/
def written (t : IntTy) (v : Int) : List Char :=
  (if t.signed then (if v < 0 then ['-'] else ['+']) else []) ++ Nat.toDigits 10 v.natAbs

/-- `w` with spaces on the left up to the width `n`. -/
def rightAligned (n : Nat) (w : List Char) : List Char := List.replicate (n - w.length) ' ' ++ w

/-- `l` with spaces on the right up to the width `n`. -/
def leftAligned (n : Nat) (l : List Char) : List Char := l ++ List.replicate (n - l.length) ' '

/-- The label `[i] =` of a detailed print. -/
def label1 (i : Nat) : List Char := "[".toList ++ Nat.toDigits 10 i ++ "] =".toList

/-- The label `[i, j] =` of a detailed print. -/
def label2 (i j : Nat) : List Char :=
  "[".toList ++ Nat.toDigits 10 i ++ ", ".toList ++ Nat.toDigits 10 j ++ "] =".toList

/-- The number of decimal digits. -/
def digitCount (n : Nat) : Nat := (Nat.toDigits 10 n).length

end Spp.Spec
