import Verif.Model.Array2D
import Verif.Model.StrictMath

/-
Reading arrays from streams and printing them: strictpp/array_IO.hpp and
strictpp/StrictCommon/strict_IO.hpp.

A stream holds the characters not yet read and the flags `eofbit` and `failbit`; `badbit` (input/output
errors of the device), exception masks, locales other than "C" and user-changed format flags of the
stream are not modelled.  How characters form a number is a parameter (`Scanner`) of the reading
functions; `scanInt` is the one of the C++ library for integers.

The loops `while(is >> x)` and `while(std::getline(is, line))` have no bound in the code.  Here they
carry a counter that starts above the number of unread characters: every successful extraction
consumes a character, so the counter is never used up (Props/IO.lean proves that; running out would
show as `ub`).
-/

namespace Spp.IO

/-- The state of an input stream. The C++ library, as array_IO.hpp:107-197 and strict_IO.hpp:181-188 use it. -/
structure Stream where
  rest : List Char
  eof : Bool
  fail : Bool
  deriving DecidableEq, Repr

/-- A stream just opened on a text (`std::istringstream iss{line}`, or a file). -/
def Stream.ofText (t : List Char) : Stream := ⟨t, false, false⟩

/-- `is.clear()`. The C++ library, as array_IO.hpp:107-197 and strict_IO.hpp:181-188 use it. -/
def Stream.cleared (s : Stream) : Stream := ⟨s.rest, false, false⟩

/-- The characters skipped before a number: `std::isspace` in the "C" locale.
The C++ library, as array_IO.hpp:107-197 and strict_IO.hpp:181-188 use it. -/
def isSpace (c : Char) : Bool :=
  c == ' ' || c == '\t' || c == '\n' || c == '\x0b' || c == '\x0c' || c == '\r'

/-- What a number extraction (`std::num_get`) does with a text that does not begin with a space:
the value stored in the variable, whether it succeeded (otherwise `failbit` is set), the characters
left, and whether it looked past the last character (then `eofbit` is set).
The C++ library, as array_IO.hpp:107-197 and strict_IO.hpp:181-188 use it. -/
structure Scan (α : Type) where
  val : α
  ok : Bool
  rest : List Char
  eof : Bool
  deriving Repr

/-- A number extraction. The C++ library, as array_IO.hpp:107-197 and strict_IO.hpp:181-188 use it. -/
abbrev Scanner (α : Type) := List Char → Scan α

/-- `is >> x` for a builtin `x`: nothing happens, except that `failbit` is set, unless the stream is
good; leading spaces are skipped; if nothing is left both flags are set.  The first component is the
value stored (`none`: `x` is not touched) and the success of the extraction.
The C++ library, as array_IO.hpp:107-197 and strict_IO.hpp:181-188 use it. -/
def extract {α : Type} (num : Scanner α) (s : Stream) : Option (α × Bool) × Stream :=
  if s.eof || s.fail then (none, ⟨s.rest, s.eof, true⟩)
  else match s.rest.dropWhile isSpace with
    | [] => (none, ⟨[], true, true⟩)
    | c :: t =>
      let r := num (c :: t)
      (some (r.val, r.ok), ⟨r.rest, r.eof, !r.ok⟩)

/-- `std::getline(is, line)`: up to the next newline, which is removed and not stored, or to the end.
Fails if the stream is not good or if nothing is left. -/
def getline (s : Stream) : Option (List Char) × Stream :=
  if s.eof || s.fail then (none, ⟨s.rest, s.eof, true⟩)
  else if s.rest.isEmpty then (none, ⟨[], true, true⟩)
  else match s.rest.dropWhile (· != '\n') with
    | [] => (some s.rest, ⟨[], true, false⟩)
    | _ :: t => (some (s.rest.takeWhile (· != '\n')), ⟨t, false, false⟩)

/-- The value of a sequence of decimal digits.
The C++ library, as array_IO.hpp:107-197 and strict_IO.hpp:181-188 use it. -/
def decimal (ds : List Char) : Nat := ds.foldl (fun n c => 10 * n + (c.toNat - 48)) 0

/-- `std::num_get` for the integer type `t`: an optional sign, then digits, up to the first character
that is not a digit.  No digits: fails and stores 0.  Out of range: fails and stores the nearest value
of the type.  A minus sign before an unsigned number in range negates modulo `2^bits`.
The C++ library, as array_IO.hpp:107-197 and strict_IO.hpp:181-188 use it. -/
def scanInt (t : IntTy) : Scanner Int := fun s =>
  let neg := s.head? == some '-'
  let u := if neg || s.head? == some '+' then s.tail else s
  let ds := u.takeWhile Char.isDigit
  let rest := u.dropWhile Char.isDigit
  let m : Int := decimal ds
  if ds.isEmpty then ⟨0, false, rest, rest.isEmpty⟩
  else if t.signed then
    let v := if neg then -m else m
    if t.Holds v then ⟨v, true, rest, rest.isEmpty⟩
    else ⟨if neg then t.lo else t.hi, false, rest, rest.isEmpty⟩
  else if t.Holds m then ⟨t.wrap (if neg then -m else m), true, rest, rest.isEmpty⟩
  else ⟨t.hi, false, rest, rest.isEmpty⟩

/-- `std::num_get` for `bool` without `boolalpha`: reads a `long`; 0 and 1 are accepted, everything
else fails. The C++ library, as array_IO.hpp:107-197 and strict_IO.hpp:181-188 use it. -/
def scanBool : Scanner Bool := fun s =>
  let r := scanInt IntTy.long s
  if r.ok && (r.val == 0 || r.val == 1) then ⟨r.val == 1, true, r.rest, r.eof⟩
  else ⟨r.val != 0, false, r.rest, r.eof⟩

section Reading

variable {α : Type} [Inhabited α]

/-- `is >> x` for a `Strict<T>`, strict_IO.hpp:181-188.  Where the check has no effect and nothing was
stored in the uninitialised `v`, reading `v` is undefined behaviour. -/
def readScalar (b : Build) (num : Scanner α) : Op (Stream × α) Unit := do
  let st : Stream × α ← Op.get
  let r := extract num st.1
  Op.set (r.2, st.2)
  Op.lift (assertAlways b (!r.2.fail))
  match r.1 with
  | none => Op.lift .ub
  | some v => Op.set (r.2, v.1)

/-- The local variables of the one-dimensional read: stream, `count`, `tmp`.
The C++ library, as array_IO.hpp:107-197 and strict_IO.hpp:181-188 use it. -/
structure Local1 (α : Type) where
  is : Stream
  count : Int
  tmp : List α

/-- The loop of `istream_base_read`, array_IO.hpp:113-118. -/
def readLoop1 (b : Build) (num : Scanner α) : Nat → Op (Local1 α) Unit
  | 0 => Op.lift .ub
  | fuel + 1 => do
    let s : Local1 α ← Op.get
    match extract num s.is with
    | (some (x, true), is) => do
      Op.set { s with is := is }
      let l ← Op.lift (wr s.tmp s.count x)
      let c ← Op.lift (iadd s.count 1)
      let l ← Op.lift (if len l = c then do
          let n ← imul 2 c
          (Arr1.resize b n true l).1
          pure (Arr1.resize b n true l).2
        else pure l)
      Op.set ⟨is, c, l⟩
      readLoop1 b num fuel
    | (_, is) => Op.set { s with is := is }

/-- `istream_base_read` into an `Array1D` (`is >> A`), array_IO.hpp:107-126, 347-350.  The state is the
stream and the array. -/
def read1 (b : Build) (num : Scanner α) : Op (Stream × List α) Unit := do
  let st : Stream × List α ← Op.get
  let tmp ← Op.lift (Arr1.make b 8)
  let r := readLoop1 b num (st.1.rest.length + 1) ⟨st.1, 0, tmp⟩
  Op.set (r.2.is, st.2)
  Op.lift r.1
  Op.lift (assertAlways b r.2.is.eof)
  Op.set (r.2.is.cleared, st.2)
  let r' := Arr1.resize b r.2.count true r.2.tmp
  Op.lift r'.1
  Op.set (r.2.is.cleared, r'.2)

/-- `A(i, j) = x`: `operator()`, derived2D.hpp:61-67, then array_base2D.hpp:682-686. -/
def put2 (b : Build) (a : Arr2 α) (i j : Int) (x : α) : Res (Arr2 α) := do
  assertDebug b (validIndex a.rows i && validIndex a.cols j)
  a.wr2 i j x

/-- The loop of `get_first_row`, array_IO.hpp:136-141. The state is `iss`, `ncols` and `A`. -/
def firstRowLoop (b : Build) (num : Scanner α) : Nat → Stream → Int → Arr2 α →
    Res (Stream × Int × Arr2 α)
  | 0, _, _, _ => .ub
  | fuel + 1, iss, ncols, a =>
    match extract num iss with
    | (some (x, true), iss) => do
      let a ← put2 b a 0 ncols x
      let ncols ← iadd ncols 1
      let a ← (if a.cols = ncols then do
          let n ← imul 2 ncols
          (Arr2.resize b 1 n true a).1
          pure (Arr2.resize b 1 n true a).2
        else pure a)
      firstRowLoop b num fuel iss ncols a
    | (_, iss) => .ok (iss, ncols, a)

/-- `get_first_row(line, A)`, array_IO.hpp:129-150. -/
def getFirstRow (b : Build) (num : Scanner α) (line : List Char) (a : Arr2 α) : Res (Arr2 α) := do
  (Arr2.resize b 1 4 true a).1
  let (iss, ncols, a) ← firstRowLoop b num (line.length + 1) (.ofText line) 0
    (Arr2.resize b 1 4 true a).2
  let r := if ncols ≠ 0 then Arr2.resize b 1 ncols true a else Arr2.resize b 0 0 true a
  r.1
  assertAlways b iss.eof
  pure r.2

/-- The loop of `get_row`, array_IO.hpp:158-160. -/
def rowLoop (b : Build) (num : Scanner α) (row : Int) : Nat → Stream → Int → Arr2 α →
    Res (Stream × Int × Arr2 α)
  | 0, _, _, _ => .ub
  | fuel + 1, iss, ncols, a =>
    match extract num iss with
    | (some (x, true), iss) => do
      let a ← put2 b a row ncols x
      let ncols ← iadd ncols 1
      rowLoop b num row fuel iss ncols a
    | (_, iss) => .ok (iss, ncols, a)

/-- `get_row(line, row, A)`, array_IO.hpp:153-165. -/
def getRow (b : Build) (num : Scanner α) (line : List Char) (row : Int) (a : Arr2 α) :
    Res (Arr2 α) := do
  let (iss, ncols, a) ← rowLoop b num row (line.length + 1) (.ofText line) 0 a
  assertAlways b (ncols == a.cols)
  assertAlways b iss.eof
  pure a

/-- The loop `while(tmp.empty() && std::getline(is, line))`, array_IO.hpp:173-175.  The state is the
stream and `tmp`. -/
def readFirst (b : Build) (num : Scanner α) : Nat → Op (Stream × Arr2 α) Unit
  | 0 => Op.lift .ub
  | fuel + 1 => do
    let s : Stream × Arr2 α ← Op.get
    if len s.2.data = 0 then
      match getline s.1 with
      | (some line, is) => do
        Op.set (is, s.2)
        let tmp ← Op.lift (getFirstRow b num line s.2)
        Op.set (is, tmp)
        readFirst b num fuel
      | (none, is) => Op.set (is, s.2)
    else pure ()

/-- The loop over the remaining rows, array_IO.hpp:182-191.  The state is the stream, `row_count` and
`tmp`. -/
def readRows (b : Build) (num : Scanner α) (ncols : Int) : Nat → Op (Stream × Int × Arr2 α) Unit
  | 0 => Op.lift .ub
  | fuel + 1 => do
    let s : Stream × Int × Arr2 α ← Op.get
    match getline s.1 with
    | (some line, is) => do
      Op.set (is, s.2)
      if line.isEmpty then readRows b num ncols fuel
      else do
        let tmp ← Op.lift (getRow b num line s.2.1 s.2.2)
        let rc ← Op.lift (iadd s.2.1 1)
        let tmp ← Op.lift (if tmp.rows = rc then do
            let m ← imul 2 rc
            (Arr2.resize b m ncols true tmp).1
            pure (Arr2.resize b m ncols true tmp).2
          else pure tmp)
        Op.set (is, rc, tmp)
        readRows b num ncols fuel
    | (none, is) => Op.set (is, s.2)

/-- `istream_base_read` into an `Array2D` (`is >> A`), array_IO.hpp:168-197, 353-356.  The state is the
stream and the array. -/
def read2 (b : Build) (num : Scanner α) : Op (Stream × Arr2 α) Unit := do
  let st : Stream × Arr2 α ← Op.get
  let r := readFirst b num (st.1.rest.length + 2) (st.1, Arr2.empty)
  Op.set (r.2.1, st.2)
  Op.lift r.1
  if len r.2.2.data ≠ 0 then do
    let ncols := r.2.2.cols
    let t := Arr2.resize b 2 ncols true r.2.2
    Op.lift t.1
    let q := readRows b num ncols (r.2.1.rest.length + 1) (r.2.1, 1, t.2)
    Op.set (q.2.1, st.2)
    Op.lift q.1
    let t := Arr2.resize b q.2.2.1 ncols true q.2.2.2
    Op.lift t.1
    Op.set (q.2.1, t.2)
  else Op.set (r.2.1, r.2.2)

/-- `read_from_file(path, A)`, array_IO.hpp:359-374: `file` is the text of the file, `none` if it
cannot be opened; then the stream is in a failed state. -/
def openFile (b : Build) (file : Option (List Char)) : Res Stream := do
  let s : Stream := match file with
    | some t => .ofText t
    | none => ⟨[], false, true⟩
  assertAlways b (!s.fail)
  pure s

/-- `read_from_file` for one-dimensional arrays, array_IO.hpp:359-365. -/
def readFile1 (b : Build) (num : Scanner α) (file : Option (List Char)) : Op (List α) Unit := do
  let s ← Op.lift (openFile b file)
  let a : List α ← Op.get
  let r := read1 b num (s, a)
  Op.set r.2.2
  Op.lift r.1

/-- `read_from_file` for two-dimensional arrays, array_IO.hpp:368-374. -/
def readFile2 (b : Build) (num : Scanner α) (file : Option (List Char)) : Op (Arr2 α) Unit := do
  let s ← Op.lift (openFile b file)
  let a : Arr2 α ← Op.get
  let r := read2 b num (s, a)
  Op.set r.2.2
  Op.lift r.1

end Reading

/-! ### Printing -/

/-- The decimal digits of a number, as the C++ library writes them.
The C++ library, as array_IO.hpp:107-197 and strict_IO.hpp:181-188 use it. -/
def digits (n : Nat) : List Char :=
  if n < 10 then [Char.ofNat (48 + n)] else digits (n / 10) ++ [Char.ofNat (48 + n % 10)]
termination_by n

/-- `os << std::showpos << T{x}` for the integer type `t`, strict_IO.hpp:198-204: signed numbers are
always printed with a sign, unsigned ones never. -/
def showInt (t : IntTy) (x : Int) : List Char :=
  if t.signed then (if x < 0 then '-' else '+') :: digits x.natAbs else digits x.natAbs

/-- `operator<<` for booleans, strict_IO.hpp:191-195. -/
def showBool (x : Bool) : List Char := if x then "true".toList else "false".toList

/-- `os << std::setw(w) << text`: spaces on the left up to width `w`.
The C++ library, as array_IO.hpp:107-197 and strict_IO.hpp:181-188 use it. -/
def pad (w : Int) (s : List Char) : List Char := List.replicate (w.toNat - s.length) ' ' ++ s

/-- `array_format`, array_IO.hpp:66-98. -/
structure Format where
  detailed : Bool
  rowStyle : Bool

/-- `smart_spaces(maxi, i)`, array_IO.hpp:221-225; `digit` is `count_digit`.  A negative count becomes
a huge unsigned number, for which `std::string` throws `std::length_error`. -/
def smartSpaces (digit : Int → Int) (maxi i : Int) : Res (List Char) :=
  if 1 + digit maxi - digit i < 0 then .trap .exception
  else .ok (List.replicate (1 + digit maxi - digit i).toNat ' ')

/-- The name line of `ostream_base_print`, array_IO.hpp:230-232, 303-305. -/
def nameLine (name : List Char) : List Char := if name.isEmpty then [] else name ++ [':', '\n']

/-- `ostream_base_print` of a one-dimensional object, array_IO.hpp:228-264, with elements `un i` for
`i < n`, printed by `sh`.  `count_digit` (200-205) goes through the floating-point `std::log10`; it is
the parameter `digit`. -/
def print1 {α : Type} (f : Format) (digit : Int → Int) (sh : α → List Char) (name : List Char) (n : Nat)
    (un : Int → Res α) : Res (List Char) := do
  let out := nameLine name
  let out := if f.detailed && n == 0 then out ++ "[]\n".toList else out
  if !f.rowStyle then
    foldN n (fun i out => do
      let x ← un i
      let label ← (if f.detailed then do
          let sp ← smartSpaces digit n i
          pure (['['] ++ digits i ++ "] =".toList ++ sp)
        else pure [])
      pure (out ++ label ++ sh x ++ ['\n'])) out
  else do
    let out ← foldN n (fun i out => do
      let x ← un i
      let label := if f.detailed then ['['] ++ digits i ++ "] = ".toList else []
      pure (out ++ label ++ sh x ++ (if i + 1 == n then [] else [' ', ' ']))) out
    pure (out ++ ['\n'])

/-- `max_if_needed(A)` for integers, array_IO.hpp:267-280: `max(abs(A.view1D()))`. -/
def maxAbs (t : IntTy) (l : List Int) : Res Int :=
  match l with
  | [] => .ok 0
  | x :: xs => do
    let a ← abss t x
    xs.foldlM (fun acc y => do
      let v ← abss t y
      pure (maxs v acc)) a

/-- `ostream_base_print` of a two-dimensional array, array_IO.hpp:301-325; `width` is the computation of
the field width from the elements (`max_if_needed` and `set_width_if_needed`). -/
def print2 {α : Type} (f : Format) (digit : Int → Int) (sh : α → List Char) (width : Res Int)
    (name : List Char) (a : Arr2 α) : Res (List Char) := do
  let out := nameLine name
  let out := if f.detailed && len a.data == 0 then out ++ "[]\n".toList else out
  let w ← width
  foldN a.rows.toNat (fun i out => do
    let out ← foldN a.cols.toNat (fun j out => do
      let label ← (if f.detailed then do
          let sp ← smartSpaces digit a.rows i
          pure (['['] ++ digits i ++ [',', ' '] ++ digits j ++ "] =".toList ++ sp)
        else pure [])
      let x ← a.rd2 i j
      pure (out ++ label ++ pad w (sh x) ++ (if (j : Int) + 1 = a.cols then [] else [' ', ' ']))) out
    pure (out ++ ['\n'])) out

/-- The field width for integer elements, array_IO.hpp:208-210, 288-289. -/
def intWidth (t : IntTy) (digit : Int → Int) (l : List Int) : Res Int := do
  let m ← maxAbs t l
  pure (if t.signed then digit m + 2 else digit m + 1)

/-- The field width for boolean elements, array_IO.hpp:213, 285-286. -/
def boolWidth : Res Int := .ok 6

/-- `os << indexes` for `std::vector<ImplicitInt>`, array_IO.hpp:415-420; an `ImplicitInt` holds a
`Strict<long>`. -/
def printIndexes (l : List Int) : List Char :=
  l.foldl (fun out x => out ++ showInt IntTy.long x ++ ['\n']) []

/-- `print(A, name)`, array_IO.hpp:382-386, and `print(x, name)`, strict_IO.hpp:268-275: what is written
to `std::cout`, given the text of the object. For scalars a newline is added. -/
def printScalar (name text : List Char) : List Char := nameLine name ++ text ++ ['\n']

/-- `print(A1, A2, ...)` for arrays: `print_helper`, array_IO.hpp:328-340, 389-392. -/
def printArrays : List (List Char) → List Char
  | [] => []
  | [t] => t
  | t :: ts => t ++ ['\n'] ++ printArrays ts

/-- `printn(A1, A2, ...)` for arrays, array_IO.hpp:395-404. -/
def printnArrays : List (List Char) → List Char
  | [] => []
  | t :: ts => t ++ ['\n'] ++ printnArrays ts

/-- `print(x1, x2, ...)` for scalars, strict_IO.hpp:278-280. -/
def printScalars : List (List Char) → List Char
  | [] => []
  | t :: ts => printScalar [] t ++ printScalars ts

/-- `printn(x1, x2, ...)` for scalars, strict_IO.hpp:289-292. -/
def printnScalars (ts : List (List Char)) : List Char := printScalars ts ++ ['\n']

/-- `print_to_file(path, A, name)`, array_IO.hpp:407-412.  The state is the file: `none` if it cannot be
opened for writing or reading, otherwise its text.  Opening empties the file.  Simplification: when printing
fails half-way the part already written is not kept. -/
def printFile (b : Build) (text : Res (List Char)) : Op (Option (List Char)) Unit := do
  let f : Option (List Char) ← Op.get
  Op.lift (assertAlways b f.isSome)
  if f.isSome then do
    Op.set (some [])
    let t ← Op.lift text
    Op.set (some t)
  else pure ()

end Spp.IO
