import Verif.Model.FloatIO
import Verif.Model.Scalar

/-
How numbers are formatted: `spp::format` (class `StrictFormat`), the formatting state of output streams,
and printing and reading of quadruple-precision numbers: strictpp/StrictCommon/strict_IO.hpp.

As in Model/FloatIO.lean the numbers are rationals.  Of the formatting state of a stream the flags
`showpos`, `showpoint`, `floatfield` and `basefield` and the precision are modelled; `uppercase`,
`showbase`, field widths, fill characters, `hexfloat` and locales are not.
-/

namespace Spp.IO

/-- The floating-point types. The C++ library, as strict_IO.hpp:191-216 uses it. -/
inductive FTy where
  | float
  | double
  | longDouble
  | quad
  deriving DecidableEq, Repr

/-- `StrictFormat`, strict_IO.hpp:78-169: `scientific_` and the four entries of `precision_`. -/
structure NumFormat where
  scientific : Bool
  float : Int
  double : Int
  longDouble : Int
  quad : Int
  deriving DecidableEq, Repr

/-- The initial settings, strict_IO.hpp:145-151: 24, 53, 64 and 113 binary digits. -/
def NumFormat.initial : NumFormat :=
  ⟨true, defaultPrecision 24, defaultPrecision 53, defaultPrecision 64, quadPrecision⟩

/-- `precision<T>()`, strict_IO.hpp:98-109. -/
def NumFormat.precision (f : NumFormat) : FTy → Int
  | .float => f.float
  | .double => f.double
  | .longDouble => f.longDouble
  | .quad => f.quad

/-- The functions that change the settings. The C++ library, as strict_IO.hpp:191-216 uses it. -/
inductive Setting where
  | reset
  | scientific (b : Bool)
  | precision (n : Int)
  | precisionOf (t : FTy) (n : Int)
  deriving DecidableEq, Repr

/-- A call of one of them, strict_IO.hpp:80-87 (`reset`), 93-96 (`scientific`), 111-117 (`precision`),
119-138 (`precision_float`, ...).  The argument, a signed integer, is converted to `long` and checked
(`ImplicitNonNegInt`), then converted to `int`. -/
def NumFormat.apply (b : Build) : Setting → Op NumFormat Unit
  | .reset => Op.set NumFormat.initial
  | .scientific s => do
    let f : NumFormat ← Op.get
    Op.set { f with scientific := s }
  | .precision n => do
    let n ← Op.lift (named b true n)
    let f : NumFormat ← Op.get
    let p := SInt.cast IntTy.int n
    Op.set { f with float := p, double := p, longDouble := p, quad := p }
  | .precisionOf t n => do
    let n ← Op.lift (named b true n)
    let f : NumFormat ← Op.get
    let p := SInt.cast IntTy.int n
    match t with
    | .float => Op.set { f with float := p }
    | .double => Op.set { f with double := p }
    | .longDouble => Op.set { f with longDouble := p }
    | .quad => Op.set { f with quad := p }

/-- Calls one after the other. The C++ library, as strict_IO.hpp:191-216 uses it. -/
def NumFormat.run (b : Build) : List Setting → Op NumFormat Unit
  | [] => pure ()
  | s :: ss => do
    NumFormat.apply b s
    NumFormat.run b ss

/-! ### Output streams -/

/-- `std::ios_base::floatfield`. The C++ library, as strict_IO.hpp:191-216 uses it. -/
inductive Notation where
  | general
  | fixed
  | scientific
  deriving DecidableEq, Repr

/-- `std::ios_base::basefield`. The C++ library, as strict_IO.hpp:191-216 uses it. -/
inductive Base where
  | dec
  | oct
  | hex
  deriving DecidableEq, Repr

/-- The formatting state of a stream. The C++ library, as strict_IO.hpp:191-216 uses it. -/
structure Flags where
  showpos : Bool
  showpoint : Bool
  notation' : Notation
  base : Base
  precision : Int
  deriving DecidableEq, Repr

/-- A stream just opened: `std::ios_base::dec`, `skipws` and precision 6.
The C++ library, as strict_IO.hpp:191-216 uses it. -/
def Flags.initial : Flags := ⟨false, false, .general, .dec, 6⟩

/-- An output stream: formatting state and the characters written.
The C++ library, as strict_IO.hpp:191-216 uses it. -/
structure OStream where
  flags : Flags
  text : List Char
  deriving DecidableEq, Repr

/-- `os << x` for a built-in integer (`std::num_put`): with `hex` and `oct` the number is first converted
to the unsigned type and has no sign. The C++ library, as strict_IO.hpp:191-216 uses it. -/
def putInt (f : Flags) (t : IntTy) (x : Int) : List Char :=
  match f.base with
  | .dec =>
      if x < 0 then '-' :: digits x.natAbs
      else if f.showpos && t.signed then '+' :: digits x.natAbs else digits x.natAbs
  | .oct => Nat.toDigits 8 (x % 2 ^ t.bits).toNat
  | .hex => Nat.toDigits 16 (x % 2 ^ t.bits).toNat

/-- A negative precision means six digits (`printf` ignores it).
The C++ library, as strict_IO.hpp:191-216 uses it. -/
def effective (p : Int) : Nat := if p < 0 then 6 else p.toNat

/-- `os << x` for a built-in floating-point number (`std::num_put`).  Without `showpos` there is no plus
sign; without `showpoint` there is no point if no digit follows it.  The general notation (`%g`) is the
parameter `gen`. The C++ library, as strict_IO.hpp:191-216 uses it. -/
def putFloat (gen : Flags → ℚ → List Char) (f : Flags) (x : ℚ) : List Char :=
  let strip (s : List Char) : List Char :=
    let s := if !f.showpos && s.head? == some '+' then s.tail else s
    if !f.showpoint && effective f.precision == 0 then s.filter (· != '.') else s
  match f.notation' with
  | .scientific => strip (showSci (effective f.precision) x)
  | .fixed => strip (showFixed (effective f.precision) x)
  | .general => gen f x

/-- `operator<<` for a `Strict` integer, strict_IO.hpp:198-204. -/
def OStream.strictInt (t : IntTy) (x : Int) (os : OStream) : OStream :=
  let f := { os.flags with showpos := true }
  ⟨f, os.text ++ putInt f t x⟩

/-- `operator<<` for a `Strict` boolean, strict_IO.hpp:191-195. -/
def OStream.strictBool (x : Bool) (os : OStream) : OStream := ⟨os.flags, os.text ++ showBool x⟩

/-- `operator<<` for a `Strict<float>`, `Strict<double>` or `Strict<long double>`, strict_IO.hpp:207-216,
157-166 (`set_float_precision`). -/
def OStream.strictFloat (gen : Flags → ℚ → List Char) (fmt : NumFormat) (t : FTy) (x : ℚ) (os : OStream) : OStream :=
  let f := { os.flags with showpos := true }
  let f := if fmt.scientific then { f with notation' := .scientific } else { f with notation' := .fixed }
  let f := { f with showpoint := true }
  let f := { f with precision := fmt.precision t }
  ⟨f, os.text ++ putFloat gen f x⟩

/-- The text `%+-#*.PQE` or `%+-#*.PQF` of a number, strict_IO.hpp:249-257: as `%e` and `%f`, with a capital
`E`, padded with spaces on the right up to the width. -/
def quadField (scientific : Bool) (P : Nat) (width : Nat) (x : ℚ) : List Char :=
  let s := if scientific then (showSci P x).map (fun c => if c = 'e' then 'E' else c) else showFixed P x
  s ++ List.replicate (width - s.length) ' '

/-- What `operator<<` for `float128` writes, strict_IO.hpp:246-261: the buffer has 128 characters, the last
of which is the null character; the rest of the text is cut off.  A negative precision gives a malformed
format string (modelled as undefined behaviour), and the width is computed in `int`.  Simplification: the
text is written whatever the precision is; `quadmath_snprintf` may run out of memory. -/
def quadText (fmt : NumFormat) (x : ℚ) : Res (List Char) :=
  if fmt.quad < 0 then .ub
  else if fmt.scientific then do
    let w ← IntTy.int.arith (fmt.quad + 7)
    pure ((quadField true fmt.quad.toNat w.toNat x).take 127)
  else do
    let w ← IntTy.int.arith (fmt.quad + 3)
    pure ((quadField false fmt.quad.toNat w.toNat x).take 127)

/-- `operator<<` for a `Strict<float128>`, strict_IO.hpp:264-267. -/
def OStream.strictQuad (fmt : NumFormat) (x : ℚ) (os : OStream) : Res OStream := do
  let t ← quadText fmt x
  pure ⟨os.flags, os.text ++ t⟩

/-- Something to print. The C++ library, as strict_IO.hpp:191-216 uses it. -/
inductive Item where
  | sint (t : IntTy) (x : Int)
  | sbool (x : Bool)
  | sfloat (t : FTy) (x : ℚ)
  | bint (t : IntTy) (x : Int)
  | bfloat (x : ℚ)

/-- `os << item`: `sint`, `sbool` and `sfloat` are `Strict` values, `bint` and `bfloat` built-in ones.
strict_IO.hpp:191-216, 246-267. -/
def OStream.put (gen : Flags → ℚ → List Char) (fmt : NumFormat) (os : OStream) : Item → Res OStream
  | .sint t x => .ok (os.strictInt t x)
  | .sbool x => .ok (os.strictBool x)
  | .sfloat .quad x => os.strictQuad fmt x
  | .sfloat t x => .ok (os.strictFloat gen fmt t x)
  | .bint t x => .ok ⟨os.flags, os.text ++ putInt os.flags t x⟩
  | .bfloat x => .ok ⟨os.flags, os.text ++ putFloat gen os.flags x⟩

/-- `os << item1 << item2 << ...`. The C++ library, as strict_IO.hpp:191-216 uses it. -/
def OStream.puts (gen : Flags → ℚ → List Char) (fmt : NumFormat) : OStream → List Item → Res OStream
  | os, [] => .ok os
  | os, i :: is => do
    let os ← os.put gen fmt i
    OStream.puts gen fmt os is

/-- `print(x)` and `print(x, name)` for a `Strict` number, strict_IO.hpp:271-282: the number is written to a
stream of its own, and its text to `std::cout`. -/
def OStream.print (gen : Flags → ℚ → List Char) (fmt : NumFormat) (name : List Char) (cout : OStream) (i : Item) :
    Res OStream := do
  let s ← OStream.put gen fmt ⟨Flags.initial, nameLine name⟩ i
  pure ⟨cout.flags, cout.text ++ s.text ++ ['\n']⟩

/-! ### Reading quadruple precision -/

/-- A number after its sign for `strtoflt128`: digits, a point, digits, at least one digit, and an exponent
if it has a digit.  `none` if there is no number. The C++ library, as strict_IO.hpp:191-216 uses it. -/
def strtoqUnsigned (rn : ℚ → ℚ) (neg : Bool) (u : List Char) : Option (ℚ × List Char) :=
  let ip := u.takeWhile Char.isDigit
  let u1 := u.dropWhile Char.isDigit
  let point := u1.head? == some '.'
  let fp := if point then u1.tail.takeWhile Char.isDigit else []
  let u2 := if point then u1.tail.dropWhile Char.isDigit else u1
  if ip.isEmpty && fp.isEmpty then none
  else if u2.head? == some 'e' || u2.head? == some 'E' then
    match scanExponent u2.tail with
    | (none, _) => some (rn (floatValue neg ip fp 0), u2)
    | (some e, rest) => some (rn (floatValue neg ip fp e), rest)
  else some (rn (floatValue neg ip fp 0), u2)

/-- A text, perhaps after a sign, that begins like an infinity, a NaN or a hexadecimal number.
The C++ library, as strict_IO.hpp:191-216 uses it. -/
def isSpecial (s : List Char) : Bool :=
  match (if s.head? == some '-' || s.head? == some '+' then s.tail else s) with
  | [] => false
  | c :: u => c == 'i' || c == 'I' || c == 'n' || c == 'N' ||
      (c == '0' && (u.head? == some 'x' || u.head? == some 'X'))

/-- What reading quadruple-precision numbers depends on: the rounding, and what `strtoflt128` does with texts
that begin like an infinity, a NaN or a hexadecimal number (which are not modelled).
The C++ library, as strict_IO.hpp:191-216 uses it. -/
structure QuadReader where
  rn : ℚ → ℚ
  special : List Char → ℚ × List Char

/-- `strtoflt128` on a word: the value and the characters that are not part of the number (all of them, and
zero, if there is no number).  Simplification: there is no largest exponent.
The C++ library, as strict_IO.hpp:191-216 uses it. -/
def strtoq (q : QuadReader) (s : List Char) : ℚ × List Char :=
  if isSpecial s then q.special s
  else (if s.head? == some '-' then strtoqUnsigned q.rn true s.tail
    else if s.head? == some '+' then strtoqUnsigned q.rn false s.tail
    else strtoqUnsigned q.rn false s).getD (0, s)

/-- `is >> str` for a `std::string str` that is empty: the next word; empty, with both flags set, if only spaces
are left, and empty if the stream is not good. The C++ library, as strict_IO.hpp:191-216 uses it. -/
def extractWord (s : Stream) : List Char × Stream :=
  if s.eof || s.fail then ([], ⟨s.rest, s.eof, true⟩)
  else
    let t := s.rest.dropWhile isSpace
    if t.isEmpty then ([], ⟨[], true, true⟩)
    else (t.takeWhile (fun c => !isSpace c),
      ⟨t.dropWhile (fun c => !isSpace c), (t.dropWhile (fun c => !isSpace c)).isEmpty, false⟩)

/-- `is >> x` for a `float128`, strict_IO.hpp:222-232, and for a `Strict<float128>`, 235-241: the state is the
stream and the variable.  The check is made after the assignment for a `float128` (`builtin`), before it for a
`Strict` one. -/
def readQuad (b : Build) (q : QuadReader) (builtin : Bool) : Op (Stream × ℚ) Unit := do
  let st : Stream × ℚ ← Op.get
  let r := extractWord st.1
  let v := strtoq q r.1
  Op.set (r.2, if builtin then v.1 else st.2)
  Op.lift (assertAlways b v.2.isEmpty)
  Op.set (r.2, v.1)

/-- The loop of `istream_base_read` for `Array1D<float128>`, array_IO.hpp:113-118. -/
def readLoopQuad (b : Build) (q : QuadReader) : Nat → Op (Local1 ℚ) Unit
  | 0 => Op.lift .ub
  | fuel + 1 => do
    let s : Local1 ℚ ← Op.get
    let r := extractWord s.is
    let v := strtoq q r.1
    Op.set { s with is := r.2 }
    Op.lift (assertAlways b v.2.isEmpty)
    if r.2.fail then pure ()
    else do
      let l ← Op.lift (wr s.tmp s.count v.1)
      let c ← Op.lift (iadd s.count 1)
      let l ← Op.lift (if len l = c then do
          let n ← imul 2 c
          (Arr1.resize b n true l).1
          pure (Arr1.resize b n true l).2
        else pure l)
      Op.set ⟨r.2, c, l⟩
      readLoopQuad b q fuel

/-- `is >> A` for an `Array1D<float128>`, array_IO.hpp:107-126, 347-350. -/
def read1Quad (b : Build) (q : QuadReader) : Op (Stream × List ℚ) Unit := do
  let st : Stream × List ℚ ← Op.get
  let tmp ← Op.lift (Arr1.make b 8)
  let r := readLoopQuad b q (st.1.rest.length + 1) ⟨st.1, 0, tmp⟩
  Op.set (r.2.is, st.2)
  Op.lift r.1
  Op.lift (assertAlways b r.2.is.eof)
  Op.set (r.2.is.cleared, st.2)
  let r' := Arr1.resize b r.2.count true r.2.tmp
  Op.lift r'.1
  Op.set (r.2.is.cleared, r'.2)

end Spp.IO
