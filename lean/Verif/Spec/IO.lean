import Verif.Model.IO
import Verif.Spec.Array2D
import Verif.Spec.Ints
import Mathlib.Data.Nat.Digits.Defs

/- Texts: the numbers in a text, lines, words, numerals. -/

namespace Spp.Spec

open Spp.IO

/-- The scanner consumes at least one character when it succeeds, and reports the end of the text only
when it has consumed everything. -/
structure Sane {α : Type} (num : Scanner α) : Prop where
  consumes : ∀ c t, (num (c :: t)).ok = true → (num (c :: t)).rest.length < t.length + 1
  atEnd : ∀ t, (num t).eof = true → (num t).rest = []

/-- Reading numbers one after the other from the text `t`, as often as that succeeds, yields `vs`;
`clean` tells whether it stopped at the end of the text, and `left` is what is not consumed.  Spaces
before a number are skipped. -/
inductive Numbers {α : Type} (num : Scanner α) : (t : List Char) → (vs : List α) → (clean : Bool) →
    (left : List Char) → Prop where
  | nothing {t} : (∀ c ∈ t, isSpace c = true) → Numbers num t [] true []
  | stop {s c t} : (∀ c ∈ s, isSpace c = true) → isSpace c = false → (num (c :: t)).ok = false →
      Numbers num (s ++ c :: t) [] (num (c :: t)).eof (num (c :: t)).rest
  | last {s c t} : (∀ c ∈ s, isSpace c = true) → isSpace c = false → (num (c :: t)).ok = true →
      (num (c :: t)).eof = true → Numbers num (s ++ c :: t) [(num (c :: t)).val] true []
  | more {s c t vs clean left} : (∀ c ∈ s, isSpace c = true) → isSpace c = false →
      (num (c :: t)).ok = true → (num (c :: t)).eof = false →
      Numbers num (num (c :: t)).rest vs clean left →
      Numbers num (s ++ c :: t) ((num (c :: t)).val :: vs) clean left

/-- The lines of a text: the pieces between newlines; a newline at the end does not start a line. -/
def textLines : List Char → List (List Char)
  | [] => []
  | c :: t =>
    if c = '\n' then [] :: textLines t
    else match textLines t with
      | [] => [[c]]
      | l :: ls => (c :: l) :: ls

/-- The number of rows for which the two-dimensional read has reserved space once `k ≥ 1` rows are stored:
the least power of two above `k`. -/
def room (k : Nat) : Nat := 2 ^ (Nat.log2 k + 1)

/-- Nothing but spaces. -/
def Blank (t : List Char) : Prop := ∀ c ∈ t, isSpace c = true

/-- Words separated by spaces: the text consists of the words in order, with at least one space between
two words and any number of spaces before and after. -/
inductive Words : List Char → List (List Char) → Prop where
  | none {s} : Blank s → Words s []
  | one {s w s'} : Blank s → w ≠ [] → (∀ c ∈ w, isSpace c = false) → Blank s' → Words (s ++ w ++ s') [w]
  | cons {s w c t ws} : Blank s → w ≠ [] → (∀ c ∈ w, isSpace c = false) → isSpace c = true →
      Words (c :: t) ws → Words (s ++ w ++ c :: t) (w :: ws)

/-- The number written with the decimal digits `ds`. -/
def digitsValue (ds : List Char) : Nat :=
  Nat.ofDigits 10 (ds.map (fun c => c.toNat - '0'.toNat)).reverse

/-- The word `w` is a decimal numeral with value `v` in the type `t`: an optional sign followed by at
least one digit, and the value is in range.  (For unsigned types a minus sign is left out here.) -/
def Numeral (t : IntTy) (w : List Char) (v : Int) : Prop :=
  ∃ ds : List Char, ds ≠ [] ∧ (∀ c ∈ ds, c.isDigit = true) ∧ Fits t v ∧
    ((w = ds ∧ v = digitsValue ds) ∨ (w = '+' :: ds ∧ v = digitsValue ds) ∨
      (t.signed = true ∧ w = '-' :: ds ∧ v = -(digitsValue ds : Int)))

end Spp.Spec
