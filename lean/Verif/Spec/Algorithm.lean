import Verif.Model.Algorithm
import Verif.Spec.Ops
import Verif.Spec.Assign

/-
What an algorithm means on a plain list, which is what the language says about an array and pointers into it.
-/

namespace Spp.Spec

variable {α β : Type}

/-- How a run on a list ends: with a result and the contents; at an access outside the list, with the contents at that
moment; or at a move that leaves the range of positions, or a distance that is no `long`. -/
inductive Ran (α β : Type) where
  | done (x : β) (l : List α)
  | outside (l : List α)
  | overflow
  deriving DecidableEq, Repr

open Classical in
/-- Running an algorithm on a list; positions can lie between `lo` and `hi`.  For pointers the language allows the
positions from 0 to the length. -/
noncomputable def onList (lo hi : Int) : Alg α β → List α → Ran α β
  | .ret x, l => .done x l
  | .inc p k, l => if lo ≤ p + 1 ∧ p + 1 ≤ hi then onList lo hi (k (p + 1)) l else .overflow
  | .dec p k, l => if lo ≤ p - 1 ∧ p - 1 ≤ hi then onList lo hi (k (p - 1)) l else .overflow
  | .plus p n k, l => if lo ≤ p + n ∧ p + n ≤ hi then onList lo hi (k (p + n)) l else .overflow
  | .minus p n k, l => if lo ≤ p - n ∧ p - n ≤ hi then onList lo hi (k (p - n)) l else .overflow
  | .diff p q k, l => if IsIndex (p - q) then onList lo hi (k (p - q)) l else .overflow
  | .cmp c p q k, l => onList lo hi (k (c.holds p q)) l
  | .read p k, l =>
      if h : 0 ≤ p ∧ p < l.length then onList lo hi (k (l[p.toNat]'(by omega))) l else .outside l
  | .readAt p n k, l =>
      if lo ≤ p + n ∧ p + n ≤ hi then
        if h : 0 ≤ p + n ∧ p + n < l.length then onList lo hi (k (l[(p + n).toNat]'(by omega))) l else .outside l
      else .overflow
  | .write p x k, l => if 0 ≤ p ∧ p < l.length then onList lo hi k (l.set p.toNat x) else .outside l
  | .writeAt p n x k, l =>
      if lo ≤ p + n ∧ p + n ≤ hi then
        if 0 ≤ p + n ∧ p + n < l.length then onList lo hi k (l.set (p + n).toNat x) else .outside l
      else .overflow

/-- The run on pointers to the elements of an array with these contents is allowed by the language and has this result
and leaves these contents. -/
def Legal (alg : Alg α β) (l : List α) (x : β) (l' : List α) : Prop :=
  onList 0 l.length alg l = .done x l'

/-- The algorithm never assigns to elements. -/
def ReadOnly : Alg α β → Prop
  | .ret _ => True
  | .inc _ k | .dec _ k | .plus _ _ k | .minus _ _ k | .diff _ _ k => ∀ q, ReadOnly (k q)
  | .cmp _ _ _ k => ∀ c, ReadOnly (k c)
  | .read _ k | .readAt _ _ k => ∀ x, ReadOnly (k x)
  | .write _ _ _ | .writeAt _ _ _ _ => False

/-- Between the states `t` and `t'` nothing but the places `cs` has changed, and these now hold `l`. -/
def Leaves (cs : List Loc) (t t' : Store α) (l : List α) : Prop :=
  SameSizes t t' ∧ cs.map t'.read = l.map Res.ok ∧ ∀ c, c ∉ cs → t'.read c = t.read c

/-- The list with two elements exchanged. -/
def exchanged (l : List α) (i j : Nat) : List α :=
  match l[i]?, l[j]? with
  | some x, some y => (l.set i y).set j x
  | _, _ => l

/-- The draws for `n` elements: the number for position `j` is between 0 and `j`, for `1 ≤ j < n`. -/
def DrawsBelow (n : Nat) (draw : Nat → Nat) : Prop := ∀ j, 1 ≤ j → j < n → draw j ≤ j

/-- Exchanging the element at each of the positions 1, 2, ..., `m` with the one drawn for it. -/
def shuffled (draw : Nat → Nat) : Nat → List α → List α
  | 0, l => l
  | m + 1, l => exchanged (shuffled draw m l) (m + 1) (draw (m + 1))

end Spp.Spec
