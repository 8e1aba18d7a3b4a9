import Verif.Model.Slice
import Verif.Spec.Index

/- What slices are supposed to select, as lists of element numbers. -/

namespace Spp.Spec

/-- `0, 1, ..., n-1`. -/
def upto (n : Int) : List Int := (List.range n.toNat).map Int.ofNat

/-- `start, start + stride, ...` (`m` terms). -/
def progression (start stride : Int) (m : Nat) : List Int :=
  (List.range m).map (fun i : Nat => start + (i : Int) * stride)

/-- The slice object reads exactly the listed elements, in that order. -/
def Reads (sl : Slice) (l : List Int) : Prop :=
  sl.size = l.length ∧ ∀ (i : Nat) (h : i < l.length), sl.map i = .ok l[i]

/-- `x` has not gone past `last` when walking with step `stride`. -/
def NotPast (last stride x : Int) : Prop :=
  (0 < stride → x ≤ last) ∧ (stride < 0 → last ≤ x)

/-- The inclusive range `first, first+stride, ..., ` up to the last point not past `last`:
it has `m` points. -/
structure InclusiveRange (first last stride : Int) (m : Nat) : Prop where
  nonempty : 1 ≤ m
  inside : ∀ i : Nat, i < m → NotPast last stride (first + i * stride)
  maximal : stride ≠ 0 → ¬ NotPast last stride (first + m * stride)
  once : stride = 0 → m = 1

/-- The direction of the stride leads from `first` to `last`. -/
def Consistent (first last stride : Int) : Prop :=
  (0 < stride ∧ first ≤ last) ∨ (stride < 0 ∧ last ≤ first) ∨ (stride = 0 ∧ first = last)

/-- The documented selection of the named slices of an object of extent `n`. -/
def selected (n : Int) : SliceReq → List Int
  | .all => upto n
  | .even => (upto n).filter (fun i => i % 2 = 0)
  | .odd => (upto n).filter (fun i => i % 2 = 1)
  | .reverse => (upto n).reverse
  | .skipN k => (upto n).filter (fun i => i % k = 0)
  | .firstN k => (upto n).take k.toNat
  | .lastN k => (upto n).drop (n - k).toNat
  | .vec idx => idx
  | .complement idx => (upto n).filter (fun i => i ∉ idx)
  | _ => []

/-- Strictly increasing. -/
def Increasing (l : List Int) : Prop := l.Pairwise (· < ·)

end Spp.Spec
