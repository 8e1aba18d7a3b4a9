import Verif.Spec.Slice

/- What requests for slices of slices ask for. -/

namespace Spp.Spec

/-- The request makes sense for an object of extent `n`. -/
def Meaningful (n : Int) : SliceReq → Prop
  | .seqN s m st => 0 ≤ s ∧ 0 ≤ m ∧ ∀ i : Int, 0 ≤ i → i < m → InRange n (s + i * st)
  | .seq f l st => InRange n f ∧ InRange n l ∧ Consistent f l st
  | .skipN k => 0 < k
  | .firstN k => 0 ≤ k ∧ k ≤ n
  | .lastN k => 0 ≤ k ∧ k ≤ n
  | .vec idx => ∀ x ∈ idx, InRange n x
  | .complement idx => Increasing idx ∧ ∀ x ∈ idx, InRange n x
  | _ => True

/-- The request asks for the elements `l`, in this order. -/
def Asks (n : Int) : SliceReq → List Int → Prop
  | .seqN s m st, l => l = progression s st m.toNat
  | .seq f e st, l => ∃ m, InclusiveRange f e st m ∧ l = progression f st m
  | r, l => l = selected n r

/-- The numbers in the request are machine integers, and so are those its checks compute. -/
def MachineReq (n : Int) : SliceReq → Prop
  | .seqN s m st => IsIndex m ∧ (m ≠ 0 → IsIndex (st * (m - 1)) ∧ IsIndex (s + st * (m - 1)))
  | .seq _ _ st => IsIndex st
  | .skipN k => n + k < 2 ^ 63
  | _ => True

/-- `A(r1)(r2)...` of an object of extent `n`: either some request makes no sense for the extent of what it is applied to
(`none`), or the elements `l` of `A` are selected: those the last request asks for among those the previous one asks
for, and so on. -/
inductive Nested : Int → List SliceReq → Option (List Int) → Prop
  | nil (n : Int) : Nested n [] (some (upto n))
  | bad {n : Int} {r : SliceReq} {rs : List SliceReq} : 0 ≤ n → n < 2 ^ 63 - 1 → MachineReq n r → ¬ Meaningful n r →
      Nested n (r :: rs) none
  | cons {n : Int} {r : SliceReq} {rs : List SliceReq} {l1 : List Int} {o : Option (List Int)} : 0 ≤ n →
      n < 2 ^ 63 - 1 → MachineReq n r → Meaningful n r → Asks n r l1 → Nested l1.length rs o →
      Nested n (r :: rs) (o.map fun l2 => l2.map fun i => l1.getD i.toNat 0)

end Spp.Spec
