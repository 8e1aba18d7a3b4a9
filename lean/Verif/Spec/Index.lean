import Verif.Model.Index
import Verif.Spec.Ints

/- Vocabulary for positions and element access. -/

namespace Spp.Spec

/-- The element number that a position argument is meant to denote in an object of extent `n`. -/
def target (n : Int) : Pos → Int
  | .at i => i
  | .fromLast k => n - 1 - k

/-- Index `i` lies inside an object of extent `n`. -/
def InRange (n i : Int) : Prop := 0 ≤ i ∧ i < n

/-- The value is representable as `index_t` (64-bit signed). -/
def IsIndex (i : Int) : Prop := -(2 ^ 63) ≤ i ∧ i < 2 ^ 63

/-- The position argument can be resolved against extent `n` without overflowing `index_t`.
(For `last - k` with 0 <= k this always holds.) -/
def NoOverflow (n : Int) : Pos → Prop
  | .at _ => True
  | .fromLast k => IsIndex (n - k) ∧ IsIndex (n - k - 1)

end Spp.Spec
