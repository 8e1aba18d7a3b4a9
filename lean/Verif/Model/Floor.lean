import Verif.Model.Ieee
import Mathlib.Data.Rat.Floor

/-
`floors` and `ceils` (strictpp/StrictCommon/strict_math.hpp:180-205).  They call `std::floor` and `std::ceil`, for
quadruple precision `floorq` and `ceilq`; what those do with zeros and special values is as in Annex F of the C
standard: infinities, zeros and NaN are returned unchanged, and the sign of the argument is kept.
-/

namespace Spp.FVal

/-- `floors(x)`, strict_math.hpp:180-191. -/
def floor : FVal → FVal
  | nan => nan
  | inf s => inf s
  | fin s m => fin s |(⌊val (fin s m)⌋ : ℚ)|

/-- `ceils(x)`, strict_math.hpp:194-205. -/
def ceil : FVal → FVal
  | nan => nan
  | inf s => inf s
  | fin s m => fin s |(⌈val (fin s m)⌉ : ℚ)|

end Spp.FVal
