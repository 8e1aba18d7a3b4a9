import Verif.Model.Ieee
import Verif.Model.Timer

/-
The tolerance that the comparisons of strictpp/Util/error_tools.hpp use when none is given.
-/

namespace Spp

/-- `DefaultTol<T>::value`, error_tools.hpp:19-30, which is also the default of `near_zero`: 100 is converted to `T`
and multiplied by the epsilon of `T`, the floating-point type with `p` significant binary digits. -/
def defaultTol (F : Fmt) (p : Nat) : FVal := FVal.mul F (.fin false 100) (.fin false (epsilon p))

end Spp
