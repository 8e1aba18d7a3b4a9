import Verif.Model.RandomExpr
import Verif.Spec.StdRandom

/- Sequences of accesses to a random expression. -/

namespace Spp.Spec

variable {α G : Type}

/-- The numbers among the first `N` draws that are not zero. -/
def nonZero (f : G → α × G) (isZero : α → Bool) (g : G) (N : Nat) : List α :=
  (firstValues f g N).filter (fun x => !isZero x)

end Spp.Spec
