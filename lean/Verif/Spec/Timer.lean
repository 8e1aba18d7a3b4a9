import Verif.Model.Timer

/- Vocabulary for C116. -/

namespace Spp.Spec

/-- The reading of the clock at which the measured time begins: the last restart, or the construction. -/
def since (t0 : Int) : List TimerEvent → Int
  | [] => t0
  | .restart now :: es => since now es
  | .read _ :: es => since t0 es

/-- The number of seconds in `k` nanoseconds. -/
def seconds (k : Int) : ℚ := k / 10 ^ 9

end Spp.Spec
