import Verif.Model.Index
import Verif.Model.Scalar
import Verif.Model.FloatIO

/-
Timers and `STRICT_TIME` (strictpp/Util/timer.hpp), and the machine constants `epsilon`
(strictpp/StrictCommon/constants.hpp:19-28).

The clock belongs to the environment: every reading of it is an argument.  A reading is a number of
nanoseconds in a `long`, as it is in libstdc++, where `high_resolution_clock` is `system_clock` (the member
`start` has the type `system_clock::time_point`, so the header is only accepted where the two are the same);
`duration_cast` to nanoseconds is the identity there.
-/

namespace Spp

/-- `struct timer`, timer.hpp:29-48. -/
structure Timer where
  start : Int
deriving DecidableEq

namespace Timer

/-- `timer()`, timer.hpp:30-31, at clock reading `now`. -/
def new (now : Int) : Timer := ⟨now⟩

/-- `restart()`, timer.hpp:33-35. -/
def restart (_ : Timer) (now : Int) : Timer := ⟨now⟩

/-- `wall_time()`, timer.hpp:37-42: the difference of the readings, converted to `double`, divided by `1.e9`. -/
def wallTime (rn : ℚ → ℚ) (t : Timer) (now : Int) : Res ℚ := do
  let k ← isub now t.start
  pure (rn (Conv.intToFloat rn k / 1000000000))

end Timer

/-- What a program does with a timer, each with the clock reading at that time. Util/timer.hpp:16-47. -/
inductive TimerEvent where
  | restart (now : Int)
  | read (now : Int)

/-- The numbers a program reads from its timer. Util/timer.hpp:16-47. -/
def Timer.run (rn : ℚ → ℚ) (t : Timer) : List TimerEvent → List (Res ℚ)
  | [] => []
  | .restart now :: es => Timer.run rn (t.restart now) es
  | .read now :: es => t.wallTime rn now :: Timer.run rn t es

/-- `std::setprecision(4) << std::scientific << x` on a fresh stream: without `std::showpos` the sign of a
number that is not negative is left out, timer.hpp:20-21. -/
def showTime (x : ℚ) : List Char := if x < 0 then IO.showSci 4 x else (IO.showSci 4 x).tail

/-- `STRICT_TIME(a)`, timer.hpp:16-24: the statement `a` with the text `text` runs between the clock readings
`t0` and `t1`.  The result is what is written to `std::cout`; nothing is when `a` throws. -/
def strictTime (rn : ℚ → ℚ) (text : List Char) (a : Res Unit) (t0 t1 : Int) : Res (List Char) := do
  let t := Timer.new t0
  a
  let w ← t.wallTime rn t1
  pure (text ++ " took: ".toList ++ showTime w ++ " seconds\n".toList)

/-- `epsilon<T>`, constants.hpp:19-25, for a type with `p` significant binary digits: 2^-23, 2^-52, 2^-63 and
2^-112 for `float`, `double`, `long double` and `float128`. -/
def epsilon (p : Nat) : ℚ := 1 / 2 ^ (p - 1)

end Spp
