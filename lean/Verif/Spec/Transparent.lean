import Verif.Core

/- "Switching the debug checks off changes nothing on calls the checks accept." -/

namespace Spp.Spec

/-- The same build with `STRICT_DEBUG_OFF` defined. -/
def off (b : Build) : Build := { b with debugOff := true }

/-- For every build: either some check stops the call, or the outcome (value or undefined
behaviour) is the same with the debug checks compiled out. -/
def Transparent (f : Build → Res α) : Prop :=
  ∀ b, (∃ k, f b = .trap k) ∨ f b = f (off b)

/-- The same for operations on objects: outcome and final state agree. -/
def TransparentOp (f : Build → Op σ α) : Prop :=
  ∀ b s, (∃ k, (f b s).1 = .trap k) ∨ f b s = f (off b) s

end Spp.Spec
