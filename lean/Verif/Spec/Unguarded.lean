import Verif.Spec.ChecksProg

/- Programs without their handlers: `try { p } catch(...) { q }` becomes `p`. -/

namespace Spp.Spec

variable {α : Type}

def Prog.unguarded : Prog α → Prog α
  | .seq p q => .seq p.unguarded q.unguarded
  | .block i af init body => .block i af init body.unguarded
  | .tryCatch p _ => p.unguarded
  | .ite i cond p q => .ite i cond p.unguarded q.unguarded
  | .loop i count p => .loop i count p.unguarded
  | .skip => .skip
  | .throw => .throw
  | .stmt c => .stmt c

def MProg.unguarded : MProg α → MProg α
  | .seq p q => .seq p.unguarded q.unguarded
  | .block i af init body => .block i af init body.unguarded
  | .block2 i af init body => .block2 i af init body.unguarded
  | .tryCatch p _ => p.unguarded
  | .read i f => .read i fun d l => (f d l).unguarded
  | .loop n p => .loop n p.unguarded
  | .skip => .skip
  | .throw => .throw
  | .stmt c => .stmt c
  | .stmt2 c => .stmt2 c

def EProg.unguarded : EProg α → EProg α
  | .seq p q => .seq p.unguarded q.unguarded
  | .tryCatch p _ => p.unguarded
  | .read f => .read fun s => (f s).unguarded
  | .loop count p => .loop count p.unguarded
  | .skip => .skip
  | .throw => .throw
  | .stmt c => .stmt c

end Spp.Spec
