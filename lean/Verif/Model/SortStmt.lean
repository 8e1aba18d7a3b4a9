import Verif.Model.Algorithm
import Verif.Model.Ops

/- Sorting and shuffling as statements on an array or view. -/

namespace Spp

variable {α : Type} {d : Dim}

/-- `sort_increasing(A)` where `A` is an array or a view such as `B(even)`; array_ops.hpp:843-848. -/
def sortUp (b : Build) (srt : (α → α → Bool) → List α → List α) (sc : Scalar α) (l : Lv d) : Op (Store α) Unit := do
  let s : Store α ← Op.get
  let a ← Op.lift (l.build b s)
  Ops.sortIncreasing srt sc a

/-- `sort_decreasing(A)`; array_ops.hpp:851-856. -/
def sortDown (b : Build) (srt : (α → α → Bool) → List α → List α) (sc : Scalar α) (l : Lv d) : Op (Store α) Unit := do
  let s : Store α ← Op.get
  let a ← Op.lift (l.build b s)
  Ops.sortDecreasing srt sc a

/-- `shuffle(A)`; array_ops.hpp:859-864. -/
def shuffleView (b : Build) (draw : Nat → Nat) (l : Lv d) : Op (Store α) Unit := do
  let s : Store α ← Op.get
  let a ← Op.lift (l.build b s)
  Ops.shuffle b draw a

end Spp
