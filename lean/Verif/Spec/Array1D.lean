import Verif.Model.Array1D
import Verif.Spec.Slice

/- One-dimensional arrays as lists. -/

namespace Spp.Spec

/-- The list without the `count` elements that start at `pos`. -/
def removed (l : List α) (pos count : Nat) : List α := l.take pos ++ l.drop (pos + count)

/-- The list with `xs` spliced in so that it starts at `pos`. -/
def inserted (l : List α) (pos : Nat) (xs : List α) : List α := l.take pos ++ xs ++ l.drop pos

/-- The list cut or zero-extended to length `n`. -/
def resized (z : α) (l : List α) (n : Nat) : List α := l.take n ++ List.replicate (n - l.length) z

/-- The elements whose positions are not in `idx`, in order. -/
def withoutPositions (l : List α) (idx : List Int) : List α :=
  ((List.range l.length).filter (fun k : Nat => (k : Int) ∉ idx)).filterMap (fun k => l[k]?)

/-- The operand `src`, read while the modified array holds `s`, has exactly the elements `xs`. -/
def Denotes {σ α : Type} (src : Src σ α) (s : σ) (xs : List α) : Prop :=
  src.size = xs.length ∧ ∀ (i : Nat) (h : i < xs.length), src.un s i = .ok xs[i]

/-- The array is short enough for an `index_t` size. -/
def Sized (l : List α) : Prop := (l.length : Int) < 2 ^ 63

instance (l : List α) : Decidable (Sized l) := inferInstanceAs (Decidable (_ < _))

end Spp.Spec
