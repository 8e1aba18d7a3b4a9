import Verif.Spec.Assign

/-
What a view that is kept in a variable refers to when the array has been resized, or otherwise replaced, in the
meantime.
-/

namespace Spp.Spec

variable {α : Type}

/-- Element `k` of the one-dimensional array `id`, if it exists now. -/
def place1 (s : Store α) (id k : Nat) : Res Loc :=
  if k < (s.a1 id).length then .ok (.one id k) else .ub

/-- Element `k` in row-major order of the two-dimensional array `id`, if it exists now. -/
def place2 (s : Store α) (id k : Nat) : Res Loc :=
  if k < (s.a2 id).data.length then .ok (.two id k) else .ub

/-- Rows, columns, diagonals and reshapes of a two-dimensional array remember elements by their number in row-major
order; blocks and crossings of rows and columns remember them by their row and column. -/
def _root_.Spp.View.byNumber : {d d' : Dim} → View d d' → Bool
  | _, _, .slice2 _ _ => false
  | _, _, .rows _ => false
  | _, _, .cols _ => false
  | _, _, .block _ _ _ _ => false
  | _, _, .blockN _ _ _ _ => false
  | _, _, _ => true

/-- The places to which an object refers in state `s1` if it was made in state `s0`: the elements it selected then.
`num` says whether the elements of a two-dimensional array are remembered by number, or by row and column. -/
def _root_.Spp.Lv.seen (s0 s1 : Store α) (num : Bool) : {d : Dim} → Lv d → Sem Loc d
  | _, .arr1 id => (List.range (s0.a1 id).length).map (place1 s1 id)
  | _, .arr2 id => (⟨(s0.a2 id).rows.toNat, (s0.a2 id).cols.toNat, fun i j =>
      place2 s1 id (i * (if num then s0.a2 id else s1.a2 id).cols.toNat + j)⟩ : Mat (Res Loc))
  | _, .view v l => v.sel (l.seen s0 s1 v.byNumber)

/-- The places to which a view refers in state `s1` if it was made in state `s0`. -/
def _root_.Spp.Lv.kept (s0 s1 : Store α) {d : Dim} (l : Lv d) : Sem Loc d := l.seen s0 s1 true

/-- A view, not the array itself. -/
def _root_.Spp.Lv.isView : {d : Dim} → Lv d → Bool
  | _, .view _ _ => true
  | _, _ => false

end Spp.Spec
