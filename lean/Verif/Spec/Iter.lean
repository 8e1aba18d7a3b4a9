import Verif.Model.Iter
import Verif.Spec.Ops

/-
What a traversal should do.
-/

namespace Spp.Spec

/-- The index loop `for(i = 0; i < n; ++i) { auto&& x = get(i); body(x); }`. -/
def indexLoop {σ ρ : Type} (n : Nat) (get : σ → Int → Res ρ) (body : ρ → Op σ Unit) : Op σ Unit :=
  Op.forN n (fun i => do
    let s : σ ← Op.get
    let x ← Op.lift (get s i)
    body x)

/-- The index loop from the back, `for(i = n; i-- > 0;) { auto&& x = get(i); body(x); }`. -/
def indexLoopDown {σ ρ : Type} (n : Nat) (get : σ → Int → Res ρ) (body : ρ → Op σ Unit) : Op σ Unit :=
  Op.forN n (fun i => do
    let s : σ ← Op.get
    let x ← Op.lift (get s ((n - 1 - i : Nat) : Int))
    body x)

/-- The traversal ended, and did what `x` does. -/
def Completes {σ : Type} (r : Res (Option Unit) × σ) (x : Res Unit × σ) : Prop :=
  r = (some <$> x.1, x.2)

/-- The object seen next to a list in which the traversal records what it sees. -/
def watched {σ ρ : Type} (F : Flag σ ρ) : Flag (σ × List ρ) ρ :=
  ⟨fun s => F.size s.1, fun s i => F.get s.1 i⟩

/-- Record `x`. -/
def record {σ ρ : Type} (x : ρ) : Op (σ × List ρ) Unit := fun s => (.ok (), s.1, s.2 ++ [x])

/-- The positions of an `m` by `n` array, row after row. -/
def rowMajor (m n : Nat) : List (Int × Int) :=
  (List.range m).flatMap (fun i : Nat => (List.range n).map (fun j : Nat => ((i : Int), (j : Int))))

/-- Run `body` on each of the list in turn. -/
def eachOf {σ ρ : Type} (body : ρ → Op σ Unit) : List ρ → Op σ Unit
  | [] => pure ()
  | x :: l => do
      body x
      eachOf body l

end Spp.Spec
