import Verif.Spec.Algebra
import Verif.Spec.Accuracy

/-
Vocabulary for C120: backward errors.
-/

namespace Spp.Spec

/-- `v` is the exact sum of the terms, each of them changed by a relative error of at most `g`. -/
def Perturbed (g : ℚ) (terms : List ℚ) (v : ℚ) : Prop :=
  ∃ δs : List ℚ, δs.length = terms.length ∧ (∀ δ ∈ δs, |δ| ≤ g) ∧
    v = (List.zipWith (fun t δ => t * (1 + δ)) terms δs).sum

/-- The elements of the one-dimensional object `t`, while the arrays hold `s`, are `l`. -/
def VecIs {α : Type} (b : Build) (s : Store α) (t : Tm α .one) (l : List α) : Prop :=
  ∃ a, t.build b s = .ok a ∧ a.rows s = l.length ∧ ∀ (j : Nat) (hj : j < l.length), a.un s j = .ok l[j]

/-- The two-dimensional object `t` has a row number `k`, and its elements are `r`. -/
def RowIs {α : Type} (b : Build) (s : Store α) (t : Tm α .two) (k : Nat) (r : List α) : Prop :=
  ∃ a, t.build b s = .ok a ∧ (k : Int) < a.rows s ∧ a.cols s = r.length ∧
    ∀ (j : Nat) (hj : j < r.length), a.un2 s k j = .ok r[j]

end Spp.Spec
