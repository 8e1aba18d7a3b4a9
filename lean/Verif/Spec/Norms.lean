import Verif.Spec.Algebra
import Mathlib.Analysis.SpecialFunctions.Pow.Real

/-
Vocabulary for the properties of norms as norms (C115): the four kinds of norm of the library, called on
expressions over exact real numbers.
-/

namespace Spp.Spec

/-- Exact real numbers, with the real power and square root. -/
noncomputable def reals : Scalar ℝ := exactS ℝ (fun x y => x ^ y) Real.sqrt

/-- `norm_inf`, `norm1`, `norm2` and `norm_lp` with exponent `p`. -/
inductive Norm where
  | inf
  | one
  | two
  | lp (p : Nat)

namespace Norm

/-- The exponent, if any, is positive (otherwise the call is rejected, `C56_exponent`). -/
def Ok : Norm → Prop
  | lp p => 0 < p
  | _ => True

/-- The call of the norm of an object, with the library's default for objects without elements. -/
noncomputable def call (b : Build) (d : Dim) (a : Acc (Store ℝ) ℝ) (s : Store ℝ) : Norm → Res ℝ
  | inf => Ops.normInf reals a s 0
  | one => Ops.norm1 reals a s 0
  | two => Ops.norm2 b d reals a s 0
  | lp p => Ops.normLp b reals a s p 0

/-- The call of the scaled norm: `norm1_scaled`, `norm2_scaled`, `norm_lp_scaled` (there is none for the
maximum, which needs no scaling). -/
noncomputable def callScaled (b : Build) (d : Dim) (a : Acc (Store ℝ) ℝ) (s : Store ℝ) : Norm → Res ℝ
  | inf => Ops.normInf reals a s 0
  | one => Ops.norm1Scaled reals a s 0
  | two => Ops.norm2Scaled b d reals a s 0
  | lp p => Ops.normLpScaled b reals a s p 0

end Norm

/-- The norm of the object written `t`, taken while the arrays hold `s`, returns `v`. -/
def NormIs {d : Dim} (n : Norm) (b : Build) (s : Store ℝ) (t : Tm ℝ d) (v : ℝ) : Prop :=
  ∃ a, t.build b s = .ok a ∧ n.call b d a s = .ok v

/-- The same for scaled norms. -/
def ScaledIs {d : Dim} (n : Norm) (b : Build) (s : Store ℝ) (t : Tm ℝ d) (v : ℝ) : Prop :=
  ∃ a, t.build b s = .ok a ∧ n.callScaled b d a s = .ok v

/-- The elements of the object written `t`, in row-major order, have the values `l`. -/
def Values {α : Type} {d : Dim} (s : Store α) (t : Tm α d) (l : List α) : Prop :=
  (t.meaning s).flat = l.map Res.ok

end Spp.Spec
