import Verif.Spec.TermLaws

/-
Replacing parts of an expression.
-/

namespace Spp.Spec

variable {α : Type}

/-- `t'` is `t` with some of its parts replaced: a part `p` may be replaced by `q` if `E p q`. -/
inductive Replaced (E : {d : Dim} → Tm α d → Tm α d → Prop) : {d : Dim} → Tm α d → Tm α d → Prop
  | here {d : Dim} {t u : Tm α d} : E t u → Replaced E t u
  | same {d : Dim} (t : Tm α d) : Replaced E t t
  | view {d d' : Dim} (v : View d d') {t t' : Tm α d} : Replaced E t t' → Replaced E (.view v t) (.view v t')
  | unary {d : Dim} (f : α → Res α) {t t' : Tm α d} : Replaced E t t' → Replaced E (.unary f t) (.unary f t')
  | binary {d : Dim} (f : α → α → Res α) {t t' u u' : Tm α d} : Replaced E t t' → Replaced E u u' →
      Replaced E (.binary f t u) (.binary f t' u')
  | scalarL {d : Dim} (f : α → α → Res α) (x : α) {t t' : Tm α d} : Replaced E t t' →
      Replaced E (.scalarL f x t) (.scalarL f x t')
  | scalarR {d : Dim} (f : α → α → Res α) (x : α) {t t' : Tm α d} : Replaced E t t' →
      Replaced E (.scalarR f t x) (.scalarR f t' x)
  | merge {t t' u u' : Tm α .one} : Replaced E t t' → Replaced E u u' → Replaced E (.merge t u) (.merge t' u')
  | append (x : α) {t t' : Tm α .one} : Replaced E t t' → Replaced E (.append t x) (.append t' x)
  | prepend (x : α) {t t' : Tm α .one} : Replaced E t t' → Replaced E (.prepend x t) (.prepend x t')
  | exclude (p c : Int) {t t' : Tm α .one} : Replaced E t t' → Replaced E (.exclude t p c) (.exclude t' p c)
  | excludeLast (k : Int) {t t' : Tm α .one} : Replaced E t t' → Replaced E (.excludeLast t k) (.excludeLast t' k)
  | reduce (rows : Bool) (g : List (Res α) → Res α) {t t' : Tm α .two} : Replaced E t t' →
      Replaced E (.reduce rows g t) (.reduce rows g t')
  | matvec (ar : Arith α) {t t' : Tm α .two} {x x' : Tm α .one} : Replaced E t t' → Replaced E x x' →
      Replaced E (.matvec ar t x) (.matvec ar t' x')
  | bcast (rows : Bool) {t t' : Tm α .one} : Replaced E t t' → Replaced E (.bcast rows t) (.bcast rows t')
  | tensor (ar : Arith α) {t t' u u' : Tm α .one} : Replaced E t t' → Replaced E u u' →
      Replaced E (.tensor ar t u) (.tensor ar t' u')
  | transpose {t t' : Tm α .two} : Replaced E t t' → Replaced E (.transpose t) (.transpose t')
  | mergeH {t t' u u' : Tm α .two} : Replaced E t t' → Replaced E u u' → Replaced E (.mergeH t u) (.mergeH t' u')
  | mergeV {t t' u u' : Tm α .two} : Replaced E t t' → Replaced E u u' → Replaced E (.mergeV t u) (.mergeV t' u')

/-- The two expressions mean the same thing and both are accepted. -/
def Equal (b : Build) (s0 : Store α) {d : Dim} (t u : Tm α d) : Prop :=
  SameTerms b s0 t u ∧ u.Sound s0 ∧ u.Valid s0

end Spp.Spec
