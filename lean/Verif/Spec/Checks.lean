import Mathlib.Data.List.Forall2
import Verif.Spec.Transparent
import Verif.Model.Assign

/-
"A program that runs to completion with the debug checks compiled in gives the same result with them
compiled out", for functions, operations on objects and whole programs.
-/

namespace Spp.Spec

/-- Whenever the first outcome is a value, so is the second, and it is the same value. -/
def Survives {A : Type} (x y : Res A) : Prop := ∀ v, x = .ok v → y = .ok v

/-- The same with the state of the objects. -/
def SurvivesOp {σ A : Type} (x y : Op σ A) : Prop := ∀ s v s', x s = (.ok v, s') → y s = (.ok v, s')

/-- A function gives without debug checks every value it gives with them. -/
def Keeps {A : Type} (f : Build → Res A) : Prop := ∀ b, Survives (f b) (f (off b))

/-- An operation on objects gives, without debug checks, every value and final state it gives with
them. -/
def KeepsOp {σ A : Type} (f : Build → Op σ A) : Prop := ∀ b, SurvivesOp (f b) (f (off b))

/-- Element arithmetic, compiled with and without checks. -/
structure SameArith {α : Type} (x y : Arith α) : Prop where
  zero : x.zero = y.zero
  one : x.one = y.one
  add : ∀ u v, Survives (x.add u v) (y.add u v)
  sub : ∀ u v, Survives (x.sub u v) (y.sub u v)
  mul : ∀ u v, Survives (x.mul u v) (y.mul u v)
  div : ∀ u v, Survives (x.div u v) (y.div u v)
  ofIndex : ∀ i, Survives (x.ofIndex i) (y.ofIndex i)

/-- The same expression text, whose element operations may contain checks of their own: on the left
compiled with them, on the right without. -/
inductive SameText {α : Type} : {d : Dim} → Tm α d → Tm α d → Prop where
  | lv {d : Dim} (l : Lv d) : SameText (.lv l) (.lv l)
  | view {d d' : Dim} (v : View d d') {t t' : Tm α d} : SameText t t' → SameText (.view v t) (.view v t')
  | unary {d : Dim} {f f' : α → Res α} {t t' : Tm α d} :
      (∀ x, Survives (f x) (f' x)) → SameText t t' → SameText (.unary f t) (.unary f' t')
  | binary {d : Dim} {f f' : α → α → Res α} {t1 t1' t2 t2' : Tm α d} :
      (∀ x y, Survives (f x y) (f' x y)) → SameText t1 t1' → SameText t2 t2' →
      SameText (.binary f t1 t2) (.binary f' t1' t2')
  | scalarL {d : Dim} {f f' : α → α → Res α} (x : α) {t t' : Tm α d} :
      (∀ x y, Survives (f x y) (f' x y)) → SameText t t' → SameText (.scalarL f x t) (.scalarL f' x t')
  | scalarR {d : Dim} {f f' : α → α → Res α} (x : α) {t t' : Tm α d} :
      (∀ x y, Survives (f x y) (f' x y)) → SameText t t' → SameText (.scalarR f t x) (.scalarR f' t' x)
  | sequence {ar ar' : Arith α} (n : Int) (x y : α) :
      SameArith ar ar' → SameText (.sequence ar n x y) (.sequence ar' n x y)
  | linspace {ar ar' : Arith α} (n : Int) (x y : α) :
      SameArith ar ar' → SameText (.linspace ar n x y) (.linspace ar' n x y)
  | eUnit {ar ar' : Arith α} (k n : Int) : SameArith ar ar' → SameText (.eUnit ar k n) (.eUnit ar' k n)
  | const1D (n : Int) (x : α) : SameText (.const1D n x) (.const1D n x)
  | const2D (m n : Int) (x : α) : SameText (.const2D m n x) (.const2D m n x)
  | identity {ar ar' : Arith α} (n : Int) : SameArith ar ar' → SameText (.identity ar n) (.identity ar' n)
  | merge {t1 t1' t2 t2' : Tm α .one} :
      SameText t1 t1' → SameText t2 t2' → SameText (.merge t1 t2) (.merge t1' t2')
  | append (x : α) {t t' : Tm α .one} : SameText t t' → SameText (.append t x) (.append t' x)
  | prepend (x : α) {t t' : Tm α .one} : SameText t t' → SameText (.prepend x t) (.prepend x t')
  | exclude (p c : Int) {t t' : Tm α .one} : SameText t t' → SameText (.exclude t p c) (.exclude t' p c)
  | excludeLast (k : Int) {t t' : Tm α .one} :
      SameText t t' → SameText (.excludeLast t k) (.excludeLast t' k)
  | reduce (r : Bool) {g g' : List (Res α) → Res α} {t t' : Tm α .two} :
      (∀ xs ys, List.Forall₂ Survives xs ys → Survives (g xs) (g' ys)) → SameText t t' →
      SameText (.reduce r g t) (.reduce r g' t')
  | matvec {ar ar' : Arith α} {t t' : Tm α .two} {x x' : Tm α .one} :
      SameArith ar ar' → SameText t t' → SameText x x' → SameText (.matvec ar t x) (.matvec ar' t' x')
  | bcast (r : Bool) {t t' : Tm α .one} : SameText t t' → SameText (.bcast r t) (.bcast r t')
  | tensor {ar ar' : Arith α} {t1 t1' t2 t2' : Tm α .one} :
      SameArith ar ar' → SameText t1 t1' → SameText t2 t2' → SameText (.tensor ar t1 t2) (.tensor ar' t1' t2')
  | transpose {t t' : Tm α .two} : SameText t t' → SameText (.transpose t) (.transpose t')
  | mergeH {t1 t1' t2 t2' : Tm α .two} :
      SameText t1 t1' → SameText t2 t2' → SameText (.mergeH t1 t2) (.mergeH t1' t2')
  | mergeV {t1 t1' t2 t2' : Tm α .two} :
      SameText t1 t1' → SameText t2 t2' → SameText (.mergeV t1 t2) (.mergeV t1' t2')

/-- The same statement text. -/
inductive SameStmt {α : Type} : AStmt α → AStmt α → Prop where
  | assign {d : Dim} (l : Lv d) {t t' : Tm α d} : SameText t t' → SameStmt (.assign l t) (.assign l t')
  | fill {d : Dim} (l : Lv d) (x : α) : SameStmt (.fill l x) (.fill l x)
  | list (l : Lv .one) (xs : List α) : SameStmt (.list l xs) (.list l xs)
  | list2 (l : Lv .two) (L : List (List α)) : SameStmt (.list2 l L) (.list2 l L)
  | compound {d : Dim} {f f' : α → α → Res α} (l : Lv d) {t t' : Tm α d} :
      (∀ x y, Survives (f x y) (f' x y)) → SameText t t' → SameStmt (.compound f l t) (.compound f' l t')
  | compoundX {d : Dim} {f f' : α → α → Res α} (l : Lv d) (x : α) :
      (∀ x y, Survives (f x y) (f' x y)) → SameStmt (.compoundX f l x) (.compoundX f' l x)

end Spp.Spec
