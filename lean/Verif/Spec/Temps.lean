import Verif.Model.Overload
import Verif.Spec.Lifetime

/-
The rule of the README, "compile-time prevention of dangling temporaries": a call compiles if its
arguments have the right types, unless one of them is a temporary array that owns its elements.
-/

namespace Spp.Spec

open Spp.Cpp

/-- The argument is a temporary: the result of a call, or `std::move(x)`. -/
def Temporary (a : Arg) : Prop := a.cat = .rvalue ∨ a.cat = .constRvalue

/-- The argument is a temporary array (dynamic or fixed-size) that owns its elements. -/
def TempArray (a : Arg) : Prop := Temporary a ∧ ∃ d e, a.what = .array d e true

/-- Integer types. -/
def IsInteger (e : Elem) : Prop := (∃ n, e = .sint n) ∨ ∃ n, e = .uint n
/-- Floating-point types. -/
def IsFloat (e : Elem) : Prop := ∃ n, e = .float n

/-- The element types a function of one array is for. -/
def Fn1For (e : Elem) : Fn1 → Prop
  | .plus | .abs => e ≠ .bool
  | .minus => (∃ n, e = .sint n) ∨ ∃ n, e = .float n
  | .bnot => IsInteger e
  | .lnot => e = .bool
  | .floatFn => IsFloat e
  | .cast | .generate => True

/-- The element types an operator is for. -/
def Op2For (e : Elem) : Op2 → Prop
  | .add | .sub | .mul | .div => e ≠ .bool
  | .rem | .shl | .shr | .band | .bor => IsInteger e
  | .bxor => IsInteger e ∨ e = .bool
  | .land | .lor => e = .bool

/-- An array, view or expression with dimension `d` and elements of type `e`. -/
def IsArray (d : Dim) (e : Elem) (a : Arg) : Prop := ∃ o, a.what = .array d e o
/-- A number of type `e`. -/
def IsNumber (e : Elem) (a : Arg) : Prop := a.what = .number e

/-- The arguments have the right types. -/
def Proper : Fn → List Arg → Prop
  | .fn1 f, args => ∃ a d e, args = [a] ∧ IsArray d e a ∧ Fn1For e f
  | .op o, args => ∃ a a' d e, args = [a, a'] ∧ Op2For e o ∧
      (IsArray d e a ∧ IsArray d e a' ∨ IsNumber e a ∧ IsArray d e a' ∨ IsArray d e a ∧ IsNumber e a')
  | .fn2 .twoProd, args => ∃ a a' d e, args = [a, a'] ∧ IsFloat e ∧ IsArray d e a ∧ IsArray d e a'
  | .fn2 .powProd, args => ∃ a a' d e n, args = [a, a'] ∧ IsFloat e ∧ IsArray d e a ∧ IsArray d (.sint n) a'
  | .fn2 .generate, args => ∃ a a' d e e', args = [a, a'] ∧ IsArray d e a ∧ IsArray d e' a'
  | .fn2 .matvec, args => ∃ a a' e, args = [a, a'] ∧ e ≠ .bool ∧ IsArray .two e a ∧ IsArray .one e a'
  | .fn2 .tensor, args => ∃ a a' e, args = [a, a'] ∧ e ≠ .bool ∧ IsArray .one e a ∧ IsArray .one e a'
  | .merge, args => 2 ≤ args.length ∧ ∃ e,
      (∀ a ∈ args, IsArray .one e a) ∨
      (∃ a xs, args = a :: xs ∧ IsArray .one e a ∧ ∀ x ∈ xs, IsNumber e x) ∨
      (∃ xs a, args = xs ++ [a] ∧ IsArray .one e a ∧ ∀ x ∈ xs, IsNumber e x)
  | .merge2, args => 2 ≤ args.length ∧ ∃ e, ∀ a ∈ args, IsArray .two e a
  | .shape d, args => ∃ a e, args = [a] ∧ IsArray d e a
  | .slice _, args => ∃ a e, args = [a] ∧ IsArray .one e a
  | .view d, args => ∃ a e, args = [a] ∧ IsArray d e a
  | .pointer, args | .constPointer, args => ∃ a, args = [a]
  | .plane, args => ∃ a e, args = [a] ∧ IsArray .two e a

/-- The calls for which temporary arrays are not rejected: `generate`, `pow_prod`, `tensor_prod` if the other
operand is not a temporary, and slicing a one-dimensional array with an index list. -/
def Gap : Fn → List Arg → Prop
  | .fn1 .generate, _ | .fn2 .generate, _ | .fn2 .powProd, _ | .slice .braces, _ => True
  | .fn2 .tensor, args => ∃ a ∈ args, ¬ Temporary a
  | .slice .list, args => ∃ a ∈ args, a.cat = .rvalue
  | _, _ => False

/-- The rule: no temporary arrays; for iterators and pointers, no temporaries at all. -/
def Allowed : Fn → List Arg → Prop
  | .pointer, args | .constPointer, args | .plane, args => ∀ a ∈ args, ¬ Temporary a
  | _, args => ∀ a ∈ args, ¬ TempArray a

/-! ### Expressions -/

/-- The arrays of the text that have a name; the subexpression at position `p` is a temporary if `tmp p`. -/
def namedLv (tmp : List Nat → Prop) (p : List Nat) : Lv d → Ref → Prop
  | .arr1 id, r => r = .array1 id ∧ ¬ tmp p
  | .arr2 id, r => r = .array2 id ∧ ¬ tmp p
  | .view _ l, r => namedLv tmp (0 :: p) l r

@[inherit_doc namedLv]
def named {α : Type} (tmp : List Nat → Prop) (p : List Nat) : Tm α d → Ref → Prop
  | .lv l, r => namedLv tmp p l r
  | .view _ t, r | .unary _ t, r | .scalarL _ _ t, r | .scalarR _ t _, r | .append t _, r | .prepend _ t, r
  | .exclude t _ _, r | .excludeLast t _, r | .reduce _ _ t, r | .bcast _ t, r | .transpose t, r => named tmp (0 :: p) t r
  | .binary _ t1 t2, r | .merge t1 t2, r | .tensor _ t1 t2, r | .mergeH t1 t2, r | .mergeV t1 t2, r =>
      named tmp (0 :: p) t1 r ∨ named tmp (1 :: p) t2 r
  | .matvec _ t x, r => named tmp (0 :: p) t r ∨ named tmp (1 :: p) x r
  | .sequence .., _ | .linspace .., _ | .eUnit .., _ | .const1D .., _ | .const2D .., _ | .identity .., _ => False

/-- The subexpressions that are temporaries. -/
def IsTemp (lab : List Nat → Label) (p : List Nat) : Prop := (lab p).cat = .rvalue ∨ (lab p).cat = .constRvalue

end Spp.Spec
