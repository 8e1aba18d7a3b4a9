import Verif.Model.Lifetime

/-
Which calls compile: the overload sets that build views and expressions, with the overloads deleted for
temporary arrays.  strictpp/Expr/unary.hpp, binary.hpp, special.hpp, expr_traits.hpp,
strictpp/derived1D.hpp, derived2D.hpp, array_base1D.hpp, array_base2D.hpp, fixed_array_base1D.hpp,
fixed_array_base2D.hpp, iterator.hpp, strictpp/ArrayCommon/array_traits.hpp.

Overload resolution follows [over.match] of the C++20 standard, restricted to what occurs here: all
arguments match their parameters without conversions, so implicit conversion sequences differ only in
the reference they bind ([over.ics.rank] 3.2.3 and 3.2.6).

Simplifications: arguments that are neither arrays nor numbers (positions, counts, functors, and slice
objects except for the distinction below) match every candidate alike and are left out.  Overloads that
differ only in those arguments are one candidate.
-/

namespace Spp.Cpp

/-- The element types: `bool`, signed and unsigned integers, floating-point types (numbered).
The C++ language; it is applied to the overloads of Expr/unary.hpp, Expr/binary.hpp:465-738, derived1D.hpp:56-380 and
derived2D.hpp:62-750. -/
inductive Elem where
  | bool
  | sint (n : Nat)
  | uint (n : Nat)
  | float (n : Nat)
  deriving DecidableEq, Repr

/-- `Integer`, `Floating`, `Real`, `Boolean`, `Builtin`, strict_traits.hpp:35-53. -/
inductive Cls where
  | integer | floating | real | boolean | any
  deriving DecidableEq, Repr

/-- Whether a type belongs to a class, strict_traits.hpp:35-53. -/
def Cls.has : Cls → Elem → Bool
  | .integer, .sint _ | .integer, .uint _ => true
  | .floating, .float _ => true
  | .real, .sint _ | .real, .uint _ | .real, .float _ => true
  | .boolean, .bool => true
  | .any, _ => true
  | _, _ => false

/-- `SignedInteger`, strict_traits.hpp:25-31. -/
def Elem.isSigned : Elem → Bool
  | .sint _ => true
  | _ => false

/-- Value categories.
The C++ language; it is applied to the overloads of Expr/unary.hpp, Expr/binary.hpp:465-738, derived1D.hpp:56-380 and
derived2D.hpp:62-750. -/
inductive Cat where
  | lvalue | constLvalue | rvalue | constRvalue
  deriving DecidableEq, Repr

/-- The value category is one of a temporary (or of `std::move(x)`).
The C++ language; it is applied to the overloads of Expr/unary.hpp, Expr/binary.hpp:465-738, derived1D.hpp:56-380 and
derived2D.hpp:62-750. -/
def Cat.isRvalue : Cat → Bool
  | .rvalue | .constRvalue => true
  | _ => false

/-- Whether the type of the argument is `const`.
The C++ language; it is applied to the overloads of Expr/unary.hpp, Expr/binary.hpp:465-738, derived1D.hpp:56-380 and
derived2D.hpp:62-750. -/
def Cat.isConst : Cat → Bool
  | .constLvalue | .constRvalue => true
  | _ => false

/-- The type of an argument: an object with elements (owning its elements or not), a strict number, an
index list in braces, an index list in a variable, a slice object.
The C++ language; it is applied to the overloads of Expr/unary.hpp, Expr/binary.hpp:465-738, derived1D.hpp:56-380 and
derived2D.hpp:62-750. -/
inductive What where
  | array (d : Dim) (e : Elem) (owner : Bool)
  | number (e : Elem)
  | braces
  | indexList
  | sliceObj
  deriving DecidableEq, Repr

/-- An argument of a call.
The C++ language; it is applied to the overloads of Expr/unary.hpp, Expr/binary.hpp:465-738, derived1D.hpp:56-380 and
derived2D.hpp:62-750. -/
structure Arg where
  what : What
  cat : Cat
  deriving DecidableEq, Repr

/-- A deduced template argument: the type, and whether it is a reference.
The C++ language; it is applied to the overloads of Expr/unary.hpp, Expr/binary.hpp:465-738, derived1D.hpp:56-380 and
derived2D.hpp:62-750. -/
structure Ty where
  what : What
  ref : Bool
  deriving DecidableEq, Repr

/-- Parameters: `const T&`, `T&&`, `T` (deduced), `std::initializer_list` and the implicit object parameter of
members declared `&`, `const&`, `&&`, `const&&`.
The C++ language; it is applied to the overloads of Expr/unary.hpp, Expr/binary.hpp:465-738, derived1D.hpp:56-380 and
derived2D.hpp:62-750. -/
inductive Form where
  | cref | fwd | val | initList | objL | objC | objR | objCR
  deriving DecidableEq, Repr

/-- How a parameter binds to an argument: by reference (rvalue reference or not, to const or not), by value, or
not at all.
The C++ language; it is applied to the overloads of Expr/unary.hpp, Expr/binary.hpp:465-738, derived1D.hpp:56-380 and
derived2D.hpp:62-750. -/
inductive Bound where
  | ref (rv const : Bool)
  | value
  | none
  deriving DecidableEq, Repr

/-- [temp.deduct.call], [dcl.init.ref]: nothing is deduced from braces.
The C++ language; it is applied to the overloads of Expr/unary.hpp, Expr/binary.hpp:465-738, derived1D.hpp:56-380 and
derived2D.hpp:62-750. -/
def Form.bind : Form → Arg → Bound
  | .cref, a => if a.what = .braces then .none else .ref false true
  | .fwd, a => if a.what = .braces then .none else .ref a.cat.isRvalue a.cat.isConst
  | .val, a => if a.what = .braces then .none else .value
  | .initList, a => if a.what = .braces ∨ a.what = .indexList then .value else .none
  | .objL, a => if a.cat = .lvalue then .ref false false else .none
  | .objC, _ => .ref false true
  | .objR, a => if a.cat = .rvalue then .ref true false else .none
  | .objCR, a => if a.cat.isRvalue then .ref true true else .none

/-- The deduced type: a reference for a forwarding reference bound to an lvalue.
The C++ language; it is applied to the overloads of Expr/unary.hpp, Expr/binary.hpp:465-738, derived1D.hpp:56-380 and
derived2D.hpp:62-750. -/
def Form.deduce : Form → Arg → Ty
  | .fwd, a => ⟨a.what, !a.cat.isRvalue⟩
  | _, a => ⟨a.what, false⟩

/-- A candidate function: its parameters, its constraints on the deduced types, whether it is deleted, and its
rank among candidates whose conversions are equally good ([over.match.best]: not a template, then the more
specialized template; `const T&` is more specialized than `T&&`, [temp.deduct.partial]/9).
The C++ language; it is applied to the overloads of Expr/unary.hpp, Expr/binary.hpp:465-738, derived1D.hpp:56-380 and
derived2D.hpp:62-750. -/
structure Cand where
  params : List Form
  ok : List Ty → Bool
  deleted : Bool
  rank : Nat

/-- The candidate can be called with these arguments.
The C++ language; it is applied to the overloads of Expr/unary.hpp, Expr/binary.hpp:465-738, derived1D.hpp:56-380 and
derived2D.hpp:62-750. -/
def Cand.viable (c : Cand) (args : List Arg) : Bool :=
  c.params.length == args.length &&
  (List.zipWith Form.bind c.params args).all (fun x => x != .none) &&
  c.ok (List.zipWith Form.deduce c.params args)

/-- One binding is better than another, [over.ics.rank] 3.2.3 (rvalue references for rvalues) and 3.2.6
(less const).
The C++ language; it is applied to the overloads of Expr/unary.hpp, Expr/binary.hpp:465-738, derived1D.hpp:56-380 and
derived2D.hpp:62-750. -/
def Bound.better : Bound → Bound → Bool
  | .ref r c, .ref r' c' => (r && !r') || (r == r' && !c && c')
  | _, _ => false

/-- [over.match.best].
The C++ language; it is applied to the overloads of Expr/unary.hpp, Expr/binary.hpp:465-738, derived1D.hpp:56-380 and
derived2D.hpp:62-750. -/
def Cand.beats (c c' : Cand) (args : List Arg) : Bool :=
  let x := List.zipWith Form.bind c.params args
  let y := List.zipWith Form.bind c'.params args
  (List.zipWith Bound.better y x).all (fun b => !b) &&
  ((List.zipWith Bound.better x y).any id || decide (c'.rank < c.rank))

/-- The best viable candidate, if there is one: it beats all the others, so the only one it does not beat is
itself.
The C++ language; it is applied to the overloads of Expr/unary.hpp, Expr/binary.hpp:465-738, derived1D.hpp:56-380 and
derived2D.hpp:62-750. -/
def resolve (cs : List Cand) (args : List Arg) : Option Cand :=
  let vs := cs.filter (fun c => c.viable args)
  vs.find? (fun c => vs.countP (fun c' => !c.beats c' args) == 1)

/-- The call compiles: the best candidate is not deleted and its body is well-formed.
The C++ language; it is applied to the overloads of Expr/unary.hpp, Expr/binary.hpp:465-738, derived1D.hpp:56-380 and
derived2D.hpp:62-750. -/
def compiles (cs : List Cand) (body : List What → Bool) (args : List Arg) : Bool :=
  match resolve cs args with
  | some c => !c.deleted && body (args.map Arg.what)
  | none => false

/-! ### Concepts -/

/-- `BaseType`, array_traits.hpp:34: false for references. -/
def Ty.base (t : Ty) : Bool :=
  match t.what with
  | .array .. => !t.ref
  | _ => false

/-- `RealBaseType`, `BooleanBaseType`, `IntegerBaseType`, `FloatingBaseType`, array_traits.hpp:35-39. -/
def Ty.baseOf (c : Cls) (t : Ty) : Bool :=
  match t.what with
  | .array _ e _ => !t.ref && c.has e
  | _ => false

/-- `OneDimBaseType`, `TwoDimBaseType`, array_traits.hpp:42, 50. -/
def Ty.dimBase (d : Dim) (t : Ty) : Bool :=
  match t.what with
  | .array d' _ _ => !t.ref && decide (d' = d)
  | _ => false

/-- `RemoveRef`, common_traits.hpp. -/
def Ty.noRef (t : Ty) : Ty := ⟨t.what, false⟩

/-- `ArrayRealTypeRvalue` etc., array_traits.hpp:183-198: an owning array, not a reference. -/
def Ty.ownerRvalue (c : Cls) (t : Ty) : Bool :=
  match t.what with
  | .array _ e o => !t.ref && o && c.has e
  | _ => false

/-- `ArrayOneDimTypeRvalue`, `ArrayTwoDimTypeRvalue`, array_traits.hpp:202-224. -/
def Ty.dimOwnerRvalue (d : Dim) (t : Ty) : Bool :=
  match t.what with
  | .array d' _ o => !t.ref && o && decide (d' = d)
  | _ => false

/-- `ArrayOneDimType<...>` and `ArrayTwoDimType<...>` of the class a member belongs to: it owns its elements.
The C++ language; it is applied to the overloads of Expr/unary.hpp, Expr/binary.hpp:465-738, derived1D.hpp:56-380 and
derived2D.hpp:62-750. -/
def Ty.owner (t : Ty) : Bool :=
  match t.what with
  | .array _ _ o => o
  | _ => false

/-- `same_dimension_b`, array_auxiliary.hpp:51-61. -/
def Ty.sameDim (t t' : Ty) : Bool :=
  match t.what, t'.what with
  | .array d _ _, .array d' _ _ => decide (d = d')
  | _, _ => false

/-- `StrictBuiltin`.
The C++ language; it is applied to the overloads of Expr/unary.hpp, Expr/binary.hpp:465-738, derived1D.hpp:56-380 and
derived2D.hpp:62-750. -/
def Ty.number (t : Ty) : Bool :=
  match t.what with
  | .number _ => !t.ref
  | _ => false

/-- `RealExprDeleted`, `IntegerExprDeleted`, `BooleanExprDeleted`, `FloatingExprDeleted`,
expr_traits.hpp:31-52. -/
def exprDeleted (c : Cls) (t1 t2 : Ty) : Bool :=
  (t1.noRef.baseOf c && t2.noRef.baseOf c) &&
  (t1.ownerRvalue c || t2.ownerRvalue c || !t1.noRef.sameDim t2.noRef)

/-! ### Overload sets -/

/-- Constraints on one, on two template arguments.
The C++ language; it is applied to the overloads of Expr/unary.hpp, Expr/binary.hpp:465-738, derived1D.hpp:56-380 and
derived2D.hpp:62-750. -/
def on1 (p : Ty → Bool) : List Ty → Bool
  | [t] => p t
  | _ => false

/-- The C++ language; it is applied to the overloads of Expr/unary.hpp, Expr/binary.hpp:465-738, derived1D.hpp:56-380 and
derived2D.hpp:62-750. -/
@[inherit_doc on1]
def on2 (p : Ty → Ty → Bool) : List Ty → Bool
  | [t, u] => p t u
  | _ => false

/-- Functions of one array: `+ - ~ ! abs`, the floating-point functions (with `pow` and its variants, whose
exponent is left out), `array_cast`, and `generate` with the caller's function.
The C++ language; it is applied to the overloads of Expr/unary.hpp, Expr/binary.hpp:465-738, derived1D.hpp:56-380 and
derived2D.hpp:62-750. -/
inductive Fn1 where
  | plus | minus | bnot | lnot | abs | floatFn | cast | generate
  deriving DecidableEq, Repr

/-- The element types each function is declared for, unary.hpp:20-97. -/
def Fn1.cls : Fn1 → Cls
  | .plus | .minus | .abs => .real
  | .bnot => .integer
  | .lnot => .boolean
  | .floatFn => .floating
  | .cast | .generate => .any

/-- The overloads of a function of one array: unary.hpp:20-97, and, deleted, unary.hpp:103-195; `generate`
has no deleted overload. -/
def Fn1.set (f : Fn1) : List Cand :=
  ⟨[.cref], on1 (Ty.baseOf f.cls), false, 1⟩ ::
  if f = .generate then [] else [⟨[.fwd], on1 (Ty.ownerRvalue f.cls), true, 0⟩]

/-- The functors of unary.hpp:232-343 exist for these types: `-` not for unsigned integers (functors.hpp:22-30). -/
def Fn1.body (f : Fn1) : List What → Bool
  | [.array _ (.uint _) _] => decide (f ≠ .minus)
  | _ => true

/-- Binary operators.
The C++ language; it is applied to the overloads of Expr/unary.hpp, Expr/binary.hpp:465-738, derived1D.hpp:56-380 and
derived2D.hpp:62-750. -/
inductive Op2 where
  | add | sub | mul | div | rem | shl | shr | band | bor | bxor | land | lor
  deriving DecidableEq, Repr

/-- The element types each operator is declared for, binary.hpp:29-88; `^` is declared for integers and for
booleans. -/
def Op2.classes : Op2 → List Cls
  | .add | .sub | .mul | .div => [.real]
  | .rem | .shl | .shr | .band | .bor => [.integer]
  | .bxor => [.integer, .boolean]
  | .land | .lor => [.boolean]

/-- `A1 op A2`, binary.hpp:29-88, deleted 97-159; `x op A`, 173-222, deleted 228-290; `A op x`, 294-343, deleted
349-411.  A number `x` must have the value type of the array. -/
def opSet (c : Cls) : List Cand :=
  [⟨[.cref, .cref], on2 (fun t u => t.baseOf c && u.baseOf c), false, 1⟩,
   ⟨[.fwd, .fwd], on2 (exprDeleted c), true, 0⟩,
   ⟨[.val, .cref], on2 (fun t u => t.number && u.baseOf c), false, 1⟩,
   ⟨[.val, .fwd], on2 (fun t u => t.number && u.ownerRvalue c), true, 0⟩,
   ⟨[.cref, .val], on2 (fun t u => t.baseOf c && u.number), false, 1⟩,
   ⟨[.fwd, .val], on2 (fun t u => t.ownerRvalue c && u.number), true, 0⟩]

/-- The element type of an argument.
The C++ language; it is applied to the overloads of Expr/unary.hpp, Expr/binary.hpp:465-738, derived1D.hpp:56-380 and
derived2D.hpp:62-750. -/
def What.elem? : What → Option Elem
  | .array _ e _ => some e
  | .number e => some e
  | _ => none

/-- The dimension of an argument.
The C++ language; it is applied to the overloads of Expr/unary.hpp, Expr/binary.hpp:465-738, derived1D.hpp:56-380 and
derived2D.hpp:62-750. -/
def What.dim? : What → Option Dim
  | .array d _ _ => some d
  | _ => none

/-- `generate(A1, A2, f)` with the functors for two operands of the same type: binary.hpp:450-461
(`static_assert(same_dimension<Base1, Base2>())`), functors.hpp:176-277; a number has no dimension. -/
def sameTypes : List What → Bool
  | [u, v] => u.elem? == v.elem? && (u.dim?.isNone || v.dim?.isNone || u.dim? == v.dim?)
  | _ => false

/-- Other functions of two arrays.
The C++ language; it is applied to the overloads of Expr/unary.hpp, Expr/binary.hpp:465-738, derived1D.hpp:56-380 and
derived2D.hpp:62-750. -/
inductive Fn2 where
  | twoProd | powProd | generate | matvec | tensor
  deriving DecidableEq, Repr

/-- `two_prod` and `pow_prod`: binary.hpp:79-88, deleted 162-169 (for `pow_prod`, too, only with two floating-point
arrays); `generate`: 23-25, no deleted overload; `matvec_prod`: 415-422; `tensor_prod`: 425-431 (the deleted overload
requires `OneDimRealBaseType` of the forwarding references). -/
def Fn2.set : Fn2 → List Cand
  | .twoProd =>
      [⟨[.cref, .cref], on2 (fun t u => t.baseOf .floating && u.baseOf .floating), false, 1⟩,
       ⟨[.fwd, .fwd], on2 (exprDeleted .floating), true, 0⟩]
  | .powProd =>
      [⟨[.cref, .cref], on2 (fun t u => t.baseOf .floating &&
          (u.base && (u.what.elem?.map Elem.isSigned).getD false)), false, 1⟩,
       ⟨[.fwd, .fwd], on2 (exprDeleted .floating), true, 0⟩]
  | .generate => [⟨[.cref, .cref], on2 (fun t u => t.base && u.base), false, 1⟩]
  | .matvec =>
      [⟨[.cref, .cref], on2 (fun t u => t.dimBase .two && t.baseOf .real && (u.dimBase .one && u.baseOf .real)),
          false, 1⟩,
       ⟨[.fwd, .fwd], on2 (fun t u => t.noRef.dimBase .two && t.noRef.baseOf .real &&
          (u.noRef.dimBase .one && u.noRef.baseOf .real) && (t.ownerRvalue .real || u.ownerRvalue .real)),
          true, 0⟩]
  | .tensor =>
      [⟨[.cref, .cref], on2 (fun t u => t.dimBase .one && t.baseOf .real && (u.dimBase .one && u.baseOf .real)),
          false, 1⟩,
       ⟨[.fwd, .fwd], on2 (fun t u => t.dimBase .one && t.baseOf .real && (u.dimBase .one && u.baseOf .real) &&
          exprDeleted .real t u), true, 0⟩]

/-- The bodies: binary.hpp:450-461, 543-554, 715-735. -/
def Fn2.body : Fn2 → List What → Bool
  | .twoProd, ws => sameTypes ws
  | .powProd, [u, v] | .generate, [u, v] => u.dim? == v.dim?
  | .matvec, [u, v] | .tensor, [u, v] => u.elem? == v.elem?
  | _, _ => false

/-- `merge`, special.hpp:25-49, with any number of arguments (arrays and numbers); deleted 203-205. -/
def mergeSet (n : Nat) : List Cand :=
  [⟨[.cref, .cref], on2 (fun t u => t.dimBase .one && u.dimBase .one), false, 2⟩,
   ⟨List.replicate n .cref, fun ts => ts.all (Ty.dimBase .one), false, 1⟩,
   ⟨[.cref, .val], on2 (fun t u => t.dimBase .one && u.number), false, 2⟩,
   ⟨.cref :: .val :: List.replicate (n - 2) .val, fun ts =>
      ((ts.head?.map (Ty.dimBase .one)).getD false) && ts.tail.all Ty.number, false, 1⟩,
   ⟨[.val, .cref], on2 (fun t u => t.number && u.dimBase .one), false, 2⟩,
   ⟨.val :: .val :: List.replicate (n - 2) .cref, fun ts => decide (3 ≤ ts.length) &&
      ts.dropLast.all Ty.number && ((ts.getLast?.map (Ty.dimBase .one)).getD false), false, 1⟩,
   ⟨List.replicate n .fwd, fun ts => ts.any (Ty.dimOwnerRvalue .one), true, 0⟩]

/-- The elements of all arguments have the same type; there are at least two arguments, special.hpp:286-339. -/
def mergeBody (ws : List What) : Bool :=
  decide (2 ≤ ws.length) && ws.all (fun w => w.elem? == (ws.head?.bind What.elem?))

/-- `merge_horizontal`, `merge_vertical`, special.hpp:53-66; deleted 208-215. -/
def mergeSet2 (n : Nat) : List Cand :=
  [⟨[.cref, .cref], on2 (fun t u => t.dimBase .two && u.dimBase .two), false, 2⟩,
   ⟨List.replicate n .cref, fun ts => ts.all (Ty.dimBase .two), false, 1⟩,
   ⟨List.replicate n .fwd, fun ts => ts.any (Ty.dimOwnerRvalue .two), true, 0⟩]

/-- Functions of one array of given dimension: `exclude`, special.hpp:70-78, deleted 219-231; `transpose`, 150-151,
deleted 234-236; `row_reduce`, `col_reduce`, 170-175, deleted 240-247; `row_broadcast`, `col_broadcast`, 178-183,
deleted 250-257. -/
def shapeSet (d : Dim) : List Cand :=
  [⟨[.cref], on1 (Ty.dimBase d), false, 1⟩,
   ⟨[.fwd], on1 (Ty.dimOwnerRvalue d), true, 0⟩]

/-- The kinds of slice argument.
The C++ language; it is applied to the overloads of Expr/unary.hpp, Expr/binary.hpp:465-738, derived1D.hpp:56-380 and
derived2D.hpp:62-750. -/
inductive Via where
  | obj | braces | list
  deriving DecidableEq, Repr

/-- The slice argument.
The C++ language; it is applied to the overloads of Expr/unary.hpp, Expr/binary.hpp:465-738, derived1D.hpp:56-380 and
derived2D.hpp:62-750. -/
def Via.arg : Via → Arg
  | .obj => ⟨.sliceObj, .rvalue⟩
  | .braces => ⟨.braces, .rvalue⟩
  | .list => ⟨.indexList, .rvalue⟩

/-- `SliceType`, slice.hpp:220-234: not `std::initializer_list`. -/
def Ty.slice (t : Ty) : Bool := decide (t.what = .sliceObj)

/-- `A(slice)` and `A({i, j, ...})` for one-dimensional `A`, derived1D.hpp:177-209 (`&`, `const&`), 226-237 (`&&`; the
overload for index lists is not restricted to objects without elements of their own), 249-252 (deleted). -/
def sliceSet : List Cand :=
  [⟨[.objL, .val], on2 (fun _ u => u.slice), false, 0⟩,
   ⟨[.objL, .initList], fun _ => true, false, 1⟩,
   ⟨[.objC, .val], on2 (fun _ u => u.slice), false, 0⟩,
   ⟨[.objC, .initList], fun _ => true, false, 1⟩,
   ⟨[.objR, .val], on2 (fun t u => u.slice && !t.owner), false, 0⟩,
   ⟨[.objR, .initList], fun _ => true, false, 1⟩,
   ⟨[.objCR, .val], on2 (fun t _ => t.owner), true, 0⟩]

/-- Members of which there are four: `&`, `const&`, `&&` for objects without elements of their own, and `const&&`
deleted for those with: `view1D`, `view2D`, derived1D.hpp:191-196, 211-222, 239-260; `row`, `col`, `diag`, `view1D`,
`view2D`, derived2D.hpp:215-358; `block`, `blockN`, 412-432, 474-489, 541-558, 608-617; and slicing with slice objects
or index lists, `rows`, `cols`, 365-410, 435-481, 494-550, 571-605 (each combination of slice objects and index lists
has its own four overloads). -/
def viewSet : List Cand :=
  [⟨[.objL], fun _ => true, false, 1⟩,
   ⟨[.objC], fun _ => true, false, 1⟩,
   ⟨[.objR], on1 (fun t => !t.owner), false, 1⟩,
   ⟨[.objCR], on1 Ty.owner, true, 1⟩]

/-- `begin`, `end`, `rbegin`, `rend`, derived1D.hpp:102-170, derived2D.hpp:142-209; `data`, `blas_data`,
array_base1D.hpp:103-120, array_base2D.hpp:125-142, fixed_array_base1D.hpp:51-68, fixed_array_base2D.hpp:58-75. -/
def pointerSet : List Cand :=
  [⟨[.objL], fun _ => true, false, 1⟩,
   ⟨[.objC], fun _ => true, false, 1⟩,
   ⟨[.objR], fun _ => true, true, 1⟩,
   ⟨[.objCR], fun _ => true, true, 1⟩]

/-- `cbegin`, `cend`, `crbegin`, `crend`, derived1D.hpp:126-172, derived2D.hpp:166-211. -/
def constPointerSet : List Cand :=
  [⟨[.objC], fun _ => true, false, 1⟩,
   ⟨[.objCR], fun _ => true, true, 1⟩]

/-- `RowIt(A)` and `ColIt(A)`, iterator.hpp:731-747, 814-838: the deduced type must be an lvalue reference. -/
def planeSet : List Cand :=
  [⟨[.fwd], on1 (fun t => t.ref && t.noRef.dimBase .two), false, 1⟩]

/-- The functions that make views, expressions, iterators and pointers.
The C++ language; it is applied to the overloads of Expr/unary.hpp, Expr/binary.hpp:465-738, derived1D.hpp:56-380 and
derived2D.hpp:62-750. -/
inductive Fn where
  | fn1 (f : Fn1)
  | op (o : Op2)
  | fn2 (f : Fn2)
  | merge
  | merge2
  | shape (d : Dim)
  | slice (v : Via)
  | view (d : Dim)
  | pointer
  | constPointer
  | plane
  deriving DecidableEq, Repr

/-- The call with these arguments (arrays and numbers) compiles.
The C++ language; it is applied to the overloads of Expr/unary.hpp, Expr/binary.hpp:465-738, derived1D.hpp:56-380 and
derived2D.hpp:62-750. -/
def Fn.compiles : Fn → List Arg → Bool
  | .fn1 f, args => Cpp.compiles f.set f.body args
  | .op o, args => Cpp.compiles (o.classes.flatMap opSet) sameTypes args
  | .fn2 f, args => Cpp.compiles f.set f.body args
  | .merge, args => Cpp.compiles (mergeSet args.length) mergeBody args
  | .merge2, args => Cpp.compiles (mergeSet2 args.length) mergeBody args
  | .shape d, args => Cpp.compiles (shapeSet d) (fun _ => true) args
  | .slice v, args => Cpp.compiles sliceSet
      (fun ws => (ws.head?.bind What.dim?) == some .one) (args ++ [v.arg])
  | .view d, args => Cpp.compiles viewSet (fun ws => (ws.head?.bind What.dim?) == some d) args
  | .pointer, args => Cpp.compiles pointerSet (fun _ => true) args
  | .constPointer, args => Cpp.compiles constPointerSet (fun _ => true) args
  | .plane, args => Cpp.compiles planeSet (fun _ => true) args

/-! ### The calls in an expression -/

/-- What the text says about a subexpression apart from its structure: which function or operator is called, and
the element type and value category of the result.
The C++ language; it is applied to the overloads of Expr/unary.hpp, Expr/binary.hpp:465-738, derived1D.hpp:56-380 and
derived2D.hpp:62-750. -/
structure Label where
  fn1 : Fn1
  fn2 : Op2 ⊕ Fn2
  via : Option Via
  elem : Elem
  cat : Cat

/-- The function or operator of an element-wise operation on two arrays.
The C++ language; it is applied to the overloads of Expr/unary.hpp, Expr/binary.hpp:465-738, derived1D.hpp:56-380 and
derived2D.hpp:62-750. -/
def Label.binary (l : Label) : Fn :=
  match l.fn2 with
  | .inl o => .op o
  | .inr f => .fn2 f

/-- Operators with a number.
The C++ language; it is applied to the overloads of Expr/unary.hpp, Expr/binary.hpp:465-738, derived1D.hpp:56-380 and
derived2D.hpp:62-750. -/
def Label.scalar (l : Label) : Fn :=
  match l.fn2 with
  | .inl o => .op o
  | .inr _ => .op .add

/-- The function that makes a view.
The C++ language; it is applied to the overloads of Expr/unary.hpp, Expr/binary.hpp:465-738, derived1D.hpp:56-380 and
derived2D.hpp:62-750. -/
def Label.view (l : Label) (d : Dim) : Fn :=
  match d, l.via with
  | .one, some v => .slice v
  | _, _ => .view d

/-- The argument a subexpression is: only arrays own their elements (`ReferenceBase1D`, `ReferenceBase2D`,
array_traits.hpp:75-90). -/
def Label.arg (l : Label) (d : Dim) (owner : Bool) : Arg := ⟨.array d l.elem owner, l.cat⟩

/-- A number of the element type of a subexpression.
The C++ language; it is applied to the overloads of Expr/unary.hpp, Expr/binary.hpp:465-738, derived1D.hpp:56-380 and
derived2D.hpp:62-750. -/
def Label.number (l : Label) : Arg := ⟨.number l.elem, .rvalue⟩

/-- The text is an array.
The C++ language; it is applied to the overloads of Expr/unary.hpp, Expr/binary.hpp:465-738, derived1D.hpp:56-380 and
derived2D.hpp:62-750. -/
def lvOwner : Lv d → Bool
  | .arr1 _ => true
  | .arr2 _ => true
  | .view _ _ => false

/-- The C++ language; it is applied to the overloads of Expr/unary.hpp, Expr/binary.hpp:465-738, derived1D.hpp:56-380 and
derived2D.hpp:62-750. -/
@[inherit_doc lvOwner]
def tmOwner {α : Type} : Tm α d → Bool
  | .lv l => lvOwner l
  | _ => false

/-- The calls in the text of a view, derived1D.hpp:177-260, derived2D.hpp:215-617. -/
def lvCalls (lab : List Nat → Label) (p : List Nat) : Lv d → List (Fn × List Arg)
  | .arr1 _ => []
  | .arr2 _ => []
  | .view (d := d) _ l => ((lab p).view d, [(lab (0 :: p)).arg d (lvOwner l)]) :: lvCalls lab (0 :: p) l

/-- The calls in the text of an expression, unary.hpp:20-97, binary.hpp:23-88, 173-222, 294-343, 415-431,
special.hpp:23-183. -/
def tmCalls {α : Type} (lab : List Nat → Label) (p : List Nat) : Tm α d → List (Fn × List Arg)
  | .lv l => lvCalls lab p l
  | .view (d := d) _ t => ((lab p).view d, [(lab (0 :: p)).arg d (tmOwner t)]) :: tmCalls lab (0 :: p) t
  | .unary (d := d) _ t => (.fn1 (lab p).fn1, [(lab (0 :: p)).arg d (tmOwner t)]) :: tmCalls lab (0 :: p) t
  | .binary (d := d) _ t1 t2 =>
      ((lab p).binary, [(lab (0 :: p)).arg d (tmOwner t1), (lab (1 :: p)).arg d (tmOwner t2)]) ::
        (tmCalls lab (0 :: p) t1 ++ tmCalls lab (1 :: p) t2)
  | .scalarL (d := d) _ _ t =>
      ((lab p).scalar, [(lab (0 :: p)).number, (lab (0 :: p)).arg d (tmOwner t)]) :: tmCalls lab (0 :: p) t
  | .scalarR (d := d) _ t _ =>
      ((lab p).scalar, [(lab (0 :: p)).arg d (tmOwner t), (lab (0 :: p)).number]) :: tmCalls lab (0 :: p) t
  | .sequence .. | .linspace .. | .eUnit .. | .const1D .. | .const2D .. | .identity .. => []
  | .merge t1 t2 => (.merge, [(lab (0 :: p)).arg .one (tmOwner t1), (lab (1 :: p)).arg .one (tmOwner t2)]) ::
      (tmCalls lab (0 :: p) t1 ++ tmCalls lab (1 :: p) t2)
  | .append t _ => (.merge, [(lab (0 :: p)).arg .one (tmOwner t), (lab (0 :: p)).number]) :: tmCalls lab (0 :: p) t
  | .prepend _ t => (.merge, [(lab (0 :: p)).number, (lab (0 :: p)).arg .one (tmOwner t)]) :: tmCalls lab (0 :: p) t
  | .exclude t _ _ => (.shape .one, [(lab (0 :: p)).arg .one (tmOwner t)]) :: tmCalls lab (0 :: p) t
  | .excludeLast t _ => (.shape .one, [(lab (0 :: p)).arg .one (tmOwner t)]) :: tmCalls lab (0 :: p) t
  | .reduce _ _ t => (.shape .two, [(lab (0 :: p)).arg .two (tmOwner t)]) :: tmCalls lab (0 :: p) t
  | .matvec _ t x => (.fn2 .matvec, [(lab (0 :: p)).arg .two (tmOwner t), (lab (1 :: p)).arg .one (tmOwner x)]) ::
      (tmCalls lab (0 :: p) t ++ tmCalls lab (1 :: p) x)
  | .bcast _ t => (.shape .one, [(lab (0 :: p)).arg .one (tmOwner t)]) :: tmCalls lab (0 :: p) t
  | .tensor _ t1 t2 => (.fn2 .tensor, [(lab (0 :: p)).arg .one (tmOwner t1), (lab (1 :: p)).arg .one (tmOwner t2)]) ::
      (tmCalls lab (0 :: p) t1 ++ tmCalls lab (1 :: p) t2)
  | .transpose t => (.shape .two, [(lab (0 :: p)).arg .two (tmOwner t)]) :: tmCalls lab (0 :: p) t
  | .mergeH t1 t2 => (.merge2, [(lab (0 :: p)).arg .two (tmOwner t1), (lab (1 :: p)).arg .two (tmOwner t2)]) ::
      (tmCalls lab (0 :: p) t1 ++ tmCalls lab (1 :: p) t2)
  | .mergeV t1 t2 => (.merge2, [(lab (0 :: p)).arg .two (tmOwner t1), (lab (1 :: p)).arg .two (tmOwner t2)]) ::
      (tmCalls lab (0 :: p) t1 ++ tmCalls lab (1 :: p) t2)

/-- The statement compiles: all its calls do.
The C++ language; it is applied to the overloads of Expr/unary.hpp, Expr/binary.hpp:465-738, derived1D.hpp:56-380 and
derived2D.hpp:62-750. -/
def tmCompiles {α : Type} (lab : List Nat → Label) (t : Tm α d) : Bool :=
  (tmCalls lab [] t).all fun c => c.1.compiles c.2

end Spp.Cpp
