/-
Which conversions between numbers a program can contain: constructors, conversion functions and operators of
`Strict<T>` (strictpp/StrictCommon/strict_val.hpp:34-274, 382-513), and the operators on index types
(strictpp/StrictCommon/auxiliary_types.hpp:37-63, 134, 142-166, 183-245), as the overload sets from which the compiler chooses.

Overload resolution follows [over.match] of the C++20 standard, restricted to what occurs here.  Conversions of an
operand are ranked identity, promotion, standard conversion, user-defined conversion; two different user-defined
conversions are never better or worse than each other ([over.ics.rank]).  A deleted function takes part in overload
resolution; a program that needs it does not compile.

Simplifications: constants, references and temporaries play no role here.  The built-in candidates for pointers are
left out: only `Strict<bool>` could be converted to a pointer, by the deleted conversion, and they would only make
more calls ambiguous.  Assignment to a variable of built-in type is left out, as is the conditional operator.
-/

namespace Spp.Cxx

/-- The arithmetic types of C++.  `other 0` and `other 1` stand for `long long` and `unsigned long long`, the other
numbers for `char`, `short` and the like.
The C++ language; it is applied to the overloads of strict_val.hpp:34-270, 382-513 and auxiliary_types.hpp:37-245. -/
inductive Num where
  | bool | int | long | uint | ulong | float | double | ldouble | quad
  | other (n : Nat)
  deriving DecidableEq, Repr

namespace Num

/-- `SignedInteger`, strict_traits.hpp:30. -/
def signed : Num → Bool
  | .int | .long => true
  | _ => false

/-- `UnsignedInteger`, strict_traits.hpp:32-33. -/
def unsigned : Num → Bool
  | .uint | .ulong => true
  | _ => false

/-- `Integer`, strict_traits.hpp:35. -/
def integer (n : Num) : Bool := n.signed || n.unsigned

/-- `Floating`, strict_traits.hpp:37-48, with STRICT_QUAD_PRECISION. -/
def floating : Num → Bool
  | .float | .double | .ldouble | .quad => true
  | _ => false

/-- `Real`, strict_traits.hpp:51. -/
def real (n : Num) : Bool := n.floating || n.integer

/-- `Builtin`, strict_traits.hpp:52-53. -/
def builtin (n : Num) : Bool := decide (n = .bool) || n.real

/-- Integral promotions and the promotion of `float`, [conv.prom], [conv.fpprom].
The C++ language; it is applied to the overloads of strict_val.hpp:34-270, 382-513 and auxiliary_types.hpp:37-245. -/
def promotes : Num → Num → Bool
  | .bool, .int => true
  | .float, .double => true
  | .other n, .int => decide (2 ≤ n)
  | _, _ => false

/-- The promoted integral types, [over.built].
The C++ language; it is applied to the overloads of strict_val.hpp:34-270, 382-513 and auxiliary_types.hpp:37-245. -/
def promotedInts : List Num := [.int, .uint, .long, .ulong, .other 0, .other 1]

/-- The promoted arithmetic types, [over.built].
The C++ language; it is applied to the overloads of strict_val.hpp:34-270, 382-513 and auxiliary_types.hpp:37-245. -/
def promoted : List Num := promotedInts ++ [.float, .double, .ldouble, .quad]

/-- The order of the types in the usual arithmetic conversions.
The C++ language; it is applied to the overloads of strict_val.hpp:34-270, 382-513 and auxiliary_types.hpp:37-245. -/
def rank : Num → Nat
  | .uint => 1
  | .long => 2
  | .ulong => 3
  | .other 0 => 4
  | .other 1 => 5
  | .float => 6
  | .double => 7
  | .ldouble => 8
  | .quad => 9
  | _ => 0

/-- The usual arithmetic conversions, [expr.arith.conv], for a 64-bit `long`.
The C++ language; it is applied to the overloads of strict_val.hpp:34-270, 382-513 and auxiliary_types.hpp:37-245. -/
def usual (p q : Num) : Num :=
  if p.rank = 0 ∧ q.rank = 0 then .int
  else if (p = .ulong ∧ q = .other 0) ∨ (p = .other 0 ∧ q = .ulong) then .other 1
  else if p.rank < q.rank then q else p

end Num

/-- The types of operands: built-in numbers, `Strict<T>`, `ImplicitInt`, `ImplicitIntStatic` and `Last`
(auxiliary_types.hpp:37-63, 134, 142-166, 183-194). -/
inductive Ty where
  | num (n : Num)
  | strict (n : Num)
  | implicitInt
  | implicitIntStatic
  | last
  deriving DecidableEq, Repr

/-- The type of the number in it.
The C++ language; it is applied to the overloads of strict_val.hpp:34-270, 382-513 and auxiliary_types.hpp:37-245. -/
def Ty.number : Ty → Num
  | .num n => n
  | .strict n => n
  | _ => .long

/-- Conversions of an operand: none needed, promotion, standard conversion, by a constructor or conversion function
(which may be deleted).
The C++ language; it is applied to the overloads of strict_val.hpp:34-270, 382-513 and auxiliary_types.hpp:37-245. -/
inductive Conv where
  | identity | promotion | standard
  | user (deleted : Bool)
  deriving DecidableEq, Repr

/-- [over.ics.rank]: smaller is better.
The C++ language; it is applied to the overloads of strict_val.hpp:34-270, 382-513 and auxiliary_types.hpp:37-245. -/
def Conv.rank : Conv → Nat
  | .identity => 0
  | .promotion => 1
  | .standard => 2
  | .user _ => 3

/-- The implicit conversion from one type to another, if there is one.  To `Strict<T>`: `Strict(auto)` is deleted
(strict_val.hpp:48, 113) and the other constructor explicit (45, 110).  From `Strict<bool>`: `operator bool`
(55-57) and for all other types the deleted template (61-63); from other `Strict<T>` there is only an explicit
conversion function (120-122).  To `ImplicitInt`: auxiliary_types.hpp:42-56 (not explicit, 134), or from
`ImplicitIntStatic` (159-161).  To `ImplicitIntStatic`: 147-153.  To `Last`: the constructor is explicit (185). -/
def implicit (src dst : Ty) : Option Conv :=
  if src = dst then some .identity
  else match dst, src with
    | .num n, .num m => some (if m.promotes n then .promotion else .standard)
    | .num n, .strict .bool => some (.user (decide (n ≠ .bool)))
    | .num _, _ => none
    | .strict _, _ => some (.user true)
    | .implicitInt, .num m => if m.signed then some (.user false) else none
    | .implicitInt, .strict m =>
        if m.signed then some (.user false) else if m = .bool then some (.user true) else none
    | .implicitInt, .implicitIntStatic => some (.user false)
    | .implicitInt, _ => none
    | .implicitIntStatic, .num m => if m.signed then some (.user false) else none
    | .implicitIntStatic, .strict m =>
        if m.signed then some (.user false) else if m = .bool then some (.user true) else none
    | .implicitIntStatic, _ => none
    | .last, .strict .bool => some (.user true)
    | .last, _ => none

/-- A candidate function after deduction of template arguments.
The C++ language; it is applied to the overloads of strict_val.hpp:34-270, 382-513 and auxiliary_types.hpp:37-245. -/
structure Cand where
  params : List Ty
  result : Ty
  template : Bool := false
  deleted : Bool := false
  deriving DecidableEq, Repr

/-- The conversions of the operands to the parameters.
The C++ language; it is applied to the overloads of strict_val.hpp:34-270, 382-513 and auxiliary_types.hpp:37-245. -/
def Cand.convs (c : Cand) (args : List Ty) : List (Option Conv) :=
  List.zipWith implicit args c.params

/-- The candidate can be called with these operands.
The C++ language; it is applied to the overloads of strict_val.hpp:34-270, 382-513 and auxiliary_types.hpp:37-245. -/
def Cand.viable (c : Cand) (args : List Ty) : Bool :=
  c.params.length == args.length && (c.convs args).all Option.isSome

/-- One conversion is better than another.
The C++ language; it is applied to the overloads of strict_val.hpp:34-270, 382-513 and auxiliary_types.hpp:37-245. -/
def better : Option Conv → Option Conv → Bool
  | some x, some y => decide (x.rank < y.rank)
  | _, _ => false

/-- [over.match.best]: no operand converts worse, and one converts better or only the other is a template.
The C++ language; it is applied to the overloads of strict_val.hpp:34-270, 382-513 and auxiliary_types.hpp:37-245. -/
def Cand.beats (c c' : Cand) (args : List Ty) : Bool :=
  (List.zipWith better (c'.convs args) (c.convs args)).all (fun b => !b) &&
  ((List.zipWith better (c.convs args) (c'.convs args)).any id || (!c.template && c'.template))

/-- The best viable candidate, if there is one.
The C++ language; it is applied to the overloads of strict_val.hpp:34-270, 382-513 and auxiliary_types.hpp:37-245. -/
def resolve (cs : List Cand) (args : List Ty) : Option Cand :=
  let vs := cs.filter (fun c => c.viable args)
  vs.find? (fun c => vs.all (fun c' => decide (c' = c) || c.beats c' args))

/-- A conversion that compiles.
The C++ language; it is applied to the overloads of strict_val.hpp:34-270, 382-513 and auxiliary_types.hpp:37-245. -/
def Conv.usable : Option Conv → Bool
  | some (.user d) => !d
  | some _ => true
  | none => false

/-- The candidate the compiler selects, if the call compiles: it is not deleted and needs no deleted conversion.
The C++ language; it is applied to the overloads of strict_val.hpp:34-270, 382-513 and auxiliary_types.hpp:37-245. -/
def call (cs : List Cand) (args : List Ty) : Option Cand :=
  match resolve cs args with
  | some c => if !c.deleted && (c.convs args).all Conv.usable then some c else none
  | none => none

/-! ### Initialization -/

/-- `T x = e;`, passing `e` for a parameter of type `T`, returning `e`.
The C++ language; it is applied to the overloads of strict_val.hpp:34-270, 382-513 and auxiliary_types.hpp:37-245. -/
def copyInit (dst src : Ty) : Bool := Conv.usable (implicit src dst)

/-- The constructors of `Strict<T>`: strict_val.hpp:40-48 for `bool`, 103-113 for other types.  `Strict(auto)` is not
a copy constructor ([class.copy.ctor]/5). -/
def constructors (n : Num) (src : Ty) : List Cand :=
  [⟨[.num n], .strict n, false, false⟩, ⟨[.strict n], .strict n, false, false⟩] ++
  if src = .strict n then [] else [⟨[src], .strict n, true, true⟩]

/-- `Strict<T>{e}`, `Strict<T>(e)`: `T` must be one of the types of the library.
The C++ language; it is applied to the overloads of strict_val.hpp:34-270, 382-513 and auxiliary_types.hpp:37-245. -/
def directInit (n : Num) (src : Ty) : Bool := n.builtin && (call (constructors n src) [src]).isSome

/-- `static_cast<T>(e)` and `T{e}` for a built-in `T`: an explicit conversion function is used only if it yields exactly
`T` ([over.match.conv]); strict_val.hpp:55-63, 120-122.  (`T{e}` with a built-in `e` may be rejected as narrowing, which
is left out.) -/
def staticCast (n : Num) : Ty → Bool
  | .num _ => true
  | .strict m => decide (m = n)
  | _ => false

/-- `Strict{e}`: template argument deduction for the class, strict_traits.hpp:64-65, strict_val.hpp:103-113. -/
def deduce : Ty → Option Num
  | .num n => if n.builtin then some n else none
  | .strict n => some n
  | _ => none

/-- `strict_cast<T>(e)` and `builtin_cast<T>(e)`, strict_val.hpp:333-342, 357-366; also the members `si`, `sl`, `sd` and so on, 230-270, 516-560: the type of the number converted. -/
def castFrom : Ty → Option Num
  | .num n => if n.builtin then some n else none
  | .strict n => some n
  | _ => none

/-- `e.val()`, strict_val.hpp:51-53, 116-118. -/
def valOf : Ty → Option Num
  | .strict n => some n
  | _ => none

/-- `if(e)`, `while(e)`: contextual conversion to `bool`, [conv.general]/4.
The C++ language; it is applied to the overloads of strict_val.hpp:34-270, 382-513 and auxiliary_types.hpp:37-245. -/
def condition : Ty → Bool
  | .num _ => true
  | .strict m => decide (m = .bool)
  | _ => false

/-! ### Operators -/

/-- The binary operators.
The C++ language; it is applied to the overloads of strict_val.hpp:34-270, 382-513 and auxiliary_types.hpp:37-245. -/
inductive Op where
  | add | sub | mul | div | rem | shl | shr | band | bor | bxor | land | lor
  | eq | ne | lt | le | gt | ge
  deriving DecidableEq, Repr

/-- `==`, `!=`, `<`, `<=`, `>`, `>=`.
The C++ language; it is applied to the overloads of strict_val.hpp:34-270, 382-513 and auxiliary_types.hpp:37-245. -/
def Op.comparison : Op → Bool
  | .eq | .ne | .lt | .le | .gt | .ge => true
  | _ => false

/-- The types for which the templates are declared, strict_val.hpp:382-513. -/
def Op.declared : Op → Num → Bool
  | .add, n | .sub, n | .mul, n | .div, n => n.real
  | .rem, n | .shl, n | .shr, n | .band, n | .bor, n => n.integer
  | .bxor, n => n.integer || decide (n = .bool)
  | .land, n | .lor, n => decide (n = .bool)
  | _, n => n.builtin

/-- The result types of the templates, strict_val.hpp:382-513. -/
def Op.yields (o : Op) (n : Num) : Ty := if o.comparison then .strict .bool else .strict n

/-- The templates `operator@(Strict<T>, Strict<T>)`, strict_val.hpp:382-513: deduction succeeds only if both operands are
`Strict<T>` with the same `T`. -/
def templates (o : Op) : List Ty → List Cand
  | [.strict n, .strict m] =>
      if o.declared n ∧ n = m then [⟨[.strict n, .strict n], o.yields n, true, false⟩] else []
  | _ => []

/-- The operators that are not templates, auxiliary_types.hpp:210-245.  Argument-dependent lookup finds them for every
operand of a type of the library. -/
def positions : Op → List Cand
  | .add => [{ params := [.last, .implicitInt], result := .last },
             { params := [.implicitInt, .last], result := .last },
             { params := [.implicitInt, .implicitInt], result := .implicitInt },
             { params := [.implicitIntStatic, .implicitIntStatic], result := .implicitIntStatic }]
  | .sub => [{ params := [.last, .implicitInt], result := .last },
             { params := [.implicitInt, .implicitInt], result := .implicitInt },
             { params := [.implicitIntStatic, .implicitIntStatic], result := .implicitIntStatic }]
  | _ => []

/-- All pairs of elements of a list.
The C++ language; it is applied to the overloads of strict_val.hpp:34-270, 382-513 and auxiliary_types.hpp:37-245. -/
def pairs (l : List Num) : List (Num × Num) := l.flatMap fun p => l.map fun q => (p, q)

/-- The operand types of the built-in candidates, [over.built].
The C++ language; it is applied to the overloads of strict_val.hpp:34-270, 382-513 and auxiliary_types.hpp:37-245. -/
def Op.operands : Op → List (Num × Num)
  | .rem | .shl | .shr | .band | .bor | .bxor => pairs Num.promotedInts
  | .land | .lor => [(.bool, .bool)]
  | _ => pairs Num.promoted

/-- The result type of a built-in operator.
The C++ language; it is applied to the overloads of strict_val.hpp:34-270, 382-513 and auxiliary_types.hpp:37-245. -/
def Op.builtinResult (o : Op) (p q : Num) : Num :=
  match o with
  | .land | .lor => .bool
  | .shl | .shr => p.usual .int
  | _ => if o.comparison then .bool else p.usual q

/-- The built-in candidates, [over.built].
The C++ language; it is applied to the overloads of strict_val.hpp:34-270, 382-513 and auxiliary_types.hpp:37-245. -/
def builtins (o : Op) : List Cand :=
  o.operands.map fun pq =>
    { params := [.num pq.1, .num pq.2], result := .num (o.builtinResult pq.1 pq.2) }

/-- Whether the language has the operator for two built-in numbers.
The C++ language; it is applied to the overloads of strict_val.hpp:34-270, 382-513 and auxiliary_types.hpp:37-245. -/
def Op.inLanguage (o : Op) (p q : Num) : Bool :=
  match o with
  | .rem | .shl | .shr | .band | .bor | .bxor => !p.floating && !q.floating
  | _ => true

/-- The types to which the language converts two built-in operands.
The C++ language; it is applied to the overloads of strict_val.hpp:34-270, 382-513 and auxiliary_types.hpp:37-245. -/
def Op.inLanguageParams (o : Op) (p q : Num) : Num × Num :=
  match o with
  | .land | .lor => (.bool, .bool)
  | .shl | .shr => (p.usual .int, q.usual .int)
  | _ => (p.usual q, p.usual q)

/-- `x @ y`: the function or built-in operator the compiler selects.
The C++ language; it is applied to the overloads of strict_val.hpp:34-270, 382-513 and auxiliary_types.hpp:37-245. -/
def binary (o : Op) (s t : Ty) : Option Cand :=
  match s, t with
  | .num p, .num q =>
      if o.inLanguage p q then
        let u := o.inLanguageParams p q
        some { params := [.num u.1, .num u.2], result := .num (o.builtinResult p q) }
      else none
  | s, t => call (templates o [s, t] ++ positions o ++ builtins o) [s, t]

/-- The unary operators.
The C++ language; it is applied to the overloads of strict_val.hpp:34-270, 382-513 and auxiliary_types.hpp:37-245. -/
inductive UnOp where
  | plus | minus | bnot | lnot
  deriving DecidableEq, Repr

/-- The member operators: strict_val.hpp:65-67 for `bool`, 124-137 for other types (`!` is not declared
there); `Strict<T>` exists only for the types of the library (97). -/
def members (o : UnOp) : Ty → List Cand
  | .strict n =>
      if n.builtin ∧ ((n = .bool ∧ o = .lnot) ∨ (n ≠ .bool ∧ o ≠ .lnot)) then
        [{ params := [.strict n], result := .strict n }]
      else []
  | _ => []

/-- The built-in candidates, [over.built].
The C++ language; it is applied to the overloads of strict_val.hpp:34-270, 382-513 and auxiliary_types.hpp:37-245. -/
def UnOp.builtins : UnOp → List Cand
  | .lnot => [{ params := [.num .bool], result := .num .bool }]
  | .bnot => Num.promotedInts.map fun p => { params := [.num p], result := .num p }
  | _ => Num.promoted.map fun p => { params := [.num p], result := .num p }

/-- The assertions in the bodies of the members, strict_val.hpp:129, 135. -/
def UnOp.body (o : UnOp) (n : Num) : Bool :=
  match o with
  | .minus => !n.unsigned
  | .bnot => n.integer
  | _ => true

/-- `@x`: the function or built-in operator the compiler selects.
The C++ language; it is applied to the overloads of strict_val.hpp:34-270, 382-513 and auxiliary_types.hpp:37-245. -/
def unary (o : UnOp) : Ty → Option Cand
  | .num p =>
      match o with
      | .lnot => some { params := [.num .bool], result := .num .bool }
      | .bnot => if p.floating then none
          else some { params := [.num (p.usual .int)], result := .num (p.usual .int) }
      | _ => some { params := [.num (p.usual .int)], result := .num (p.usual .int) }
  | t =>
      match call (members o t ++ o.builtins) [t] with
      | some c => if o.body t.number then some c else none
      | none => none

/-- `x @= y` and `x = y` for a variable of type `Strict<T>`; the operators.
The C++ language; it is applied to the overloads of strict_val.hpp:34-270, 382-513 and auxiliary_types.hpp:37-245. -/
inductive AssignOp where
  | assign | add | sub | mul | div | rem | shl | shr | band | bor | bxor
  deriving DecidableEq, Repr

/-- The members, strict_val.hpp:42, 107 (assignment), 161-228 (the others, not for `bool`; the bodies of `%=` and the
following assert an integer type). -/
def AssignOp.declared : AssignOp → Num → Bool
  | .assign, n => n.builtin
  | .add, n | .sub, n | .mul, n | .div, n => n.real
  | _, n => n.integer

/-- `x @= y` compiles, for `x` of type `Strict<T>`: the parameter has type `Strict<T>`.
The C++ language; it is applied to the overloads of strict_val.hpp:34-270, 382-513 and auxiliary_types.hpp:37-245. -/
def assignment (o : AssignOp) (n : Num) (src : Ty) : Bool :=
  o.declared n &&
    (call [{ params := [.strict n], result := .strict n }] [src]).isSome

/-! ### Expressions -/

/-- An expression on numbers.  `leaf t i` is the `i`-th variable or literal, of type `t`.
The C++ language; it is applied to the overloads of strict_val.hpp:34-270, 382-513 and auxiliary_types.hpp:37-245. -/
inductive Ex where
  | leaf (t : Ty) (i : Nat)
  | un (o : UnOp) (e : Ex)
  | bin (o : Op) (e1 e2 : Ex)
  | make (n : Num) (e : Ex)
  | wrap (e : Ex)
  | strictCast (n : Num) (e : Ex)
  | builtinCast (n : Num) (e : Ex)
  | staticCast (n : Num) (e : Ex)
  | val (e : Ex)
  deriving DecidableEq, Repr

/-- The type of an expression, if it compiles.
The C++ language; it is applied to the overloads of strict_val.hpp:34-270, 382-513 and auxiliary_types.hpp:37-245. -/
def Ex.type : Ex → Option Ty
  | .leaf t _ => some t
  | .un o e => do
      let t ← e.type
      let c ← unary o t
      pure c.result
  | .bin o e1 e2 => do
      let s ← e1.type
      let t ← e2.type
      let c ← binary o s t
      pure c.result
  | .make n e => do
      let t ← e.type
      if directInit n t then some (.strict n) else none
  | .wrap e => do
      let t ← e.type
      let n ← deduce t
      pure (.strict n)
  | .strictCast n e => do
      let t ← e.type
      let _ ← castFrom t
      if n.builtin then some (.strict n) else none
  | .builtinCast n e => do
      let t ← e.type
      let _ ← castFrom t
      if n.builtin then some (.num n) else none
  | .staticCast n e => do
      let t ← e.type
      if Cxx.staticCast n t then some (.num n) else none
  | .val e => do
      let t ← e.type
      let n ← valOf t
      pure (.num n)

/-- What the operators and explicit conversions compute on values of type `V`, each for the type in which it is carried
out; an implicit conversion is a separate function.
The C++ language; it is applied to the overloads of strict_val.hpp:34-270, 382-513 and auxiliary_types.hpp:37-245. -/
structure Sem (V : Type) where
  un : UnOp → Num → V → V
  bin : Op → Num → Num → V → V → V
  cast : Num → Num → V → V
  conv : Num → Num → V → V

/-- The value of an operand when it has been converted to the type of the parameter.  A conversion between types with the
same number type only wraps or unwraps it.
The C++ language; it is applied to the overloads of strict_val.hpp:34-270, 382-513 and auxiliary_types.hpp:37-245. -/
def Sem.pass {V : Type} (m : Sem V) (src dst : Ty) (x : V) : V :=
  if src.number = dst.number then x else m.conv src.number dst.number x

/-- The value of an expression that compiles.
The C++ language; it is applied to the overloads of strict_val.hpp:34-270, 382-513 and auxiliary_types.hpp:37-245. -/
def Ex.eval {V : Type} (m : Sem V) (env : Nat → V) : Ex → Option V
  | .leaf _ i => some (env i)
  | .un o e => do
      let t ← e.type
      let c ← unary o t
      let p := c.params.headD t
      let x ← e.eval m env
      pure (m.un o p.number (m.pass t p x))
  | .bin o e1 e2 => do
      let s ← e1.type
      let t ← e2.type
      let c ← binary o s t
      let p := c.params.headD s
      let q := (c.params.drop 1).headD t
      let x ← e1.eval m env
      let y ← e2.eval m env
      pure (m.bin o p.number q.number (m.pass s p x) (m.pass t q y))
  | .make _ e | .wrap e | .val e => e.eval m env
  | .strictCast n e | .builtinCast n e | .staticCast n e => do
      let t ← e.type
      let x ← e.eval m env
      pure (if t.number = n then x else m.cast t.number n x)

end Spp.Cxx
