import Verif.Model.Convert

/-
What a user expects of strict numbers: the rules by which an expression has a type.  Operators on strict numbers need
operands of the same type and give that type (comparisons: a strict boolean); other types have to be converted
explicitly.  The exceptions are listed as separate rules.
-/

namespace Spp.Spec

open Cxx

/-- The integer types of the library. -/
def intTypes : List Num := [.int, .long, .uint, .ulong]

/-- The floating-point types of the library. -/
def floatTypes : List Num := [.float, .double, .ldouble, .quad]

/-- All types of the library. -/
def allTypes : List Num := .bool :: (intTypes ++ floatTypes)

/-- The types an operator on strict numbers is for. -/
def typesFor : Op → List Num
  | .add | .sub | .mul | .div => intTypes ++ floatTypes
  | .rem | .shl | .shr | .band | .bor => intTypes
  | .bxor => .bool :: intTypes
  | .land | .lor => [.bool]
  | .eq | .ne | .lt | .le | .gt | .ge => allTypes

/-- The types a compound assignment to a strict number is for. -/
def typesForAssign : AssignOp → List Num
  | .assign => allTypes
  | .add | .sub | .mul | .div => intTypes ++ floatTypes
  | .rem | .shl | .shr | .band | .bor | .bxor => intTypes

/-- The comparison operators. -/
def comparisons : List Op := [.eq, .ne, .lt, .le, .gt, .ge]

/-- The types accepted where a position is asked for. -/
def indexTypes : List Ty :=
  [.num .int, .num .long, .strict .int, .strict .long, .implicitInt, .implicitIntStatic]

/-- `x @ y` for operands of these types has a result of this type. -/
inductive Rule : Op → Ty → Ty → Ty → Prop
  /-- Strict numbers of the same type. -/
  | same {o n} : n ∈ typesFor o → o ∉ comparisons → Rule o (.strict n) (.strict n) (.strict n)
  /-- Comparisons of strict numbers of the same type. -/
  | compare {o n} : n ∈ typesFor o → o ∈ comparisons → Rule o (.strict n) (.strict n) (.strict .bool)
  /-- Two built-in numbers: the rules of the language. -/
  | language {o p q} : o.inLanguage p q = true → Rule o (.num p) (.num q) (.num (o.builtinResult p q))
  /-- `&&` and `||` of a strict boolean and a built-in number are those of the language. -/
  | logicLeft {o m} : o = .land ∨ o = .lor → Rule o (.strict .bool) (.num m) (.num .bool)
  | logicRight {o m} : o = .land ∨ o = .lor → Rule o (.num m) (.strict .bool) (.num .bool)
  /-- `last + i`, `last - i`, `i + last`. -/
  | lastLeft {o t} : o = .add ∨ o = .sub → t ∈ indexTypes → Rule o .last t .last
  | lastRight {t} : t ∈ indexTypes → Rule .add t .last .last
  /-- Sums and differences with `ImplicitInt`. -/
  | implicitLeft {o t} : o = .add ∨ o = .sub → t ∈ indexTypes → Rule o .implicitInt t .implicitInt
  | implicitRight {o t} : o = .add ∨ o = .sub → t ∈ indexTypes → Rule o t .implicitInt .implicitInt
  /-- Sums and differences with `ImplicitIntStatic`. -/
  | staticLeft {o t} : o = .add ∨ o = .sub → t ∈ indexTypes → t ≠ .implicitInt →
      Rule o .implicitIntStatic t .implicitIntStatic
  | staticRight {o t} : o = .add ∨ o = .sub → t ∈ indexTypes → t ≠ .implicitInt →
      Rule o t .implicitIntStatic .implicitIntStatic

/-- `@x` for an operand of this type has a result of this type. -/
inductive UnRule : UnOp → Ty → Ty → Prop
  | plus {n} : n ∈ intTypes ++ floatTypes → UnRule .plus (.strict n) (.strict n)
  | minus {n} : n ∈ [.int, .long] ++ floatTypes → UnRule .minus (.strict n) (.strict n)
  | bnot {n} : n ∈ intTypes → UnRule .bnot (.strict n) (.strict n)
  | lnot : UnRule .lnot (.strict .bool) (.strict .bool)
  /-- A built-in number: the rules of the language. -/
  | languageNot {p} : UnRule .lnot (.num p) (.num .bool)
  | languageBits {p} : p.floating = false → UnRule .bnot (.num p) (.num (p.usual .int))
  | languageSign {o p} : o = .plus ∨ o = .minus → UnRule o (.num p) (.num (p.usual .int))

/-- The expression has this type. -/
inductive HasType : Ex → Ty → Prop
  | leaf {t i} : HasType (.leaf t i) t
  | un {o e s r} : HasType e s → UnRule o s r → HasType (.un o e) r
  | bin {o e1 e2 s t r} : HasType e1 s → HasType e2 t → Rule o s t r → HasType (.bin o e1 e2) r
  /-- `Strict<T>{e}` needs exactly a `T` or a `Strict<T>`. -/
  | make {n e t} : HasType e t → n ∈ allTypes → t = .num n ∨ t = .strict n → HasType (.make n e) (.strict n)
  /-- `Strict{e}`. -/
  | wrap {n e t} : HasType e t → (t = .num n ∧ n ∈ allTypes) ∨ t = .strict n → HasType (.wrap e) (.strict n)
  /-- Explicit conversions. -/
  | strictCast {n m e t} : HasType e t → (t = .num m ∧ m ∈ allTypes) ∨ t = .strict m → n ∈ allTypes →
      HasType (.strictCast n e) (.strict n)
  | builtinCast {n m e t} : HasType e t → (t = .num m ∧ m ∈ allTypes) ∨ t = .strict m → n ∈ allTypes →
      HasType (.builtinCast n e) (.num n)
  | staticCast {n m e t} : HasType e t → t = .num m ∨ t = .strict n → HasType (.staticCast n e) (.num n)
  | val {n e} : HasType e (.strict n) → HasType (.val e) (.num n)

/-- No operator of the expression has only built-in numbers as operands. -/
def NoLanguageOps : Ex → Prop
  | .leaf _ _ => True
  | .un _ e => (∀ p, ¬ HasType e (.num p)) ∧ NoLanguageOps e
  | .bin _ e1 e2 => (∀ p q, ¬ (HasType e1 (.num p) ∧ HasType e2 (.num q))) ∧ NoLanguageOps e1 ∧ NoLanguageOps e2
  | .make _ e | .wrap e | .strictCast _ e | .builtinCast _ e | .staticCast _ e | .val e => NoLanguageOps e

/-- All operands of operators in the expression are strict numbers. -/
def StrictOperands : Ex → Prop
  | .leaf _ _ => True
  | .un _ e => (∃ n, HasType e (.strict n)) ∧ StrictOperands e
  | .bin _ e1 e2 =>
      (∃ n, HasType e1 (.strict n)) ∧ (∃ n, HasType e2 (.strict n)) ∧ StrictOperands e1 ∧ StrictOperands e2
  | .make _ e | .wrap e | .strictCast _ e | .builtinCast _ e | .staticCast _ e | .val e => StrictOperands e

/-- Everything but implicit conversions means the same. -/
def SameButConversions {V : Type} (m m' : Sem V) : Prop := m.un = m'.un ∧ m.bin = m'.bin ∧ m.cast = m'.cast

end Spp.Spec
