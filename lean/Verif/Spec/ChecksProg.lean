import Verif.Spec.ChecksOps
import Verif.Spec.WProg
import Verif.Spec.Mixed

/-
The same program text, compiled with debug checks (left) and without (right): the element operations that the text names
may contain checks of their own.  Programs with handlers are left out: a handler can observe that a check failed.
-/

namespace Spp.Spec

variable {α : Type}

/-- The same statement. -/
inductive SameEStmt : EStmt α → EStmt α → Prop where
  | eval {c c' : AStmt α} : SameStmt c c' → SameEStmt (.eval c) (.eval c')
  | elem1 (l : Lv .one) (p : Pos) {f f' : α → Res α} : (∀ x, Survives (f x) (f' x)) →
      SameEStmt (.elem1 l p f) (.elem1 l p f')
  | elem2 (l : Lv .two) (p q : Pos) {f f' : α → Res α} : (∀ x, Survives (f x) (f' x)) →
      SameEStmt (.elem2 l p q f) (.elem2 l p q f')
  | list (c : Stmt α) : SameEStmt (.list c) (.list c)
  | mat (c : Stmt2 α) : SameEStmt (.mat c) (.mat c)
  | use1 (i : Nat) (u : Use1) {t t' : Tm α .one} : SameText t t' → SameEStmt (.use1 i u t) (.use1 i u t')
  | use2 (i : Nat) (u : Use2) {t t' : Tm α .two} : SameText t t' → SameEStmt (.use2 i u t) (.use2 i u t')
  | useRow (i : Nat) (u : UseRow) {t t' : Tm α .one} : SameText t t' → SameEStmt (.useRow i u t) (.useRow i u t')

/-- The same program without handlers. -/
inductive SameEProg : EProg α → EProg α → Prop where
  | skip : SameEProg .skip .skip
  | throw : SameEProg .throw .throw
  | stmt {c c' : EStmt α} : SameEStmt c c' → SameEProg (.stmt c) (.stmt c')
  | seq {p p' q q' : EProg α} : SameEProg p p' → SameEProg q q' → SameEProg (.seq p q) (.seq p' q')
  | read {f f' : Store α → EProg α} : (∀ s, SameEProg (f s) (f' s)) → SameEProg (.read f) (.read f')
  | loop (count : Store α → Nat) {p p' : EProg α} : SameEProg p p' → SameEProg (.loop count p) (.loop count p')

/-- The same number. -/
inductive SameQuery : Query α → Query α → Prop where
  | lit (x : α) : SameQuery (.lit x) (.lit x)
  | elem1 (p : Pos) {t t' : Tm α .one} : SameText t t' → SameQuery (.elem1 t p) (.elem1 t' p)
  | elem2 (p q : Pos) {t t' : Tm α .two} : SameText t t' → SameQuery (.elem2 t p q) (.elem2 t' p q)
  | reduce {sc sc' : Scalar α} (f : Reduction) (dflt : α) {d : Dim} {t t' : Tm α d} : SameScalar sc sc' → SameText t t' →
      SameQuery (.reduce sc f dflt t) (.reduce sc' f dflt t')
  | dot {ar ar' : Arith α} (dflt : α) {d : Dim} {t1 t1' t2 t2' : Tm α d} : SameArith ar ar' → SameText t1 t1' →
      SameText t2 t2' → SameQuery (.dot ar dflt t1 t2) (.dot ar' dflt t1' t2')
  | poly {ar ar' : Arith α} (x dflt : α) {t t' : Tm α .one} : SameArith ar ar' → SameText t t' →
      SameQuery (.poly ar x dflt t) (.poly ar' x dflt t')

/-- The same condition. -/
inductive SameTest : Test α → Test α → Prop where
  | cmp (f : α → α → Bool) {x x' y y' : Query α} : SameQuery x x' → SameQuery y y' →
      SameTest (.cmp f x y) (.cmp f x' y')
  | equal (ne : α → α → Bool) {d : Dim} {t1 t1' t2 t2' : Tm α d} : SameText t1 t1' → SameText t2 t2' →
      SameTest (.equal ne t1 t2) (.equal ne t1' t2')
  | any (f : α → Bool) (dflt : Bool) {d : Dim} {t t' : Tm α d} : SameText t t' →
      SameTest (.any f dflt t) (.any f dflt t')
  | all (f : α → Bool) (dflt : Bool) {d : Dim} {t t' : Tm α d} : SameText t t' →
      SameTest (.all f dflt t) (.all f dflt t')
  | not {c c' : Test α} : SameTest c c' → SameTest (.not c) (.not c')
  | and {c1 c1' c2 c2' : Test α} : SameTest c1 c1' → SameTest c2 c2' → SameTest (.and c1 c2) (.and c1' c2')
  | or {c1 c1' c2 c2' : Test α} : SameTest c1 c1' → SameTest c2 c2' → SameTest (.or c1 c2) (.or c1' c2')

/-- The same program with numbers and conditions, without handlers. -/
inductive SameWProg : WProg α → WProg α → Prop where
  | prog {p p' : EProg α} : SameEProg p p' → SameWProg (.prog p) (.prog p')
  | ask {q q' : Query α} {k k' : α → WProg α} : SameQuery q q' → (∀ x, SameWProg (k x) (k' x)) →
      SameWProg (.ask q k) (.ask q' k')
  | cond {c c' : Test α} {p p' q q' : WProg α} : SameTest c c' → SameWProg p p' → SameWProg q q' →
      SameWProg (.cond c p q) (.cond c' p' q')
  | whileDo {c c' : Test α} {p p' : WProg α} : SameTest c c' → SameWProg p p' →
      SameWProg (.whileDo c p) (.whileDo c' p')
  | seq {p p' q q' : WProg α} : SameWProg p p' → SameWProg q q' → SameWProg (.seq p q) (.seq p' q')

/-- A program with arrays of one and two dimensions in memory has no `try`. -/
def MProg.NoHandler : MProg α → Prop
  | .skip => True
  | .throw => True
  | .stmt _ => True
  | .stmt2 _ => True
  | .seq p q => p.NoHandler ∧ q.NoHandler
  | .block _ _ _ body => body.NoHandler
  | .block2 _ _ _ body => body.NoHandler
  | .tryCatch _ _ => False
  | .read _ f => ∀ d l, (f d l).NoHandler
  | .loop _ p => p.NoHandler

end Spp.Spec
