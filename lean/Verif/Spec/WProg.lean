import Verif.Spec.EProg
import Verif.Model.Ops

/-
Programs that compute numbers from arrays and are steered by them: `auto x = sum(A + B);`, `if(A == B)`,
`while(max(A) > 1)`.  What they do is said by rules (`Tells`, `Decides`, `WRuns`).
-/

namespace Spp.Spec

variable {α : Type} [Inhabited α]

/-- Functions that make one number of an array. -/
inductive Reduction where
  | sum
  | prod
  | mean
  | min
  | max
  | norm1
  | norm1Scaled
  | norm2
  | norm2Scaled
  | normInf

/-- The elements are combined from left to right; no elements: the default. -/
def leftFold (f : α → α → Res α) (dflt : α) : List α → Res α
  | [] => .ok dflt
  | x :: xs => xs.foldlM f x

/-- The same with what `g` makes of each of them. -/
def leftFoldOf {β : Type} (g : β → Res α) (f : α → α → Res α) (dflt : α) : List β → Res α
  | [] => .ok dflt
  | x :: xs => (g x).bind fun v => xs.foldlM (fun m y => (g y).bind (f m)) v

/-- The larger of two numbers. -/
def larger (sc : Scalar α) (m y : α) : Res α := .ok (if sc.lt m y then y else m)

/-- The magnitude of a number. -/
def magnitude (sc : Scalar α) (x : α) : Res α := if sc.lt sc.zero x then .ok x else sc.neg x

/-- The number, with the operations of the element type. -/
def Reduction.meaning (sc : Scalar α) (dflt : α) (xs : List α) : Reduction → Res α
  | .sum => leftFold sc.add dflt xs
  | .prod => leftFold sc.mul dflt xs
  | .min => leftFold (fun m y => .ok (if sc.lt y m then y else m)) dflt xs
  | .max => leftFold (larger sc) dflt xs
  | .norm1 => leftFoldOf (magnitude sc) sc.add dflt xs
  | .normInf => leftFoldOf (magnitude sc) (larger sc) dflt xs
  | .norm2 => if xs = [] then .ok dflt else (leftFoldOf (fun x => sc.mul x x) sc.add dflt xs).bind sc.sqrt
  | .norm1Scaled => if xs = [] then .ok dflt else
      (leftFoldOf (magnitude sc) sc.add dflt xs).bind fun t => (sc.ofIndex xs.length).bind fun n => sc.div t n
  | .norm2Scaled => if xs = [] then .ok dflt else
      ((leftFoldOf (fun x => sc.mul x x) sc.add dflt xs).bind sc.sqrt).bind fun t =>
        (sc.ofIndex xs.length).bind fun n => (sc.sqrt n).bind fun r => sc.div t r
  | .mean => if xs = [] then .ok dflt else
      (leftFold sc.add dflt xs).bind fun t => (sc.ofIndex xs.length).bind fun n => sc.div t n

/-- `c0 + (c1 + (c2 + ...) * x) * x`, with the operations of the element type; no coefficients: the default. -/
def nested (ar : Arith α) (x dflt : α) : List α → Res α
  | [] => .ok dflt
  | [c] => .ok c
  | c :: c' :: cs => (nested ar x dflt (c' :: cs)).bind fun v => (ar.mul v x).bind fun q => ar.add c q

/-- A number that a program computes. -/
inductive Query (α : Type) where
  | lit (x : α)
  | elem1 (t : Tm α .one) (p : Pos)                                        -- t[p]
  | elem2 (t : Tm α .two) (p q : Pos)                                      -- t(p, q)
  | reduce (sc : Scalar α) (f : Reduction) (dflt : α) {d : Dim} (t : Tm α d)   -- sum(t), max(t), ...
  | dot (ar : Arith α) (dflt : α) {d : Dim} (t1 t2 : Tm α d)               -- dot_prod(t1, t2)
  | poly (ar : Arith α) (x dflt : α) (t : Tm α .one)                       -- polynomial(t, x)

/-- A condition. -/
inductive Test (α : Type) where
  | cmp (f : α → α → Bool) (x y : Query α)                                 -- x < y, ...
  | equal (ne : α → α → Bool) {d : Dim} (t1 t2 : Tm α d)                   -- t1 == t2
  | any (f : α → Bool) (dflt : Bool) {d : Dim} (t : Tm α d)                -- any_of(t, f)
  | all (f : α → Bool) (dflt : Bool) {d : Dim} (t : Tm α d)                -- all_of(t, f)
  | not (c : Test α)
  | and (c1 c2 : Test α)                                                   -- of strict booleans: both are computed
  | or (c1 c2 : Test α)

/-- A program. -/
inductive WProg (α : Type) where
  | prog (p : EProg α)
  | ask (q : Query α) (k : α → WProg α)                                    -- auto x = q; k(x)
  | cond (c : Test α) (p q : WProg α)                                      -- if(c) p else q
  | whileDo (c : Test α) (p : WProg α)                                     -- while(c) p
  | seq (p q : WProg α)
  | tryCatch (p q : WProg α)

/-- The expression is valid and has the elements `xs`. -/
def Has {d : Dim} (t : Tm α d) (s : Store α) (xs : List α) : Prop :=
  t.Valid s ∧ (t.meaning s).flat = xs.map Res.ok

/-- In state `s` the number is `r`, or cannot be computed (`r` says why).  `K` tells whether invalid requests are
rejected, and how. -/
inductive Tells (K : Option Kind) : Query α → Store α → Res α → Prop where
  | lit {x : α} {s : Store α} : Tells K (.lit x) s (.ok x)
  | elem1 {t : Tm α .one} {p : Pos} {s : Store α} : t.Valid s →
      InRange (t.meaning s).dims.1 (target (t.meaning s).dims.1 p) →
      Tells K (.elem1 t p) s (List.getD (t.meaning s) (target (t.meaning s).dims.1 p).toNat .ub)
  | elem1Rejected {t : Tm α .one} {p : Pos} {s : Store α} {k : Kind} : t.Valid s →
      ¬ InRange (t.meaning s).dims.1 (target (t.meaning s).dims.1 p) → K = some k → Tells K (.elem1 t p) s (.trap k)
  | elem1Invalid {t : Tm α .one} {p : Pos} {s : Store α} {k0 k : Kind} : ¬ t.Valid s → K = some k0 →
      Tells K (.elem1 t p) s (.trap k)
  | elem2 {t : Tm α .two} {p q : Pos} {s : Store α} : t.Valid s →
      InRange (t.meaning s).dims.1 (target (t.meaning s).dims.1 p) →
      InRange (t.meaning s).dims.2 (target (t.meaning s).dims.2 q) →
      Tells K (.elem2 t p q) s (Mat.el (t.meaning s) (target (t.meaning s).dims.1 p).toNat
        (target (t.meaning s).dims.2 q).toNat)
  | elem2Rejected {t : Tm α .two} {p q : Pos} {s : Store α} {k : Kind} : t.Valid s →
      ¬ (InRange (t.meaning s).dims.1 (target (t.meaning s).dims.1 p) ∧
        InRange (t.meaning s).dims.2 (target (t.meaning s).dims.2 q)) → K = some k →
      Tells K (.elem2 t p q) s (.trap k)
  | elem2Invalid {t : Tm α .two} {p q : Pos} {s : Store α} {k0 k : Kind} : ¬ t.Valid s → K = some k0 →
      Tells K (.elem2 t p q) s (.trap k)
  | reduce {sc : Scalar α} {f : Reduction} {dflt : α} {d : Dim} {t : Tm α d} {s : Store α} {xs : List α} :
      Has t s xs → Tells K (.reduce sc f dflt t) s (f.meaning sc dflt xs)
  | reduceInvalid {sc : Scalar α} {f : Reduction} {dflt : α} {d : Dim} {t : Tm α d} {s : Store α} {k0 k : Kind} :
      ¬ t.Valid s → K = some k0 → Tells K (.reduce sc f dflt t) s (.trap k)
  | dot {ar : Arith α} {dflt : α} {d : Dim} {t1 t2 : Tm α d} {s : Store α} {xs ys : List α} : Has t1 s xs → Has t2 s ys →
      (t1.meaning s).dims = (t2.meaning s).dims →
      Tells K (.dot ar dflt t1 t2) s (leftFoldOf (fun p => ar.mul p.1 p.2) ar.add dflt (List.zip xs ys))
  | dotRejected {ar : Arith α} {dflt : α} {d : Dim} {t1 t2 : Tm α d} {s : Store α} {k : Kind} : t1.Valid s → t2.Valid s →
      (t1.meaning s).dims ≠ (t2.meaning s).dims → K = some k → Tells K (.dot ar dflt t1 t2) s (.trap k)
  | dotInvalid {ar : Arith α} {dflt : α} {d : Dim} {t1 t2 : Tm α d} {s : Store α} {k0 k : Kind} :
      ¬ (t1.Valid s ∧ t2.Valid s) → K = some k0 → Tells K (.dot ar dflt t1 t2) s (.trap k)
  | poly {ar : Arith α} {x dflt : α} {t : Tm α .one} {s : Store α} {cs : List α} : Has t s cs →
      Tells K (.poly ar x dflt t) s (nested ar x dflt cs)
  | polyInvalid {ar : Arith α} {x dflt : α} {t : Tm α .one} {s : Store α} {k0 k : Kind} : ¬ t.Valid s → K = some k0 →
      Tells K (.poly ar x dflt t) s (.trap k)

/-- In state `s` the condition is `r`, or cannot be computed. -/
inductive Decides (K : Option Kind) : Test α → Store α → Res Bool → Prop where
  | cmp {f : α → α → Bool} {x y : Query α} {s : Store α} {r1 r2 : Res α} : Tells K x s r1 →
      (∀ a, r1 = .ok a → Tells K y s r2) →
      Decides K (.cmp f x y) s (r1.bind fun a => r2.bind fun c => .ok (f a c))
  | equal {ne : α → α → Bool} {d : Dim} {t1 t2 : Tm α d} {s : Store α} {xs ys : List α} : Has t1 s xs → Has t2 s ys →
      Decides K (.equal ne t1 t2) s
        (.ok (decide ((t1.meaning s).dims = (t2.meaning s).dims) && (List.zip xs ys).all fun p => !ne p.1 p.2))
  | equalInvalid {ne : α → α → Bool} {d : Dim} {t1 t2 : Tm α d} {s : Store α} {k0 k : Kind} :
      ¬ (t1.Valid s ∧ t2.Valid s) → K = some k0 → Decides K (.equal ne t1 t2) s (.trap k)
  | any {f : α → Bool} {dflt : Bool} {d : Dim} {t : Tm α d} {s : Store α} {xs : List α} : Has t s xs →
      Decides K (.any f dflt t) s (.ok (if xs = [] then dflt else xs.any f))
  | anyInvalid {f : α → Bool} {dflt : Bool} {d : Dim} {t : Tm α d} {s : Store α} {k0 k : Kind} : ¬ t.Valid s →
      K = some k0 → Decides K (.any f dflt t) s (.trap k)
  | all {f : α → Bool} {dflt : Bool} {d : Dim} {t : Tm α d} {s : Store α} {xs : List α} : Has t s xs →
      Decides K (.all f dflt t) s (.ok (if xs = [] then dflt else xs.all f))
  | allInvalid {f : α → Bool} {dflt : Bool} {d : Dim} {t : Tm α d} {s : Store α} {k0 k : Kind} : ¬ t.Valid s →
      K = some k0 → Decides K (.all f dflt t) s (.trap k)
  | not {c : Test α} {s : Store α} {r : Res Bool} : Decides K c s r →
      Decides K (.not c) s (r.bind fun v => .ok (!v))
  | and {c1 c2 : Test α} {s : Store α} {r1 r2 : Res Bool} : Decides K c1 s r1 →
      (∀ v, r1 = .ok v → Decides K c2 s r2) →
      Decides K (.and c1 c2) s (r1.bind fun v => r2.bind fun w => .ok (v && w))
  | or {c1 c2 : Test α} {s : Store α} {r1 r2 : Res Bool} : Decides K c1 s r1 →
      (∀ v, r1 = .ok v → Decides K c2 s r2) →
      Decides K (.or c1 c2) s (r1.bind fun v => r2.bind fun w => .ok (v || w))

/-- What a program does: in state `s` it ends with `r` in state `s'`.  A program that does not end has no such `r`. -/
inductive WRuns (K : Option Kind) : WProg α → Store α → Res Unit → Store α → Prop where
  | prog {p : EProg α} {s s' : Store α} {r : Res Unit} : Runs K p s r s' → WRuns K (.prog p) s r s'
  | ask {q : Query α} {k : α → WProg α} {s s' : Store α} {x : α} {r : Res Unit} : Tells K q s (.ok x) →
      WRuns K (k x) s r s' → WRuns K (.ask q k) s r s'
  | askFails {q : Query α} {k : α → WProg α} {s : Store α} {v : Res α} : Tells K q s v → (∀ x, v ≠ .ok x) →
      WRuns K (.ask q k) s (v.bind fun _ => .ok ()) s
  | condTrue {c : Test α} {p q : WProg α} {s s' : Store α} {r : Res Unit} : Decides K c s (.ok true) →
      WRuns K p s r s' → WRuns K (.cond c p q) s r s'
  | condFalse {c : Test α} {p q : WProg α} {s s' : Store α} {r : Res Unit} : Decides K c s (.ok false) →
      WRuns K q s r s' → WRuns K (.cond c p q) s r s'
  | condFails {c : Test α} {p q : WProg α} {s : Store α} {v : Res Bool} : Decides K c s v → (∀ x, v ≠ .ok x) →
      WRuns K (.cond c p q) s (v.bind fun _ => .ok ()) s
  | whileTrue {c : Test α} {p : WProg α} {s s1 s2 : Store α} {r : Res Unit} : Decides K c s (.ok true) →
      WRuns K p s (.ok ()) s1 → WRuns K (.whileDo c p) s1 r s2 → WRuns K (.whileDo c p) s r s2
  | whileStop {c : Test α} {p : WProg α} {s s1 : Store α} {r : Res Unit} : Decides K c s (.ok true) →
      WRuns K p s r s1 → r ≠ .ok () → WRuns K (.whileDo c p) s r s1
  | whileFalse {c : Test α} {p : WProg α} {s : Store α} : Decides K c s (.ok false) →
      WRuns K (.whileDo c p) s (.ok ()) s
  | whileFails {c : Test α} {p : WProg α} {s : Store α} {v : Res Bool} : Decides K c s v → (∀ x, v ≠ .ok x) →
      WRuns K (.whileDo c p) s (v.bind fun _ => .ok ()) s
  | seq {p q : WProg α} {s s1 s2 : Store α} {r : Res Unit} : WRuns K p s (.ok ()) s1 → WRuns K q s1 r s2 →
      WRuns K (.seq p q) s r s2
  | seqStop {p q : WProg α} {s s1 : Store α} {r : Res Unit} : WRuns K p s r s1 → r ≠ .ok () →
      WRuns K (.seq p q) s r s1
  | tryCaught {p q : WProg α} {s s1 s2 : Store α} {r : Res Unit} : WRuns K p s (.trap .exception) s1 →
      WRuns K q s1 r s2 → WRuns K (.tryCatch p q) s r s2
  | tryPass {p q : WProg α} {s s1 : Store α} {r : Res Unit} : WRuns K p s r s1 → r ≠ .trap .exception →
      WRuns K (.tryCatch p q) s r s1

/-- What a program can come to. -/
inductive Work (α : Type) where
  | stmt (c : EStmt α)
  | query (q : Query α)
  | test (c : Test α)

/-- The program, started in `s`, comes to the statement, number or condition in state `u`. -/
inductive Meets (K : Option Kind) : WProg α → Store α → Work α → Store α → Prop where
  | prog {p : EProg α} {s u : Store α} {c : EStmt α} : ComesTo K p s c u → Meets K (.prog p) s (.stmt c) u
  | ask {q : Query α} {k : α → WProg α} {s : Store α} : Meets K (.ask q k) s (.query q) s
  | askThen {q : Query α} {k : α → WProg α} {s u : Store α} {x : α} {w : Work α} : Tells K q s (.ok x) →
      Meets K (k x) s w u → Meets K (.ask q k) s w u
  | cond {c : Test α} {p q : WProg α} {s : Store α} : Meets K (.cond c p q) s (.test c) s
  | condTrue {c : Test α} {p q : WProg α} {s u : Store α} {w : Work α} : Decides K c s (.ok true) → Meets K p s w u →
      Meets K (.cond c p q) s w u
  | condFalse {c : Test α} {p q : WProg α} {s u : Store α} {w : Work α} : Decides K c s (.ok false) →
      Meets K q s w u → Meets K (.cond c p q) s w u
  | whileDo {c : Test α} {p : WProg α} {s : Store α} : Meets K (.whileDo c p) s (.test c) s
  | whileBody {c : Test α} {p : WProg α} {s u : Store α} {w : Work α} : Decides K c s (.ok true) → Meets K p s w u →
      Meets K (.whileDo c p) s w u
  | whileAgain {c : Test α} {p : WProg α} {s s1 u : Store α} {w : Work α} : Decides K c s (.ok true) →
      WRuns K p s (.ok ()) s1 → Meets K (.whileDo c p) s1 w u → Meets K (.whileDo c p) s w u
  | seqLeft {p q : WProg α} {s u : Store α} {w : Work α} : Meets K p s w u → Meets K (.seq p q) s w u
  | seqRight {p q : WProg α} {s s1 u : Store α} {w : Work α} : WRuns K p s (.ok ()) s1 → Meets K q s1 w u →
      Meets K (.seq p q) s w u
  | tryLeft {p q : WProg α} {s u : Store α} {w : Work α} : Meets K p s w u → Meets K (.tryCatch p q) s w u
  | tryRight {p q : WProg α} {s s1 u : Store α} {w : Work α} : WRuns K p s (.trap .exception) s1 → Meets K q s1 w u →
      Meets K (.tryCatch p q) s w u

/-- An expression within the limits of `EStmt.Fits`. -/
def FitsTm (s : Store α) {d : Dim} (t : Tm α d) : Prop := s.Moderate ∧ t.Modest s ∧ t.Total

/-- Its elements can be computed. -/
def Computable (s : Store α) {d : Dim} (t : Tm α d) : Prop :=
  t.Valid s → ∀ r ∈ (t.meaning s).flat, ∃ x, r = .ok x

/-- The limits within which a number is considered; compare `EStmt.Fits`. -/
def Query.Fits (s : Store α) : Query α → Prop
  | .lit _ => True
  | .elem1 t p => FitsTm s t ∧ p.Modest
  | .elem2 t p q => FitsTm s t ∧ p.Modest ∧ q.Modest
  | .reduce _ _ _ t => FitsTm s t ∧ Computable s t
  | .dot _ _ t1 t2 => (FitsTm s t1 ∧ Computable s t1) ∧ FitsTm s t2 ∧ Computable s t2
  | .poly _ _ _ t => FitsTm s t ∧ Computable s t

/-- The same for a condition. -/
def Test.Fits (s : Store α) : Test α → Prop
  | .cmp _ x y => x.Fits s ∧ y.Fits s
  | .equal _ t1 t2 => (FitsTm s t1 ∧ Computable s t1) ∧ FitsTm s t2 ∧ Computable s t2
  | .any _ _ t => FitsTm s t ∧ Computable s t
  | .all _ _ t => FitsTm s t ∧ Computable s t
  | .not c => c.Fits s
  | .and c1 c2 => c1.Fits s ∧ c2.Fits s
  | .or c1 c2 => c1.Fits s ∧ c2.Fits s

/-- The same for whatever a program can come to. -/
def Work.Fits (s : Store α) : Work α → Prop
  | .stmt c => c.Fits s
  | .query q => q.Fits s
  | .test c => c.Fits s

/-- The operations of the element type have no undefined behaviour, such as signed overflow. -/
def Query.Safe : Query α → Prop
  | .reduce sc _ _ _ => (∀ x y, sc.add x y ≠ .ub) ∧ (∀ x y, sc.mul x y ≠ .ub) ∧ (∀ x y, sc.div x y ≠ .ub) ∧
      (∀ i, sc.ofIndex i ≠ .ub) ∧ (∀ x, sc.neg x ≠ .ub) ∧ ∀ x, sc.sqrt x ≠ .ub
  | .dot ar _ _ _ => (∀ x y, ar.add x y ≠ .ub) ∧ ∀ x y, ar.mul x y ≠ .ub
  | .poly ar _ _ _ => (∀ x y, ar.add x y ≠ .ub) ∧ ∀ x y, ar.mul x y ≠ .ub
  | _ => True

/-- The same for a condition. -/
def Test.Safe : Test α → Prop
  | .cmp _ x y => x.Safe ∧ y.Safe
  | .not c => c.Safe
  | .and c1 c2 => c1.Safe ∧ c2.Safe
  | .or c1 c2 => c1.Safe ∧ c2.Safe
  | _ => True

/-- The same for whatever a program can come to. -/
def Work.Safe : Work α → Prop
  | .stmt _ => True
  | .query q => q.Safe
  | .test c => c.Safe

/-- Only statements change arrays. -/
def Work.Changes (a : Dim × Nat) : Work α → Prop
  | .stmt c => c.Changes a
  | .query _ => False
  | .test _ => False

end Spp.Spec
