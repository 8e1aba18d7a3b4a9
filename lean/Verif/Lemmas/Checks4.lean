import Verif.Lemmas.Checks3
import Verif.Model.Iter
import Verif.Model.IO
import Verif.Model.Random

/- Iterators, streams and the random generator with and without debug checks (see Lemmas/Checks.lean). -/

set_option linter.unusedSectionVars false
set_option linter.unusedVariables false

namespace Spp

open Spec

theorem AccTr.same {σ β : Type} {a a' : Acc σ β} (h : AccTr a a') : SameAcc a a' :=
  ⟨h.rows, h.cols, fun s => (h.size s).survives, fun s i => (h.un s i).survives,
   fun s i j => (h.un2 s i j).survives⟩

theorem Spec.SameAcc.tr {σ β : Type} {a a' : Acc σ β} (h : SameAcc a a') : AccTr a a' :=
  ⟨h.rows, h.cols, fun s => .of_survives (h.size s), fun s i => .of_survives (h.un s i),
   fun s i j => .of_survives (h.un2 s i j)⟩

theorem OpTr.of_survives {σ A : Type} {x y : Op σ A} (h : SurvivesOp x y) : OpTr false Eq x y := fun s => by
  have h := h s
  generalize x s = p at h
  generalize y s = q at h
  rcases p with ⟨_ | _ | _, s'⟩
  · rw [h _ _ rfl]
    exact .ok rfl _
  · exact .trap _ _ _
  · exact .ub0 rfl _ _

theorem inOrder_tr {σ C : Type} {f g : C → Op σ Unit} (h : ∀ c, OpTr false Eq (f c) (g c)) (cs : List C) :
    OpTr false Eq (inOrder (cs.map f)) (inOrder (cs.map g)) := by
  induction cs with
  | nil => exact OpTr.refl _
  | cons c cs ih => exact OpTr.bindEq (h c) fun _ => ih

/-- What an iterator is applied to, with and without checks. -/
structure FlagTr {σ ρ ρ' : Type} (R : ρ → ρ' → Prop) (f : Flag σ ρ) (f' : Flag σ ρ') : Prop where
  size : ∀ s, Tr false Eq (f.size s) (f'.size s)
  get : ∀ s i, Tr false R (f.get s i) (f'.get s i)

section

variable {σ β ρ ρ' : Type} {R : ρ → ρ' → Prop} (b : Build)

theorem indexFlag_tr {a a' : Acc σ β} (h : AccTr a a') : FlagTr Eq (Flag.index a) (Flag.index a') :=
  ⟨h.size, h.un⟩
theorem rowFlag_tr {a a' : Acc σ β} (h : AccTr a a') : FlagTr AccTr (Flag.row b a) (Flag.row (off b) a') :=
  ⟨fun s => by simp only [Flag.row, h.rows]; exact Tr.refl _, fun s i => mkRow_tr b h s _⟩
theorem colFlag_tr {a a' : Acc σ β} (h : AccTr a a') : FlagTr AccTr (Flag.col b a) (Flag.col (off b) a') :=
  ⟨fun s => by simp only [Flag.col, h.cols]; exact Tr.refl _, fun s i => mkCol_tr b h s _⟩

theorem itInc_tr (it : It) : Tr false Eq (it.inc b) (it.inc (off b)) := by unfold It.inc; checks
macro_rules | `(tactic| checks_lemma) => `(tactic| with_reducible exact itInc_tr _ _)
theorem itDec_tr (it : It) : Tr false Eq (it.dec b) (it.dec (off b)) := by unfold It.dec; checks
macro_rules | `(tactic| checks_lemma) => `(tactic| with_reducible exact itDec_tr _ _)
theorem itPostInc_tr (it : It) : Tr false Eq (it.postInc b) (it.postInc (off b)) := by unfold It.postInc; checks
theorem itPostDec_tr (it : It) : Tr false Eq (it.postDec b) (it.postDec (off b)) := by unfold It.postDec; checks
theorem itAdd_tr (it : It) (n : Int) : Tr false Eq (it.addAssign b n) (it.addAssign (off b) n) := by
  unfold It.addAssign; checks
macro_rules | `(tactic| checks_lemma) => `(tactic| with_reducible exact itAdd_tr _ _ _)
theorem itSub_tr (it : It) (n : Int) : Tr false Eq (it.subAssign b n) (it.subAssign (off b) n) := by
  unfold It.subAssign; checks
macro_rules | `(tactic| checks_lemma) => `(tactic| with_reducible exact itSub_tr _ _ _)
theorem itPlus_tr (it : It) (n : Int) : Tr false Eq (it.plus b n) (it.plus (off b) n) := by
  unfold It.plus; checks
macro_rules | `(tactic| checks_lemma) => `(tactic| with_reducible exact itPlus_tr _ _ _)
theorem itPlusLeft_tr (it : It) (n : Int) : Tr false Eq (It.plusLeft b n it) (It.plusLeft (off b) n it) := by
  unfold It.plusLeft; checks
theorem itMinus_tr (it : It) (n : Int) : Tr false Eq (it.minus b n) (it.minus (off b) n) := by
  unfold It.minus; checks
macro_rules | `(tactic| checks_lemma) => `(tactic| with_reducible exact itMinus_tr _ _ _)
theorem itDiff_tr (x y : It) : Tr false Eq (It.diff b x y) (It.diff (off b) x y) := by
  unfold It.diff; checks
theorem itCompare_tr (r : Int → Int → Bool) (x y : It) :
    Tr false Eq (It.compare b r x y) (It.compare (off b) r x y) := by
  unfold It.compare; checks

variable {mem : Nat → Flag σ ρ} {mem' : Nat → Flag σ ρ'}

theorem itApply_tr (h : ∀ a, FlagTr R (mem a) (mem' a)) (it : It) (s : σ) (i : Int) :
    Tr false R (it.apply mem s i) (it.apply mem' s i) := by
  unfold It.apply
  cases it.ptr with
  | none => exact .ub
  | some a => exact (h a).get s i
theorem itAt_tr (h : ∀ a, FlagTr R (mem a) (mem' a)) (it : It) (n : Int) (s : σ) :
    Tr false R (it.at' b mem n s) (it.at' (off b) mem' n s) := by
  unfold It.at'
  exact Tr.bindEq (Tr.assertDebug _ _) fun _ => Tr.bindEq (Tr.assertDebugM _ _ _) fun _ =>
    Tr.bindEq (Tr.refl _) fun p => itApply_tr h it s p
theorem itDeref_tr (h : ∀ a, FlagTr R (mem a) (mem' a)) (it : It) (s : σ) :
    Tr false R (it.deref b mem s) (it.deref (off b) mem' s) := by
  unfold It.deref
  exact Tr.bindEq (Tr.assertDebug _ _) fun _ => Tr.bindEq (Tr.assertDebugM _ _ _) fun _ => itApply_tr h it s _
theorem itEnd_tr (h : ∀ a, FlagTr R (mem a) (mem' a)) (a : Nat) (s : σ) :
    Tr false Eq (It.end mem a s) (It.end mem' a s) := by
  unfold It.end
  exact Tr.bindEq ((h a).size s) fun n => Tr.refl _

theorem ritInc_tr (r : RIt) : Tr false Eq (r.inc b) (r.inc (off b)) := by unfold RIt.inc; checks
theorem ritDec_tr (r : RIt) : Tr false Eq (r.dec b) (r.dec (off b)) := by unfold RIt.dec; checks
theorem ritPlus_tr (r : RIt) (n : Int) : Tr false Eq (r.plus b n) (r.plus (off b) n) := by unfold RIt.plus; checks
theorem ritMinus_tr (r : RIt) (n : Int) : Tr false Eq (r.minus b n) (r.minus (off b) n) := by unfold RIt.minus; checks
theorem ritDeref_tr (h : ∀ a, FlagTr R (mem a) (mem' a)) (r : RIt) (s : σ) :
    Tr false R (r.deref b mem s) (r.deref (off b) mem' s) := by
  unfold RIt.deref
  exact Tr.bindEq (itDec_tr b _) fun t => itDeref_tr b h t s
theorem ritAt_tr (h : ∀ a, FlagTr R (mem a) (mem' a)) (r : RIt) (n : Int) (s : σ) :
    Tr false R (r.at' b mem n s) (r.at' (off b) mem' n s) := by
  unfold RIt.at'
  exact Tr.bindEq (ritPlus_tr b _ _) fun t => ritDeref_tr b h t s

theorem rangeFor_tr {ι : Type} {ne ne' : ι → ι → Res Bool} {inc inc' : ι → Res ι} {deref : ι → σ → Res ρ}
    {deref' : ι → σ → Res ρ'} {body : ρ → Op σ Unit} {body' : ρ' → Op σ Unit}
    (hn : ∀ x y, Tr false Eq (ne x y) (ne' x y)) (hi : ∀ x, Tr false Eq (inc x) (inc' x))
    (hd : ∀ x s, Tr false R (deref x s) (deref' x s)) (hb : ∀ x x', R x x' → OpTr false Eq (body x) (body' x'))
    (fuel : Nat) (it e : ι) :
    OpTr false Eq (rangeFor ne inc deref body fuel it e) (rangeFor ne' inc' deref' body' fuel it e) := by
  induction fuel generalizing it with
  | zero => exact OpTr.refl _
  | succ fuel ih =>
    unfold rangeFor
    refine OpTr.bindEq (OpTr.lift (hn _ _)) fun c => OpTr.ite ?_ (OpTr.refl _)
    refine OpTr.bindEq (OpTr.refl _) fun s => OpTr.bind (OpTr.lift (hd _ _)) fun x x' hx => ?_
    exact OpTr.bindEq (hb x x' hx) fun _ => OpTr.bindEq (OpTr.lift (hi _)) fun it => ih it

theorem itEach_tr (h : ∀ a, FlagTr R (mem a) (mem' a)) {body : ρ → Op σ Unit} {body' : ρ' → Op σ Unit}
    (hb : ∀ x x', R x x' → OpTr false Eq (body x) (body' x')) (a fuel : Nat) :
    OpTr false Eq (It.each b mem a body fuel) (It.each (off b) mem' a body' fuel) := by
  unfold It.each
  exact OpTr.bindEq (OpTr.refl _) fun s => OpTr.bindEq (OpTr.lift (itEnd_tr h a s)) fun e =>
    rangeFor_tr (fun x y => itCompare_tr b _ _ _) (itInc_tr b) (itDeref_tr b h) hb _ _ _
theorem ritEach_tr (h : ∀ a, FlagTr R (mem a) (mem' a)) {body : ρ → Op σ Unit} {body' : ρ' → Op σ Unit}
    (hb : ∀ x x', R x x' → OpTr false Eq (body x) (body' x')) (a fuel : Nat) :
    OpTr false Eq (RIt.each b mem a body fuel) (RIt.each (off b) mem' a body' fuel) := by
  unfold RIt.each RIt.rbegin
  exact OpTr.bindEq (OpTr.refl _) fun s => OpTr.bindEq (OpTr.lift (Tr.bindEq (itEnd_tr h a s) fun _ => Tr.refl _))
    fun e => rangeFor_tr (ne := RIt.ne b) (ne' := RIt.ne (off b))
      (fun x y => itCompare_tr b (fun p q => decide (p ≠ q)) x.cur y.cur) (ritInc_tr b) (ritDeref_tr b h) hb _ _ _

theorem planeMk_tr (i j m n : Int) : Tr false Eq (PlaneIt.mk' b i j m n) (PlaneIt.mk' (off b) i j m n) := by
  unfold PlaneIt.mk'; checks
macro_rules | `(tactic| checks_lemma) => `(tactic| with_reducible exact planeMk_tr _ _ _ _ _)
theorem planeAssign_tr (x y : PlaneIt) : Tr false Eq (PlaneIt.assign b x y) (PlaneIt.assign (off b) x y) := by
  unfold PlaneIt.assign; checks
theorem planeInc_tr (x : PlaneIt) : Tr false Eq (x.inc b) (x.inc (off b)) := by
  unfold PlaneIt.inc; checks
macro_rules | `(tactic| checks_lemma) => `(tactic| with_reducible exact planeInc_tr _ _)
theorem planePostInc_tr (x : PlaneIt) : Tr false Eq (x.postInc b) (x.postInc (off b)) := by
  unfold PlaneIt.postInc; checks
theorem planeEq_tr (x y : PlaneIt) : Tr false Eq (PlaneIt.eq b x y) (PlaneIt.eq (off b) x y) := by
  unfold PlaneIt.eq; checks
macro_rules | `(tactic| checks_lemma) => `(tactic| with_reducible exact planeEq_tr _ _ _)
theorem planeNe_tr (x y : PlaneIt) : Tr false Eq (PlaneIt.ne b x y) (PlaneIt.ne (off b) x y) := by
  unfold PlaneIt.ne; checks
theorem planeDeref_tr (x : PlaneIt) : Tr false Eq (x.deref b) (x.deref (off b)) := by
  unfold PlaneIt.deref; checks
theorem rangeMk_tr (m n : Int) : Tr false Eq (IndexRange2D.mk' b m n) (IndexRange2D.mk' (off b) m n) := by
  unfold IndexRange2D.mk'; checks
macro_rules | `(tactic| checks_lemma) => `(tactic| with_reducible exact rangeMk_tr _ _ _)
theorem range2Each_tr (m n : Int) {body body' : Int × Int → Op σ Unit}
    (hb : ∀ x, OpTr false Eq (body x) (body' x)) (fuel : Nat) :
    OpTr false Eq (IndexRange2D.each b m n body fuel) (IndexRange2D.each (off b) m n body' fuel) := by
  unfold IndexRange2D.each IndexRange2D.begin IndexRange2D.end
  refine OpTr.bindEq (OpTr.lift (rangeMk_tr b _ _)) fun r => OpTr.bindEq (OpTr.lift (planeMk_tr b _ _ _ _)) fun x => ?_
  refine OpTr.bindEq (OpTr.lift (planeMk_tr b _ _ _ _)) fun e => ?_
  exact rangeFor_tr (R := Eq) (planeNe_tr b) (planeInc_tr b) (fun x _ => planeDeref_tr b x)
    (fun x x' h => h ▸ hb x) _ _ _

end

/-! ### The random generator -/

section

variable (b : Build)

open Semi

theorem srem_tr {u : Bool} (t : IntTy) (x y : Int) : Tr u Eq (SInt.rem b t x y) (SInt.rem (off b) t x y) := by
  unfold SInt.rem
  checks
macro_rules | `(tactic| checks_lemma) => `(tactic| with_reducible exact srem_tr _ _ _ _)
theorem generate_tr {u : Bool} (p : Int) : Tr u Eq (generate b p) (generate (off b) p) := by
  unfold generate; checks
macro_rules | `(tactic| checks_lemma) => `(tactic| with_reducible exact generate_tr _ _)
theorem randomInt_tr {u : Bool} (t : IntTy) (lo hi p : Int) :
    Tr u Eq (randomInt b t lo hi p) (randomInt (off b) t lo hi p) := by
  unfold randomInt; checks
macro_rules | `(tactic| checks_lemma) => `(tactic| with_reducible exact randomInt_tr _ _ _ _ _)
theorem randomBool_tr {u : Bool} (p : Int) : Tr u Eq (randomBool b p) (randomBool (off b) p) := by
  unfold randomBool; checks
macro_rules | `(tactic| checks_lemma) => `(tactic| with_reducible exact randomBool_tr _ _)
theorem randomFloat_tr {K : Type} {sc sc' : Scalar K} (h : SameScalar sc sc') (lo hi : K) (p : Int) :
    Tr false Eq (randomFloat b sc lo hi p) (randomFloat (off b) sc' lo hi p) := by
  have h' := h.toSameArith
  unfold randomFloat; checks
macro_rules | `(tactic| checks_lemma) => `(tactic| with_reducible apply randomFloat_tr; assumption)
theorem draws_tr {α : Type} {u : Bool} {f f' : Int → Res (α × Int)} (h : ∀ p, Tr u Eq (f p) (f' p)) (k : Nat) (p : Int) :
    Tr u Eq (draws f k p) (draws f' k p) := by
  induction k generalizing p with
  | zero => exact Tr.refl _
  | succ k ih => exact Tr.bindEq (h p) fun x => Tr.bindEq (ih _) fun l => Tr.refl _
theorem untilNot0_tr {α : Type} {u : Bool} {f f' : Int → Res (α × Int)} (h : ∀ p, Tr u Eq (f p) (f' p)) (z : α → Bool)
    (k : Nat) (p : Int) : Tr u Eq (untilNot0 f z k p) (untilNot0 f' z k p) := by
  induction k generalizing p with
  | zero => exact Tr.refl _
  | succ k ih => exact Tr.bindEq (h p) fun x => Tr.ite (ih _) (Tr.refl _)
theorem semiRands_tr {u : Bool} (t : IntTy) (c lo hi sd : Int) :
    Tr u Eq (semiRands b t c lo hi sd) (semiRands (off b) t c lo hi sd) := by
  unfold semiRands; checks
theorem semiRandsBool_tr {u : Bool} (c sd : Int) : Tr u Eq (semiRandsBool b c sd) (semiRandsBool (off b) c sd) := by
  unfold semiRandsBool; checks
theorem semiRandsFloat_tr {K : Type} {sc sc' : Scalar K} (h : SameScalar sc sc') (c : Int) (lo hi : K) (sd : Int) :
    Tr false Eq (semiRandsFloat b sc c lo hi sd) (semiRandsFloat (off b) sc' c lo hi sd) := by
  unfold semiRandsFloat
  rw [h.le]
  checks
theorem semiRandsNot0_tr {u : Bool} (t : IntTy) (c lo hi sd : Int) (fuel : Nat) :
    Tr u Eq (semiRandsNot0 b t c lo hi sd fuel) (semiRandsNot0 (off b) t c lo hi sd fuel) := by
  unfold semiRandsNot0
  exact Tr.bindEq (Tr.assertDebug _ _) fun _ => Tr.bindEq (Tr.assertDebug _ _) fun _ => Tr.bindEq (Tr.refl _) fun p =>
    Tr.bindEq (untilNot0_tr (randomInt_tr b t lo hi) _ _ _) fun r => Tr.refl _
theorem exprState_tr {u : Bool} (c lo hi n sd : Int) :
    Tr u Eq (exprState b c lo hi n sd) (exprState (off b) c lo hi n sd) := by
  unfold exprState; checks
theorem fillFrom_tr {α : Type} {p p' : Acc (Store α) Loc} (h : AccTr p p') {f f' : Int → Res (α × Int)}
    (hf : ∀ p, Tr false Eq (f p) (f' p)) (i k : Nat) (q : Int) :
    OpTr false Eq (fillFrom p f i k q) (fillFrom p' f' i k q) := by
  induction k generalizing i q with
  | zero => unfold fillFrom; exact OpTr.refl _
  | succ k ih =>
    unfold fillFrom
    exact OpTr.bindEq (OpTr.refl _) fun s => OpTr.bindEq (OpTr.lift (h.un s _)) fun l =>
      OpTr.bindEq (OpTr.lift (hf _)) fun x => OpTr.bindEq (OpTr.refl _) fun _ => ih _ _
theorem fillNot0From_tr {α : Type} {p p' : Acc (Store α) Loc} (h : AccTr p p') {f f' : Int → Res (α × Int)}
    (hf : ∀ p, Tr false Eq (f p) (f' p)) (z : α → Bool) (fuel i k : Nat) (q : Int) :
    OpTr false Eq (fillNot0From p f z fuel i k q) (fillNot0From p' f' z fuel i k q) := by
  induction k generalizing i q with
  | zero => unfold fillNot0From; exact OpTr.refl _
  | succ k ih =>
    unfold fillNot0From
    refine OpTr.bindEq (OpTr.refl _) fun s => OpTr.bindEq (OpTr.lift (h.un s _)) fun l =>
      OpTr.bindEq (OpTr.lift (untilNot0_tr hf _ _ _)) fun r => ?_
    rcases r with _ | ⟨x, q⟩
    · exact OpTr.refl _
    · exact OpTr.bindEq (OpTr.refl _) fun _ => ih _ _
theorem semiRandom_tr (t : IntTy) (c : Int) {p p' : Acc (Store Int) Loc} (h : AccTr p p') (lo hi sd : Int) :
    OpTr false Eq (semiRandom b t c p lo hi sd) (semiRandom (off b) t c p' lo hi sd) := by
  unfold semiRandom
  exact OpTr.bindEq (OpTr.lift (Tr.assertDebug _ _)) fun _ => OpTr.bindEq (OpTr.refl _) fun s =>
    OpTr.bindEq (OpTr.lift (h.size s)) fun n => OpTr.bindEq (OpTr.refl _) fun sd => OpTr.bindEq (OpTr.refl _) fun q =>
    OpTr.bindEq (OpTr.lift (h.size s)) fun n => fillFrom_tr h (randomInt_tr b t lo hi) _ _ _
theorem semiRandomNot0_tr (t : IntTy) (c : Int) {p p' : Acc (Store Int) Loc} (h : AccTr p p') (lo hi sd : Int)
    (fuel : Nat) :
    OpTr false Eq (semiRandomNot0 b t c p lo hi sd fuel) (semiRandomNot0 (off b) t c p' lo hi sd fuel) := by
  unfold semiRandomNot0
  exact OpTr.bindEq (OpTr.lift (Tr.assertDebug _ _)) fun _ => OpTr.bindEq (OpTr.lift (Tr.assertDebug _ _)) fun _ =>
    OpTr.bindEq (OpTr.refl _) fun s =>
    OpTr.bindEq (OpTr.lift (h.size s)) fun n => OpTr.bindEq (OpTr.refl _) fun sd => OpTr.bindEq (OpTr.refl _) fun q =>
    OpTr.bindEq (OpTr.lift (h.size s)) fun n => fillNot0From_tr h (randomInt_tr b t lo hi) _ _ _ _ _

end

/-! ### Streams -/

section

variable {α : Type} [Inhabited α] (b : Build) (num : IO.Scanner α)

open Spp.IO

theorem resizeRun_tr (n : Int) (l : List α) :
    Tr false Eq ((Arr1.resize b n true l).1 >>= fun _ => (pure (Arr1.resize b n true l).2 : Res (List α)))
      ((Arr1.resize (off b) n true l).1 >>= fun _ => pure (Arr1.resize (off b) n true l).2) :=
  (resize1_tr b n true l).run
theorem resizeRun2_tr (m n : Int) (l : Arr2 α) :
    Tr false Eq ((Arr2.resize b m n true l).1 >>= fun _ => (pure (Arr2.resize b m n true l).2 : Res (Arr2 α)))
      ((Arr2.resize (off b) m n true l).1 >>= fun _ => pure (Arr2.resize (off b) m n true l).2) :=
  (resize2_tr b m n true l).run

theorem OTr.cont {u : Bool} {σ A C D : Type} {S : C → D → Prop} {p q : Res A × σ} (h : OTr u Eq p q)
    {f : σ → Res C} {g : σ → Res D} (hf : ∀ s, Tr u S (f s) (g s)) :
    Tr u S (p.1 >>= fun _ => f p.2) (q.1 >>= fun _ => g q.2) := by
  cases h with
  | trap k s y => exact .trap k _
  | ub0 h s y => exact .ub0 h _
  | ub s => exact .ub
  | ok h s => exact hf s

theorem readLoop1_tr (fuel : Nat) : OpTr false Eq (readLoop1 b num fuel) (readLoop1 (off b) num fuel) := by
  induction fuel with
  | zero => exact OpTr.refl _
  | succ fuel ih =>
    unfold readLoop1
    refine OpTr.bindEq (OpTr.refl _) fun s => ?_
    rcases extract num s.is with ⟨_ | ⟨x, _ | _⟩, is⟩
    · exact OpTr.refl _
    · exact OpTr.refl _
    · refine OpTr.bindEq (OpTr.refl _) fun _ => OpTr.bindEq (OpTr.refl _) fun l => OpTr.bindEq (OpTr.refl _) fun c => ?_
      refine OpTr.bindEq (OpTr.lift ?_) fun l => OpTr.bindEq (OpTr.refl _) fun _ => ih
      exact Tr.ite (Tr.bindEq (Tr.refl _) fun n => resizeRun_tr b n l) (Tr.refl _)

theorem OTr.sub' {σ τ A C : Type} {p q : Res A × τ} (h : OTr false Eq p q)
    {f g : τ → Op σ C} (hf : ∀ t, OpTr false Eq (f t) (g t)) :
    OpTr false Eq (Op.lift p.1 >>= fun _ => f p.2) (Op.lift q.1 >>= fun _ => g q.2) := by
  cases h with
  | trap k t y => exact fun s => .trap k _ _
  | ub0 h t y => exact fun s => .ub0 rfl _ _
  | ub t => exact fun s => .ub _
  | ok h t => exact OpTr.bindEq (OpTr.lift (.ok h)) fun _ => hf _

theorem read1_tr : OpTr false Eq (read1 b num) (read1 (off b) num) := by
  unfold read1
  refine OpTr.bindEq (OpTr.refl _) fun st => OpTr.bindEq (OpTr.lift (make_tr b _)) fun tmp => ?_
  have h := readLoop1_tr b num (st.1.rest.length + 1) ⟨st.1, 0, tmp⟩
  generalize readLoop1 b num (st.1.rest.length + 1) ⟨st.1, 0, tmp⟩ = p at h
  generalize readLoop1 (off b) num (st.1.rest.length + 1) ⟨st.1, 0, tmp⟩ = q at h
  cases h with
  | trap k t y => exact fun s => .trap k _ _
  | ub0 h t y => exact fun s => .ub0 rfl _ _
  | ub t => exact fun s => .ub _
  | ok h t =>
    refine OpTr.bindEq (OpTr.refl _) fun _ => OpTr.bindEq (OpTr.refl _) fun _ => ?_
    refine OpTr.bindEq (OpTr.refl _) fun _ => OpTr.bindEq (OpTr.refl _) fun _ => ?_
    exact (resize1_tr b t.count true t.tmp).sub' (f := fun l => Op.set (t.is.cleared, l))
      (g := fun l => Op.set (t.is.cleared, l)) fun l => OpTr.refl _

theorem put2_tr (a : Arr2 α) (i j : Int) (x : α) : Tr false Eq (put2 b a i j x) (put2 (off b) a i j x) := by
  unfold put2; checks

theorem firstRowLoop_tr (fuel : Nat) (s : Stream) (n : Int) (a : Arr2 α) :
    Tr false Eq (firstRowLoop b num fuel s n a) (firstRowLoop (off b) num fuel s n a) := by
  induction fuel generalizing s n a with
  | zero => exact Tr.refl _
  | succ fuel ih =>
    unfold firstRowLoop
    rcases extract num s with ⟨_ | ⟨x, _ | _⟩, is⟩
    · exact Tr.refl _
    · exact Tr.refl _
    · refine Tr.bindEq (put2_tr b _ _ _ _) fun a => Tr.bindEq (Tr.refl _) fun n => ?_
      exact Tr.bindEq (Tr.ite (Tr.bindEq (Tr.refl _) fun m => resizeRun2_tr b 1 m a) (Tr.refl _)) fun a => ih _ _ _

theorem getFirstRow_tr (line : List Char) (a : Arr2 α) :
    Tr false Eq (getFirstRow b num line a) (getFirstRow (off b) num line a) := by
  unfold getFirstRow
  have h := resize2_tr b 1 4 true a
  generalize Arr2.resize b 1 4 true a = p at h
  generalize Arr2.resize (off b) 1 4 true a = q at h
  cases h with
  | trap k t y => exact .trap k _
  | ub0 h t y => exact .ub0 rfl _
  | ub t => exact .ub
  | ok h t =>
    refine Tr.bindEq (.ok h) fun _ => Tr.bindEq (firstRowLoop_tr b num _ _ _ _) fun r => ?_
    obtain ⟨iss, n, a⟩ := r
    dsimp only
    by_cases h : n = 0
    · simp only [h, ne_eq, not_true_eq_false, if_false]
      exact (resize2_tr b 0 0 true a).cont (f := fun t => Spp.assertAlways b iss.eof >>= fun _ => pure t)
        (g := fun t => Spp.assertAlways (off b) iss.eof >>= fun _ => pure t) fun a => Tr.refl _
    · simp only [h, ne_eq, not_false_eq_true, if_true]
      exact (resize2_tr b 1 n true a).cont (f := fun t => Spp.assertAlways b iss.eof >>= fun _ => pure t)
        (g := fun t => Spp.assertAlways (off b) iss.eof >>= fun _ => pure t) fun a => Tr.refl _

theorem rowLoop_tr (row : Int) (fuel : Nat) (s : Stream) (n : Int) (a : Arr2 α) :
    Tr false Eq (rowLoop b num row fuel s n a) (rowLoop (off b) num row fuel s n a) := by
  induction fuel generalizing s n a with
  | zero => exact Tr.refl _
  | succ fuel ih =>
    unfold rowLoop
    rcases extract num s with ⟨_ | ⟨x, _ | _⟩, is⟩
    · exact Tr.refl _
    · exact Tr.refl _
    · exact Tr.bindEq (put2_tr b _ _ _ _) fun a => Tr.bindEq (Tr.refl _) fun n => ih _ _ _

theorem getRow_tr (line : List Char) (row : Int) (a : Arr2 α) :
    Tr false Eq (getRow b num line row a) (getRow (off b) num line row a) := by
  unfold getRow
  exact Tr.bindEq (rowLoop_tr b num row _ _ _ _) fun r => Tr.refl _

theorem readFirst_tr (fuel : Nat) : OpTr false Eq (readFirst b num fuel) (readFirst (off b) num fuel) := by
  induction fuel with
  | zero => exact OpTr.refl _
  | succ fuel ih =>
    unfold readFirst
    refine OpTr.bindEq (OpTr.refl _) fun s => OpTr.ite ?_ (OpTr.refl _)
    rcases getline s.1 with ⟨_ | line, is⟩
    · exact OpTr.refl _
    · exact OpTr.bindEq (OpTr.refl _) fun _ => OpTr.bindEq (OpTr.lift (getFirstRow_tr b num _ _)) fun tmp =>
        OpTr.bindEq (OpTr.refl _) fun _ => ih

theorem readRows_tr (n : Int) (fuel : Nat) : OpTr false Eq (readRows b num n fuel) (readRows (off b) num n fuel) := by
  induction fuel with
  | zero => exact OpTr.refl _
  | succ fuel ih =>
    unfold readRows
    refine OpTr.bindEq (OpTr.refl _) fun s => ?_
    rcases getline s.1 with ⟨_ | line, is⟩
    · exact OpTr.refl _
    · refine OpTr.bindEq (OpTr.refl _) fun _ => OpTr.ite ih ?_
      refine OpTr.bindEq (OpTr.lift (getRow_tr b num _ _ _)) fun tmp => OpTr.bindEq (OpTr.refl _) fun rc => ?_
      refine OpTr.bindEq (OpTr.lift ?_) fun tmp => OpTr.bindEq (OpTr.refl _) fun _ => ih
      exact Tr.ite (Tr.bindEq (Tr.refl _) fun m => resizeRun2_tr b m n tmp) (Tr.refl _)

theorem read2_tr : OpTr false Eq (read2 b num) (read2 (off b) num) := by
  unfold read2
  refine OpTr.bindEq (OpTr.refl _) fun st => ?_
  have h := readFirst_tr b num (st.1.rest.length + 2) (st.1, Arr2.empty)
  generalize readFirst b num (st.1.rest.length + 2) (st.1, Arr2.empty) = p at h
  generalize readFirst (off b) num (st.1.rest.length + 2) (st.1, Arr2.empty) = q at h
  cases h with
  | trap k t y => exact fun s => .trap k _ _
  | ub0 h t y => exact fun s => .ub0 rfl _ _
  | ub t => exact fun s => .ub _
  | ok h r =>
    refine OpTr.bindEq (OpTr.refl _) fun _ => OpTr.bindEq (OpTr.lift (.ok h)) fun _ => OpTr.ite ?_ (OpTr.refl _)
    dsimp only
    have h := resize2_tr b 2 r.2.cols true r.2
    generalize Arr2.resize b 2 r.2.cols true r.2 = p at h
    generalize Arr2.resize (off b) 2 r.2.cols true r.2 = q at h
    cases h with
    | trap k t y => exact fun s => .trap k _ _
    | ub0 h t y => exact fun s => .ub0 rfl _ _
    | ub t => exact fun s => .ub _
    | ok h t =>
      refine OpTr.bindEq (OpTr.lift (.ok h)) fun _ => ?_
      dsimp only
      have h := readRows_tr b num r.2.cols (r.1.rest.length + 1) (r.1, 1, t)
      generalize readRows b num r.2.cols (r.1.rest.length + 1) (r.1, 1, t) = p at h
      generalize readRows (off b) num r.2.cols (r.1.rest.length + 1) (r.1, 1, t) = q at h
      cases h with
      | trap k t y => exact fun s => .trap k _ _
      | ub0 h t y => exact fun s => .ub0 rfl _ _
      | ub t => exact fun s => .ub _
      | ok h q =>
        refine OpTr.bindEq (OpTr.refl _) fun _ => OpTr.bindEq (OpTr.lift (.ok h)) fun _ => ?_
        exact (resize2_tr b q.2.1 r.2.cols true q.2.2).sub' (f := fun l => Op.set (q.1, l))
          (g := fun l => Op.set (q.1, l)) fun t => OpTr.refl _

theorem readFile1_tr (f : Option (List Char)) : OpTr false Eq (readFile1 b num f) (readFile1 (off b) num f) := by
  unfold readFile1
  refine OpTr.bindEq (OpTr.refl _) fun s => OpTr.bindEq (OpTr.refl _) fun a => ?_
  have h := read1_tr b num (s, a)
  generalize read1 b num (s, a) = p at h
  generalize read1 (off b) num (s, a) = q at h
  cases h with
  | trap k t y => exact fun s => .trap k _ _
  | ub0 h t y => exact fun s => .ub0 rfl _ _
  | ub t => exact fun s => .ub _
  | ok h t => exact OpTr.bindEq (OpTr.refl _) fun _ => OpTr.lift (.ok h)
theorem readFile2_tr (f : Option (List Char)) : OpTr false Eq (readFile2 b num f) (readFile2 (off b) num f) := by
  unfold readFile2
  refine OpTr.bindEq (OpTr.refl _) fun s => OpTr.bindEq (OpTr.refl _) fun a => ?_
  have h := read2_tr b num (s, a)
  generalize read2 b num (s, a) = p at h
  generalize read2 (off b) num (s, a) = q at h
  cases h with
  | trap k t y => exact fun s => .trap k _ _
  | ub0 h t y => exact fun s => .ub0 rfl _ _
  | ub t => exact fun s => .ub _
  | ok h t => exact OpTr.bindEq (OpTr.refl _) fun _ => OpTr.lift (.ok h)

end

end Spp
