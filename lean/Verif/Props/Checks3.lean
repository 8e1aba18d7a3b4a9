import Verif.Lemmas.Checks6
import Verif.Props.Checks2
import Verif.Props.Example4

/-
C04, continued: programs with expressions, conditions and loops, programs with arrays of one and two dimensions in memory,
algorithms of the standard library, sorting and shuffling, arrays made from iterators, several arrays filled with random
numbers, and the programs in /repo/examples.
-/

namespace Spp.Props
open Spec Sample

variable {α : Type}

/-! ### Programs -/

/-- C04 (programs with expressions, assignments to elements, growing and shrinking arrays, branches and loops). -/
theorem C04_expression_programs [Inhabited α] (b : Build) {p p' : EProg α} (h : SameEProg p p') :
    SurvivesOp (eprogRun b p) (eprogRun (off b) p') := (eprogRun_tr b h).survives

/-- C04 (numbers computed from arrays, and conditions). -/
theorem C04_conditions [Inhabited α] (b : Build) {q q' : Query α} (hq : SameQuery q q') {c c' : Test α} (hc : SameTest c c')
    (s : Store α) : Survives (queryRun b s q) (queryRun (off b) s q') ∧ Survives (testRun b s c) (testRun (off b) s c') :=
  ⟨(queryRun_tr b hq s).survives, (testRun_tr b hc s).survives⟩

/-- C04 (programs steered by the contents of their arrays): if the program ends normally within `n` steps with checks, it
ends normally within `n` steps without, with the same contents of all arrays. -/
theorem C04_steered_programs [Inhabited α] (b : Build) (n : Nat) {p p' : WProg α} (h : SameWProg p p') {s s' : Store α}
    (hr : wprogRun b n p s = some (.ok (), s')) : wprogRun (off b) n p' s = some (.ok (), s') := wprogRun_tr b h hr

/-- C04 (programs with arrays of one and two dimensions in memory that may run out), without handlers. -/
theorem C04_mixed_programs [Inhabited α] (p : MProg α) (h : p.NoHandler) : KeepsOp (fun b => mrun b p) :=
  keepsOp_of_tr fun b => mrun_tr b p h

/-- `while(sum(A) < 20) A.insert_back(A);` with checked integers. -/
def doubling (b : Build) : WProg Int :=
  .whileDo (.cmp (fun x y => decide (x < y)) (.reduce (checkedInts b) .sum 0 (.lv (.arr1 0))) (.lit 20))
    (.prog (.stmt (.use1 0 .insertBack (.lv (.arr1 0)))))

theorem doubling_same (b : Build) : SameWProg (doubling b) (doubling (off b)) :=
  .whileDo (.cmp _ (.reduce _ _ (checkedInts_same b) (.lv _)) (.lit _)) (.prog (.stmt (.use1 _ _ (.lv _))))

/-- It does end normally. -/
example : ((wprogRun ⟨false, true, false⟩ 9 (doubling ⟨false, true, false⟩) store).map fun r => (r.1, r.2.a1 0)) =
    some (.ok (), [1, 2, 3, 1, 2, 3, 1, 2, 3, 1, 2, 3]) := by decide +kernel

example : ∃ s', wprogRun ⟨true, true, false⟩ 9 (doubling ⟨true, true, false⟩) store = some (.ok (), s') := by
  have h : ((wprogRun ⟨false, true, false⟩ 9 (doubling ⟨false, true, false⟩) store).map fun r => r.1) = some (.ok ()) := by
    decide +kernel
  have k := fun s' => C04_steered_programs (s := store) (s' := s') ⟨false, true, false⟩ 9 (doubling_same ⟨false, true, false⟩)
  revert h k
  generalize wprogRun ⟨false, true, false⟩ 9 (doubling ⟨false, true, false⟩) store = o
  intro h k
  obtain _ | ⟨r, s⟩ := o
  · simp at h
  · simp only [Option.map_some, Option.some.injEq] at h
    subst h
    exact ⟨s, k s rfl⟩

/-- `A[last - 1] += 10; M(1, 2) = 7 / M(0, 1)` with checked integers. -/
example (b : Build) : SurvivesOp
    (eprogRun b (.seq (.stmt (.elem1 (.arr1 0) (.fromLast 1) fun x => (checkedInts b).add x 10))
      (.stmt (.elem2 (.arr2 0) (.at 1) (.at 2) fun x => (checkedInts b).div 7 x))))
    (eprogRun (off b) (.seq (.stmt (.elem1 (.arr1 0) (.fromLast 1) fun x => (checkedInts (off b)).add x 10))
      (.stmt (.elem2 (.arr2 0) (.at 1) (.at 2) fun x => (checkedInts (off b)).div 7 x)))) :=
  C04_expression_programs b (.seq (.stmt (.elem1 _ _ fun _ => (checkedInts_same b).add _ _))
    (.stmt (.elem2 _ _ _ fun _ => (checkedInts_same b).div _ _)))

example : (eprogRun ⟨false, true, false⟩ (.seq (.stmt (.elem1 (.arr1 0) (.fromLast 1) fun x => (checkedInts ⟨false, true, false⟩).add x 10))
      (.stmt (.elem2 (.arr2 0) (.at 1) (.at 2) fun x => (checkedInts ⟨false, true, false⟩).div 7 x))) store).1 = .ok () := by
  decide +kernel

/-- A block with a matrix and a list, a loop and an inserted row. -/
def growing : MProg Int :=
  .block2 0 .aligned (.list [[1, 2], [3, 4]]) (.block 1 .aligned (.fill 2 7)
    (.loop 3 (.read 1 fun _ l => .stmt2 (.call 0 (.insertRow 1 l)))))

example : growing.NoHandler ∧
    (mrun ⟨false, true, false⟩ growing (MHeap.init ⟨fun _ => false, fun _ a => a⟩)).1 = .ok () :=
  ⟨fun _ _ => trivial, by decide +kernel⟩

/-! ### Algorithms -/

/-- C04 (algorithms of the standard library on elements, forwards and backwards), for any algorithm made of the operations
of iterators. -/
theorem C04_algorithms {β : Type} {mem mem' : Nat → Acc (Store α) Loc} (h : ∀ k, SameAcc (mem k) (mem' k)) (b : Build)
    (x : Alg α β) (a : Nat) (n : Int) :
    SurvivesOp (x.run (.forward b (fun k => .index (mem k)) a)) (x.run (.forward (off b) (fun k => .index (mem' k)) a)) ∧
    SurvivesOp (x.run (.backward b (fun k => .index (mem k)) a n))
      (x.run (.backward (off b) (fun k => .index (mem' k)) a n)) :=
  have H := fun k => indexFlag_tr (h k).tr
  ⟨(alg_tr (forward_tr b H a) x).survives, (alg_tr (backward_tr b H a n) x).survives⟩

/-- C04 (comparisons of iterators and of reverse iterators). -/
theorem C04_comparisons (c : ItCmp) (x y : It) (p q : RIt) :
    Spec.Keeps (fun b => c.forward b x y) ∧ Spec.Keeps (fun b => c.backward b p q) :=
  ⟨keeps_of_tr fun b => forwardCmp_tr b c x y, keeps_of_tr fun b => backwardCmp_tr b c p q⟩

/-- C04 (sorting and shuffling arrays and views of arrays). -/
theorem C04_sorting (b : Build) (srt : (α → α → Bool) → List α → List α) (draw : Nat → Nat) {sc sc' : Scalar α}
    (hs : SameScalar sc sc') {d : Dim} (l : Lv d) :
    SurvivesOp (sortUp b srt sc l) (sortUp (off b) srt sc' l) ∧
    SurvivesOp (sortDown b srt sc l) (sortDown (off b) srt sc' l) ∧
    SurvivesOp (shuffleView (α := α) b draw l) (shuffleView (off b) draw l) :=
  ⟨(sortUp_tr b srt hs l).survives, (sortDown_tr b srt hs l).survives, (shuffleView_tr b draw l).survives⟩

example : ((shuffleView ⟨false, true, false⟩ (fun k => k / 2) (.view (.slice .reverse) (.arr1 0)) store).2.a1 0) = [3, 1, 2] ∧
    (shuffleView ⟨false, true, false⟩ (fun k => k / 2) (.view (.slice .reverse) (.arr1 0)) store).1 = .ok () := by
  decide +kernel

/-- C04 (arrays made from two iterators, forwards and backwards, of dynamic and of fixed size). -/
theorem C04_ranges [Inhabited α] {σ : Type} {mem mem' : Nat → Acc σ α} (h : ∀ k, SameAcc (mem k) (mem' k)) (b : Build)
    (s : σ) (x e : It) (p q : RIt) (N fuel : Nat) :
    Survives (RangeCtor.make b (RangeCtor.fwd b (fun k => .index (mem k)) s) x e fuel)
      (RangeCtor.make (off b) (RangeCtor.fwd (off b) (fun k => .index (mem' k)) s) x e fuel) ∧
    Survives (RangeCtor.make b (RangeCtor.rev b (fun k => .index (mem k)) s) p q fuel)
      (RangeCtor.make (off b) (RangeCtor.rev (off b) (fun k => .index (mem' k)) s) p q fuel) ∧
    Survives (RangeCtor.makeFixed b N (RangeCtor.fwd b (fun k => .index (mem k)) s) x e fuel)
      (RangeCtor.makeFixed (off b) N (RangeCtor.fwd (off b) (fun k => .index (mem' k)) s) x e fuel) ∧
    Survives (RangeCtor.makeFixed b N (RangeCtor.rev b (fun k => .index (mem k)) s) p q fuel)
      (RangeCtor.makeFixed (off b) N (RangeCtor.rev (off b) (fun k => .index (mem' k)) s) p q fuel) :=
  have H := fun k => indexFlag_tr (h k).tr
  ⟨(rangeMake_tr b (fwd_tr b H s) x e fuel).survives, (rangeMake_tr b (rev_tr b H s) p q fuel).survives,
   (rangeMakeFixed_tr b (fwd_tr b H s) N x e fuel).survives, (rangeMakeFixed_tr b (rev_tr b H s) N p q fuel).survives⟩

/-! ### Random numbers -/

/-- C04 (several arrays filled in one call). -/
theorem C04_random_all {G : Type} [LinearOrder α] (b : Build) {draw draw' : Int → Res (α × Int)}
    (hd : ∀ p, Survives (draw p) (draw' p)) (clock : Int) {l l' : List (Acc (Store α) Loc)}
    (h : List.Forall₂ SameAcc l l') (z : α) (gen : StdRandom.Gen α G) (lo hi : StdRandom.Bound α) (fuel : Nat)
    {k k' : List (Acc (Store α) Loc × G)} (hk : List.Forall₂ (fun x y => SameAcc x.1 y.1 ∧ x.2 = y.2) k k') :
    SurvivesOp (Semi.semiRandomAll b draw clock l) (Semi.semiRandomAll (off b) draw' clock l') ∧
    SurvivesOp (StdRandom.randomNot0All b z gen lo hi fuel k) (StdRandom.randomNot0All (off b) z gen lo hi fuel k') :=
  ⟨(semiRandomAll_tr b (fun p => .of_survives (hd p)) clock (h.imp fun _ _ h => h.tr)).survives,
   (randomNot0All_tr b z gen lo hi fuel (hk.imp fun _ _ h => ⟨h.1.tr, h.2⟩)).survives⟩

/-! ### Several operations together, and the examples -/

/-- C04 (removing the elements with a property or in a range, rotating, assigning one half of the elements to the other). -/
theorem C04_idioms [Inhabited α] (b : Build) (f : α → Bool) {sc sc' : Scalar α} (hs : SameScalar sc sc') (lo hi : α)
    (dst src : Nat) (neg : α → α) (add : α → α → α) (c : α) :
    SurvivesOp (Idioms.removeWhere b f) (Idioms.removeWhere (off b) f) ∧
    SurvivesOp (Idioms.removeClosed b sc lo hi) (Idioms.removeClosed (off b) sc' lo hi) ∧
    SurvivesOp (Idioms.removeOpen b sc lo hi) (Idioms.removeOpen (off b) sc' lo hi) ∧
    SurvivesOp (Idioms.rotate (α := α) b dst src) (Idioms.rotate (off b) dst src) ∧
    SurvivesOp (Idioms.oddFromEven b neg add dst c) (Idioms.oddFromEven (off b) neg add dst c) :=
  ⟨(removeWhere_tr b f).survives, (removeClosed_tr b hs lo hi).survives, (removeOpen_tr b hs lo hi).survives,
   (rotate_tr b dst src).survives, (oddFromEven_tr b neg add dst c).survives⟩

example : Idioms.removeClosed ⟨false, true, false⟩ (checkedInts ⟨false, true, false⟩) 3 6 [1, 5, 8, 3] = (.ok (), [1, 8]) := by
  decide +kernel

/-- C04 (the programs of the examples): the Jacobi solver, making a matrix diagonally dominant, the trapezoidal method,
and the accuracy experiment.  A run that succeeds with checks gives the same numbers without. -/
theorem C04_examples {β : Type} (b : Build) {sc sc' : Scalar α} (hs : SameScalar sc sc') (dyn : Bool) (A : Arr2 α)
    (rhs : List α) (tol nz two h y : α) (steps : Int) {fs fs' : FScalar α} (hf : SameFScalar fs fs') {sq sq' : Scalar β}
    (hq : SameScalar sq sq') (widen : α → β) (draws : List (α × List α)) :
    Survives (Examples.jacobi b sc dyn A rhs tol nz) (Examples.jacobi (off b) sc' dyn A rhs tol nz) ∧
    SurvivesOp (Examples.makeDominant b sc.toArith two) (Examples.makeDominant (off b) sc'.toArith two) ∧
    Survives (Examples.odeSolve b sc two steps h y) (Examples.odeSolve (off b) sc' two steps h y) ∧
    Survives (Examples.polyReport b fs sq widen draws) (Examples.polyReport (off b) fs' sq' widen draws) :=
  ⟨(jacobi_tr b hs dyn A rhs tol nz).survives, (makeDominant_tr b hs.toSameArith two).survives,
   (odeSolve_tr b hs two steps h y).survives, (polyReport_tr b hf hq widen draws).survives⟩

example : (Examples.makeDominant ⟨false, true, false⟩ (checkedInts ⟨false, true, false⟩).toArith 2
    ⟨fun _ => [], fun _ => ⟨2, 2, [1, 2, 3, 4]⟩⟩).1 = .ok () := by decide +kernel

end Spp.Props
