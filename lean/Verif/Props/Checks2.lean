import Verif.Lemmas.Checks5
import Verif.Model.FloatLit
import Verif.Props.Checks

/-
C04, continued: operators of integer arrays, fixed arrays, foreign memory, matrix products, literals and formats, programs
with memory that runs out, and random numbers.
-/

set_option linter.unusedSectionVars false

namespace Spp.Props
open Spec Sample

variable {α : Type}

/-! ### Operators of integer arrays -/

/-- C04 (element operations of integer arrays): undefined behaviour is preserved too. -/
theorem C04_operators (t : IntTy) (op : IntOp) (x y : Int) :
    Transparent (fun b => ArrOp.fn b t op x y) ∧ Transparent (fun b => ArrOp.assignFn b t op x y) :=
  ⟨transparent_of_tr fun b => fn_tr b t op x y, transparent_of_tr fun b => assignFn_tr b t op x y⟩

/-- C04 (operators of integer arrays): texts that use them are the same text with and without checks, so that
`C04_assignments` and `C04_expressions` apply. -/
theorem C04_operator_texts (b : Build) (t : IntTy) (op : IntOp) {d : Dim} (l : Lv d) (x : Int) {A A' B B' : Tm Int d}
    (hA : SameText A A') (hB : SameText B B') :
    SameText (ArrOp.arrays b t op A B) (ArrOp.arrays (off b) t op A' B') ∧
    SameText (ArrOp.left b t op x A) (ArrOp.left (off b) t op x A') ∧
    SameText (ArrOp.right b t op A x) (ArrOp.right (off b) t op A' x) ∧
    SameStmt (ArrOp.assign b t op l A) (ArrOp.assign (off b) t op l A') ∧
    SameStmt (ArrOp.assignX b t op l x) (ArrOp.assignX (off b) t op l x) :=
  have h : ∀ x y, Survives (ArrOp.fn b t op x y) (ArrOp.fn (off b) t op x y) := fun x y => (fn_tr b t op x y).survives
  have h' : ∀ x y, Survives (ArrOp.assignFn b t op x y) (ArrOp.assignFn (off b) t op x y) := fun x y =>
    (assignFn_tr b t op x y).survives
  ⟨.binary h hA hB, .scalarL x h hA, .scalarR x h hA, .compound l h' hA, .compoundX l x h'⟩

/-- `x /= y` for arrays of integers, in the debug build, hence in the release build. -/
example : ∃ s', AStmt.runAll ⟨true, true, false⟩ [ArrOp.assign ⟨true, true, false⟩ .int .div (.arr1 1) x] store =
    (.ok (), s') ∧ s'.a1 1 = [4, 2, 2] :=
  ⟨_, C04_assignments (.cons (C04_operator_texts ⟨false, true, false⟩ .int .div (.arr1 1) 0 (.lv (.arr1 0))
    (.lv (.arr1 0))).2.2.2.1 .nil) ⟨false, true, false⟩ store () _ rfl, by decide +kernel⟩

/-! ### Fixed arrays -/

/-- C04 (arrays of fixed size): constructors, and programs of any length. -/
theorem C04_fixed [Inhabited α] (N : Nat) (xs l : List α) (i j : Int) (p : List (FStmt α)) :
    Keeps (fun b => Fixed.makeList b N xs) ∧ Keeps (fun b => Fixed.makeIter b N l i j) ∧
    KeepsOp (fun b => inOrder (p.map (Fixed.exec b))) :=
  ⟨keeps_of_tr fun b => fixedMakeList_tr b N xs, keeps_of_tr fun b => fixedMakeIter_tr b N l i j,
   keepsOp_of_tr fun b => inOrder_tr (fixedExec_tr b) p⟩

/-- C04 (two-dimensional arrays of fixed size). -/
theorem C04_fixed2 [Inhabited α] (M N : Nat) (L : List (List α)) (p : List (FStmt2 α)) :
    Keeps (fun b => Fixed2.makeList b M N L) ∧ KeepsOp (fun b => inOrder (p.map (Fixed2.exec b))) :=
  ⟨keeps_of_tr fun b => fixedMakeList2_tr b M N L, keepsOp_of_tr fun b => inOrder_tr (fixedExec2_tr b) p⟩

/-- C04 (arrays of fixed size made from or assigned expressions): the operands are any objects built with and without
checks. -/
theorem C04_fixed_expressions [Inhabited α] {σ : Type} {a a' : Acc σ α} (h : SameAcc a a') (s : σ) (b : Build) (M N : Nat) :
    Survives (Fixed.makeFrom b N ⟨a.rows s, fun _ i => a.un s i⟩)
      (Fixed.makeFrom (off b) N ⟨a'.rows s, fun _ i => a'.un s i⟩) ∧
    SurvivesOp (Fixed.assign b ⟨a.rows s, fun _ i => a.un s i⟩)
      (Fixed.assign (off b) ⟨a'.rows s, fun _ i => a'.un s i⟩) ∧
    Survives (Fixed2.makeFrom b M N ⟨a.rows s, a.cols s, fun _ i => a.un s i, fun _ i j => a.un2 s i j, false⟩)
      (Fixed2.makeFrom (off b) M N ⟨a'.rows s, a'.cols s, fun _ i => a'.un s i, fun _ i j => a'.un2 s i j, false⟩) ∧
    SurvivesOp (Fixed2.assign b ⟨a.rows s, a.cols s, fun _ i => a.un s i, fun _ i j => a.un2 s i j, false⟩)
      (Fixed2.assign (off b) ⟨a'.rows s, a'.cols s, fun _ i => a'.un s i, fun _ i j => a'.un2 s i j, false⟩) := by
  have h1 : SrcTr (σ := List α) ⟨a.rows s, fun _ i => a.un s i⟩ ⟨a'.rows s, fun _ i => a'.un s i⟩ :=
    ⟨by rw [h.rows], fun _ i => h.tr.un s i⟩
  have h2 : Src2Tr (σ := Arr2 α) ⟨a.rows s, a.cols s, fun _ i => a.un s i, fun _ i j => a.un2 s i j, false⟩
      ⟨a'.rows s, a'.cols s, fun _ i => a'.un s i, fun _ i j => a'.un2 s i j, false⟩ :=
    ⟨by rw [h.rows], by rw [h.cols], rfl, fun _ i => h.tr.un s i, fun _ i j => h.tr.un2 s i j⟩
  exact ⟨(fixedMakeFrom_tr b N h1).survives, (fixedAssign_tr b h1).survives, (fixedMakeFrom2_tr b M N h2).survives,
    (fixedAssign2_tr b h2).survives⟩

example : (inOrder ([FStmt.assignList 0 [(7 : Int), 8], .copyAssign 1 0, .swap 0 1].map (Fixed.exec ⟨false, true, false⟩))
    (fun _ => [1, 2])).1 = .ok () ∧
    (Fixed.makeList ⟨false, true, false⟩ 3 [(7 : Int), 8, 9] = .ok [7, 8, 9]) ∧
    (Fixed.makeIter ⟨false, true, false⟩ 2 [(7 : Int), 8, 9] 1 3 = .ok [8, 9]) := by decide

example : ∃ a, (inOrder ([FStmt2.assignList 0 [[(7 : Int), 8]], .copyAssign 1 0].map (Fixed2.exec ⟨false, true, false⟩))
    (fun _ => ⟨1, 2, [1, 2]⟩)) = (.ok (), a) ∧ a 1 = ⟨1, 2, [7, 8]⟩ := ⟨_, rfl, by decide⟩

/-! ### Foreign memory and matrix products -/

/-- C04 (views of foreign memory): what is attached with checks is attached without, and refers to the same elements. -/
theorem C04_attach (b : Build) (id : Nat) (m n : Int) :
    (∀ v, attach1D α b id n = .ok v → ∃ v', attach1D α (off b) id n = .ok v' ∧ SameAcc v v') ∧
    (∀ v, attach2D α b id m n = .ok v → ∃ v', attach2D α (off b) id m n = .ok v' ∧ SameAcc v v') :=
  ⟨fun _ h => let ⟨v', h1, h2⟩ := (attach1D_tr b id n).value h; ⟨v', h1, h2.same⟩,
   fun _ h => let ⟨v', h1, h2⟩ := (attach2D_tr b id m n).value h; ⟨v', h1, h2.same⟩⟩

example : ∃ v, attach2D Int ⟨false, true, false⟩ 0 1 3 = .ok v ∧ v.un2 store 0 2 = .ok (.one 0 2) := ⟨_, rfl, by decide⟩

/-- C04 (matrix products). -/
theorem C04_matrix_products [Inhabited α] (dot : List (α × α) → Option α) (A B : Arr2 α) (i j k : Nat) :
    Keeps (fun b => matrixProdNew b dot A B) ∧ KeepsOp (fun b => matrixProd b dot i j k) :=
  ⟨keeps_of_tr fun b => matrixProdNew_tr b dot A B, keepsOp_of_tr fun b => matrixProd_tr b dot i j k⟩

example : matrixProdNew ⟨false, true, false⟩ (fun l => some (l.map fun p => p.1 * p.2).sum) ⟨1, 2, [(3 : Int), 4]⟩
    ⟨2, 1, [5, 6]⟩ = .ok ⟨1, 1, [39]⟩ := by decide

/-! ### Literals, named arguments, formats, files, comparison with lists -/

/-- C04 (literals, named arguments and number formats). -/
theorem C04_literals (x : Int) (p : Bool) (rq : ℚ → ℚ) (s : List Char) (l : List IO.Setting) :
    Transparent (fun b => Literal.si b x) ∧ Transparent (fun b => Literal.sl b x) ∧
    Transparent (fun b => Literal.sq b rq s) ∧ Transparent (fun b => named b p x) ∧
    TransparentOp (fun b => IO.NumFormat.run b l) :=
  ⟨transparent_of_tr fun b => by unfold Literal.si; checks, transparent_of_tr fun b => by unfold Literal.sl; checks,
   transparent_of_tr fun b => by unfold Literal.sq; checks, transparent_of_tr fun b => named_tr b p x,
   transparentOp_of_tr fun b => formatRun_tr b l⟩

example : Literal.si ⟨false, true, false⟩ 7 = .ok 7 ∧ named ⟨false, true, false⟩ true 3 = .ok 3 ∧
    (IO.NumFormat.run ⟨false, true, false⟩ [.scientific false, .precision 3] IO.NumFormat.initial).1 = .ok () := by decide

/-- C04 (quadruple precision, and files). -/
theorem C04_quad_and_files (q : IO.QuadReader) (builtin : Bool) (text : Res (List Char)) (file : Option (List Char)) :
    KeepsOp (fun b => IO.readQuad b q builtin) ∧ KeepsOp (fun b => IO.read1Quad b q) ∧
    KeepsOp (fun b => IO.printFile b text) ∧ Keeps (fun b => IO.openFile b file) :=
  ⟨keepsOp_of_tr fun b => OpTr.refl _, keepsOp_of_tr fun b => read1Quad_tr b q, keepsOp_of_tr fun b => OpTr.refl _,
   keeps_of_tr fun b => Tr.refl _⟩

example : (IO.read1Quad ⟨false, true, false⟩ ⟨fun x => x, fun s => (0, s)⟩ (.ofText "7 -12".toList, [])).1 = .ok () := by
  decide +kernel

/-- C04 (comparison with lists). -/
theorem C04_lists [Inhabited α] {σ : Type} {a a' : Acc σ α} (h : SameAcc a a') (ne : α → α → Bool) (l : List α)
    (L : List (List α)) (s : σ) (b : Build) :
    Survives (Sizes.equalList b ne a l s) (Sizes.equalList (off b) ne a' l s) ∧
    Survives (Sizes.listEqual b ne l a s) (Sizes.listEqual (off b) ne l a' s) ∧
    Survives (Sizes.equalList2 b ne a L s) (Sizes.equalList2 (off b) ne a' L s) ∧
    Survives (Sizes.listEqual2 b ne L a s) (Sizes.listEqual2 (off b) ne L a' s) :=
  ⟨(Tr.bindEq (makeFrom1_tr b (.refl _)) fun t => equal_tr _ ne h.tr (.refl _) s).survives,
   (Tr.bindEq (makeFrom1_tr b (.refl _)) fun t => equal_tr _ ne (.refl _) h.tr s).survives,
   (Tr.bindEq (makeList2_tr b L) fun t => equal_tr _ ne h.tr (.refl _) s).survives,
   (Tr.bindEq (makeList2_tr b L) fun t => equal_tr _ ne (.refl _) h.tr s).survives⟩

example : Sizes.equalList ⟨false, true, false⟩ (fun u v => decide (u ≠ v)) (Sizes.ofArr1 [(1 : Int), 2]) [1, 2] store =
    .ok true := by decide

/-! ### Programs in finite memory -/

/-- C04 (programs on one-dimensional arrays in memory that may run out). -/
theorem C04_memory [Inhabited α] (p : List (Stmt α)) : KeepsOp (fun b => inOrder (p.map (hexec b))) :=
  keepsOp_of_tr fun b => inOrder_tr (hexec_tr b) p

/-- C04 (programs on two-dimensional arrays in memory that may run out). -/
theorem C04_memory2 [Inhabited α] (p : List (Stmt2 α)) : KeepsOp (fun b => inOrder (p.map (hexec2 b))) :=
  keepsOp_of_tr fun b => inOrder_tr (hexec2_tr b) p

/-- C04 (block-structured programs): with local arrays, branches and loops, but without handlers: a program that handles
the exceptions of the checks runs to completion, and behaves differently, when the checks are compiled out
(`C04_handlers`). -/
theorem C04_programs [Inhabited α] (p : Prog α) (h : p.NoHandler) : KeepsOp (fun b => hrun b p) :=
  keepsOp_of_tr fun b => hrun_tr b p h

/-- C04 (handlers): the hypothesis of `C04_programs` is needed.  `try { A0.remove(0, 0); } catch(...) { A0 = 7; }` ends
with different elements in `A0` with and without checks. -/
theorem C04_handlers : ∃ (h : Heap Int) (h1 h2 : Heap Int) (l1 l2 : List Int),
    hrun ⟨false, true, false⟩ (.tryCatch (.stmt (.remove 0 0 0)) (.stmt (.fill 0 7))) h = (.ok (), h1) ∧
    hrun ⟨true, true, false⟩ (.tryCatch (.stmt (.remove 0 0 0)) (.stmt (.fill 0 7))) h = (.ok (), h2) ∧
    (do let o ← Heap.obj 0; Heap.contents o : Op (Heap Int) (List Int)) h1 = (.ok l1, h1) ∧
    (do let o ← Heap.obj 0; Heap.contents o : Op (Heap Int) (List Int)) h2 = (.ok l2, h2) ∧ l1 ≠ l2 :=
  ⟨(hinit ⟨false, true, false⟩ 0 .aligned (.list [(1 : Int), 2]) (Heap.init ⟨fun _ => false, fun _ a => a⟩)).2, _, _,
    [7, 7], [1, 2], rfl, rfl, rfl, rfl, by decide⟩

/-! ### Random numbers -/

section

variable {G : Type} [LinearOrder α]

/-- C04 (numbers of a standard distribution): only the order of the bounds is checked; a violation of the precondition
of the distribution is undefined behaviour in both builds. -/
theorem C04_std_random (z : α) (gen : StdRandom.Gen α G) (lo hi : α) (g : G) (fuel : Nat) :
    Transparent (fun b => StdRandom.rands b gen lo hi g) ∧ Transparent (fun b => StdRandom.randomExpr b gen lo hi) ∧
    Transparent (fun b => StdRandom.randsNot0 b z gen lo hi g fuel) :=
  ⟨transparent_of_tr fun b => by unfold StdRandom.rands; checks,
   transparent_of_tr fun b => by unfold StdRandom.randomExpr; checks,
   transparent_of_tr fun b => by unfold StdRandom.randsNot0; checks⟩

/-- C04 (arrays filled from a standard distribution), any number of arrays. -/
theorem C04_std_random_fill (b : Build) (z : α) (gen : StdRandom.Gen α G) (lo hi : StdRandom.Bound α) (low high : α)
    {p p' : Acc (Store α) Loc} (hp : SameAcc p p') (g : G) (fuel : Nat) {l l' : List (Acc (Store α) Loc × G)}
    (h : List.Forall₂ (fun x y => SameAcc x.1 y.1 ∧ x.2 = y.2) l l') :
    SurvivesOp (StdRandom.random b gen lo hi l) (StdRandom.random (off b) gen lo hi l') ∧
    SurvivesOp (StdRandom.randomNot0 b z gen p low high g fuel) (StdRandom.randomNot0 (off b) z gen p' low high g fuel) :=
  ⟨(random_tr b gen lo hi (h.imp fun _ _ h => ⟨h.1.tr, h.2⟩)).survives,
   (randomNot0_tr b z gen hp.tr low high g fuel).survives⟩

/-- C04 (random expressions): making one, reading one element, and making an array from one or assigning one. -/
theorem C04_random_expressions [Inhabited α] (z : α) (gen : StdRandom.Gen α G) (low high : α)
    (access : G → Res (Option (α × G))) (c lo hi sd m n i j : Int) (l : List α) (a : Arr2 α) (g : G) :
    (Transparent (fun b => RandExpr.semi1 b c lo hi n sd) ∧ Transparent (fun b => RandExpr.semi2 b c lo hi m n sd) ∧
     Transparent (fun b => RandExpr.semiNot01 b c lo hi n sd) ∧ Transparent (fun b => RandExpr.semiNot02 b c lo hi m n sd)) ∧
    (Transparent (fun b => RandExpr.std1 b gen low high n) ∧ Transparent (fun b => RandExpr.std2 b gen low high m n) ∧
     Transparent (fun b => RandExpr.stdNot01 b z gen low high n) ∧
     Transparent (fun b => RandExpr.stdNot02 b z gen low high m n)) ∧
    (Transparent (fun b => RandExpr.elem b access n i g) ∧ Transparent (fun b => RandExpr.elem2 b access m n i j g) ∧
     Transparent (fun b => RandExpr.assign1 b access n l g) ∧ Transparent (fun b => RandExpr.assign2 b access m n a g) ∧
     Keeps (fun b => RandExpr.construct1 b access n g) ∧ Keeps (fun b => RandExpr.construct2 b access m n g)) := by
  refine ⟨⟨?_, ?_, ?_, ?_⟩, ⟨?_, ?_, ?_, ?_⟩, ?_, ?_, ?_, ?_, ?_, ?_⟩
  · exact transparent_of_tr fun b => Tr.bindEq (exprState_tr b _ _ _ _ _) fun p => const1_tr b _ _ (.refl _)
  · exact transparent_of_tr fun b => Tr.bindEq (exprState_tr b _ _ _ _ _) fun p => const2_tr b _ _ _ (.refl _)
  · exact transparent_of_tr fun b => Tr.bindEq (not0State_tr b _ _ _ _ _) fun p => const1_tr b _ _ (.refl _)
  · exact transparent_of_tr fun b => Tr.bindEq (not0State_tr b _ _ _ _ _) fun p => const2_tr b _ _ _ (.refl _)
  · exact transparent_of_tr fun b => Tr.bindEq (randomExpr_tr b _ _ _) fun p => const1_tr b _ _ (.refl _)
  · exact transparent_of_tr fun b => Tr.bindEq (randomExpr_tr b _ _ _) fun p => const2_tr b _ _ _ (.refl _)
  · exact transparent_of_tr fun b => Tr.bindEq (stdNot0_tr b _ _ _ _) fun p => const1_tr b _ _ (.refl _)
  · exact transparent_of_tr fun b => Tr.bindEq (stdNot0_tr b _ _ _ _) fun p => const2_tr b _ _ _ (.refl _)
  · exact transparent_of_tr fun b => by unfold RandExpr.elem; checks
  · exact transparent_of_tr fun b => by unfold RandExpr.elem2; checks
  · exact transparent_of_tr fun b => by unfold RandExpr.assign1; checks
  · exact transparent_of_tr fun b => by unfold RandExpr.assign2; checks
  · exact keeps_of_tr fun b => construct1_rand_tr b access n g
  · exact keeps_of_tr fun b => construct2_rand_tr b access m n g

end

/-- C04 (pseudo-random floating-point numbers). -/
theorem C04_random_floats {sc sc' : Scalar α} (hs : SameScalar sc sc') (b : Build) (clock : Int) (lo hi : α)
    (seed p : Int) (k : Nat) :
    Survives (Semi.draws (Semi.randomFloat b sc lo hi) k p) (Semi.draws (Semi.randomFloat (off b) sc' lo hi) k p) ∧
    Survives (Semi.semiRandsFloat b sc clock lo hi seed) (Semi.semiRandsFloat (off b) sc' clock lo hi seed) :=
  ⟨(draws_tr (randomFloat_tr b hs lo hi) k p).survives, (semiRandsFloat_tr b hs clock lo hi seed).survives⟩

/-! ### Iterators over indexes, backward iterators, functors, sequences -/

/-- C04 (iterators over pairs of indexes). -/
theorem C04_index_iterators (x y : PlaneIt) (r : IndexRange2D) (i j m n : Int) :
    Keeps (fun b => PlaneIt.mk' b i j m n) ∧ Keeps (fun b => PlaneIt.assign b x y) ∧ Keeps (fun b => x.inc b) ∧
    Keeps (fun b => x.postInc b) ∧ Keeps (fun b => PlaneIt.eq b x y) ∧ Keeps (fun b => PlaneIt.ne b x y) ∧
    Keeps (fun b => x.deref b) ∧ Keeps (fun b => IndexRange2D.mk' b m n) ∧ Keeps (fun b => r.begin b) ∧
    Keeps (fun b => r.end b) :=
  ⟨keeps_of_tr fun b => planeMk_tr b i j m n, keeps_of_tr fun b => planeAssign_tr b x y, keeps_of_tr fun b => planeInc_tr b x,
   keeps_of_tr fun b => planePostInc_tr b x, keeps_of_tr fun b => planeEq_tr b x y, keeps_of_tr fun b => planeNe_tr b x y,
   keeps_of_tr fun b => planeDeref_tr b x, keeps_of_tr fun b => rangeMk_tr b m n,
   keeps_of_tr fun b => planeMk_tr b _ _ _ _, keeps_of_tr fun b => planeMk_tr b _ _ _ _⟩

/-- C04 (backward iterators). -/
theorem C04_reverse_iterators (x y : RIt) (n : Int) :
    Keeps (fun b => x.inc b) ∧ Keeps (fun b => x.dec b) ∧ Keeps (fun b => x.plus b n) ∧ Keeps (fun b => x.minus b n) ∧
    Keeps (fun b => RIt.diff b x y) ∧ Keeps (fun b => RIt.ne b x y) ∧ Keeps (fun b => RIt.lt b x y) :=
  ⟨keeps_of_tr fun b => ritInc_tr b x, keeps_of_tr fun b => ritDec_tr b x, keeps_of_tr fun b => ritPlus_tr b x n,
   keeps_of_tr fun b => ritMinus_tr b x n, keeps_of_tr fun b => itDiff_tr b _ _,
   keeps_of_tr fun b => itCompare_tr b (fun p q => decide (p ≠ q)) x.cur y.cur,
   keeps_of_tr fun b => itCompare_tr b (fun p q => decide (p > q)) x.cur y.cur⟩

/-- C04 (the functors of compensated powers, and sequences of indexes). -/
theorem C04_functors {sc sc' : FScalar α} (hs : SameFScalar sc sc') (b : Build) (x : α) (p n first step : Int) :
    Survives (FloatFunctor.binaryPowProdFirst sc b x p) (FloatFunctor.binaryPowProdFirst sc' (off b) x p) ∧
    Survives (FloatFunctor.binaryPowProdSecond sc b x p) (FloatFunctor.binaryPowProdSecond sc' (off b) x p) ∧
    Survives (implicitVectorSequence b n first step) (implicitVectorSequence (off b) n first step) :=
  ⟨(Tr.bindEq (powProds_tr b hs x p) fun _ => .refl _).survives, (Tr.bindEq (powProds_tr b hs x p) fun _ => .refl _).survives,
   (Tr.bindEq (Tr.assertDebug (u := false) _ _) fun _ => .refl _).survives⟩

/-- A generator that counts. -/
def countingGen : StdRandom.Gen Int Int := StdRandom.plain ⟨fun l h => decide (l ≤ h), fun l _ g => (l + g, g + 1)⟩

example : StdRandom.rands ⟨false, true, false⟩ countingGen 2 9 3 = .ok 5 ∧
    (StdRandom.random ⟨false, true, false⟩ countingGen (.val 2) (.val 9)
      [(Acc.oneD (fun _ => 3) fun _ i => .ok (Loc.one 0 i.toNat), 4)] store).1 = .ok () ∧
    RandExpr.std1 ⟨false, true, false⟩ countingGen 2 9 3 = .ok () ∧
    RandExpr.construct1 ⟨false, true, false⟩ (RandExpr.plain (countingGen.random 2 9)) 3 0 = .ok (some ([2, 3, 4], 3)) ∧
    (⟨0, 1, 2, 2⟩ : PlaneIt).inc ⟨false, true, false⟩ = .ok ⟨1, 0, 2, 2⟩ ∧
    (⟨⟨some 0, 2⟩⟩ : RIt).inc ⟨false, true, false⟩ = .ok ⟨⟨some 0, 1⟩⟩ ∧
    implicitVectorSequence ⟨false, true, false⟩ 3 1 2 = .ok [1, 3, 5] := by decide

end Spp.Props
