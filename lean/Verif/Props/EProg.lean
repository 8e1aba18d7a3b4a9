import Verif.Lemmas.EProg
import Verif.Props.Expr

/-
Programs that mix expressions, views, statements and changes of size (C130).  `Spec.Runs` says what a program does in
terms of lists and matrices.
-/

set_option linter.unusedSectionVars false

namespace Spp.Props
open Spec

variable {α : Type} [Inhabited α]

/-- C130: in a checked build every program does what the rules for lists and matrices say: it ends in the same way with
the same contents of all arrays. Invalid statements are rejected and leave the arrays as they are. -/
theorem C130_program {b : Build} (hb : b.Checked) (p : EProg α) (s : Store α)
    (hF : ∀ c u, ComesTo (some b.kind) p s c u → c.Fits u) :
    Runs (some b.kind) p s (eprogRun b p s).1 (eprogRun b p s).2 := by
  have seqStep : ∀ (p q : EProg α), (∀ s, (∀ c u, ComesTo (some b.kind) p s c u → c.Fits u) →
      Runs (some b.kind) p s (eprogRun b p s).1 (eprogRun b p s).2) →
      (∀ s, (∀ c u, ComesTo (some b.kind) q s c u → c.Fits u) →
      Runs (some b.kind) q s (eprogRun b q s).1 (eprogRun b q s).2) →
      ∀ s, (∀ c u, ComesTo (some b.kind) (.seq p q) s c u → c.Fits u) →
      Runs (some b.kind) (.seq p q) s (eprogRun b (.seq p q) s).1 (eprogRun b (.seq p q) s).2 := by
    intro p q hp hq s hF
    have h1 := hp s fun c u h => hF c u (.seqLeft h)
    rw [seq_run]
    rcases h : eprogRun b p s with ⟨_ | k | _, s'⟩
    · rw [h] at h1
      exact .seq h1 (hq s' fun c u h => hF c u (.seqRight h1 h))
    · rw [h] at h1
      exact .seqStop h1 (by simp)
    · rw [h] at h1
      exact .seqStop h1 (by simp)
  induction p generalizing s with
  | skip => exact .skip
  | throw => exact .throw
  | stmt c => exact .stmt (does_of_run hb (hF c s .stmt))
  | seq p q ihp ihq => exact seqStep p q ihp ihq s hF
  | tryCatch p q ihp ihq =>
    have h1 := ihp s fun c u h => hF c u (.tryLeft h)
    rcases h : eprogRun b p s with ⟨_ | (_ | _) | _, s'⟩
    · rw [h] at h1
      have e : eprogRun b (.tryCatch p q) s = (.ok (), s') := by simp only [eprogRun, h]
      rw [e]
      exact .tryPass h1 (by simp)
    · rw [h] at h1
      have e : eprogRun b (.tryCatch p q) s = eprogRun b q s' := by simp only [eprogRun, h]
      rw [e]
      exact .tryCaught h1 (ihq s' fun c u h => hF c u (.tryRight h1 h))
    · rw [h] at h1
      have e : eprogRun b (.tryCatch p q) s = (.trap .abort, s') := by simp only [eprogRun, h]
      rw [e]
      exact .tryPass h1 (by simp)
    · rw [h] at h1
      have e : eprogRun b (.tryCatch p q) s = (.ub, s') := by simp only [eprogRun, h]
      rw [e]
      exact .tryPass h1 (by simp)
  | read f ih => exact .read (ih s s fun c u h => hF c u (.read h))
  | loop count p ih =>
    have key : ∀ n s, (∀ c u, ComesTo (some b.kind) (p.times n) s c u → c.Fits u) →
        Runs (some b.kind) (p.times n) s (eprogRun b (p.times n) s).1 (eprogRun b (p.times n) s).2 := by
      intro n
      induction n with
      | zero => intro s _; exact .skip
      | succ n ihn => exact seqStep (p.times n) p ihn ih
    rw [loop_run]
    exact .loop (key _ s fun c u h => hF c u (.loop h))

/-- C130: a program none of whose statements is invalid does what the rules say in every build, with or without
checks. -/
theorem C130_valid_program (b : Build) {p : EProg α} {s s' : Store α} {r : Res Unit} (h : Runs none p s r s')
    (hF : ∀ c u, ComesTo none p s c u → c.Fits u) : eprogRun b p s = (r, s') := by
  induction h with
  | skip => rfl
  | throw => rfl
  | stmt h => exact run_of_does b (hF _ _ .stmt) h
  | seq h1 h2 ih1 ih2 =>
    rw [seq_run, ih1 fun c u h => hF c u (.seqLeft h)]
    exact ih2 fun c u h => hF c u (.seqRight h1 h)
  | seqStop h1 hr ih =>
    rw [seq_run, ih fun c u h => hF c u (.seqLeft h)]
    rename_i r
    rcases r with _ | _ | _
    · exact absurd rfl hr
    · rfl
    · rfl
  | tryCaught h1 h2 ih1 ih2 =>
    simp only [eprogRun, ih1 fun c u h => hF c u (.tryLeft h)]
    exact ih2 fun c u h => hF c u (.tryRight h1 h)
  | tryPass h1 hr ih =>
    rename_i r
    simp only [eprogRun, ih fun c u h => hF c u (.tryLeft h)]
    rcases r with _ | (_ | _) | _
    · rfl
    · exact absurd rfl hr
    · rfl
    · rfl
  | read h ih => exact ih fun c u h => hF c u (.read h)
  | loop h ih =>
    rw [loop_run]
    exact ih fun c u h => hF c u (.loop h)

/-- What the rules say is never undefined behaviour. -/
theorem runs_no_ub {b : Build} (hb : b.Checked) {p : EProg α} {s s' : Store α} {r : Res Unit}
    (h : Runs (some b.kind) p s r s') (hF : ∀ c u, ComesTo (some b.kind) p s c u → c.Fits u) : r ≠ .ub := by
  induction h with
  | skip => simp
  | throw => simp
  | stmt h =>
    have hc := hF _ _ .stmt
    cases h with
    | eval hV hp =>
      rw [← eval_valid b hc.1.roomy hc.2.1 hV hp]
      rcases C84_statement hb hc.1.roomy hc.2.1 hc.2.2 with ⟨_, h, _⟩ | ⟨h, _⟩
      · exact h
      · exact absurd hV h
    | elem1 hV hi hc' =>
      obtain ⟨c, e, hv, _⟩ := elem1_cell hc.1.roomy hc.2.1 hV hi
      rw [hc'] at e
      cases e
      exact elem_no_ub hv hc.2.2.2
    | elem2 hV hi hj hc' =>
      obtain ⟨c, e, hv, _⟩ := elem2_cell hc.1.roomy hc.2.1 hV hi hj
      rw [hc'] at e
      cases e
      exact elem_no_ub hv hc.2.2.2
    | _ => simp
  | seq h1 h2 ih1 ih2 => exact ih2 fun c u h => hF c u (.seqRight h1 h)
  | seqStop h1 hr ih => exact ih fun c u h => hF c u (.seqLeft h)
  | tryCaught h1 h2 ih1 ih2 => exact ih2 fun c u h => hF c u (.tryRight h1 h)
  | tryPass h1 hr ih => exact ih fun c u h => hF c u (.tryLeft h)
  | read h ih => exact ih fun c u h => hF c u (.read h)
  | loop h ih => exact ih fun c u h => hF c u (.loop h)

/-- C130: no program has undefined behaviour in a checked build. -/
theorem C130_no_ub {b : Build} (hb : b.Checked) (p : EProg α) (s : Store α)
    (hF : ∀ c u, ComesTo (some b.kind) p s c u → c.Fits u) : (eprogRun b p s).1 ≠ .ub :=
  runs_no_ub hb (C130_program hb p s hF) hF

/-- A relation between the states before and after, which every statement of the program respects, holds before and
after the program. -/
theorem runs_invariant {K : Option Kind} {R : Store α → Store α → Prop} (hr : ∀ s, R s s)
    (ht : ∀ {s u v}, R s u → R u v → R s v) {p : EProg α} {s s' : Store α} {r : Res Unit} (h : Runs K p s r s')
    (hc : ∀ c u, ComesTo K p s c u → ∀ r' u', Does K c u r' u' → R u u') : R s s' := by
  induction h with
  | skip => exact hr _
  | throw => exact hr _
  | stmt h => exact hc _ _ .stmt _ _ h
  | seq h1 h2 ih1 ih2 =>
    exact ht (ih1 fun c u h => hc c u (.seqLeft h)) (ih2 fun c u h => hc c u (.seqRight h1 h))
  | seqStop h1 hr ih => exact ih fun c u h => hc c u (.seqLeft h)
  | tryCaught h1 h2 ih1 ih2 =>
    exact ht (ih1 fun c u h => hc c u (.tryLeft h)) (ih2 fun c u h => hc c u (.tryRight h1 h))
  | tryPass h1 hr ih => exact ih fun c u h => hc c u (.tryLeft h)
  | read h ih => exact ih fun c u h => hc c u (.read h)
  | loop h ih => exact ih fun c u h => hc c u (.loop h)

/-- C130: an array which no statement of the program changes has the same size and contents at the end, however the
program ends. -/
theorem C130_frame {b : Build} (hb : b.Checked) (p : EProg α) (s : Store α)
    (hF : ∀ c u, ComesTo (some b.kind) p s c u → c.Fits u) {a : Dim × Nat}
    (ha : ∀ c u, ComesTo (some b.kind) p s c u → ¬ c.Changes a) : SameArray s (eprogRun b p s).2 a :=
  runs_invariant (R := fun s s' => SameArray s s' a) (fun s => SameArray.refl s a) SameArray.trans
    (C130_program hb p s hF) fun c u h _ _ hd => does_frame (hF c u h) hd (ha c u h)

/-- C130: at the end all two-dimensional arrays are rectangular: the number of elements is the product of the
dimensions, and the dimensions are both zero or both positive. -/
theorem C130_shape {b : Build} (hb : b.Checked) (p : EProg α) (s : Store α)
    (hF : ∀ c u, ComesTo (some b.kind) p s c u → c.Fits u) (hs : ∀ i, Shape (s.a2 i)) (i : Nat) :
    Shape ((eprogRun b p s).2.a2 i) :=
  runs_invariant (R := fun s s' => (∀ i, Shape (s.a2 i)) → ∀ i, Shape (s'.a2 i)) (fun _ h => h)
    (fun h1 h2 h => h2 (h1 h)) (C130_program hb p s hF) (fun c u h _ _ hd => does_shape (hF c u h) hd) hs i

/-! ### An instance

    try {
       for(int k = 0; k < 2; ++k) A.insert_back(A(reverse));
       A(even) = 0;
       A.insert(100, A);
    } catch(...) { A.remove(0, 1); }
-/

namespace EProgExample

/-- The only array with elements is array 0. -/
def only (l : List Int) : Store Int := ⟨upd (fun _ => []) 0 l, fun _ => ⟨0, 0, []⟩⟩

def mirror : Tm Int .one := .view (.slice .reverse) (.lv (.arr1 0))
def grow : EStmt Int := .use1 0 .insertBack mirror
def zero : EStmt Int := .eval (.fill (.view (.slice .even) (.arr1 0)) 0)
def wrong : EStmt Int := .use1 0 (.insert 100) (.lv (.arr1 0))
def shorten : EStmt Int := .list (.remove 0 0 1)

def program : EProg Int :=
  .tryCatch (.seq (.loop (fun _ => 2) (.stmt grow)) (.seq (.stmt zero) (.stmt wrong))) (.stmt shorten)

theorem only_moderate {l : List Int} (h : (l.length : Int) < 2 ^ 61) : (only l).Moderate := by
  refine ⟨fun i => ?_, fun i => ⟨⟨Int.le_refl _, Int.le_refl _, rfl, Iff.rfl⟩, show (0 : Int) < 2 ^ 61 by decide⟩⟩
  by_cases hi : i = 0 <;> simp [only, upd, hi] <;> omega

theorem only_upd (l l' : List Int) : ({ only l with a1 := upd (only l).a1 0 l' } : Store Int) = only l' := by
  simp only [only]
  congr 1
  funext i
  by_cases hi : i = 0 <;> simp [upd, hi]

theorem ok_inj {xs ys : List Int} (h : xs.map (Res.ok : Int → Res Int) = ys.map Res.ok) : xs = ys :=
  List.map_inj_right (fun _ _ h => Res.ok.inj h) |>.1 h

theorem grows {K : Option Kind} {l l' : List Int} (hv : mirror.Valid (only l))
    (hm : mirror.meaning (only l) = l'.map Res.ok) {r : Res Unit} {s : Store Int}
    (h : Does K grow (only l) r s) : r = .ok () ∧ s = only (l ++ l') := by
  unfold grow at h
  cases h with
  | use1Rejected _ _ hu => cases hu
  | use1Invalid h => exact absurd hv h
  | use1 _ hx hu =>
    have e := ok_inj (hm.symm.trans hx)
    cases e
    cases hu
    exact ⟨rfl, only_upd l _⟩

theorem grow_fits {l l' : List Int} (h : (l.length : Int) < 2 ^ 61) (hl : (l'.length : Int) < 2 ^ 61)
    (hm : mirror.meaning (only l) = l'.map Res.ok) : grow.Fits (only l) := by
  refine ⟨only_moderate h, ⟨trivial, trivial, fun _ => ?_⟩, trivial, fun _ r hr => ?_⟩
  · show (List.length (mirror.meaning (only l)) : Int) < _
    rw [hm, List.length_map]; omega
  · rw [show (mirror.meaning (only l)).flat = l'.map Res.ok from hm, List.mem_map] at hr
    obtain ⟨x, _, rfl⟩ := hr
    exact ⟨x, rfl⟩

/-- All that can be reached in the loop, and the state after it. -/
theorem loop_facts {K : Option Kind} :
    (∀ c u, ComesTo K (.loop (fun _ => 2) (.stmt grow)) (only [1, 2]) c u → c.Fits u) ∧
    ∀ r u, Runs K (.loop (fun _ => 2) (.stmt grow)) (only [1, 2]) r u →
      r = .ok () ∧ u = only [1, 2, 2, 1, 1, 2, 2, 1] := by
  have m1 : mirror.meaning (only [1, 2]) = [2, 1].map Res.ok := rfl
  have m2 : mirror.meaning (only [1, 2, 2, 1]) = [1, 2, 2, 1].map Res.ok := rfl
  have h1 : ∀ r u, Runs K (.seq .skip (.stmt grow)) (only [1, 2]) r u → r = .ok () ∧ u = only [1, 2, 2, 1] := by
    intro r u h
    cases h with
    | seq a b => cases a; cases b with | stmt b => exact grows (by decide) m1 b
    | seqStop a b => cases a; exact absurd rfl b
  constructor
  · intro c u h
    cases h with
    | loop h =>
      cases h with
      | seqLeft h =>
        cases h with
        | seqLeft h => cases h
        | seqRight a b => cases a; cases b; exact grow_fits (by decide) (by decide) m1
      | seqRight a b => cases (h1 _ _ a).2; cases b; exact grow_fits (by decide) (by decide) m2
  · intro r u h
    cases h with
    | loop h =>
      cases h with
      | seq a b => cases (h1 _ _ a).2; cases b with | stmt b => exact grows (by decide) m2 b
      | seqStop a b => exact absurd (h1 _ _ a).1 b

/-- The places which `A(even)` selects in eight elements. -/
theorem even_places : Places (.view (.slice .even) (.arr1 0)) (only [1, 2, 2, 1, 1, 2, 2, 1])
    [.one 0 0, .one 0 2, .one 0 4, .one 0 6] := ⟨rfl, by decide⟩

theorem zero_fits : zero.Fits (only [1, 2, 2, 1, 1, 2, 2, 1]) :=
  ⟨only_moderate (by decide), ⟨trivial, trivial, fun _ => show (_ : Int) < _ by decide⟩, trivial⟩

theorem zeroed {K : Option Kind} {r : Res Unit} {u : Store Int}
    (h : Runs K (.stmt zero) (only [1, 2, 2, 1, 1, 2, 2, 1]) r u) : r = .ok () ∧ u = only [0, 2, 0, 1, 0, 2, 0, 1] := by
  cases h with
  | stmt h =>
    have hf := fun a ha => does_frame (a := a) zero_fits h ha
    unfold zero at h
    cases h with
    | eval hV hp =>
      rename_i cs
      cases places_unique hp even_places
      refine ⟨rfl, ?_⟩
      have e : (stepwise (AStmt.value (.fill (.view (.slice .even) (.arr1 0)) 0))
          [.one 0 0, .one 0 2, .one 0 4, .one 0 6] 0 (only [1, 2, 2, 1, 1, 2, 2, 1])).2.a1 0 =
          [0, 2, 0, 1, 0, 2, 0, 1] := by decide
      generalize (stepwise _ _ _ _).2 = v at *
      obtain ⟨v1, v2⟩ := v
      have e1 : v1 = (only [0, 2, 0, 1, 0, 2, 0, 1]).a1 := by
        funext i
        by_cases hi : i = 0
        · rw [hi]; exact e
        · refine Eq.trans (hf (.one, i) fun h => hi (Prod.mk.inj h).2.symm) ?_
          simp [only, upd, hi]
      have e2 : v2 = (only [0, 2, 0, 1, 0, 2, 0, 1]).a2 := by
        funext i
        exact hf (.two, i) fun h => nomatch (Prod.mk.inj h).1
      rw [e1, e2]
    | evalRejected hV => exact absurd (show Lv.Valid _ _ by decide) hV

theorem wrong_fits : wrong.Fits (only [0, 2, 0, 1, 0, 2, 0, 1]) := by
  refine ⟨only_moderate (by decide), trivial, trivial, fun _ r hr => ?_⟩
  rw [show (Tm.meaning (only [0, 2, 0, 1, 0, 2, 0, 1]) (.lv (.arr1 0))).flat =
    [0, 2, 0, 1, 0, 2, 0, 1].map Res.ok from rfl, List.mem_map] at hr
  obtain ⟨x, _, rfl⟩ := hr
  exact ⟨x, rfl⟩

theorem wrong_rejected {K : Option Kind} {r : Res Unit} {u : Store Int}
    (h : Runs K (.stmt wrong) (only [0, 2, 0, 1, 0, 2, 0, 1]) r u) :
    (∃ k, K = some k ∧ r = .trap k) ∧ u = only [0, 2, 0, 1, 0, 2, 0, 1] := by
  cases h with
  | stmt h =>
    unfold wrong at h
    cases h with
    | use1 hV hx hu =>
      revert hu
      simp [Use1.meaning, only, upd]
    | use1Rejected _ _ _ hk => exact ⟨⟨_, hk, rfl⟩, rfl⟩
    | use1Invalid h => exact absurd trivial h

theorem program_fits {K : Option Kind} : ∀ c u, ComesTo K program (only [1, 2]) c u → c.Fits u := by
  intro c u h
  unfold program at h
  cases h with
  | tryLeft h =>
    cases h with
    | seqLeft h => exact loop_facts.1 c u h
    | seqRight a h =>
      cases (loop_facts.2 _ _ a).2
      cases h with
      | seqLeft h => cases h; exact zero_fits
      | seqRight a h => cases (zeroed a).2; cases h; exact wrong_fits
  | tryRight a h =>
    cases h
    have : u.Moderate := by
      cases a with
      | seq a h =>
        cases (loop_facts.2 _ _ a).2
        cases h with
        | seq a h => cases (zeroed a).2; cases (wrong_rejected h).2; exact only_moderate (by decide)
        | seqStop a h => cases (zeroed a).1
      | seqStop a h => cases (loop_facts.2 _ _ a).1
    exact ⟨this, ⟨by constructor <;> decide, by constructor <;> decide⟩, fun _ _ h => by cases h⟩

/-- With exceptions, the wrong `insert` is rejected and the handler removes the first element. -/
theorem program_result {r : Res Unit} {u : Store Int} (h : Runs (some .exception) program (only [1, 2]) r u) :
    r = .ok () ∧ u = only [2, 0, 1, 0, 2, 0, 1] := by
  have hb : ∀ {r u}, Runs (some .exception)
      (.seq (.loop (fun _ => 2) (.stmt grow)) (.seq (.stmt zero) (.stmt wrong))) (only [1, 2]) r u →
      r = .trap .exception ∧ u = only [0, 2, 0, 1, 0, 2, 0, 1] := by
    intro r u a
    cases a with
    | seq a h =>
      cases (loop_facts.2 _ _ a).2
      cases h with
      | seq a h =>
        cases (zeroed a).2
        obtain ⟨⟨k, e, hr⟩, hu⟩ := wrong_rejected h
        cases e
        exact ⟨hr, hu⟩
      | seqStop a h => exact absurd (zeroed a).1 h
    | seqStop a h => exact absurd (loop_facts.2 _ _ a).1 h
  unfold program at h
  cases h with
  | tryPass a h => exact absurd (hb a).1 h
  | tryCaught a h =>
    cases (hb a).2
    cases h with
    | stmt h =>
      unfold shorten at h
      cases h with
      | list h =>
        cases h
        exact ⟨rfl, only_upd [0, 2, 0, 1, 0, 2, 0, 1] _⟩
      | listRejected h => cases h

example : eprogRun ⟨false, true, false⟩ program (only [1, 2]) = (.ok (), only [2, 0, 1, 0, 2, 0, 1]) := by
  obtain ⟨h1, h2⟩ := program_result (C130_program (b := ⟨false, true, false⟩) (by decide) program _ program_fits)
  exact Prod.ext h1 h2

example : (eprogRun ⟨false, true, false⟩ program (only [1, 2])).1 ≠ .ub :=
  C130_no_ub (by decide) _ _ program_fits

example (i : Nat) : Shape ((eprogRun ⟨false, true, false⟩ program (only [1, 2])).2.a2 i) :=
  C130_shape (by decide) _ _ program_fits (fun _ => ⟨Int.le_refl _, Int.le_refl _, rfl, Iff.rfl⟩) i

example : (eprogRun ⟨false, true, false⟩ (.loop (fun _ => 2) (.stmt grow)) (only [1, 2])).2.a1 5 = [] :=
  C130_frame (a := (.one, 5)) (by decide) _ _ loop_facts.1 fun c u h => by
    have : c = grow := by
      cases h with
      | loop h =>
        cases h with
        | seqLeft h =>
          cases h with
          | seqLeft h => cases h
          | seqRight a h => cases h; rfl
        | seqRight a h => cases h; rfl
    rw [this]
    intro h
    exact absurd (Prod.mk.inj h).2 (by decide)

/-- The first loop is valid: the same happens without checks. -/
example : eprogRun ⟨true, true, false⟩ (.loop (fun _ => 2) (.stmt grow)) (only [1, 2]) =
    (.ok (), only [1, 2, 2, 1, 1, 2, 2, 1]) := by
  have d1 : Does none grow (only [1, 2]) (.ok ()) (only [1, 2, 2, 1]) :=
    only_upd [1, 2] [1, 2, 2, 1] ▸ .use1 (xs := [2, 1]) (show Tm.Valid _ _ by decide) rfl rfl
  have d2 : Does none grow (only [1, 2, 2, 1]) (.ok ()) (only [1, 2, 2, 1, 1, 2, 2, 1]) :=
    only_upd [1, 2, 2, 1] [1, 2, 2, 1, 1, 2, 2, 1] ▸ .use1 (xs := [1, 2, 2, 1]) (show Tm.Valid _ _ by decide) rfl rfl
  exact C130_valid_program _ (.loop (.seq (.seq .skip (.stmt d1)) (.stmt d2))) loop_facts.1

/-- A two-dimensional array with the rows (1, 2) and (3, 4). -/
def square : Store Int := ⟨fun _ => [], fun _ => ⟨2, 2, [1, 2, 3, 4]⟩⟩

/-- `A.insert_rows(1, transpose(A))`. -/
def between : EStmt Int := .use2 0 (.insertRows 1) (.transpose (.lv (.arr2 0)))

theorem between_fits : between.Fits square := by
  refine ⟨⟨fun _ => show (0 : Int) < 2 ^ 61 by decide, fun _ =>
      ⟨⟨show (0 : Int) ≤ 2 by decide, show (0 : Int) ≤ 2 by decide, rfl,
        show (2 : Int) = 0 ↔ (2 : Int) = 0 from Iff.rfl⟩, show (4 : Int) < 2 ^ 61 by decide⟩⟩, trivial, trivial, fun _ r hr => ?_⟩
  rw [show (Tm.meaning square (.transpose (.lv (.arr2 0)))).flat = [1, 3, 2, 4].map Res.ok from rfl, List.mem_map] at hr
  obtain ⟨x, _, rfl⟩ := hr
  exact ⟨x, rfl⟩

example : Runs (some .exception) (.stmt between) square (.ok ())
    (eprogRun ⟨false, true, false⟩ (.stmt between) square).2 ∧
    (eprogRun ⟨false, true, false⟩ (.stmt between) square).2.a2 0 = ⟨4, 2, [1, 2, 1, 3, 2, 4, 3, 4]⟩ := by
  refine ⟨?_, by decide⟩
  have h := C130_program (b := ⟨false, true, false⟩) (by decide) (.stmt between) square
    fun c u h => by cases h; exact between_fits
  rwa [show (eprogRun ⟨false, true, false⟩ (.stmt between) square).1 = .ok () by decide] at h

/-- `A(reverse)[last - 1] += 10`. -/
def bump : EProg Int := .stmt (.elem1 (.view (.slice .reverse) (.arr1 0)) (.fromLast 1) fun x => .ok (x + 10))

/-- `A.block(0, 1, 1, 1)(2, 0) = 7`: the block has two rows. -/
def outside : EProg Int :=
  .stmt (.elem2 (.view (.block (.at 0) (.at 1) (.at 1) (.at 1)) (.arr2 0)) (.at 2) (.at 0) fun _ => .ok 7)

example : Runs (some .exception) bump (only [1, 2, 3]) (.ok ()) (eprogRun ⟨false, true, false⟩ bump (only [1, 2, 3])).2 ∧
    (eprogRun ⟨false, true, false⟩ bump (only [1, 2, 3])).2.a1 0 = [1, 12, 3] := by
  refine ⟨?_, by decide⟩
  have h := C130_program (b := ⟨false, true, false⟩) (by decide) bump (only [1, 2, 3]) fun c u h => by
    cases h
    exact ⟨only_moderate (by decide), ⟨trivial, trivial, fun _ => show (_ : Int) < _ by decide⟩,
      show Modest 1 by decide, fun _ h => (nomatch h)⟩
  rwa [show (eprogRun ⟨false, true, false⟩ bump (only [1, 2, 3])).1 = .ok () by decide] at h

example : Runs (some .exception) outside square (.trap .exception) (eprogRun ⟨false, true, false⟩ outside square).2 ∧
    (eprogRun ⟨false, true, false⟩ outside square).2.a2 0 = ⟨2, 2, [1, 2, 3, 4]⟩ := by
  refine ⟨?_, by decide⟩
  have h := C130_program (b := ⟨false, true, false⟩) (by decide) outside square fun c u h => by
    cases h
    exact ⟨between_fits.1, ⟨trivial, ⟨show Modest 0 by decide, show Modest 1 by decide, show Modest 1 by decide,
      show Modest 1 by decide⟩, fun _ => ⟨by decide, by decide⟩⟩, ⟨show Modest 2 by decide, show Modest 0 by decide⟩,
      fun _ h => (nomatch h)⟩
  rwa [show (eprogRun ⟨false, true, false⟩ outside square).1 = .trap .exception by decide] at h

/-- `A.insert_row(1, A.row(0) + A.diag())`. -/
def mixed : EProg Int := .stmt (.useRow 0 (.insertRow 1)
  (.binary (fun x y => .ok (x + y)) (.lv (.view (.row (.at 0)) (.arr2 0))) (.lv (.view .diag (.arr2 0)))))

example : Runs (some .exception) mixed square (.ok ()) (eprogRun ⟨false, true, false⟩ mixed square).2 ∧
    (eprogRun ⟨false, true, false⟩ mixed square).2.a2 0 = ⟨3, 2, [1, 2, 2, 6, 3, 4]⟩ := by
  refine ⟨?_, by decide⟩
  have h := C130_program (b := ⟨false, true, false⟩) (by decide) mixed square fun c u h => by
    cases h
    refine ⟨between_fits.1, ⟨⟨trivial, show Modest 0 by decide, fun _ => show (_ : Int) < _ by decide⟩,
      ⟨trivial, trivial, fun _ => show (_ : Int) < _ by decide⟩⟩, ⟨fun _ _ h => (nomatch h), trivial, trivial⟩,
      fun _ r hr => ?_, fun h => absurd h (by decide)⟩
    rw [show (Tm.meaning square (.binary (fun x y : Int => .ok (x + y)) (.lv (.view (.row (.at 0)) (.arr2 0)))
      (.lv (.view .diag (.arr2 0))))).flat = [2, 6].map Res.ok from rfl, List.mem_map] at hr
    obtain ⟨x, _, rfl⟩ := hr
    exact ⟨x, rfl⟩
  rwa [show (eprogRun ⟨false, true, false⟩ mixed square).1 = .ok () by decide] at h

end EProgExample

/-- `merge(row_reduce(A, sum), x)`. -/
def sumsAndX : Tm Int .one :=
  .merge (.reduce true (fun l => l.foldl (fun r x => do let r ← r; let x ← x; pure (r + x)) (.ok 0)) (.lv (.arr2 0)))
    (.lv (.arr1 0))

/-- C130: what is inserted into an empty two-dimensional array as its first row must not be computed from this array,
because `insert_row` changes the size of the array before it reads the row. For an empty `A` and `x` = 5, 6, 7 the
expression `merge(row_reduce(A, sum), x)` is 5, 6, 7, but `A.insert_row(0, merge(row_reduce(A, sum), x))` makes the row
0, 5, 6, in every build. -/
theorem C130_own_first_row (b : Build) :
    sumsAndX.meaning (EProgExample.only [5, 6, 7]) = [5, 6, 7].map Res.ok ∧
    (eprogRun b (.stmt (.useRow 0 (.insertRow 0) sumsAndX)) (EProgExample.only [5, 6, 7])).1 = .ok () ∧
    (eprogRun b (.stmt (.useRow 0 (.insertRow 0) sumsAndX)) (EProgExample.only [5, 6, 7])).2.a2 0 =
      ⟨1, 3, [0, 5, 6]⟩ := by
  obtain ⟨x, y, z⟩ := b
  cases x <;> cases y <;> cases z <;> exact ⟨rfl, by decide, by decide⟩

end Spp.Props
