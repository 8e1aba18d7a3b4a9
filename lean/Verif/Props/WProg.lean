import Verif.Lemmas.WProg
import Verif.Lemmas.NoUb
import Verif.Props.Checks

/-
Programs with numbers and conditions computed by the functions of the library and with `while` loops (C132).
`Spec.WRuns` says what a program does in terms of lists and matrices.
-/

set_option linter.unusedSectionVars false

namespace Spp.Props
open Spec

variable {α : Type} [Inhabited α]

/-- C132: in a checked build every program that ends does what the rules say: the numbers and conditions are those of
the lists and matrices, and it ends in the same way with the same contents of all arrays. -/
theorem C132_program {b : Build} (hb : b.Checked) (n : Nat) (w : WProg α) (s s' : Store α) (r : Res Unit)
    (h : wprogRun b n w s = some (r, s')) (hF : ∀ x u, Meets (some b.kind) w s x u → x.Fits u) :
    WRuns (some b.kind) w s r s' := by
  induction n generalizing w s s' r with
  | zero => cases h
  | succ n ih =>
    cases w with
    | prog p =>
      have hp := C130_program hb p s fun c u h => hF (.stmt c) u (.prog h)
      simp only [wprogRun, Option.some.injEq] at h
      rw [h] at hp
      exact .prog hp
    | ask q k =>
      have hq := query_tells hb (hF (.query q) s .ask)
      simp only [wprogRun] at h
      cases e : queryRun b s q with
      | ok v =>
        simp only [e] at h hq
        exact .ask hq (ih _ _ _ _ h fun x u h => hF x u (.askThen hq h))
      | trap k =>
        simp only [e] at h hq
        cases h
        exact .askFails hq (by simp)
      | ub =>
        simp only [e] at h hq
        cases h
        exact .askFails hq (by simp)
    | cond c p q =>
      have hc := test_decides hb (hF (.test c) s .cond)
      simp only [wprogRun] at h
      rcases e : testRun b s c with (_ | _) | _ | _
      · simp only [e] at h hc
        exact .condFalse hc (ih _ _ _ _ h fun x u h => hF x u (.condFalse hc h))
      · simp only [e] at h hc
        exact .condTrue hc (ih _ _ _ _ h fun x u h => hF x u (.condTrue hc h))
      · simp only [e] at h hc
        cases h
        exact .condFails hc (by simp)
      · simp only [e] at h hc
        cases h
        exact .condFails hc (by simp)
    | whileDo c p =>
      have hc := test_decides hb (hF (.test c) s .whileDo)
      simp only [wprogRun] at h
      rcases e : testRun b s c with (_ | _) | _ | _
      · simp only [e] at h hc
        cases h
        exact .whileFalse hc
      · simp only [e] at h hc
        have hp := fun r s1 h => ih p s s1 r h fun x u h => hF x u (.whileBody hc h)
        rcases ep : wprogRun b n p s with _ | ⟨_ | _ | _, s1⟩
        · simp only [ep] at h; cases h
        · simp only [ep] at h
          have h1 := hp _ _ ep
          exact .whileTrue hc h1 (ih _ _ _ _ h fun x u h => hF x u (.whileAgain hc h1 h))
        · simp only [ep] at h
          cases h
          exact .whileStop hc (hp _ _ ep) (by simp)
        · simp only [ep] at h
          cases h
          exact .whileStop hc (hp _ _ ep) (by simp)
      · simp only [e] at h hc
        cases h
        exact .whileFails hc (by simp)
      · simp only [e] at h hc
        cases h
        exact .whileFails hc (by simp)
    | seq p q =>
      simp only [wprogRun] at h
      have hp := fun r s1 h => ih p s s1 r h fun x u h => hF x u (.seqLeft h)
      rcases ep : wprogRun b n p s with _ | ⟨_ | _ | _, s1⟩
      · simp only [ep] at h; cases h
      · simp only [ep] at h
        have h1 := hp _ _ ep
        exact .seq h1 (ih _ _ _ _ h fun x u h => hF x u (.seqRight h1 h))
      · simp only [ep] at h
        cases h
        exact .seqStop (hp _ _ ep) (by simp)
      · simp only [ep] at h
        cases h
        exact .seqStop (hp _ _ ep) (by simp)
    | tryCatch p q =>
      simp only [wprogRun] at h
      have hp := fun r s1 h => ih p s s1 r h fun x u h => hF x u (.tryLeft h)
      rcases ep : wprogRun b n p s with _ | ⟨_ | (_ | _) | _, s1⟩
      · simp only [ep] at h; cases h
      · simp only [ep] at h
        cases h
        exact .tryPass (hp _ _ ep) (by simp)
      · simp only [ep] at h
        have h1 := hp _ _ ep
        exact .tryCaught h1 (ih _ _ _ _ h fun x u h => hF x u (.tryRight h1 h))
      · simp only [ep] at h
        cases h
        exact .tryPass (hp _ _ ep) (by simp)
      · simp only [ep] at h
        cases h
        exact .tryPass (hp _ _ ep) (by simp)

/-- C132: a program which ends by the rules without an invalid request ends in every build, with or without checks, in
the same way and with the same contents. -/
theorem C132_valid_program (b : Build) {w : WProg α} {s s' : Store α} {r : Res Unit} (h : WRuns none w s r s')
    (hF : ∀ x u, Meets none w s x u → x.Fits u) : ∃ n0, ∀ n, n0 ≤ n → wprogRun b n w s = some (r, s') := by
  suffices ∃ n, wprogRun b n w s = some (r, s') from this.imp fun n0 h n hn => wprogRun_mono b hn h
  induction h with
  | prog h => exact ⟨1, congrArg some (C130_valid_program b h fun c u h => hF (.stmt c) u (.prog h))⟩
  | ask h1 h2 ih =>
    obtain ⟨n, e⟩ := ih fun x u h => hF x u (.askThen h1 h)
    exact ⟨n + 1, by simp only [wprogRun, query_run b (hF (.query _) _ .ask) h1, e]⟩
  | askFails h1 hv =>
    refine ⟨1, ?_⟩
    rename_i v
    simp only [wprogRun, query_run b (hF (.query _) _ .ask) h1]
    cases v with
    | ok x => exact absurd rfl (hv x)
    | trap k => rfl
    | ub => rfl
  | condTrue h1 h2 ih =>
    obtain ⟨n, e⟩ := ih fun x u h => hF x u (.condTrue h1 h)
    exact ⟨n + 1, by simp only [wprogRun, test_run b (hF (.test _) _ .cond) h1, e]⟩
  | condFalse h1 h2 ih =>
    obtain ⟨n, e⟩ := ih fun x u h => hF x u (.condFalse h1 h)
    exact ⟨n + 1, by simp only [wprogRun, test_run b (hF (.test _) _ .cond) h1, e]⟩
  | condFails h1 hv =>
    refine ⟨1, ?_⟩
    rename_i v
    simp only [wprogRun, test_run b (hF (.test _) _ .cond) h1]
    cases v with
    | ok x => exact absurd rfl (hv x)
    | trap k => rfl
    | ub => rfl
  | whileTrue h1 h2 h3 ih2 ih3 =>
    obtain ⟨n, e⟩ := ih2 fun x u h => hF x u (.whileBody h1 h)
    obtain ⟨m, e'⟩ := ih3 fun x u h => hF x u (.whileAgain h1 h2 h)
    refine ⟨max n m + 1, ?_⟩
    simp only [wprogRun, test_run b (hF (.test _) _ .whileDo) h1,
      wprogRun_mono b (Nat.le_max_left n m) e, wprogRun_mono b (Nat.le_max_right n m) e']
  | whileStop h1 h2 hr ih =>
    obtain ⟨n, e⟩ := ih fun x u h => hF x u (.whileBody h1 h)
    refine ⟨n + 1, ?_⟩
    rename_i r
    simp only [wprogRun, test_run b (hF (.test _) _ .whileDo) h1, e]
    cases r with
    | ok x => exact absurd rfl hr
    | trap k => rfl
    | ub => rfl
  | whileFalse h1 => exact ⟨1, by simp only [wprogRun, test_run b (hF (.test _) _ .whileDo) h1]⟩
  | whileFails h1 hv =>
    refine ⟨1, ?_⟩
    rename_i v
    simp only [wprogRun, test_run b (hF (.test _) _ .whileDo) h1]
    cases v with
    | ok x => exact absurd rfl (hv x)
    | trap k => rfl
    | ub => rfl
  | seq h1 h2 ih1 ih2 =>
    obtain ⟨n, e⟩ := ih1 fun x u h => hF x u (.seqLeft h)
    obtain ⟨m, e'⟩ := ih2 fun x u h => hF x u (.seqRight h1 h)
    refine ⟨max n m + 1, ?_⟩
    simp only [wprogRun, wprogRun_mono b (Nat.le_max_left n m) e, wprogRun_mono b (Nat.le_max_right n m) e']
  | seqStop h1 hr ih =>
    obtain ⟨n, e⟩ := ih fun x u h => hF x u (.seqLeft h)
    refine ⟨n + 1, ?_⟩
    rename_i r
    simp only [wprogRun, e]
    cases r with
    | ok x => exact absurd rfl hr
    | trap k => rfl
    | ub => rfl
  | tryCaught h1 h2 ih1 ih2 =>
    obtain ⟨n, e⟩ := ih1 fun x u h => hF x u (.tryLeft h)
    obtain ⟨m, e'⟩ := ih2 fun x u h => hF x u (.tryRight h1 h)
    refine ⟨max n m + 1, ?_⟩
    simp only [wprogRun, wprogRun_mono b (Nat.le_max_left n m) e, wprogRun_mono b (Nat.le_max_right n m) e']
  | tryPass h1 hr ih =>
    obtain ⟨n, e⟩ := ih fun x u h => hF x u (.tryLeft h)
    refine ⟨n + 1, ?_⟩
    rename_i r
    simp only [wprogRun, e]
    rcases r with _ | (_ | _) | _
    · rfl
    · exact absurd rfl hr
    · rfl
    · rfl

/-- What the rules say is unambiguous. -/
theorem wruns_unique {w : WProg α} {s s1 s2 : Store α} {r1 r2 : Res Unit} (h1 : WRuns none w s r1 s1)
    (h2 : WRuns none w s r2 s2) (hF : ∀ x u, Meets none w s x u → x.Fits u) : r1 = r2 ∧ s1 = s2 := by
  obtain ⟨n, e⟩ := C132_valid_program ⟨false, true, false⟩ h1 hF
  obtain ⟨m, e'⟩ := C132_valid_program ⟨false, true, false⟩ h2 hF
  have := (e _ (Nat.le_max_left n m)).symm.trans (e' _ (Nat.le_max_right n m))
  cases this
  exact ⟨rfl, rfl⟩

/-- C132: a run by the rules is unambiguous also when invalid requests are rejected: the model computes one outcome, for
every number of steps after which the program has ended. -/
theorem C132_one_outcome (b : Build) {n m : Nat} {w : WProg α} {s : Store α} {x y : Res Unit × Store α}
    (hx : wprogRun b n w s = some x) (hy : wprogRun b m w s = some y) : x = y := by
  have := (wprogRun_mono b (Nat.le_max_left n m) hx).symm.trans (wprogRun_mono b (Nat.le_max_right n m) hy)
  cases this
  rfl

/-- Numbers are never undefined. -/
theorem tells_no_ub {K : Option Kind} {q : Query α} {s : Store α} {r : Res α} (hF : q.Fits s) (hq : q.Safe)
    (h : Tells K q s r) : r ≠ .ub := by
  have fold : ∀ {f : α → α → Res α}, (∀ x y, f x y ≠ .ub) → ∀ (xs : List α) (x : α), xs.foldlM f x ≠ .ub := by
    intro f hf xs
    induction xs with
    | nil => intro x h; cases h
    | cons y xs ih => intro x; exact bind_ne_ub (hf _ _) ih
  have lf : ∀ {f : α → α → Res α}, (∀ x y, f x y ≠ .ub) → ∀ (d : α) (xs : List α), leftFold f d xs ≠ .ub := by
    intro f hf d xs
    cases xs with
    | nil => intro h; cases h
    | cons x xs => exact fold hf _ _
  have lfo : ∀ {β : Type} {g : β → Res α} {f : α → α → Res α}, (∀ x, g x ≠ .ub) → (∀ x y, f x y ≠ .ub) →
      ∀ (d : α) (xs : List β), leftFoldOf g f d xs ≠ .ub := by
    intro β g f hg hf d xs
    cases xs with
    | nil => intro h; cases h
    | cons x xs =>
      refine bind_ne_ub (hg x) fun v => ?_
      induction xs generalizing v with
      | nil => intro h; cases h
      | cons y xs ih => exact bind_ne_ub (bind_ne_ub (hg y) fun w => hf _ _) ih
  have noUb : ∀ {d : Dim} {t : Tm α d}, FitsTm s t → t.Valid s → Sem.All (· ≠ .ub) (t.meaning s) := fun {d t} h hV =>
    t.noUb h.1.roomy.ok (t.modest_sound h.1.roomy h.2.1 hV).1 hV h.2.2
  cases h with
  | @elem1 t p s hV hi =>
    refine noUb hF.1 hV _ (getD_mem ?_)
    have := hi.1
    have := hi.2
    change _ < (Sem.dims (Tm.meaning s t)).1
    omega
  | @elem2 t p q s hV hi hj =>
    refine noUb hF.1 hV _ _ ?_ ?_
    · have := hi.1
      have := hi.2
      change _ < (Sem.dims (Tm.meaning s t)).1
      omega
    · have := hj.1
      have := hj.2
      change _ < (Sem.dims (Tm.meaning s t)).2
      omega
  | @reduce sc f dflt d t s xs hx =>
    obtain ⟨ha, hm, hd, hi, hn, hs⟩ := hq
    have mag : ∀ x, magnitude sc x ≠ .ub := fun x => by
      unfold magnitude
      split
      · simp
      · exact hn x
    cases f with
    | sum => exact lf ha _ _
    | prod => exact lf hm _ _
    | min => exact lf (fun _ _ h => by cases h) _ _
    | max => exact lf (fun _ _ h => by cases h) _ _
    | norm1 => exact lfo mag ha _ _
    | normInf => exact lfo mag (fun _ _ h => by cases h) _ _
    | norm2 =>
      simp only [Reduction.meaning]
      split
      · simp
      · exact bind_ne_ub (lfo (fun x => hm x x) ha _ _) hs
    | norm1Scaled =>
      simp only [Reduction.meaning]
      split
      · simp
      · exact bind_ne_ub (lfo mag ha _ _) fun _ => bind_ne_ub (hi _) fun _ => hd _ _
    | norm2Scaled =>
      simp only [Reduction.meaning]
      split
      · simp
      · exact bind_ne_ub (bind_ne_ub (lfo (fun x => hm x x) ha _ _) hs) fun _ =>
          bind_ne_ub (hi _) fun _ => bind_ne_ub (hs _) fun _ => hd _ _
    | mean =>
      simp only [Reduction.meaning]
      split
      · simp
      · exact bind_ne_ub (lf ha _ _) fun _ => bind_ne_ub (hi _) fun _ => hd _ _
  | @poly ar x dflt t s cs hx =>
    have : ∀ cs : List α, nested ar x dflt cs ≠ .ub := by
      intro cs
      induction cs with
      | nil => intro h; cases h
      | cons c cs ih =>
        cases cs with
        | nil => intro h; cases h
        | cons c' cs => exact bind_ne_ub ih fun _ => bind_ne_ub (hq.2 _ _) fun _ => hq.1 _ _
    exact this cs
  | dot hx hy hd => exact lfo (fun (p : α × α) => hq.2 p.1 p.2) hq.1 _ _
  | _ => simp

theorem decides_no_ub {K : Option Kind} {c : Test α} {s : Store α} {r : Res Bool} (hF : c.Fits s) (hc : c.Safe)
    (h : Decides K c s r) : r ≠ .ub := by
  have bind2 : ∀ {β γ : Type} {r1 r2 : Res β} {g : β → β → γ}, r1 ≠ .ub → (∀ a, r1 = .ok a → r2 ≠ .ub) →
      (r1.bind fun a => r2.bind fun c => .ok (g a c)) ≠ .ub := by
    intro β γ r1 r2 g h1 h2
    cases r1 with
    | ok a =>
      have := h2 a rfl
      cases r2 with
      | ok c => intro h; cases h
      | trap k => intro h; cases h
      | ub => exact absurd rfl this
    | trap k => intro h; cases h
    | ub => exact absurd rfl h1
  induction h with
  | cmp h1 h2 => exact bind2 (tells_no_ub hF.1 hc.1 h1) fun a ha => tells_no_ub hF.2 hc.2 (h2 a ha)
  | not h ih => exact bind_ne_ub (ih hF hc) fun _ h => by cases h
  | and h1 h2 ih1 ih2 => exact bind2 (ih1 hF.1 hc.1) fun a ha => ih2 a ha hF.2 hc.2
  | or h1 h2 ih1 ih2 => exact bind2 (ih1 hF.1 hc.1) fun a ha => ih2 a ha hF.2 hc.2
  | _ => simp

/-- C132: no program has undefined behaviour in a checked build, provided the operations of the element type have none. -/
theorem C132_no_ub {b : Build} (hb : b.Checked) (n : Nat) (w : WProg α) (s s' : Store α) (r : Res Unit)
    (h : wprogRun b n w s = some (r, s')) (hF : ∀ x u, Meets (some b.kind) w s x u → x.Fits u ∧ x.Safe) : r ≠ .ub := by
  have h' := C132_program hb n w s s' r h fun x u h => (hF x u h).1
  clear h
  have fails : ∀ {β : Type} {v : Res β}, v ≠ .ub → (v.bind fun _ => .ok () : Res Unit) ≠ .ub := fun h =>
    bind_ne_ub h fun _ h => by cases h
  induction h' with
  | prog h =>
    exact runs_no_ub hb h fun c u h => (hF (.stmt c) u (.prog h)).1
  | ask h1 h2 ih => exact ih fun x u h => hF x u (.askThen h1 h)
  | askFails h1 hv => exact fails (tells_no_ub (hF (.query _) _ .ask).1 (hF (.query _) _ .ask).2 h1)
  | condTrue h1 h2 ih => exact ih fun x u h => hF x u (.condTrue h1 h)
  | condFalse h1 h2 ih => exact ih fun x u h => hF x u (.condFalse h1 h)
  | condFails h1 hv => exact fails (decides_no_ub (hF (.test _) _ .cond).1 (hF (.test _) _ .cond).2 h1)
  | whileTrue h1 h2 h3 ih2 ih3 => exact ih3 fun x u h => hF x u (.whileAgain h1 h2 h)
  | whileStop h1 h2 hr ih => exact ih fun x u h => hF x u (.whileBody h1 h)
  | whileFalse h1 => simp
  | whileFails h1 hv => exact fails (decides_no_ub (hF (.test _) _ .whileDo).1 (hF (.test _) _ .whileDo).2 h1)
  | seq h1 h2 ih1 ih2 => exact ih2 fun x u h => hF x u (.seqRight h1 h)
  | seqStop h1 hr ih => exact ih fun x u h => hF x u (.seqLeft h)
  | tryCaught h1 h2 ih1 ih2 => exact ih2 fun x u h => hF x u (.tryRight h1 h)
  | tryPass h1 hr ih => exact ih fun x u h => hF x u (.tryLeft h)

/-- A relation between the states before and after, which every statement of the program respects, holds before and
after the program. -/
theorem wruns_invariant {K : Option Kind} {R : Store α → Store α → Prop} (hr : ∀ s, R s s)
    (ht : ∀ {s u v}, R s u → R u v → R s v) {w : WProg α} {s s' : Store α} {r : Res Unit} (h : WRuns K w s r s')
    (hc : ∀ c u, Meets K w s (.stmt c) u → ∀ r' u', Does K c u r' u' → R u u') : R s s' := by
  induction h with
  | prog h => exact runs_invariant hr ht h fun c u h => hc c u (.prog h)
  | ask h1 h2 ih => exact ih fun c u h => hc c u (.askThen h1 h)
  | askFails h1 hv => exact hr _
  | condTrue h1 h2 ih => exact ih fun c u h => hc c u (.condTrue h1 h)
  | condFalse h1 h2 ih => exact ih fun c u h => hc c u (.condFalse h1 h)
  | condFails h1 hv => exact hr _
  | whileTrue h1 h2 h3 ih2 ih3 =>
    exact ht (ih2 fun c u h => hc c u (.whileBody h1 h)) (ih3 fun c u h => hc c u (.whileAgain h1 h2 h))
  | whileStop h1 h2 hr ih => exact ih fun c u h => hc c u (.whileBody h1 h)
  | whileFalse h1 => exact hr _
  | whileFails h1 hv => exact hr _
  | seq h1 h2 ih1 ih2 =>
    exact ht (ih1 fun c u h => hc c u (.seqLeft h)) (ih2 fun c u h => hc c u (.seqRight h1 h))
  | seqStop h1 hr ih => exact ih fun c u h => hc c u (.seqLeft h)
  | tryCaught h1 h2 ih1 ih2 =>
    exact ht (ih1 fun c u h => hc c u (.tryLeft h)) (ih2 fun c u h => hc c u (.tryRight h1 h))
  | tryPass h1 hr ih => exact ih fun c u h => hc c u (.tryLeft h)

/-- C132: an array which no statement of the program changes has the same size and contents at the end; computing numbers
and conditions changes nothing. -/
theorem C132_frame {b : Build} (hb : b.Checked) (n : Nat) (w : WProg α) (s s' : Store α) (r : Res Unit)
    (h : wprogRun b n w s = some (r, s')) (hF : ∀ x u, Meets (some b.kind) w s x u → x.Fits u) {a : Dim × Nat}
    (ha : ∀ x u, Meets (some b.kind) w s x u → ¬ x.Changes a) : SameArray s s' a :=
  wruns_invariant (R := fun s s' => SameArray s s' a) (fun s => SameArray.refl s a) SameArray.trans
    (C132_program hb n w s s' r h hF) fun c u h _ _ hd => does_frame (hF (.stmt c) u h) hd (ha (.stmt c) u h)

/-- C132: at the end all two-dimensional arrays are rectangular. -/
theorem C132_shape {b : Build} (hb : b.Checked) (n : Nat) (w : WProg α) (s s' : Store α) (r : Res Unit)
    (h : wprogRun b n w s = some (r, s')) (hF : ∀ x u, Meets (some b.kind) w s x u → x.Fits u)
    (hs : ∀ i, Shape (s.a2 i)) (i : Nat) : Shape (s'.a2 i) :=
  wruns_invariant (R := fun s s' => (∀ i, Shape (s.a2 i)) → ∀ i, Shape (s'.a2 i)) (fun _ h => h)
    (fun h1 h2 h => h2 (h1 h)) (C132_program hb n w s s' r h hF)
    (fun c u h _ _ hd => does_shape (hF (.stmt c) u h) hd) hs i

/-- C132: what the body of a `while` loop preserves holds after the loop, and the condition is then false. -/
theorem C132_while {b : Build} (hb : b.Checked) (n : Nat) {c : Test α} {p : WProg α} {s s' : Store α}
    (h : wprogRun b n (.whileDo c p) s = some (.ok (), s'))
    (hF : ∀ x u, Meets (some b.kind) (.whileDo c p) s x u → x.Fits u) {Inv : Store α → Prop} (hs : Inv s)
    (hI : ∀ u v, Inv u → Decides (some b.kind) c u (.ok true) → WRuns (some b.kind) p u (.ok ()) v → Inv v) :
    Inv s' ∧ Decides (some b.kind) c s' (.ok false) := by
  have h' := C132_program hb n _ s s' _ h hF
  clear h hF
  generalize hw : WProg.whileDo c p = w at h'
  generalize hr : (Res.ok () : Res Unit) = r at h'
  induction h' with
  | whileTrue h1 h2 h3 ih2 ih3 =>
    cases hw
    exact ih3 (hI _ _ hs h1 h2) rfl hr
  | whileStop h1 h2 h ih => exact absurd hr.symm h
  | whileFalse h1 =>
    cases hw
    exact ⟨hs, h1⟩
  | whileFails h1 hv =>
    rename_i v
    cases v with
    | ok x => exact absurd rfl (hv x)
    | trap k => cases hr
    | ub => cases hr
  | _ => cases hw

/-- The body of a loop, started in a state of the invariant, ends in a state of the invariant. -/
theorem loop_meets {K : Option Kind} {c : Test α} {p : WProg α} {Inv : Store α → Prop} {P : Work α → Store α → Prop}
    (hc : ∀ u, Inv u → P (.test c) u) (hp : ∀ u, Inv u → ∀ x v, Meets K p u x v → P x v)
    (hI : ∀ u, Inv u → Decides K c u (.ok true) → ∀ v, WRuns K p u (.ok ()) v → Inv v) {s : Store α} (hs : Inv s) :
    ∀ x u, Meets K (.whileDo c p) s x u → P x u := by
  intro x u h
  generalize hw : WProg.whileDo c p = w at h
  induction h with
  | whileDo => cases hw; exact hc _ hs
  | whileBody h1 h2 ih => cases hw; exact hp _ hs _ _ h2
  | whileAgain h1 h2 h3 ih => cases hw; exact ih (hI _ hs h1 _ h2) rfl
  | _ => cases hw

/-- C132: a `while` loop ends, in every build, if each turn preserves the invariant and decreases a natural number that
depends on the arrays; afterwards the invariant holds and the condition is false. -/
theorem C132_terminates {c : Test α} {p : WProg α} {Inv : Store α → Prop} (m : Store α → Nat)
    (hc : ∀ u, Inv u → c.Fits u) (hp : ∀ u, Inv u → ∀ x v, Meets none p u x v → x.Fits v)
    (hI : ∀ u, Inv u → Decides none c u (.ok false) ∨
      Decides none c u (.ok true) ∧ ∃ v, WRuns none p u (.ok ()) v ∧ Inv v ∧ m v < m u) {s : Store α} (hs : Inv s) :
    ∃ s', Inv s' ∧ Decides none c s' (.ok false) ∧
      ∀ b : Build, ∃ n0, ∀ n, n0 ≤ n → wprogRun b n (.whileDo c p) s = some (.ok (), s') := by
  have once : ∀ {u : Store α}, Inv u → Decides none c u (.ok true) → ∀ v, WRuns none p u (.ok ()) v → Inv v := by
    intro u hu ht v hv
    rcases hI u hu with h | ⟨_, v', h, hv', _⟩
    · have e1 := test_run ⟨false, true, false⟩ (hc u hu) h
      have e2 := test_run ⟨false, true, false⟩ (hc u hu) ht
      rw [e1] at e2
      cases e2
    · exact (wruns_unique hv h (hp u hu)).2 ▸ hv'
  suffices ∃ s', Inv s' ∧ Decides none c s' (.ok false) ∧ WRuns none (.whileDo c p) s (.ok ()) s' by
    obtain ⟨s', h1, h2, h3⟩ := this
    exact ⟨s', h1, h2, fun b => C132_valid_program b h3 (loop_meets (P := fun x u => x.Fits u) hc hp (fun u hu => once hu) hs)⟩
  generalize hn : m s = n
  induction n using Nat.strongRecOn generalizing s with
  | ind n ih =>
    rcases hI s hs with h | ⟨ht, v, hv, hv', hm⟩
    · exact ⟨s, hs, h, .whileFalse h⟩
    · obtain ⟨s', h1, h2, h3⟩ := ih (m v) (hn ▸ hm) hv' rfl
      exact ⟨s', h1, h2, .whileTrue ht hv h3⟩

/-- C132: a `while` loop whose condition stays true does not end, whatever the number of steps. -/
theorem C132_forever (b : Build) {c : Test α} {p : WProg α} {Inv : Store α → Prop}
    (hc : ∀ u, Inv u → c.Fits u) (hp : ∀ u, Inv u → ∀ x v, Meets none p u x v → x.Fits v)
    (hI : ∀ u, Inv u → Decides none c u (.ok true) ∧ ∃ v, WRuns none p u (.ok ()) v ∧ Inv v) {s : Store α} (hs : Inv s)
    (n : Nat) : wprogRun b n (.whileDo c p) s = none := by
  induction n generalizing s with
  | zero => rfl
  | succ n ih =>
    obtain ⟨ht, v, hv, hv'⟩ := hI s hs
    obtain ⟨n0, e⟩ := C132_valid_program b hv (hp s hs)
    simp only [wprogRun, test_run b (hc s hs) ht]
    rcases ep : wprogRun b n p s with _ | x
    · rfl
    · have := C132_one_outcome b ep (e n0 (Nat.le_refl _))
      subst this
      exact ih hv'

/-! ### An instance

    while(sum(A) < 100) A.insert_back(A);

with elements of type `int`, whose sums may overflow. -/

namespace WProgExample
open EProgExample (only only_moderate only_upd ok_inj)

def self : Tm Int .one := .lv (.arr1 0)

/-- `sum(A) < 100` -/
def small (b : Build) : Test Int := .cmp (fun x y => decide (x < y)) (.reduce (checkedInts b) .sum 0 self) (.lit 100)

/-- `A.insert_back(A)` -/
def twice : EStmt Int := .use1 0 .insertBack self

def untilLarge (b : Build) : WProg Int := .whileDo (small b) (.prog (.stmt twice))

theorem self_has (l : List Int) : Has self (only l) l := by
  refine ⟨trivial, ?_⟩
  show ((List.range l.length).map fun k => Res.ok (Loc.one 0 k)).map (fun r => r >>= (only l).read) = l.map Res.ok
  rw [List.map_map]
  apply List.ext_getElem
  · simp
  · intro k h1 h2
    simp only [List.getElem_map, List.getElem_range, Function.comp, Res.ok_bind, Store.read]
    exact rd_nat (l := l) (by simpa using h1)

theorem length_le_sum {l : List Int} (h : ∀ x ∈ l, 0 < x) : (l.length : Int) ≤ l.sum := by
  induction l with
  | nil => simp
  | cons x xs ih =>
    have := ih fun z hz => h z (List.mem_cons_of_mem _ hz)
    have := h x (List.mem_cons_self ..)
    rw [List.sum_cons, List.length_cons]
    omega

theorem sum_foldlM (xs : List Int) : ∀ x : Int, 0 ≤ x → (∀ y ∈ xs, 0 < y) → x + xs.sum < 2 ^ 31 →
    xs.foldlM (SInt.add .int) x = .ok (x + xs.sum) := by
  induction xs with
  | nil => intro x _ _ _; simp [pure]
  | cons y xs ih =>
    intro x hx hy hs
    have h0 := length_le_sum fun z hz => hy z (List.mem_cons_of_mem _ hz)
    have h1 := hy y (List.mem_cons_self ..)
    rw [List.sum_cons] at hs ⊢
    have e : SInt.add .int x y = .ok (x + y) := by
      have : IntTy.int.Holds (x + y) := ⟨show -(2 ^ 31 : Int) ≤ _ by omega, show _ ≤ (2 ^ 31 - 1 : Int) by omega⟩
      simp only [SInt.add, IntTy.arith, this, if_true]
      rfl
    rw [List.foldlM_cons, e, Res.ok_bind, ih (x + y) (by omega) (fun z hz => hy z (List.mem_cons_of_mem _ hz)) (by omega),
      Int.add_assoc]

/-- Positive numbers whose sum is an `int`. -/
def Fine (l : List Int) : Prop := l ≠ [] ∧ (∀ x ∈ l, 0 < x) ∧ l.sum < 2 ^ 31

theorem fine_sum (b : Build) {l : List Int} (h : Fine l) : Reduction.meaning (checkedInts b) 0 l .sum = .ok l.sum := by
  cases l with
  | nil => exact absurd rfl h.1
  | cons x xs =>
    have := sum_foldlM xs x (Int.le_of_lt (h.2.1 x (List.mem_cons_self ..)))
      (fun z hz => h.2.1 z (List.mem_cons_of_mem _ hz)) (by have := h.2.2; rwa [List.sum_cons] at this)
    rw [List.sum_cons]
    exact this

theorem fine_moderate {l : List Int} (h : Fine l) : (only l).Moderate :=
  only_moderate (by have := length_le_sum h.2.1; have := h.2.2; omega)

theorem self_fits {l : List Int} (h : Fine l) : FitsTm (only l) self ∧ Computable (only l) self := by
  refine ⟨⟨fine_moderate h, trivial, trivial⟩, fun _ r hr => ?_⟩
  rw [(self_has l).2, List.mem_map] at hr
  obtain ⟨x, _, rfl⟩ := hr
  exact ⟨x, rfl⟩

theorem small_decides (b : Build) {K : Option Kind} {l : List Int} (h : Fine l) :
    Decides K (small b) (only l) (.ok (decide (l.sum < 100))) := by
  refine Decides.cmp (r1 := .ok l.sum) (r2 := .ok 100) ?_ fun _ _ => .lit
  rw [← fine_sum b h]
  exact .reduce (self_has l)

theorem twice_fits {l : List Int} (h : Fine l) : twice.Fits (only l) :=
  ⟨fine_moderate h, trivial, trivial, (self_fits h).2⟩

theorem twice_does {K : Option Kind} (l : List Int) : Does K twice (only l) (.ok ()) (only (l ++ l)) :=
  only_upd l (l ++ l) ▸ .use1 (self_has l).1 (self_has l).2 rfl

theorem fine_twice {l : List Int} (h : Fine l) (hs : l.sum < 100) : Fine (l ++ l) :=
  ⟨by simp [h.1], fun x hx => by rcases List.mem_append.1 hx with h' | h' <;> exact h.2.1 x h', by
    rw [List.sum_append]; omega⟩

/-- For every nonempty list of positive numbers the loop ends, in every build; then the sum is at least 100, and the array
holds 2^k copies of the list. -/
theorem untilLarge_ends {l : List Int} (h : Fine l) (c : Build) :
    ∃ k, 100 ≤ (List.replicate (2 ^ k) l).flatten.sum ∧
      ∀ b : Build, ∃ n0, ∀ n, n0 ≤ n →
        wprogRun b n (untilLarge c) (only l) = some (.ok (), only (List.replicate (2 ^ k) l).flatten) := by
  obtain ⟨s', ⟨l', hf, rfl, k, rfl⟩, h2, h3⟩ := C132_terminates (c := small c) (p := .prog (.stmt twice)) (s := only l)
    (Inv := fun u => ∃ l', Fine l' ∧ u = only l' ∧ ∃ k, l' = (List.replicate (2 ^ k) l).flatten)
    (fun u => (100 - (u.a1 0).sum).toNat)
    (fun u ⟨l', hf, hu, _⟩ => hu ▸ ⟨self_fits hf, trivial⟩)
    (fun u ⟨l', hf, hu, _⟩ x v hm => by
      cases hm with
      | prog hm => cases hm; exact hu ▸ twice_fits hf)
    (fun u ⟨l', hf, hu, k, hk⟩ => by
      subst hu
      have hd := small_decides c (K := none) hf
      by_cases hs : l'.sum < 100
      · rw [decide_eq_true hs] at hd
        refine .inr ⟨hd, _, .prog (.stmt (twice_does l')), ⟨_, fine_twice hf hs, rfl, k + 1, ?_⟩, ?_⟩
        · rw [hk, Nat.pow_succ, Nat.mul_two, List.replicate_add, List.flatten_append]
        · show (100 - (l' ++ l').sum).toNat < (100 - l'.sum).toNat
          have := length_le_sum hf.2.1
          have := List.length_pos_iff.2 hf.1
          rw [List.sum_append]
          omega
      · rw [decide_eq_false hs] at hd
        exact .inl hd)
    ⟨l, h, rfl, 0, by simp⟩
  refine ⟨k, ?_, h3⟩
  have hd := small_decides c (K := none) hf
  have e1 := test_run ⟨false, true, false⟩ (show (small c).Fits _ from ⟨self_fits hf, trivial⟩) hd
  have e2 := test_run ⟨false, true, false⟩ (show (small c).Fits _ from ⟨self_fits hf, trivial⟩) h2
  rw [e1] at e2
  have := of_decide_eq_false (Res.ok.inj e2)
  omega

theorem fine_30 : Fine [30, 40] := ⟨by simp, by simp, by decide⟩

example (c b : Build) : ∃ k n0, ∀ n, n0 ≤ n →
    wprogRun b n (untilLarge c) (only [30, 40]) = some (.ok (), only (List.replicate (2 ^ k) [30, 40]).flatten) := by
  obtain ⟨k, _, h⟩ := untilLarge_ends fine_30 c
  exact ⟨k, h b⟩

theorem small_only (b : Build) {K : Option Kind} {l : List Int} (hf : Fine l) {r : Res Bool}
    (h : Decides K (small b) (only l) r) : r = .ok (decide (l.sum < 100)) := by
  unfold small at h
  cases h with
  | cmp h1 h2 =>
    cases h1 with
    | reduce hx =>
      cases ok_inj ((self_has l).2.symm.trans hx.2)
      rw [fine_sum b hf] at h2 ⊢
      cases h2 _ rfl
      rfl
    | reduceInvalid h => exact absurd trivial h

theorem twice_only {K : Option Kind} {l : List Int} {r : Res Unit} {v : Store Int}
    (h : WRuns K (.prog (.stmt twice)) (only l) r v) : v = only (l ++ l) := by
  cases h with
  | prog h =>
    cases h with
    | stmt h =>
      unfold twice at h
      cases h with
      | use1 _ hx hu =>
        cases ok_inj ((self_has l).2.symm.trans hx)
        cases hu
        exact only_upd l _
      | use1Rejected _ _ hu => cases hu
      | use1Invalid h => exact absurd trivial h

theorem untilLarge_meets (c : Build) {K : Option Kind} {l : List Int} (h : Fine l) :
    ∀ x u, Meets K (untilLarge c) (only l) x u → x.Fits u ∧ ¬ x.Changes (.one, 7) := by
  refine loop_meets (Inv := fun u => ∃ l', Fine l' ∧ u = only l') (P := fun x u => x.Fits u ∧ ¬ x.Changes (.one, 7))
    (fun u ⟨l', hf, hu⟩ => ⟨hu ▸ ⟨self_fits hf, trivial⟩, id⟩) (fun u ⟨l', hf, hu⟩ x v hm => ?_)
    (fun u ⟨l', hf, hu⟩ ht v hv => ?_) ⟨l, h, rfl⟩
  · cases hm with
    | prog hm =>
      cases hm
      exact ⟨hu ▸ twice_fits hf, fun h => absurd (Prod.mk.inj h).2 (by decide)⟩
  · subst hu
    have := of_decide_eq_true (Res.ok.inj (small_only c hf ht)).symm
    exact ⟨_, fine_twice hf this, twice_only hv⟩

/-- `try { auto x = A[5]; } catch(...) { while(sum(A) < 100) A.insert_back(A); }` -/
def recover (c : Build) : WProg Int :=
  .tryCatch (.ask (.elem1 self (.at 5)) fun _ => .prog .skip) (untilLarge c)

def dbg : Build := ⟨false, true, false⟩

theorem recover_meets : ∀ x u, Meets (some .exception) (recover dbg) (only [30, 40]) x u →
    x.Fits u ∧ ¬ x.Changes (.one, 7) := by
  intro x u h
  unfold recover at h
  cases h with
  | tryLeft h =>
    cases h with
    | ask => exact ⟨⟨(self_fits fine_30).1, show Modest 5 by decide⟩, id⟩
    | askThen _ h =>
      cases h with
      | prog h => cases h
  | tryRight a h =>
    generalize hr : (Res.trap Kind.exception : Res Unit) = r at a
    cases a with
    | ask _ a => cases hr; cases a with | prog a => cases a
    | askFails => exact untilLarge_meets dbg fine_30 x u h

theorem recover_run : ∃ s', wprogRun dbg 6 (recover dbg) (only [30, 40]) = some (.ok (), s') ∧
    s'.a1 0 = [30, 40, 30, 40] := by
  have e : (wprogRun dbg 6 (recover dbg) (only [30, 40])).map (fun x => (x.1, x.2.a1 0)) =
    some (.ok (), [30, 40, 30, 40]) := by decide
  rcases h : wprogRun dbg 6 (recover dbg) (only [30, 40]) with _ | ⟨r, s'⟩
  · rw [h] at e; cases e
  · rw [h] at e
    simp only [Option.map_some, Option.some.injEq, Prod.mk.injEq] at e
    exact ⟨s', by rw [e.1], e.2⟩

example : ∃ s', WRuns (some .exception) (recover dbg) (only [30, 40]) (.ok ()) s' ∧ s'.a1 0 = [30, 40, 30, 40] ∧
    s'.a1 7 = [] ∧ ∀ i, Shape (s'.a2 i) := by
  obtain ⟨s', h1, h2⟩ := recover_run
  have hF := fun x u h => (recover_meets x u h).1
  exact ⟨s', C132_program (by decide) _ _ _ _ _ h1 hF, h2,
    C132_frame (a := (.one, 7)) (by decide) _ _ _ _ _ h1 hF (fun x u h => (recover_meets x u h).2),
    C132_shape (by decide) _ _ _ _ _ h1 hF (fun _ => ⟨Int.le_refl _, Int.le_refl _, rfl, Iff.rfl⟩)⟩

example (c b : Build) : ∃ n0, ∀ n, n0 ≤ n →
    wprogRun b n (untilLarge c) (only [30, 40]) = some (.ok (), only [30, 40, 30, 40]) :=
  C132_valid_program b
    (.whileTrue (small_decides c fine_30) (.prog (.stmt (twice_does [30, 40])))
      (.whileFalse (small_decides c (l := [30, 40, 30, 40]) ⟨by simp, by simp, by decide⟩)))
    fun x u h => (untilLarge_meets c fine_30 x u h).1

example {n : Nat} {s' : Store Int} (h : wprogRun dbg n (untilLarge dbg) (only [30, 40]) = some (.ok (), s')) :
    ∃ l, s' = only l ∧ 30 ∈ l ∧ 100 ≤ l.sum := by
  obtain ⟨⟨l, hf, rfl, hm⟩, hd⟩ := C132_while (b := dbg) (by decide) n h
    (fun x u h => (untilLarge_meets dbg fine_30 x u h).1) (Inv := fun u => ∃ l, Fine l ∧ u = only l ∧ 30 ∈ l)
    ⟨_, fine_30, rfl, by simp⟩ fun u v ⟨l, hf, hu, hm⟩ ht hv => by
      subst hu
      have := of_decide_eq_true (Res.ok.inj (small_only dbg hf ht)).symm
      exact ⟨_, fine_twice hf this, twice_only hv, List.mem_append_left _ hm⟩
  have := of_decide_eq_false (Res.ok.inj (small_only dbg hf hd)).symm
  exact ⟨l, rfl, hm, by omega⟩

/-- `while(A == A) {}` does not end. -/
example (b : Build) (n : Nat) :
    wprogRun b n (.whileDo (.equal (fun x y => decide (x ≠ y)) self self) (.prog .skip)) (only [30, 40]) = none :=
  C132_forever b (Inv := fun u => u = only [30, 40]) (fun u hu => hu ▸ ⟨self_fits fine_30, self_fits fine_30⟩)
    (fun u _ x v h => by cases h with | prog h => cases h)
    (fun u hu => by
      subst hu
      exact ⟨.equal (self_has _) (self_has _), _, .prog .skip, rfl⟩) rfl n

/-- Operations without undefined behaviour. -/
def exactInts : Scalar Int :=
  { checkedInts dbg with
    add := fun x y => .ok (x + y), mul := fun x y => .ok (x * y), div := fun x y => .ok (x / y), ofIndex := .ok,
    neg := fun x => .ok (-x), sqrt := fun x => .ok (Int.sqrt x) }

/-- `mean(A)`. -/
example {n : Nat} {r : Res Unit} {s' : Store Int}
    (h : wprogRun dbg n (.ask (.reduce exactInts .mean 0 self) fun _ => .prog .skip) (only [30, 40]) = some (r, s')) :
    r ≠ .ub :=
  C132_no_ub (b := dbg) (by decide) n _ _ _ _ h fun x u h => by
    cases h with
    | ask =>
      refine ⟨self_fits fine_30, fun x y h => ?_, fun x y h => ?_, fun x y h => ?_, fun i h => ?_, fun x h => ?_,
        fun x h => ?_⟩
      · cases (show Res.ok (x + y) = .ub from h)
      · cases (show Res.ok (x * y) = .ub from h)
      · cases (show Res.ok (x / y) = .ub from h)
      · cases (show Res.ok i = .ub from h)
      · cases (show Res.ok (-x) = .ub from h)
      · cases (show Res.ok (Int.sqrt x) = .ub from h)
    | askThen _ h => cases h with | prog h => cases h

/-- `dot_prod(A, A)`, `norm1(A)` and `norm_inf(A)`; `dot_prod(A, A.append(1))` is rejected. -/
example (K : Kind) : Tells (some K) (.dot exactInts.toArith 0 self self) (only [30, 40]) (.ok 2500) ∧
    Tells (some K) (.reduce exactInts .norm1 0 self) (only [30, -40]) (.ok 70) ∧
    Tells (some K) (.reduce exactInts .normInf 0 self) (only [30, -40]) (.ok 40) ∧
    Tells (some K) (.dot exactInts.toArith 0 self (.append self 1)) (only [30, 40]) (.trap K) :=
  ⟨.dot (self_has _) (self_has _) rfl, .reduce (self_has _), .reduce (self_has _),
    .dotRejected (self_has _).1 trivial (by decide) rfl⟩

example : queryRun dbg (only [30, 40]) (.dot exactInts.toArith 0 self self) = .ok 2500 ∧
    queryRun dbg (only [30, 40]) (.dot exactInts.toArith 0 self (.append self 1)) = .trap .exception := by
  refine ⟨query_run dbg ⟨self_fits fine_30, self_fits fine_30⟩ (.dot (self_has _) (self_has _) rfl), ?_⟩
  decide

/-- `norm2(A)`, the usual stopping test of an iteration. -/
example (K : Kind) : Tells (some K) (.reduce exactInts .norm2 0 self) (only [30, 40]) (.ok 50) := by
  have h : Int.sqrt 2500 = 50 := Int.sqrt_eq 50
  rw [← h]
  exact .reduce (self_has _)

example : queryRun dbg (only [30, 40]) (.reduce exactInts .norm2 0 self) = .ok (Int.sqrt 2500) :=
  query_run dbg (self_fits fine_30) (.reduce (self_has _))

/-- `norm1_scaled(A)` and `norm2_scaled(A)`. -/
example (K : Kind) : Tells (some K) (.reduce exactInts .norm1Scaled 0 self) (only [30, -40]) (.ok 35) ∧
    Tells (some K) (.reduce exactInts .norm2Scaled 0 self) (only [3, 1, 1, 5]) (.ok (Int.sqrt 36 / Int.sqrt 4)) :=
  ⟨.reduce (self_has _), .reduce (self_has _)⟩

/-- `polynomial(A, 2)` with the coefficients 30 and 40. -/
example (K : Kind) : Tells (some K) (.poly exactInts.toArith 2 0 self) (only [30, 40]) (.ok 110) :=
  .poly (self_has _)

example : queryRun dbg (only [30, 40]) (.poly exactInts.toArith 2 0 self) = .ok 110 :=
  query_run dbg (self_fits fine_30) (.poly (self_has _))

end WProgExample

end Spp.Props
