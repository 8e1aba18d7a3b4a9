import Verif.Props.WProg
import Verif.Props.Tolerance
import Verif.Spec.Table

/-
Iterations that stop when a number, such as the norm of a residual, is small (C132).
-/

set_option linter.unusedSectionVars false

namespace Spp.Props
open Spec

section
variable {α : Type} [Inhabited α]

/-- A comparison with a constant that is false. -/
theorem decides_cmp_lit {K : Option Kind} {f : α → α → Bool} {q : Query α} {tol : α} {s : Store α} {v : Bool}
    (h : Decides K (.cmp f q (.lit tol)) s (.ok v)) : ∃ x, Tells K q s (.ok x) ∧ f x tol = v := by
  generalize hr : (Res.ok v : Res Bool) = r at h
  cases h with
  | @cmp _ _ _ _ r1 r2 h1 h2 =>
    cases r1 with
    | ok x =>
      cases h2 x rfl
      exact ⟨x, h1, (Res.ok.inj hr).symm⟩
    | trap k => cases hr
    | ub => cases hr

/-- C132: after `while(f(q, tol)) p` the comparison is false of what `q` is in the final state. -/
theorem C132_tolerance {b : Build} (hb : b.Checked) (n : Nat) {f : α → α → Bool} {q : Query α} {tol : α} {p : WProg α}
    {s s' : Store α} (h : wprogRun b n (.whileDo (.cmp f q (.lit tol)) p) s = some (.ok (), s'))
    (hF : ∀ x u, Meets (some b.kind) (.whileDo (.cmp f q (.lit tol)) p) s x u → x.Fits u) :
    ∃ x, Tells (some b.kind) q s' (.ok x) ∧ f x tol = false :=
  decides_cmp_lit (C132_while hb n h hF (Inv := fun _ => True) trivial fun _ _ _ _ _ => trivial).2

/-- C132: after `while(!f(q, tol)) p` the comparison is true of what `q` is in the final state. -/
theorem C132_tolerance_not {b : Build} (hb : b.Checked) (n : Nat) {f : α → α → Bool} {q : Query α} {tol : α}
    {p : WProg α} {s s' : Store α} (h : wprogRun b n (.whileDo (.not (.cmp f q (.lit tol))) p) s = some (.ok (), s'))
    (hF : ∀ x u, Meets (some b.kind) (.whileDo (.not (.cmp f q (.lit tol))) p) s x u → x.Fits u) :
    ∃ x, Tells (some b.kind) q s' (.ok x) ∧ f x tol = true := by
  have hd := (C132_while hb n h hF (Inv := fun _ => True) trivial fun _ _ _ _ _ => trivial).2
  generalize hr : (Res.ok false : Res Bool) = r at hd
  cases hd with
  | @not _ _ r1 h1 =>
    cases r1 with
    | ok v =>
      cases v with
      | true => exact decides_cmp_lit h1
      | false => cases hr
    | trap k => cases hr
    | ub => cases hr

end

/-- C132: in floating point `while(q > tol)` ends with a number that is at most the tolerance or with NaN, whereas
`while(!(q <= tol))` ends only with a number that is at most the tolerance. -/
theorem C132_tolerance_float {b : Build} (hb : b.Checked) (n : Nat) {q : Query FVal} {tol : FVal}
    (ht : tol ≠ .nan) {p : WProg FVal} {s s' : Store FVal} :
    (wprogRun b n (.whileDo (.cmp (fun x y => FVal.lt y x) q (.lit tol)) p) s = some (.ok (), s') →
      (∀ x u, Meets (some b.kind) (.whileDo (.cmp (fun x y => FVal.lt y x) q (.lit tol)) p) s x u → x.Fits u) →
      ∃ x, Tells (some b.kind) q s' (.ok x) ∧ (FVal.le x tol = true ∨ x = .nan)) ∧
    (wprogRun b n (.whileDo (.not (.cmp FVal.le q (.lit tol))) p) s = some (.ok (), s') →
      (∀ x u, Meets (some b.kind) (.whileDo (.not (.cmp FVal.le q (.lit tol))) p) s x u → x.Fits u) →
      ∃ x, Tells (some b.kind) q s' (.ok x) ∧ FVal.le x tol = true) := by
  refine ⟨fun h hF => ?_, fun h hF => C132_tolerance_not hb n h hF⟩
  obtain ⟨x, hx, hf⟩ := C132_tolerance hb n h hF
  refine ⟨x, hx, ?_⟩
  by_cases hn : x = .nan
  · exact .inr hn
  · left
    rw [le_iff_not_lt hn ht, hf]
    rfl

namespace IterateExample
open WProgExample EProgExample

/-- `while(sum(A) < 100) A.insert_back(A);` -/
example {n : Nat} {s' : Store Int} (h : wprogRun dbg n (untilLarge dbg) (only [30, 40]) = some (.ok (), s')) :
    ∃ x, Tells (some .exception) (.reduce (checkedInts dbg) .sum 0 self) s' (.ok x) ∧ decide (x < 100) = false :=
  C132_tolerance (b := dbg) (by decide) n h fun x u h => (untilLarge_meets dbg fine_30 x u h).1

/-- `while(!(sum(A) <= 100)) {}` -/
def notSmall : WProg Int :=
  .whileDo (.not (.cmp (fun x y => decide (x ≤ y)) (.reduce (checkedInts dbg) .sum 0 self) (.lit 100))) (.prog .skip)

theorem sum_70 {K : Option Kind} {r : Res Int}
    (h : Tells K (.reduce (checkedInts dbg) .sum 0 self) (only [30, 40]) r) : r = .ok 70 := by
  cases h with
  | @reduce _ _ _ _ _ _ xs hx =>
    have : xs.map Res.ok = [30, 40].map Res.ok := hx.2.symm.trans (self_has [30, 40]).2
    rw [List.map_inj_right fun _ _ h => Res.ok.inj h] at this
    subst this
    exact fine_sum dbg fine_30
  | reduceInvalid h _ => exact absurd trivial h

theorem notSmall_meets {K : Option Kind} (x : Work Int) (u : Store Int) (h : Meets K notSmall (only [30, 40]) x u) :
    x.Fits u := by
  have no : ¬ Decides K (.not (.cmp (fun x y => decide (x ≤ y)) (.reduce (checkedInts dbg) .sum 0 self) (.lit 100)))
      (only [30, 40]) (.ok true) := fun h => by
    generalize hr : (Res.ok true : Res Bool) = r at h
    cases h with
    | @not _ _ r1 h1 =>
      cases r1 with
      | ok v =>
        cases v with
        | true => cases hr
        | false =>
          obtain ⟨x, hx, hl⟩ := decides_cmp_lit h1
          cases Res.ok.inj (sum_70 hx)
          cases hl
      | trap k => cases hr
      | ub => cases hr
  cases h with
  | whileDo => exact ⟨self_fits fine_30, trivial⟩
  | whileBody h _ => exact absurd h no
  | whileAgain h _ _ => exact absurd h no

example {n : Nat} {s' : Store Int} (h : wprogRun dbg n notSmall (only [30, 40]) = some (.ok (), s')) :
    ∃ x, Tells (some .exception) (.reduce (checkedInts dbg) .sum 0 self) s' (.ok x) ∧ decide (x ≤ 100) = true :=
  C132_tolerance_not (b := dbg) (by decide) n h notSmall_meets

example : ∃ n, wprogRun dbg n notSmall (only [30, 40]) = some (.ok (), only [30, 40]) := by
  have h := Decides.not (Decides.cmp (K := none) (f := fun x y : Int => decide (x ≤ y)) (r1 := .ok 70)
    (x := .reduce (checkedInts dbg) .sum 0 self) (s := only [30, 40])
    (fine_sum dbg fine_30 ▸ .reduce (self_has _)) fun _ _ => Tells.lit (x := 100) (s := only [30, 40]))
  obtain ⟨n, hn⟩ := C132_valid_program dbg (.whileFalse h) (notSmall_meets (K := none))
  exact ⟨n, hn n le_rfl⟩

/-- One array with the element NaN. -/
def broken : Store FVal := ⟨upd (fun _ => []) 0 [.nan], fun _ => ⟨0, 0, []⟩⟩

/-- `norm2(A)` -/
def residual (F : Fmt) : Query FVal := .reduce F.scalar.toScalar .norm2 (.fin false 0) (.lv (.arr1 0) : Tm FVal .one)

theorem residual_nan (F : Fmt) {K : Option Kind} : Tells K (residual F) broken (.ok .nan) :=
  Tells.reduce (xs := [FVal.nan]) ⟨trivial, rfl⟩

theorem residual_fits (F : Fmt) : (residual F).Fits broken := by
  refine ⟨⟨⟨fun i => ?_, fun i => ⟨⟨Int.le_refl _, Int.le_refl _, rfl, Iff.rfl⟩, show (0 : Int) < 2 ^ 61 by decide⟩⟩,
    trivial, trivial⟩, fun _ r hr => ?_⟩
  · by_cases hi : i = 0 <;> simp [broken, upd, hi]
  · exact ⟨.nan, by simpa using (show r ∈ [Res.ok FVal.nan] from hr)⟩

/-- `while(norm2(A) > tol) {}` ends at once: the norm is NaN. -/
def greater (F : Fmt) (tol : FVal) : WProg FVal :=
  .whileDo (.cmp (fun x y => FVal.lt y x) (residual F) (.lit tol)) (.prog .skip)

theorem not_greater (F : Fmt) (tol : FVal) {K : Option Kind} :
    Decides K (.cmp (fun x y => FVal.lt y x) (residual F) (.lit tol)) broken (.ok false) := by
  have := Decides.cmp (K := K) (f := fun x y => FVal.lt y x) (residual_nan F) fun _ _ => Tells.lit (x := tol) (s := broken)
  rwa [show (Res.ok FVal.nan).bind (fun a => (Res.ok tol).bind fun c => Res.ok (FVal.lt c a)) = .ok false by
    cases tol <;> rfl] at this

theorem residual_only (F : Fmt) {K : Option Kind} {r : Res FVal} (h : Tells K (residual F) broken r) : r = .ok .nan := by
  cases h with
  | @reduce _ _ _ _ _ _ xs hx =>
    have : [Res.ok FVal.nan] = xs.map Res.ok := hx.2
    rcases xs with _ | ⟨x, _ | ⟨y, xs⟩⟩
    · simp at this
    · rw [List.map_cons, List.map_nil, List.cons.injEq] at this
      cases Res.ok.inj this.1
      rfl
    · simp at this
  | reduceInvalid h _ => exact absurd trivial h

theorem greater_meets (F : Fmt) (tol : FVal) {K : Option Kind} (x : Work FVal) (u : Store FVal)
    (h : Meets K (greater F tol) broken x u) : x.Fits u := by
  have no : ¬ Decides K (.cmp (fun x y => FVal.lt y x) (residual F) (.lit tol)) broken (.ok true) := fun h => by
    obtain ⟨x, hx, hl⟩ := decides_cmp_lit h
    cases Res.ok.inj (residual_only F hx)
    cases tol <;> cases hl
  cases h with
  | whileDo => exact ⟨residual_fits F, trivial⟩
  | whileBody h _ => exact absurd h no
  | whileAgain h _ _ => exact absurd h no

example (F : Fmt) (tol : FVal) (b : Build) : ∃ n0, ∀ n, n0 ≤ n →
    wprogRun b n (greater F tol) broken = some (.ok (), broken) :=
  C132_valid_program b (.whileFalse (not_greater F tol)) fun x u h => greater_meets F tol x u h

/-- The alternative of NaN in C132_tolerance_float is needed. -/
example (F : Fmt) : ∃ n, wprogRun dbg n (greater F (.fin false 1)) broken = some (.ok (), broken) ∧
    ∀ x, Tells (some .exception) (residual F) broken (.ok x) → FVal.le x (.fin false 1) = false := by
  obtain ⟨n, hn⟩ := C132_valid_program dbg (.whileFalse (not_greater F (.fin false 1)))
    fun x u h => greater_meets F (.fin false 1) x u h
  refine ⟨n, hn n le_rfl, fun x hx => ?_⟩
  cases Res.ok.inj (residual_only F hx)
  rfl

example (F : Fmt) {n : Nat} {s' : Store FVal} (h : wprogRun dbg n (greater F (.fin false 1)) broken = some (.ok (), s')) :
    ∃ x, Tells (some .exception) (residual F) s' (.ok x) ∧ (FVal.le x (.fin false 1) = true ∨ x = .nan) :=
  (C132_tolerance_float (b := dbg) (by decide) n (by simp)).1 h fun x u h => greater_meets F _ x u h

/-- `while(!(norm2(A) <= tol)) {}` does not end: the norm is NaN. -/
example (F : Fmt) (tol : FVal) (b : Build) (n : Nat) :
    wprogRun b n (.whileDo (.not (.cmp FVal.le (residual F) (.lit tol))) (.prog .skip)) broken = none :=
  C132_forever b (Inv := fun u => u = broken) (fun u hu => hu ▸ ⟨residual_fits F, trivial⟩)
    (fun u _ x v h => by cases h with | prog h => cases h)
    (fun u hu => by
      subst hu
      have := Decides.not (Decides.cmp (K := none) (f := FVal.le) (residual_nan F) fun _ _ =>
        Tells.lit (x := tol) (s := broken))
      exact ⟨this, _, .prog .skip, rfl⟩) rfl n

end IterateExample

end Spp.Props
