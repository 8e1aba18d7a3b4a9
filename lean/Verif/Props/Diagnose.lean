import Verif.Model.Diagnose
import Verif.Lemmas.Print
import Verif.Lemmas.Index
import Mathlib.Data.List.Basic

/-
C133: the text of exceptions tells what was rejected and where.
-/

namespace Spp.Props

open Spp Spec

variable {α β : Type}

/-! ## Lemmas -/

@[simp] private theorem told_ok (a : α) (f : α → Told β) : (Told.ok a >>= f) = f a := rfl
@[simp] private theorem told_thrown (w : List Char) (f : α → Told β) : (Told.thrown w >>= f) = .thrown w := rfl
@[simp] private theorem told_aborted (f : α → Told β) : ((Told.aborted : Told α) >>= f) = .aborted := rfl
@[simp] private theorem told_ub (f : α → Told β) : ((Told.ub : Told α) >>= f) = .ub := rfl

private theorem outcome_bind (x : Told α) (f : α → Told β) :
    (x >>= f).outcome = x.outcome >>= fun a => (f a).outcome := by
  cases x <;> rfl

private theorem outcome_part (x : Res α) : (Diag.part x).outcome = x := by
  rcases x with _ | ⟨_ | _⟩ | _ <;> rfl

private theorem outcome_always (b : Build) (m : String) (p : Place) (c : Bool) :
    (Diag.always b m p c).outcome = assertAlways b c := by
  rcases b with ⟨_, _ | _, _ | _⟩ <;> cases c <;> rfl

private theorem outcome_debug (b : Build) (m : String) (p : Place) (c : Bool) :
    (Diag.debug b m p c).outcome = assertDebug b c := by
  rcases b with ⟨_ | _, _ | _, _ | _⟩ <;> cases c <;> rfl

private theorem text_eq (r : Reason) (p : Place) : Diag.text r.words p = message r p := by
  unfold Diag.text Diag.traceErr message
  have e : (toString p.line).toList = Nat.toDigits 10 p.line := by
    show (Nat.repr p.line).toList = _
    simp [Nat.repr]
  simp only [String.toList_append, toString, e, IO.digits_eq, List.append_assoc]
  simp

private theorem always_thrown {b : Build} {r : Reason} {p : Place} {c : Bool} {w : List Char} :
    Diag.always b r.words p c = .thrown w ↔ b.exceptions = true ∧ c = false ∧ w = message r p := by
  unfold Diag.always
  rw [text_eq]
  rcases b with ⟨_, _ | _, _ | _⟩ <;> cases c <;> simp [eq_comm]

private theorem debug_thrown {b : Build} {r : Reason} {p : Place} {c : Bool} {w : List Char} :
    Diag.debug b r.words p c = .thrown w ↔
      b.debugOff = false ∧ b.exceptions = true ∧ c = false ∧ w = message r p := by
  unfold Diag.debug
  split
  · next h => simp [h]
  · next h => simp [h, always_thrown]

private theorem bind_thrown {x : Told α} {f : α → Told β} {w : List Char} :
    (x >>= f) = .thrown w ↔ x = .thrown w ∨ ∃ a, x = .ok a ∧ f a = .thrown w := by
  cases x <;> simp

private theorem part_ok (a : α) : Diag.part (.ok a) = .ok a := rfl

private theorem part_thrown {x : Res α} {w : List Char} (h : ∀ k, x ≠ .trap k) : Diag.part x ≠ .thrown w := by
  rcases x with _ | ⟨_ | _⟩ | _ <;> simp [Diag.part] at h ⊢

private theorem arith_untrapped (t : IntTy) (v : Int) (k : Kind) : t.arith v ≠ .trap k := by
  unfold IntTy.arith
  split
  · split <;> simp
  · simp

private theorem part_builtinDiv {t : IntTy} {x y : Int} {w : List Char} :
    Diag.part (SInt.builtinDiv t x y) ≠ .thrown w := part_thrown fun k => by
  unfold SInt.builtinDiv
  split
  · simp
  · exact arith_untrapped _ _ _

private theorem part_builtinRem {t : IntTy} {x y : Int} {w : List Char} :
    Diag.part (SInt.builtinRem t x y) ≠ .thrown w := part_thrown fun k => by
  unfold SInt.builtinRem
  split
  · simp
  · split <;> simp

private theorem part_builtinShl {t : IntTy} {x y : Int} {w : List Char} :
    Diag.part (SInt.builtinShl t x y) ≠ .thrown w := part_thrown fun k => by
  unfold SInt.builtinShl
  split <;> simp

private theorem part_builtinShr {t : IntTy} {x y : Int} {w : List Char} :
    Diag.part (SInt.builtinShr t x y) ≠ .thrown w := part_thrown fun k => by
  unfold SInt.builtinShr
  split <;> simp

private theorem part_rd {l : List α} {i : Int} {w : List Char} : Diag.part (rd l i) ≠ .thrown w :=
  part_thrown fun k => by
    unfold rd
    split
    · split <;> simp
    · simp

private theorem part_off {c i j : Int} {w : List Char} : Diag.part (Elem2.off c i j) ≠ .thrown w :=
  part_thrown fun k h => by
    unfold Elem2.off at h
    cases e : imul i c with
    | ok v => rw [e] at h; exact arith_untrapped IntTy.long (v + j) k h
    | trap k => exact arith_untrapped IntTy.long (i * c) k e
    | ub => rw [e] at h; cases h

private theorem valid_false {n i : Int} : validIndex n i = false ↔ ¬ InRange n i := validIndex_false

/-! ## C133 -/

/-- What a check whose condition is `c` does in each build: debug checks are compiled out by `STRICT_DEBUG_OFF`; failing
checks throw with `STRICT_ERROR_EXCEPTIONS`, otherwise they abort, or do nothing with `NDEBUG`.  Exceptions do not apply to
the checks of move assignment. -/
theorem C133_builds (b : Build) (c : Bool) :
    (assertAlways b c = if c = true ∨ (b.exceptions = false ∧ b.ndebug = true) then .ok () else
      .trap (if b.exceptions then .exception else .abort)) ∧
    (assertDebug b c = if c = true ∨ b.debugOff = true ∨ (b.exceptions = false ∧ b.ndebug = true) then .ok () else
      .trap (if b.exceptions then .exception else .abort)) ∧
    (assertNormal b c = if c = true ∨ b.debugOff = true ∨ b.ndebug = true then .ok () else .trap .abort) := by
  rcases b with ⟨_ | _, _ | _, _ | _⟩ <;> cases c <;> decide

/-- The condition of a debug check is evaluated exactly in the builds without `STRICT_DEBUG_OFF`, `NDEBUG` or not: if
evaluating it is undefined, so is the check. -/
theorem C133_condition (b : Build) (c : Res Bool) :
    (b.debugOff = true → assertDebugM b c = .ok ()) ∧
    (b.debugOff = false → (∀ v, c = .ok v → assertDebugM b c = assertDebug b v) ∧
      (∀ k, c = .trap k → assertDebugM b c = .trap k) ∧ (c = .ub → assertDebugM b c = .ub)) := by
  refine ⟨fun h => by simp [assertDebugM, h], fun h => ⟨?_, ?_, ?_⟩⟩
  · rintro v rfl; exact assertDebugM_ok b v
  · rintro k rfl; simp [assertDebugM, h]
  · rintro rfl; simp [assertDebugM, h]

/-- The exceptions with their texts are the rejections of the model without texts: nothing else throws, aborts or is
undefined. -/
theorem C133_outcome (b : Build) (file : List Char) :
    (∀ t x y, (Diag.div b file t x y).outcome = SInt.div b t x y) ∧
    (∀ t x y, (Diag.rem b file t x y).outcome = SInt.rem b t x y) ∧
    (∀ t x y, (Diag.shl b file t x y).outcome = SInt.shl b t x y) ∧
    (∀ t x y, (Diag.shr b file t x y).outcome = SInt.shr b t x y) ∧
    (∀ (const : Bool) (l : List α) p, (Diag.sub1 b file const l p).outcome = Elem1.sub b l p) ∧
    (∀ (const : Bool) (l : List α) p, (Diag.at1 b file const l p).outcome = Elem1.at_ b l p) ∧
    (∀ (const : Bool) m n (l : List α) p q, (Diag.sub2 b file const m n l p q).outcome = Elem2.sub b m n l p q) ∧
    (∀ (const : Bool) m n (l : List α) p q, (Diag.at2 b file const m n l p q).outcome = Elem2.at_ b m n l p q) ∧
    ∀ line contents, (Diag.openFile b file line contents).outcome = IO.openFile b contents := by
  refine ⟨fun t x y => ?_, fun t x y => ?_, fun t x y => ?_, fun t x y => ?_, fun c l p => ?_, fun c l p => ?_,
    fun c m n l p q => ?_, fun c m n l p q => ?_, fun line s => ?_⟩
  · simp only [Diag.div, Diag.divisionDebug, outcome_bind, outcome_debug, outcome_part, SInt.div]
  · simp only [Diag.rem, Diag.remainderDebug, outcome_bind, outcome_debug, outcome_part, SInt.rem]
  · unfold Diag.shl SInt.shl SInt.shiftChecks
    split
    · simp only [Diag.shiftFirstDebug, Diag.shiftSecondDebug, outcome_bind, outcome_debug, outcome_part, bind_assoc]
    · simp only [outcome_part, Res.ok_bind]
  · unfold Diag.shr SInt.shr SInt.shiftChecks
    split
    · simp only [Diag.shiftFirstDebug, Diag.shiftSecondDebug, outcome_bind, outcome_debug, outcome_part, bind_assoc]
    · simp only [outcome_part, Res.ok_bind]
  · simp only [Diag.sub1, Diag.rangeDebug, outcome_bind, outcome_debug, outcome_part, Elem1.sub]
    cases e : p.resolve (len l) with
    | ok i => simp only [Res.ok_bind, Res.pure_eq, assertDebugM_ok]
    | trap k => exact absurd e resolve_not_trap
    | ub => rcases b with ⟨_ | _, _, _⟩ <;> rfl
  · simp only [Diag.at1, Diag.rangeAlways, outcome_bind, outcome_always, outcome_part, Elem1.at_]
  · simp only [Diag.sub2, Diag.rangeDebug, outcome_bind, outcome_debug, outcome_part, Elem2.sub]
  · simp only [Diag.at2, Diag.rangeAlways, outcome_bind, outcome_always, outcome_part, Elem2.at_]
  · simp only [Diag.openFile, outcome_bind, outcome_always, IO.openFile]
    rfl

/-- An integer division throws exactly when the divisor is 0, in builds with debug checks and exceptions; the text says
so.  The same for remainders, with other words. -/
theorem C133_division (b : Build) (file : List Char) (t : IntTy) (x y : Int) (w : List Char) :
    (Diag.div b file t x y = .thrown w ↔ b.debugOff = false ∧ b.exceptions = true ∧ y = 0 ∧
      w = message .division ⟨file, "operator/", 403, "T{y} != 0"⟩) ∧
    (Diag.rem b file t x y = .thrown w ↔ b.debugOff = false ∧ b.exceptions = true ∧ y = 0 ∧
      w = message .remainder ⟨file, "operator%", 411, "T{y} != 0"⟩) := by
  constructor
  · unfold Diag.div Diag.divisionDebug
    rw [bind_thrown, show "INTEGER DIVISION BY 0!" = Reason.division.words from rfl, debug_thrown]
    simp [part_builtinDiv]
  · unfold Diag.rem Diag.remainderDebug
    rw [bind_thrown, show "MODULO DIVISION BY 0!" = Reason.remainder.words from rfl, debug_thrown]
    simp [part_builtinRem]

/-- A shift of a signed type throws exactly when an operand is negative, in builds with debug checks and exceptions; the
text names the first negative operand.  Shifts of unsigned types do not throw. -/
theorem C133_shift (b : Build) (file : List Char) (t : IntTy) (x y : Int) (w : List Char) :
    (Diag.shl b file t x y = .thrown w ↔ b.debugOff = false ∧ b.exceptions = true ∧ t.signed = true ∧
      ((x < 0 ∧ w = message .shiftFirst ⟨file, "operator<<", 419, "T{x} > -1"⟩) ∨
       (0 ≤ x ∧ y < 0 ∧ w = message .shiftSecond ⟨file, "operator<<", 420, "T{y} > -1"⟩))) ∧
    (Diag.shr b file t x y = .thrown w ↔ b.debugOff = false ∧ b.exceptions = true ∧ t.signed = true ∧
      ((x < 0 ∧ w = message .shiftFirst ⟨file, "operator>>", 429, "T{x} > -1"⟩) ∨
       (0 ≤ x ∧ y < 0 ∧ w = message .shiftSecond ⟨file, "operator>>", 430, "T{y} > -1"⟩))) := by
  have key : ∀ (p q : Place) (r : Told Int), r ≠ .thrown w →
      ((if t.signed then do
          Diag.shiftFirstDebug b p (decide (x > -1))
          Diag.shiftSecondDebug b q (decide (y > -1))
          r
        else r : Told Int) = .thrown w ↔ b.debugOff = false ∧ b.exceptions = true ∧ t.signed = true ∧
      ((x < 0 ∧ w = message .shiftFirst p) ∨ (0 ≤ x ∧ y < 0 ∧ w = message .shiftSecond q))) := by
    intro p q r hr
    split
    · next h =>
      unfold Diag.shiftFirstDebug Diag.shiftSecondDebug
      rw [bind_thrown, show "FIRST SHIFT OPERAND HAS A NEGATIVE VALUE!" = Reason.shiftFirst.words from rfl, debug_thrown]
      simp only [bind_thrown]
      rw [show "SECOND SHIFT OPERAND HAS A NEGATIVE VALUE!" = Reason.shiftSecond.words from rfl]
      simp only [debug_thrown, hr, and_false, exists_false, or_false, decide_eq_false_iff_not, h, true_and]
      constructor
      · rintro (⟨h1, h2, h3, h4⟩ | ⟨a, h0, h1, h2, h3, h4⟩)
        · exact ⟨h1, h2, .inl ⟨by omega, h4⟩⟩
        · refine ⟨h1, h2, .inr ⟨?_, by omega, h4⟩⟩
          by_contra hx
          have : decide (x > -1) = false := decide_eq_false (by omega)
          rw [this] at h0
          simp [Diag.debug, Diag.always, h1, h2] at h0
      · rintro ⟨h1, h2, ⟨h3, h4⟩ | ⟨h3, h4, h5⟩⟩
        · exact .inl ⟨h1, h2, by omega, h4⟩
        · refine .inr ⟨(), ?_, h1, h2, by omega, h5⟩
          have : decide (x > -1) = true := decide_eq_true (by omega)
          rw [this]
          simp [Diag.debug, Diag.always]
    · next h => simp [hr, h]
  exact ⟨key _ _ _ part_builtinShl, key _ _ _ part_builtinShr⟩

/-- Reading an element throws exactly when the position is outside, and the text says so: `[]` and `()` in builds with
debug checks, `at` always; in both cases if exceptions are enabled. -/
theorem C133_element (b : Build) (file : List Char) (const : Bool) (l : List α) (p : Pos)
    (hp : NoOverflow l.length p) (w : List Char) :
    (Diag.sub1 b file const l p = .thrown w ↔ b.debugOff = false ∧ b.exceptions = true ∧
      ¬ InRange l.length (target l.length p) ∧ w = message .range ⟨file, "operator[]", if const then 66 else 59,
        "valid_index(*this, index_helper(*this, i))"⟩) ∧
    (Diag.at1 b file const l p = .thrown w ↔ b.exceptions = true ∧
      ¬ InRange l.length (target l.length p) ∧ w = message .range ⟨file, "at", if const then 90 else 83,
        "valid_index(*this, index_helper(*this, i))"⟩) := by
  have hr : p.resolve (len l) = .ok (target l.length p) := resolve_ok hp
  constructor
  · unfold Diag.sub1 Diag.rangeDebug
    rw [hr, show "OUT OF RANGE!" = Reason.range.words from rfl]
    simp only [part_ok, told_ok]
    rw [bind_thrown, debug_thrown, valid_false]
    simp [part_rd, len]
  · unfold Diag.at1 Diag.rangeAlways
    rw [hr, show "OUT OF RANGE!" = Reason.range.words from rfl]
    simp only [part_ok, told_ok]
    rw [bind_thrown, always_thrown, valid_false]
    simp [part_rd, len]

/-- The same for elements of two-dimensional arrays. -/
theorem C133_element2 (b : Build) (file : List Char) (const : Bool) (m n : Int) (l : List α) (p q : Pos)
    (hp : NoOverflow m p) (hq : NoOverflow n q) (w : List Char) :
    (Diag.sub2 b file const m n l p q = .thrown w ↔ b.debugOff = false ∧ b.exceptions = true ∧
      ¬ (InRange m (target m p) ∧ InRange n (target n q)) ∧ w = message .range ⟨file, "operator()",
        if const then 73 else 65, "valid_index(*this, ih, jh)"⟩) ∧
    (Diag.at2 b file const m n l p q = .thrown w ↔ b.exceptions = true ∧
      ¬ (InRange m (target m p) ∧ InRange n (target n q)) ∧ w = message .range ⟨file, "at",
        if const then 109 else 101, "valid_index(*this, ih, jh)"⟩) := by
  have hv : (validIndex m (target m p) && validIndex n (target n q)) = false ↔
      ¬ (InRange m (target m p) ∧ InRange n (target n q)) := by
    rw [← validIndex_iff, ← validIndex_iff]
    cases validIndex m (target m p) <;> cases validIndex n (target n q) <;> simp
  have hrest : ∀ (u : Unit), (Diag.part (Elem2.off n (target m p) (target n q)) >>= fun o => Diag.part (rd l o)) ≠
      .thrown w := fun _ h => by
    rcases bind_thrown.1 h with h | ⟨o, -, h⟩
    · exact part_off h
    · exact part_rd h
  constructor
  · unfold Diag.sub2 Diag.rangeDebug
    rw [resolve_ok hp, resolve_ok hq, show "OUT OF RANGE!" = Reason.range.words from rfl]
    simp only [part_ok, told_ok]
    rw [bind_thrown, debug_thrown, hv]
    constructor
    · rintro (h | ⟨u, -, h⟩)
      · exact h
      · exact absurd h (hrest u)
    · exact .inl
  · unfold Diag.at2 Diag.rangeAlways
    rw [resolve_ok hp, resolve_ok hq, show "OUT OF RANGE!" = Reason.range.words from rfl]
    simp only [part_ok, told_ok]
    rw [bind_thrown, always_thrown, hv]
    constructor
    · rintro (h | ⟨u, -, h⟩)
      · exact h
      · exact absurd h (hrest u)
    · exact .inl

/-- A file that cannot be opened, and input that is not a number, are named in every build with exceptions. -/
theorem C133_files (b : Build) (file : List Char) (line : Nat) (contents : Option (List Char)) (eof : Bool)
    (w : List Char) :
    (Diag.openFile b file line contents = .thrown w ↔ b.exceptions = true ∧ contents = none ∧
      w = message .path ⟨file, "read_from_file", line, "ifs"⟩) ∧
    (Diag.readEnd b file eof = .thrown w ↔ b.exceptions = true ∧ eof = false ∧
      w = message .input ⟨file, "istream_base_read", 120, "is.eof()"⟩) := by
  constructor
  · unfold Diag.openFile
    cases contents with
    | none =>
      rw [bind_thrown, show "Invalid file path.\n" = Reason.path.words from rfl, always_thrown]
      simp [pure]
    | some t =>
      rw [bind_thrown, show "Invalid file path.\n" = Reason.path.words from rfl, always_thrown]
      simp [pure, IO.Stream.ofText]
  · unfold Diag.readEnd
    rw [show "Invalid input.\n" = Reason.input.words from rfl, always_thrown]

/-- The text tells everything: two rejections with the same text have the same reason, stand at the same place and have
the same condition, if the names of files and functions have no comma in them. -/
theorem C133_tells {r r' : Reason} {p p' : Place} (hf : ',' ∉ p.file) (hf' : ',' ∉ p'.file)
    (hg : ',' ∉ p.func.toList) (hg' : ',' ∉ p'.func.toList) (h : message r p = message r' p') : r = r' ∧ p = p' := by
  have hr : r = r' := by
    have pre : ∀ (k : Nat) (q : Reason), k ≤ (q.words.toList ++ "File: ".toList).length → ∀ x y : List Char, ∀ z,
        List.take k (q.words.toList ++ "File: ".toList ++ x ++ y ++ z) =
          List.take k (q.words.toList ++ "File: ".toList) := by
      intro k q hk x y z
      rw [List.append_assoc, List.append_assoc, List.take_append_of_le_length hk]
    have l6 : ∀ q : Reason, 6 ≤ (q.words.toList ++ "File: ".toList).length := by intro q; cases q <;> decide
    have h6 := congrArg (List.take 6) h
    unfold message at h6
    rw [pre 6 r (l6 r), pre 6 r' (l6 r')] at h6
    have h9 := congrArg (List.take 9) h
    unfold message at h9
    cases r <;> cases r' <;> first | rfl | exact absurd h6 (by decide) | skip
    · rw [pre 9 .input (by decide), pre 9 .path (by decide)] at h9
      exact absurd h9 (by decide)
    · rw [pre 9 .input (by decide), pre 9 .path (by decide)] at h9
      exact absurd h9 (by decide)
  subst hr
  rw [← text_eq, ← text_eq] at h
  unfold Diag.text Diag.traceErr at h
  simp only [List.append_assoc, List.append_cancel_left_eq] at h
  have split : ∀ {a a' x x' : List Char} {c : Char}, c ∉ a → c ∉ a' → a ++ c :: x = a' ++ c :: x' → a = a' ∧ x = x' := by
    intro a
    induction a with
    | nil =>
      intro a' x x' c _ h2 h
      cases a' with
      | nil => exact ⟨rfl, by simpa using h⟩
      | cons d a' =>
        simp only [List.nil_append, List.cons_append, List.cons.injEq] at h
        exact absurd (by simp [h.1]) h2
    | cons d a ih =>
      intro a' x x' c h1 h2 h
      cases a' with
      | nil =>
        simp only [List.nil_append, List.cons_append, List.cons.injEq] at h
        exact absurd (by simp [h.1]) h1
      | cons e a' =>
        simp only [List.cons_append, List.cons.injEq] at h
        obtain ⟨e1, e2⟩ := ih (fun hm => h1 (by simp [hm])) (fun hm => h2 (by simp [hm])) h.2
        exact ⟨by rw [h.1, e1], e2⟩
  have digit : ∀ n : Nat, ':' ∉ IO.digits n := by
    intro n hm
    rw [IO.digits_eq] at hm
    exact absurd ((IO.toDigits_facts n).2.1 _ hm) (by decide)
  have comma : ", function: ".toList = ',' :: " function: ".toList := rfl
  have comma' : ", line: ".toList = ',' :: " line: ".toList := rfl
  have colon : ":".toList = [':'] := rfl
  rw [comma, comma', colon] at h
  simp only [List.cons_append] at h
  obtain ⟨h1, h⟩ := split hf hf' h
  rw [List.append_cancel_left_eq] at h
  obtain ⟨h2, h⟩ := split hg hg' h
  rw [List.append_cancel_left_eq] at h
  simp only [List.nil_append] at h
  obtain ⟨h3, h⟩ := split (digit _) (digit _) h
  rw [List.append_cancel_left_eq] at h
  have h4 := List.append_cancel_right h
  refine ⟨rfl, ?_⟩
  rcases p with ⟨f, g, n, c⟩
  rcases p' with ⟨f', g', n', c'⟩
  have h3' : n = n' := by
    have := congrArg Spec.digitsValue (by simpa [IO.digits_eq] using h3 : Nat.toDigits 10 n = Nat.toDigits 10 n')
    rwa [(IO.toDigits_facts n).2.2, (IO.toDigits_facts n').2.2] at this
  simp only at h1 h2 h4
  rw [h1, h3', String.toList_inj.1 h2, String.toList_inj.1 h4]

/-- `print_config_info` tells how the program was compiled. -/
theorem C133_config (c c' : Config) : Diag.configInfo c = Diag.configInfo c' ↔ c = c' := by
  constructor
  · rcases c with ⟨_ | _, _ | _, _ | _, _ | _⟩ <;> rcases c' with ⟨_ | _, _ | _, _ | _, _ | _⟩ <;> decide
  · rintro rfl; rfl

/-! ## Examples -/

/-- `7_si / 0_si`. -/
example : Diag.div ⟨false, true, false⟩ "strict_val.hpp".toList IntTy.int 7 0 =
    .thrown ("INTEGER DIVISION BY 0!File: strict_val.hpp, function: operator/, line: 403:\n" ++
      "T{y} != 0 failed, exception thrown.").toList :=
  ((C133_division _ _ _ _ _ _).1).2 ⟨rfl, rfl, rfl, by decide⟩

/-- `-1_si << -2_si`: the first operand is named. -/
example : ∃ w, Diag.shl ⟨false, true, false⟩ [] IntTy.int (-1) (-2) = .thrown w ∧
    w.take 5 = "FIRST".toList :=
  ⟨_, ((C133_shift _ _ _ _ _ _).1).2 ⟨rfl, rfl, rfl, .inl ⟨by decide, rfl⟩⟩, by decide⟩

/-- `A[last - 3]` of an array with three elements. -/
example : ∃ w, Diag.sub1 ⟨false, true, false⟩ [] true [1, 2, 3] (.fromLast 3) = .thrown w ∧
    w.take 13 = "OUT OF RANGE!".toList :=
  ⟨_, ((C133_element _ _ _ _ _ (by unfold NoOverflow IsIndex; decide) _).1).2
    ⟨rfl, rfl, by unfold InRange target; decide, rfl⟩, by decide⟩

/-- `A.at(1, 2)` of a matrix with two columns, in a release build. -/
example : ∃ w, Diag.at2 ⟨true, true, false⟩ [] false 2 2 [1, 2, 3, 4] (.at 1) (.at 2) = .thrown w :=
  ⟨_, ((C133_element2 _ _ _ _ _ _ _ _ (by unfold NoOverflow; trivial) (by unfold NoOverflow; trivial) _).2).2
    ⟨rfl, by unfold InRange target; decide, rfl⟩⟩

/-- A missing file. -/
example : ∃ w, Diag.openFile ⟨true, true, true⟩ [] 362 none = .thrown w :=
  ⟨_, ((C133_files _ _ _ _ true _).1).2 ⟨rfl, rfl, rfl⟩⟩

/-- The names in the library have no comma. -/
example : message .range ⟨"a.hpp".toList, "at", 83, "c"⟩ ≠ message .range ⟨"a.hpp".toList, "at", 90, "c"⟩ := fun h => by
  have := (C133_tells (by decide) (by decide) (by decide) (by decide) h).2
  simp at this

example : Diag.configInfo ⟨false, true, false, false⟩ =
    ("compute mode: DEBUG\nerror handling: EXCEPTIONS\nquadruple precision: OFF\n" ++
      "C++23 stacktrace: OFF\n").toList := by decide

end Spp.Props
