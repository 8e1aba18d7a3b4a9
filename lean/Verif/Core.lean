/-
Outcomes, build configurations and the two small monads the model is written in.

Sources: strictpp/StrictCommon/error.hpp.
-/

namespace Spp

/-- How a failed assertion ends the call.  error.hpp:74-80 throws `StrictException` when
`STRICT_ERROR_EXCEPTIONS` is defined; error.hpp:63-69 and 45-51 call `assert`, i.e. `abort`. -/
inductive Kind where
  | exception
  | abort
  deriving DecidableEq, Repr

/-- Outcome of executing a piece of the library.  `ub` is undefined behaviour of C++ (out-of-bounds
access, signed overflow, division by zero, ...); it is a separate outcome so that a theorem that
claims `ok` or `trap` also claims the absence of undefined behaviour. -/
inductive Res (α : Type u) where
  | ok (a : α)
  | trap (k : Kind)
  | ub
  deriving DecidableEq, Repr

namespace Res

@[simp] def bind (x : Res α) (f : α → Res β) : Res β :=
  match x with
  | ok a => f a
  | trap k => trap k
  | ub => ub

instance : Monad Res where
  pure := ok
  bind := bind

@[simp] theorem pure_eq (a : α) : (pure a : Res α) = ok a := rfl
@[simp] theorem ok_bind (a : α) (f : α → Res β) : (ok a >>= f) = f a := rfl
@[simp] theorem trap_bind (k : Kind) (f : α → Res β) : ((trap k : Res α) >>= f) = trap k := rfl
@[simp] theorem ub_bind (f : α → Res β) : ((ub : Res α) >>= f) = ub := rfl
@[simp] theorem map_ok (f : α → β) (a : α) : (f <$> (ok a : Res α)) = ok (f a) := rfl
@[simp] theorem map_trap (f : α → β) (k : Kind) : (f <$> (trap k : Res α)) = trap k := rfl
@[simp] theorem map_ub (f : α → β) : (f <$> (ub : Res α)) = ub := rfl

instance : LawfulMonad Res := LawfulMonad.mk'
  (id_map := by intro α x; cases x <;> rfl)
  (pure_bind := by intros; rfl)
  (bind_assoc := by intro α β γ x f g; cases x <;> rfl)
  (bind_pure_comp := by intro α β f x; cases x <;> rfl)

/-- The outcome is defined: a value or a reported failure, but not undefined behaviour. -/
def Defined (x : Res α) : Prop := x ≠ ub

theorem bind_eq_ok {x : Res α} {f : α → Res β} {b : β} :
    (x >>= f) = ok b ↔ ∃ a, x = ok a ∧ f a = ok b := by
  cases x <;> simp

end Res

/-- A build configuration: the macros that select how assertions behave.
* `debugOff`   : `STRICT_DEBUG_OFF` (error.hpp:44, 86)
* `exceptions` : `STRICT_ERROR_EXCEPTIONS` (error.hpp:62)
* `ndebug`     : the standard `NDEBUG`, which turns `assert` into a no-op. -/
structure Build where
  debugOff : Bool
  exceptions : Bool
  ndebug : Bool
  deriving DecidableEq, Repr

namespace Build

/-- What an effective failed assertion does in this build (error.hpp:62-82). -/
def kind (b : Build) : Kind := if b.exceptions then .exception else .abort

/-- The build in which "always" assertions are effective. -/
def Guarded (b : Build) : Prop := b.exceptions = true ∨ b.ndebug = false

/-- The build in which debug assertions are effective ("debug build"). -/
def Checked (b : Build) : Prop := b.debugOff = false ∧ b.Guarded

/-- The build in which debug assertions have no effect ("release build"). -/
def Release (b : Build) : Prop := b.debugOff = true

instance (b : Build) : Decidable b.Guarded := inferInstanceAs (Decidable (_ ∨ _))
instance (b : Build) : Decidable b.Checked := inferInstanceAs (Decidable (_ ∧ _))
instance (b : Build) : Decidable b.Release := inferInstanceAs (Decidable (_ = _))

end Build

/-- `ASSERT_STRICT_ALWAYS` and its variants, error.hpp:62-82, 100.  Without
`STRICT_ERROR_EXCEPTIONS` it is a plain `assert`, which is a no-op under `NDEBUG`. -/
def assertAlways (b : Build) (c : Bool) : Res Unit :=
  if c then .ok ()
  else if b.exceptions then .trap .exception
  else if b.ndebug then .ok ()
  else .trap .abort

/-- `ASSERT_STRICT_DEBUG` and its variants, error.hpp:86-94, 98, 104-114. -/
def assertDebug (b : Build) (c : Bool) : Res Unit :=
  if b.debugOff then .ok () else assertAlways b c

/-- `NORMAL_ASSERT_STRICT_DEBUG`, error.hpp:44-58: never throws, also in exception builds. -/
def assertNormal (b : Build) (c : Bool) : Res Unit :=
  if b.debugOff then .ok ()
  else if c then .ok ()
  else if b.ndebug then .ok ()
  else .trap .abort

/-- `ASSERT_STRICT_DEBUG(e)` where evaluating `e` can itself go wrong (overflow, out-of-range read):
the condition is not evaluated if debug assertions are compiled out (error.hpp:86-94).  `NDEBUG` alone does not
suppress the evaluation: the macro tests the condition before it calls `assert` (error.hpp:62-69). -/
def assertDebugM (b : Build) (c : Res Bool) : Res Unit :=
  if b.debugOff then .ok () else c >>= assertAlways b

@[simp] theorem assertDebugM_ok (b : Build) (c : Bool) :
    assertDebugM b (.ok c) = assertDebug b c := by
  rcases b with ⟨_ | _, _ | _, _ | _⟩ <;> cases c <;> rfl

theorem assertDebugM_checked {b : Build} (h : b.Checked) (c : Res Bool) :
    assertDebugM b c = (c >>= assertAlways b) := by
  simp [assertDebugM, h.1]

@[simp] theorem assertAlways_true (b : Build) : assertAlways b true = .ok () := rfl
@[simp] theorem assertDebug_true (b : Build) : assertDebug b true = .ok () := by
  simp [assertDebug]
@[simp] theorem assertNormal_true (b : Build) : assertNormal b true = .ok () := by
  simp [assertNormal]

theorem assertAlways_false {b : Build} (h : b.Guarded) :
    assertAlways b false = .trap b.kind := by
  unfold assertAlways Build.kind
  rcases h with h | h <;> simp [h] <;> split <;> simp_all

theorem assertDebug_false {b : Build} (h : b.Checked) :
    assertDebug b false = .trap b.kind := by
  unfold assertDebug
  simp [h.1, assertAlways_false h.2]

theorem assertDebug_release {b : Build} (h : b.Release) (c : Bool) :
    assertDebug b c = .ok () := by
  unfold Build.Release at h
  simp [assertDebug, h]

/-! ### Loops -/

/-- `for(index_t i = 0; i < n; ++i) acc = f(i, acc)`: the loop that the library writes with
`index_t` counters; the body may fail. -/
def foldN (n : Nat) (f : Nat → β → Res β) (init : β) : Res β :=
  match n with
  | 0 => .ok init
  | k + 1 => foldN k f init >>= f k

@[simp] theorem foldN_zero (f : Nat → β → Res β) (init : β) : foldN 0 f init = .ok init := rfl
theorem foldN_succ (n : Nat) (f : Nat → β → Res β) (init : β) :
    foldN (n + 1) f init = (foldN n f init >>= f n) := rfl

/-- Loop rule: if the invariant holds initially and each successful iteration re-establishes it,
the loop succeeds in a state that satisfies it. -/
theorem foldN_inv {β : Type u} {f : Nat → β → Res β} {init : β} (I : Nat → β → Prop) (n : Nat)
    (h0 : I 0 init) (hs : ∀ k s, k < n → I k s → ∃ s', f k s = .ok s' ∧ I (k + 1) s') :
    ∃ s, foldN n f init = .ok s ∧ I n s := by
  induction n with
  | zero => exact ⟨init, rfl, h0⟩
  | succ n ih =>
    obtain ⟨s, hs1, hs2⟩ := ih (fun k s hk => hs k s (by omega))
    obtain ⟨s', h1, h2⟩ := hs n s (by omega) hs2
    exact ⟨s', by simp [foldN_succ, hs1, h1], h2⟩

/-- If every iteration succeeds as given by `g`, so does the loop. -/
theorem foldN_ok {β : Type u} {f : Nat → β → Res β} {init : β} (g : Nat → β) (n : Nat)
    (h0 : g 0 = init) (hs : ∀ k, k < n → f k (g k) = .ok (g (k + 1))) :
    foldN n f init = .ok (g n) := by
  obtain ⟨s, h1, h2⟩ := foldN_inv (f := f) (init := init) (fun k s => s = g k) n h0.symm
    (fun k s hk h => ⟨g (k + 1), by subst h; exact hs k hk, rfl⟩)
  rw [h1, h2]

theorem foldN_congr {β : Type u} {f g : Nat → β → Res β} {init : β} (n : Nat)
    (h : ∀ k s, k < n → f k s = g k s) : foldN n f init = foldN n g init := by
  induction n with
  | zero => rfl
  | succ n ih =>
    rw [foldN_succ, foldN_succ, ih (fun k s hk => h k s (by omega))]
    cases foldN n g init with
    | ok a => exact h n a (by omega)
    | trap k => rfl
    | ub => rfl

/-! ### Computations with an object state

A member function that modifies objects is a function of the state before the call, returning the
outcome *and* the state at the moment it returned or trapped; this makes "what does the object look
like after an exception" a meaningful question. -/

/-- A computation on object state `σ`. -/
def Op (σ : Type u) (α : Type v) : Type (max u v) := σ → Res α × σ

namespace Op

@[simp] def pure' (a : α) : Op σ α := fun s => (.ok a, s)
@[simp] def bind' (x : Op σ α) (f : α → Op σ β) : Op σ β := fun s =>
  match x s with
  | (.ok a, s') => f a s'
  | (.trap k, s') => (.trap k, s')
  | (.ub, s') => (.ub, s')

instance : Monad (Op σ) where
  pure := pure'
  bind := bind'

/-- Run a stateless computation. -/
def lift (r : Res α) : Op σ α := fun s => (r, s)
/-- Read the object state. -/
def get : Op σ σ := fun s => (.ok s, s)
/-- Replace the object state. -/
def set (s' : σ) : Op σ Unit := fun _ => (.ok (), s')

@[simp] theorem pure_run (a : α) (s : σ) : (pure a : Op σ α) s = (.ok a, s) := rfl
theorem bind_run (x : Op σ α) (f : α → Op σ β) (s : σ) :
    (x >>= f) s = match x s with
      | (.ok a, s') => f a s'
      | (.trap k, s') => (.trap k, s')
      | (.ub, s') => (.ub, s') := rfl
@[simp] theorem lift_ok_bind (a : α) (f : α → Op σ β) (s : σ) :
    (lift (.ok a) >>= f) s = f a s := rfl
@[simp] theorem lift_trap_bind (k : Kind) (f : α → Op σ β) (s : σ) :
    (lift (.trap k : Res α) >>= f) s = (.trap k, s) := rfl
@[simp] theorem lift_ub_bind (f : α → Op σ β) (s : σ) :
    (lift (.ub : Res α) >>= f) s = (.ub, s) := rfl
@[simp] theorem get_bind (f : σ → Op σ β) (s : σ) : (get >>= f) s = f s s := rfl
@[simp] theorem set_bind (s' : σ) (f : Unit → Op σ β) (s : σ) : (set s' >>= f) s = f () s' := rfl
@[simp] theorem set_run (s' s : σ) : (set s' : Op σ Unit) s = (.ok (), s') := rfl
@[simp] theorem get_run (s : σ) : (get : Op σ σ) s = (.ok s, s) := rfl
@[simp] theorem lift_run (r : Res α) (s : σ) : (lift r : Op σ α) s = (r, s) := rfl

/-- `for(index_t i = 0; i < n; ++i) body(i)` on object state. -/
def forN (n : Nat) (body : Nat → Op σ Unit) : Op σ Unit :=
  match n with
  | 0 => fun s => (.ok (), s)
  | k + 1 => bind' (forN k body) (fun _ => body k)

@[simp] theorem forN_zero (body : Nat → Op σ Unit) (s : σ) : forN 0 body s = (.ok (), s) := rfl
theorem forN_succ (n : Nat) (body : Nat → Op σ Unit) (s : σ) :
    forN (n + 1) body s = match forN n body s with
      | (.ok _, s') => body n s'
      | (.trap k, s') => (.trap k, s')
      | (.ub, s') => (.ub, s') := by
  show bind' (forN n body) (fun _ => body n) s = _
  unfold bind'
  rcases forN n body s with ⟨_ | _ | _, _⟩ <;> rfl

theorem forN_inv {body : Nat → Op σ Unit} {s : σ} (I : Nat → σ → Prop) (n : Nat)
    (h0 : I 0 s) (hs : ∀ k t, k < n → I k t → ∃ t', body k t = (.ok (), t') ∧ I (k + 1) t') :
    ∃ t, forN n body s = (.ok (), t) ∧ I n t := by
  induction n with
  | zero => exact ⟨s, rfl, h0⟩
  | succ n ih =>
    obtain ⟨t, h1, h2⟩ := ih (fun k t hk => hs k t (by omega))
    obtain ⟨t', h3, h4⟩ := hs n t (by omega) h2
    exact ⟨t', by simp [forN_succ, h1, h3], h4⟩

end Op

end Spp
