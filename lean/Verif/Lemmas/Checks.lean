import Verif.Spec.Checks
import Verif.Model.History1D
import Verif.Model.History2D

/-
Running the same code with and without debug checks.  `Tr u R x y`: `x` is the outcome with checks, `y` the outcome
without; if `x` is a value then `y` is a related value, and with `u = true` also undefined behaviour carries over.
-/

set_option linter.unusedSectionVars false

namespace Spp

open Spec

/-- Outcome with checks, outcome without. -/
inductive Tr (u : Bool) {A B : Type} (R : A → B → Prop) : Res A → Res B → Prop where
  | trap (k y) : Tr u R (.trap k) y
  | ub0 (h : u = false) (y) : Tr u R .ub y
  | ub : Tr u R .ub .ub
  | ok {x y} (h : R x y) : Tr u R (.ok x) (.ok y)

namespace Tr

variable {u : Bool} {A B C D : Type} {R : A → B → Prop} {S : C → D → Prop}

theorem refl (x : Res A) : Tr u Eq x x := by
  cases x with
  | ok a => exact .ok rfl
  | trap k => exact .trap k _
  | ub => exact .ub

theorem of_eq {x y : Res A} (h : x = y) : Tr u Eq x y := h ▸ refl x

theorem bind {x : Res A} {y : Res B} {f : A → Res C} {g : B → Res D} (h : Tr u R x y)
    (hf : ∀ a b, R a b → Tr u S (f a) (g b)) : Tr u S (x >>= f) (y >>= g) := by
  cases h with
  | trap k y => exact .trap k _
  | ub0 h y => exact .ub0 h _
  | ub => exact .ub
  | ok h => exact hf _ _ h

theorem bindEq {x y : Res A} {f : A → Res C} {g : A → Res D} (h : Tr u Eq x y)
    (hf : ∀ a, Tr u S (f a) (g a)) : Tr u S (x >>= f) (y >>= g) :=
  bind h fun a b h => by subst h; exact hf a

theorem ite {c : Prop} [Decidable c] {x x' : Res A} {y y' : Res B} (h : Tr u R x y) (h' : Tr u R x' y') :
    Tr u R (if c then x else x') (if c then y else y') := by
  by_cases hc : c <;> simp only [hc, if_true, if_false] <;> assumption

theorem mono {R' : A → B → Prop} {x : Res A} {y : Res B} (h : Tr u R x y) (hr : ∀ a b, R a b → R' a b) :
    Tr u R' x y := by
  cases h with
  | trap k y => exact .trap k _
  | ub0 h y => exact .ub0 h _
  | ub => exact .ub
  | ok h => exact .ok (hr _ _ h)

theorem foldN {f g : Nat → A → Res A} (n : Nat) (i : A) (h : ∀ k a, Tr u Eq (f k a) (g k a)) :
    Tr u Eq (foldN n f i) (foldN n g i) := by
  induction n with
  | zero => exact refl _
  | succ n ih => exact bindEq ih (fun a => h n a)

theorem assertDebug (b : Build) (c : Bool) : Tr u Eq (assertDebug b c) (assertDebug (off b) c) := by
  rcases b with ⟨_ | _, _ | _, _ | _⟩ <;> cases c <;> first | exact refl _ | exact .trap _ _

theorem assertNormal (b : Build) (c : Bool) : Tr u Eq (assertNormal b c) (assertNormal (off b) c) := by
  rcases b with ⟨_ | _, _ | _, _ | _⟩ <;> cases c <;> first | exact refl _ | exact .trap _ _

theorem assertAlways (b : Build) (c : Bool) : Tr u Eq (assertAlways b c) (assertAlways (off b) c) := refl _

/-- The condition itself may be undefined; then nothing is claimed. -/
theorem assertDebugM (b : Build) (c c' : Res Bool) : Tr false Eq (assertDebugM b c) (assertDebugM (off b) c') := by
  have h : Spp.assertDebugM (off b) c' = .ok () := by simp [Spp.assertDebugM, off]
  rw [h]
  unfold Spp.assertDebugM
  split
  · exact refl _
  · cases c with
    | ok v => cases v <;> rcases b with ⟨_ | _, _ | _, _ | _⟩ <;> first | exact .ok rfl | exact .trap _ _
    | trap k => exact .trap k _
    | ub => exact .ub0 rfl _

/-- `A && B` in a condition, where the operands can fail. -/
theorem assertDebugM' (b : Build) {c c' : Res Bool} (h : c ≠ .ub) :
    Tr u Eq (Spp.assertDebugM b c) (Spp.assertDebugM (off b) c') := by
  have h' : Spp.assertDebugM (off b) c' = .ok () := by simp [Spp.assertDebugM, off]
  rw [h']
  unfold Spp.assertDebugM
  split
  · exact refl _
  · cases c with
    | ok v => cases v <;> rcases b with ⟨_ | _, _ | _, _ | _⟩ <;> first | exact .ok rfl | exact .trap _ _
    | trap k => exact .trap k _
    | ub => exact absurd rfl h

theorem value {x : Res A} {y : Res B} (h : Tr u R x y) {a : A} (ha : x = .ok a) : ∃ b, y = .ok b ∧ R a b := by
  subst ha
  cases h with
  | ok h => exact ⟨_, rfl, h⟩

end Tr

/-- The same for computations on object state: the final states agree too. -/
inductive OTr (u : Bool) {σ A B : Type} (R : A → B → Prop) : Res A × σ → Res B × σ → Prop where
  | trap (k s y) : OTr u R (.trap k, s) y
  | ub0 (h : u = false) (s y) : OTr u R (.ub, s) y
  | ub (s) : OTr u R (.ub, s) (.ub, s)
  | ok {x y} (h : R x y) (s) : OTr u R (.ok x, s) (.ok y, s)

/-- From every state. -/
def OpTr (u : Bool) {σ A B : Type} (R : A → B → Prop) (x : Op σ A) (y : Op σ B) : Prop := ∀ s, OTr u R (x s) (y s)

namespace OpTr

variable {u : Bool} {σ A B C D : Type} {R : A → B → Prop} {S : C → D → Prop}

theorem refl (x : Op σ A) : OpTr u Eq x x := fun s => by
  generalize x s = p
  rcases p with ⟨_ | _ | _, s⟩
  · exact .ok rfl s
  · exact .trap _ _ _
  · exact .ub s

theorem lift {x : Res A} {y : Res B} (h : Tr u R x y) : OpTr u R (Op.lift x : Op σ A) (Op.lift y) := fun s => by
  cases h with
  | trap k y => exact .trap k _ _
  | ub0 h y => exact .ub0 h _ _
  | ub => exact .ub _
  | ok h => exact .ok h _

theorem bind {x : Op σ A} {y : Op σ B} {f : A → Op σ C} {g : B → Op σ D} (h : OpTr u R x y)
    (hf : ∀ a b, R a b → OpTr u S (f a) (g b)) : OpTr u S (x >>= f) (y >>= g) := fun s => by
  rw [Op.bind_run, Op.bind_run]
  have h := h s
  generalize x s = p at h
  generalize y s = q at h
  cases h with
  | trap k s y => exact .trap k _ _
  | ub0 h s y => exact .ub0 h _ _
  | ub s => exact .ub _
  | ok h s => exact hf _ _ h s

theorem bindEq {x y : Op σ A} {f : A → Op σ C} {g : A → Op σ D} (h : OpTr u Eq x y)
    (hf : ∀ a, OpTr u S (f a) (g a)) : OpTr u S (x >>= f) (y >>= g) :=
  bind h fun a b h => by subst h; exact hf a

theorem ite {c : Prop} [Decidable c] {x x' : Op σ A} {y y' : Op σ B} (h : OpTr u R x y) (h' : OpTr u R x' y') :
    OpTr u R (if c then x else x') (if c then y else y') := by
  by_cases hc : c <;> simp only [hc, if_true, if_false] <;> assumption

theorem forN {f g : Nat → Op σ Unit} (n : Nat) (h : ∀ k, OpTr u Eq (f k) (g k)) :
    OpTr u Eq (Op.forN n f) (Op.forN n g) := by
  induction n with
  | zero => exact refl _
  | succ n ih => exact bindEq ih (fun _ => h n)

end OpTr

/-- Lemmas about named functions, tried by `checks`. -/
syntax "checks_lemma" : tactic
macro_rules | `(tactic| checks_lemma) => `(tactic| with_reducible exact Tr.refl _)
macro_rules | `(tactic| checks_lemma) => `(tactic| with_reducible exact OpTr.refl _)
macro_rules | `(tactic| checks_lemma) => `(tactic| exact Tr.assertDebug _ _)
macro_rules | `(tactic| checks_lemma) => `(tactic| exact Tr.assertNormal _ _)
macro_rules | `(tactic| checks_lemma) => `(tactic| exact Tr.assertAlways _ _)
macro_rules | `(tactic| checks_lemma) => `(tactic| exact Tr.assertDebugM _ _ _)

/-- Goes through a program text. -/
macro "checks" : tactic => `(tactic| repeat' (first
  | checks_lemma
  | with_reducible apply Tr.bindEq
  | with_reducible apply OpTr.bindEq
  | with_reducible apply OpTr.lift
  | with_reducible apply Tr.ite
  | with_reducible apply OpTr.ite
  | with_reducible apply Tr.foldN
  | with_reducible apply OpTr.forN
  | intro _))

/-! ### Slices -/

section

variable {u : Bool} (b : Build)

theorem idiv_tr (x y : Int) : Tr u Eq (idiv b x y) (idiv (off b) x y) := by
  unfold idiv SInt.div
  checks
macro_rules | `(tactic| checks_lemma) => `(tactic| exact idiv_tr _ _ _)

theorem irem_tr (x y : Int) : Tr u Eq (irem b x y) (irem (off b) x y) := by
  unfold irem SInt.rem
  checks
macro_rules | `(tactic| checks_lemma) => `(tactic| exact irem_tr _ _ _)

theorem unflatten_tr (n k : Int) : Tr u Eq (Elem2.unflatten b n k) (Elem2.unflatten (off b) n k) := by
  unfold Elem2.unflatten
  checks
macro_rules | `(tactic| checks_lemma) => `(tactic| exact unflatten_tr _ _ _)

theorem mkSeqN_tr (p n k : Int) : Tr u Eq (mkSeqN b p n k) (mkSeqN (off b) p n k) := by
  unfold mkSeqN
  checks
macro_rules | `(tactic| checks_lemma) => `(tactic| exact mkSeqN_tr _ _ _ _)

theorem construct_tr (r : SliceReq) : Tr u Eq (r.construct b) (r.construct (off b)) := by
  cases r <;> simp only [SliceReq.construct] <;> checks
macro_rules | `(tactic| checks_lemma) => `(tactic| exact construct_tr _ _)

theorem seqToSlice_tr (p n k : Int) : Tr u Eq (seqToSlice b p n k) (seqToSlice (off b) p n k) := by
  unfold seqToSlice
  checks
macro_rules | `(tactic| checks_lemma) => `(tactic| exact seqToSlice_tr _ _ _ _)

theorem complementVec_tr (n : Int) (idx : List Int) : Tr u Eq (complementVec b n idx) (complementVec (off b) n idx) := by
  unfold complementVec
  checks
macro_rules | `(tactic| checks_lemma) => `(tactic| exact complementVec_tr _ _ _)

theorem get_tr (n : Int) (e : Bool) (r : SliceReq) : Tr false Eq (r.get b n e) (r.get (off b) n e) := by
  cases r <;> simp only [SliceReq.get] <;> checks
macro_rules | `(tactic| checks_lemma) => `(tactic| exact get_tr _ _ _ _)

theorem mkSlice_tr (n : Int) (e : Bool) (r : SliceReq) : Tr false Eq (mkSlice b n e r) (mkSlice (off b) n e r) := by
  unfold mkSlice
  checks
macro_rules | `(tactic| checks_lemma) => `(tactic| exact mkSlice_tr _ _ _ _)

theorem mkSlice2_tr (m n : Int) (e : Bool) (r1 r2 : SliceReq) :
    Tr false Eq (mkSlice2 b m n e r1 r2) (mkSlice2 (off b) m n e r1 r2) := by
  unfold mkSlice2
  checks
macro_rules | `(tactic| checks_lemma) => `(tactic| exact mkSlice2_tr _ _ _ _ _ _)

theorem mkNested_tr (n : Int) (rs : List SliceReq) : Tr false Eq (mkNested b n rs) (mkNested (off b) n rs) := by
  induction rs generalizing n with
  | nil => exact Tr.refl _
  | cons r rs ih =>
    unfold mkNested
    exact Tr.bindEq (mkSlice_tr b _ _ _) fun sl => Tr.bindEq (ih _) fun _ => Tr.refl _

end

/-! ### Objects -/

/-- Objects built with and without checks. -/
structure AccTr {σ β : Type} (a a' : Acc σ β) : Prop where
  rows : a'.rows = a.rows
  cols : a'.cols = a.cols
  size : ∀ s, Tr false Eq (a.size s) (a'.size s)
  un : ∀ s i, Tr false Eq (a.un s i) (a'.un s i)
  un2 : ∀ s i j, Tr false Eq (a.un2 s i j) (a'.un2 s i j)

macro_rules | `(tactic| checks_lemma) => `(tactic| with_reducible apply AccTr.size; assumption)
macro_rules | `(tactic| checks_lemma) => `(tactic| with_reducible apply AccTr.un; assumption)
macro_rules | `(tactic| checks_lemma) => `(tactic| with_reducible apply AccTr.un2; assumption)

namespace AccTr

variable {σ β γ : Type} (b : Build) {a a' a1 a1' a2 a2' : Acc σ β}

theorem refl (a : Acc σ β) : AccTr a a :=
  ⟨rfl, rfl, fun _ => Tr.refl _, fun _ _ => Tr.refl _, fun _ _ _ => Tr.refl _⟩

theorem oneD (n : σ → Int) {f f' : σ → Int → Res β} (h : ∀ s i, Tr false Eq (f s i) (f' s i)) :
    AccTr (Acc.oneD n f) (Acc.oneD n f') :=
  ⟨rfl, rfl, fun _ => Tr.refl _, h, fun _ _ _ => Tr.refl _⟩

theorem twoD (m n : σ → Int) {f f' : σ → Int → Int → Res β} (h : ∀ s i j, Tr false Eq (f s i j) (f' s i j)) :
    AccTr (Acc.twoD b m n f) (Acc.twoD (off b) m n f') :=
  ⟨rfl, rfl, fun _ => Tr.refl _, fun s k => by
    simp only [Acc.twoD]
    exact Tr.bindEq (unflatten_tr b _ _) fun _ => h _ _ _, h⟩

theorem deref (h : AccTr a a') (f : σ → β → Res γ) : AccTr (a.deref f) (a'.deref f) :=
  ⟨h.rows, h.cols, h.size, fun s i => Tr.bindEq (h.un s i) fun _ => Tr.refl _,
   fun s i j => Tr.bindEq (h.un2 s i j) fun _ => Tr.refl _⟩

theorem slice (h : AccTr a a') (sl : Slice) : AccTr (a.slice sl) (a'.slice sl) :=
  oneD _ fun s i => by checks

theorem slice2 (h : AccTr a a') (s1 s2 : Slice) : AccTr (a.slice2 b s1 s2) (a'.slice2 (off b) s1 s2) :=
  twoD b _ _ fun s i j => by checks

theorem proxy (h : AccTr a a') (m n : Int) : AccTr (a.proxy m n) (a'.proxy m n) :=
  ⟨rfl, rfl, fun _ => Tr.refl _, h.un, fun s i j => by simp only [Acc.proxy]; checks⟩

theorem unary {f f' : β → Res β} (hf : ∀ x, Tr false Eq (f x) (f' x)) (h : AccTr a a') :
    AccTr (a.unary f) (a'.unary f') :=
  ⟨h.rows, h.cols, h.size, fun s i => Tr.bindEq (h.un s i) hf, fun s i j => Tr.bindEq (h.un2 s i j) hf⟩

theorem binary {f f' : β → β → Res β} (hf : ∀ x y, Tr false Eq (f x y) (f' x y)) (h1 : AccTr a1 a1')
    (h2 : AccTr a2 a2') : AccTr (a1.binary f a2) (a1'.binary f' a2') :=
  ⟨h1.rows, h1.cols, h1.size,
   fun s i => Tr.bindEq (h1.un s i) fun _ => Tr.bindEq (h2.un s i) fun _ => hf _ _,
   fun s i j => Tr.bindEq (h1.un2 s i j) fun _ => Tr.bindEq (h2.un2 s i j) fun _ => hf _ _⟩

theorem gen1 (n : Int) {f f' : σ → Int → Res β} (h : ∀ s i, Tr false Eq (f s i) (f' s i)) :
    AccTr (Acc.gen1 n f) (Acc.gen1 n f') :=
  oneD _ fun s i => by
    exact Tr.bindEq (Tr.refl _) fun _ => Tr.bindEq (Tr.refl _) fun _ => h _ _

theorem gen2 (m n : Int) {f f' : σ → Int → Res β} (h : ∀ s i, Tr false Eq (f s i) (f' s i)) :
    AccTr (Acc.gen2 b m n f) (Acc.gen2 (off b) m n f') :=
  twoD b _ _ fun s i j => Tr.bindEq (Tr.refl _) fun _ => h _ _

theorem mergeOp (h1 : AccTr a1 a1') (h2 : AccTr a2 a2') (s : σ) (i : Int) :
    Tr false Eq (Acc.mergeOp a1 a2 s i) (Acc.mergeOp a1' a2' s i) := by
  unfold Acc.mergeOp
  rw [h1.rows]
  checks

theorem appendOp (h : AccTr a a') (x : β) (s : σ) (i : Int) :
    Tr false Eq (Acc.appendOp a x s i) (Acc.appendOp a' x s i) := by
  unfold Acc.appendOp
  rw [h.rows]
  checks

theorem prependOp (h : AccTr a a') (x : β) (s : σ) (i : Int) :
    Tr false Eq (Acc.prependOp x a s i) (Acc.prependOp x a' s i) := by
  unfold Acc.prependOp
  checks

theorem excludeOp (h : AccTr a a') (p c : Int) (s : σ) (i : Int) :
    Tr false Eq (Acc.excludeOp a p c s i) (Acc.excludeOp a' p c s i) := by
  unfold Acc.excludeOp
  checks

theorem horizontalOp (h1 : AccTr a1 a1') (h2 : AccTr a2 a2') (s : σ) (i : Int) :
    Tr false Eq (Acc.horizontalOp b a1 a2 s i) (Acc.horizontalOp (off b) a1' a2' s i) := by
  unfold Acc.horizontalOp
  rw [h1.cols, h2.cols]
  checks

theorem verticalOp (h1 : AccTr a1 a1') (h2 : AccTr a2 a2') (s : σ) (i : Int) :
    Tr false Eq (Acc.verticalOp a1 a2 s i) (Acc.verticalOp a1' a2' s i) := by
  unfold Acc.verticalOp
  checks

theorem bcast (h : AccTr a a') (r : Bool) : AccTr (a.bcast b r) (a'.bcast (off b) r) := by
  unfold Acc.bcast
  rw [h.rows]
  exact twoD b _ _ fun s i j => by checks

theorem tensor {f f' : β → β → Res β} (hf : ∀ x y, Tr false Eq (f x y) (f' x y)) (h1 : AccTr a1 a1')
    (h2 : AccTr a2 a2') : AccTr (a1.tensor b f a2) (a1'.tensor (off b) f' a2') := by
  unfold Acc.tensor
  rw [h1.rows, h2.rows]
  exact twoD b _ _ fun s i j => Tr.bindEq (h1.un s i) fun _ => Tr.bindEq (h2.un s j) fun _ => hf _ _

theorem transpose (h : AccTr a a') (m n : Int) : AccTr (a.transpose b m n) (a'.transpose (off b) m n) :=
  twoD b _ _ fun s i j => h.un2 s j i

theorem empty (h : AccTr a a') (s : σ) : Tr false Eq (a.empty s) (a'.empty s) := by
  unfold Acc.empty
  checks

theorem sub (h : AccTr a a') (s : σ) (i : Int) : Tr false Eq (a.sub b s i) (a'.sub (off b) s i) := by
  unfold Acc.sub
  rw [h.rows]
  checks

theorem sameSize {b1 b1' : Acc σ γ} (d : Dim) (h : AccTr a a') (h' : AccTr b1 b1') (s : σ) :
    Acc.sameSize d a' b1' s = Acc.sameSize d a b1 s := by
  unfold Acc.sameSize
  rw [h.rows, h.cols, h'.rows, h'.cols]

end AccTr

macro_rules | `(tactic| checks_lemma) => `(tactic| with_reducible apply AccTr.empty; assumption)
macro_rules | `(tactic| checks_lemma) => `(tactic| with_reducible apply AccTr.sub; assumption)

/-! ### Views -/

section

variable {σ β : Type} (b : Build) {a a' : Acc σ β}

theorem mkSlice1_tr (h : AccTr a a') (s : σ) (r : SliceReq) :
    Tr false AccTr (View.mkSlice1 b a s r) (View.mkSlice1 (off b) a' s r) := by
  unfold View.mkSlice1
  rw [h.rows]
  exact Tr.bindEq (mkSlice_tr b _ _ _) fun sl => .ok (h.slice sl)

theorem viewSlice2_tr (h : AccTr a a') (s : σ) (r1 r2 : SliceReq) :
    Tr false AccTr (View.mkSlice2 b a s r1 r2) (View.mkSlice2 (off b) a' s r1 r2) := by
  unfold View.mkSlice2
  rw [h.rows, h.cols]
  exact Tr.bindEq (h.empty s) fun e => Tr.bindEq (mkSlice2_tr b _ _ _ _ _) fun p => .ok (h.slice2 b _ _)

theorem mkView1D_tr (h : AccTr a a') (s : σ) : Tr false AccTr (View.mkView1D b a s) (View.mkView1D (off b) a' s) := by
  unfold View.mkView1D
  exact Tr.bindEq (h.size s) fun n => Tr.bindEq (mkSeqN_tr b _ _ _) fun sl =>
    Tr.bindEq (Tr.assertDebugM _ _ _) fun _ => .ok (h.slice _)

theorem mkRow_tr (h : AccTr a a') (s : σ) (p : Pos) :
    Tr false AccTr (View.mkRow b a s p) (View.mkRow (off b) a' s p) := by
  unfold View.mkRow
  rw [h.rows, h.cols]
  exact Tr.bindEq (Tr.refl _) fun _ => Tr.bindEq (Tr.assertDebug _ _) fun _ => Tr.bindEq (Tr.refl _) fun _ =>
    Tr.bind (mkView1D_tr b h s) fun v v' hv => Tr.bindEq (Tr.refl _) fun _ => Tr.bindEq (Tr.refl _) fun _ =>
      mkSlice1_tr b hv s _

theorem mkCol_tr (h : AccTr a a') (s : σ) (p : Pos) :
    Tr false AccTr (View.mkCol b a s p) (View.mkCol (off b) a' s p) := by
  unfold View.mkCol
  rw [h.rows, h.cols]
  exact Tr.bindEq (Tr.refl _) fun _ => Tr.bindEq (Tr.assertDebug _ _) fun _ => Tr.bindEq (Tr.refl _) fun _ =>
    Tr.bindEq (Tr.refl _) fun _ => Tr.bindEq (Tr.refl _) fun _ =>
      Tr.bind (mkView1D_tr b h s) fun v v' hv => mkSlice1_tr b hv s _

theorem mkDiag_tr (h : AccTr a a') (s : σ) : Tr false AccTr (View.mkDiag b a s) (View.mkDiag (off b) a' s) := by
  unfold View.mkDiag
  rw [h.rows, h.cols]
  exact Tr.bind (mkView1D_tr b h s) fun v v' hv => Tr.bindEq (Tr.refl _) fun _ => mkSlice1_tr b hv s _

theorem mkDiagK_tr (h : AccTr a a') (s : σ) (k : Int) :
    Tr false AccTr (View.mkDiagK b a s k) (View.mkDiagK (off b) a' s k) := by
  unfold View.mkDiagK
  rw [h.rows, h.cols]
  refine Tr.bind (mkView1D_tr b h s) fun v v' hv => Tr.bindEq (Tr.refl _) fun _ => ?_
  refine Tr.ite ?_ ?_
  · exact Tr.bindEq (Tr.assertDebug _ _) fun _ => Tr.bindEq (Tr.refl _) fun _ => mkSlice1_tr b hv s _
  · exact Tr.bindEq (Tr.refl _) fun _ => Tr.bindEq (Tr.assertDebug _ _) fun _ => Tr.bindEq (Tr.refl _) fun _ =>
      Tr.bindEq (Tr.refl _) fun _ => mkSlice1_tr b hv s _

theorem mkBlock_tr (h : AccTr a a') (s : σ) (i1 j1 i2 j2 : Pos) :
    Tr false AccTr (View.mkBlock b a s i1 j1 i2 j2) (View.mkBlock (off b) a' s i1 j1 i2 j2) := by
  unfold View.mkBlock
  rw [h.rows, h.cols]
  exact Tr.bindEq (Tr.refl _) fun _ => Tr.bindEq (Tr.refl _) fun _ => Tr.bindEq (Tr.refl _) fun _ =>
    Tr.bindEq (Tr.refl _) fun _ => viewSlice2_tr b h s _ _

theorem mkBlockN_tr (h : AccTr a a') (s : σ) (i1 j1 : Pos) (m n : Int) :
    Tr false AccTr (View.mkBlockN b a s i1 j1 m n) (View.mkBlockN (off b) a' s i1 j1 m n) := by
  unfold View.mkBlockN
  rw [h.rows, h.cols]
  exact Tr.bindEq (Tr.refl _) fun _ => Tr.bindEq (Tr.refl _) fun _ => viewSlice2_tr b h s _ _

theorem mkView2D_tr (h : AccTr a a') (s : σ) (m n : Int) :
    Tr false AccTr (View.mkView2D b a s m n) (View.mkView2D (off b) a' s m n) := by
  unfold View.mkView2D
  exact Tr.bindEq (Tr.refl _) fun _ => Tr.bindEq (h.size s) fun _ => Tr.bindEq (Tr.assertAlways _ _) fun _ =>
    Tr.bindEq (mkSeqN_tr b _ _ _) fun _ => Tr.bindEq (mkSeqN_tr b _ _ _) fun _ =>
    Tr.bindEq (Tr.assertDebugM _ _ _) fun _ => Tr.bindEq (Tr.assertDebugM _ _ _) fun _ =>
      .ok ((h.proxy m n).slice2 b _ _)

theorem view_tr (h : AccTr a a') (s : σ) {d d' : Dim} (v : View d d') :
    Tr false AccTr (v.mk b a s) (v.mk (off b) a' s) := by
  cases v with
  | slice r => exact mkSlice1_tr b h s _
  | slice2 r1 r2 => exact viewSlice2_tr b h s _ _
  | rows r => exact viewSlice2_tr b h s _ _
  | cols r => exact viewSlice2_tr b h s _ _
  | row p => exact mkRow_tr b h s _
  | col p => exact mkCol_tr b h s _
  | diag => exact mkDiag_tr b h s
  | diagK k => exact mkDiagK_tr b h s _
  | block i1 j1 i2 j2 => exact mkBlock_tr b h s _ _ _ _
  | blockN i1 j1 m n => exact mkBlockN_tr b h s _ _ _ _
  | view1D => exact mkView1D_tr b h s
  | view2D _ m n => exact mkView2D_tr b h s _ _

end

theorem lv_tr {α : Type} (b : Build) (s : Store α) {d : Dim} (l : Lv d) :
    Tr false AccTr (l.build b s) (l.build (off b) s) := by
  induction l with
  | arr1 id => exact .ok (AccTr.refl _)
  | arr2 id => exact .ok (AccTr.refl _)
  | view v l ih => exact Tr.bind ih fun a a' h => view_tr b h s v

/-! ### Between the specification and `Tr` -/

theorem Tr.of_survives {A : Type} {x y : Res A} (h : Survives x y) : Tr false Eq x y := by
  cases x with
  | ok v => rw [h v rfl]; exact .ok rfl
  | trap k => exact .trap k _
  | ub => exact .ub0 rfl _

theorem Tr.survives {u : Bool} {A : Type} {x y : Res A} (h : Tr u Eq x y) : Survives x y := fun v hv => by
  obtain ⟨w, hw, rfl⟩ := h.value hv
  exact hw

theorem OpTr.survives {u : Bool} {σ A : Type} {x y : Op σ A} (h : OpTr u Eq x y) : SurvivesOp x y := fun s v s' hv => by
  have h := h s
  rw [hv] at h
  generalize y s = q at h
  cases h with
  | ok h s => rw [h]

theorem keeps_of_tr {A : Type} {f : Build → Res A} (h : ∀ b, Tr false Eq (f b) (f (off b))) : Keeps f :=
  fun b => (h b).survives

theorem keepsOp_of_tr {σ A : Type} {f : Build → Op σ A} (h : ∀ b, OpTr false Eq (f b) (f (off b))) : KeepsOp f :=
  fun b => (h b).survives

/-! ### Expressions -/

section

variable {α σ : Type} (b : Build) {a a' a1 a1' a2 a2' : Acc σ α}

theorem mkConst1D_tr (n : Int) (x : α) : Tr false AccTr (Tm.mkConst1D (σ := σ) b n x) (Tm.mkConst1D (off b) n x) :=
  Tr.bindEq (Tr.assertDebug _ _) fun _ => Tr.bindEq (Tr.assertDebug _ _) fun _ => .ok (AccTr.refl _)

theorem mkConst2D_tr (m n : Int) (x : α) :
    Tr false AccTr (Tm.mkConst2D (σ := σ) b m n x) (Tm.mkConst2D (off b) m n x) :=
  Tr.bindEq (Tr.assertDebug _ _) fun _ => Tr.bindEq (Tr.assertDebug _ _) fun _ =>
  Tr.bindEq (Tr.assertDebug _ _) fun _ => Tr.bindEq (Tr.assertDebug _ _) fun _ =>
  Tr.bindEq (Tr.assertDebug _ _) fun _ => .ok (AccTr.gen2 b _ _ fun _ _ => Tr.refl _)

theorem mkConstLike_tr (d : Dim) (h : AccTr a a') (s : σ) (x : α) :
    Tr false AccTr (Tm.mkConstLike b d a s x) (Tm.mkConstLike (off b) d a' s x) := by
  unfold Tm.mkConstLike
  rw [h.rows, h.cols]
  cases d
  · exact mkConst1D_tr b _ _
  · exact mkConst2D_tr b _ _ _

theorem mkBinary_tr (d : Dim) {f f' : α → α → Res α} (hf : ∀ x y, Tr false Eq (f x y) (f' x y)) (h1 : AccTr a1 a1')
    (h2 : AccTr a2 a2') (s : σ) : Tr false AccTr (Tm.mkBinary b d f a1 a2 s) (Tm.mkBinary (off b) d f' a1' a2' s) := by
  unfold Tm.mkBinary
  rw [AccTr.sameSize d h1 h2]
  exact Tr.bindEq (Tr.assertDebug _ _) fun _ => .ok (AccTr.binary hf h1 h2)

theorem mkGen1_tr (n : Int) {f f' : σ → Int → Res α} (h : ∀ s i, Tr false Eq (f s i) (f' s i)) :
    Tr false AccTr (Tm.mkGen1 b n f) (Tm.mkGen1 (off b) n f') :=
  Tr.bindEq (Tr.assertDebug _ _) fun _ => .ok (AccTr.gen1 _ h)

theorem mkGen2_tr (m n : Int) {f f' : σ → Int → Res α} (h : ∀ s i, Tr false Eq (f s i) (f' s i)) :
    Tr false AccTr (Tm.mkGen2 b m n f) (Tm.mkGen2 (off b) m n f') :=
  Tr.bindEq (Tr.assertDebug _ _) fun _ => Tr.bindEq (Tr.assertDebug _ _) fun _ => .ok (AccTr.gen2 b _ _ h)

theorem mkSequence_tr {ar ar' : Arith α} (h : SameArith ar ar') (n : Int) (x y : α) :
    Tr false AccTr (Tm.mkSequence (σ := σ) b ar n x y) (Tm.mkSequence (off b) ar' n x y) :=
  Tr.bindEq (Tr.assertDebug _ _) fun _ => .ok (AccTr.oneD _ fun _ i =>
    Tr.bindEq (.of_survives (h.ofIndex i)) fun _ => Tr.bindEq (.of_survives (h.mul _ _)) fun _ =>
      .of_survives (h.add _ _))

theorem mkExclude_tr (h : AccTr a a') (s : σ) (p c : Int) :
    Tr false AccTr (Tm.mkExclude b a s p c) (Tm.mkExclude (off b) a' s p c) := by
  unfold Tm.mkExclude
  rw [h.rows]
  exact Tr.bindEq (Tr.assertDebug _ _) fun _ => Tr.bindEq (Tr.assertDebug _ _) fun _ =>
    Tr.bindEq (Tr.assertDebugM _ _ _) fun _ => Tr.bindEq (Tr.refl _) fun _ =>
      mkGen1_tr b _ (AccTr.excludeOp h p c)

theorem mkMergeH_tr (h1 : AccTr a1 a1') (h2 : AccTr a2 a2') (s : σ) :
    Tr false AccTr (Tm.mkMergeH b a1 a2 s) (Tm.mkMergeH (off b) a1' a2' s) := by
  unfold Tm.mkMergeH
  rw [h1.rows, h1.cols, h2.rows, h2.cols]
  refine Tr.bindEq (h1.empty s) fun e1 => Tr.bindEq (h2.empty s) fun e2 => ?_
  by_cases hc : (!e1 && !e2) = true
  · simp only [hc, if_true]
    exact Tr.bindEq (Tr.assertDebug _ _) fun _ => Tr.bindEq (Tr.refl _) fun _ =>
      mkGen2_tr b _ _ (AccTr.horizontalOp b h1 h2)
  · simp only [hc]
    exact Tr.bindEq (Tr.refl _) fun _ => Tr.bindEq (Tr.refl _) fun _ =>
      mkGen2_tr b _ _ (AccTr.horizontalOp b h1 h2)

theorem mkMergeV_tr (h1 : AccTr a1 a1') (h2 : AccTr a2 a2') (s : σ) :
    Tr false AccTr (Tm.mkMergeV b a1 a2 s) (Tm.mkMergeV (off b) a1' a2' s) := by
  unfold Tm.mkMergeV
  rw [h1.rows, h1.cols, h2.rows, h2.cols]
  refine Tr.bindEq (h1.empty s) fun e1 => Tr.bindEq (h2.empty s) fun e2 => ?_
  by_cases hc : (!e1 && !e2) = true
  · simp only [hc, if_true]
    exact Tr.bindEq (Tr.assertDebug _ _) fun _ => Tr.bindEq (Tr.refl _) fun _ =>
      mkGen2_tr b _ _ (AccTr.verticalOp h1 h2)
  · simp only [hc]
    exact Tr.bindEq (Tr.refl _) fun _ => Tr.bindEq (Tr.refl _) fun _ =>
      mkGen2_tr b _ _ (AccTr.verticalOp h1 h2)

theorem reduceAcc_tr (r : Bool) {op op' : Acc σ α → σ → Res α}
    (ho : ∀ x x' s, AccTr x x' → Tr false Eq (op x s) (op' x' s)) (h : AccTr a a') :
    AccTr (Tm.reduceAcc b r op a) (Tm.reduceAcc (off b) r op' a') := by
  unfold Tm.reduceAcc
  rw [h.rows, h.cols]
  refine AccTr.oneD _ fun s i => ?_
  cases r
  · exact Tr.bind (mkCol_tr b h s _) fun x x' hx => ho x x' s hx
  · exact Tr.bind (mkRow_tr b h s _) fun x x' hx => ho x x' s hx

theorem elems_tr (h : AccTr a a') (s : σ) : List.Forall₂ Survives (Tm.elems a s) (Tm.elems a' s) := by
  unfold Tm.elems
  rw [h.rows]
  generalize List.range _ = l
  induction l with
  | nil => exact .nil
  | cons k l ih => exact .cons (h.un s k).survives ih

theorem dotOp_tr {ar ar' : Arith α} (hr : SameArith ar ar') (h1 : AccTr a1 a1') (h2 : AccTr a2 a2') (s : σ) :
    Tr false Eq (Tm.dotOp b ar a1 a2 s) (Tm.dotOp (off b) ar' a1' a2' s) := by
  unfold Tm.dotOp
  rw [h1.rows, hr.zero]
  exact Tr.foldN _ _ fun k x => Tr.bindEq (h1.sub b s k) fun _ => Tr.bindEq (h2.sub b s k) fun _ =>
    Tr.bindEq (.of_survives (hr.mul _ _)) fun _ => .of_survives (hr.add _ _)

end

theorem build_tr {α : Type} (b : Build) (s : Store α) {d : Dim} {t t' : Tm α d} (h : SameText t t') :
    Tr false AccTr (t.build b s) (t'.build (off b) s) := by
  induction h with
  | lv l => exact Tr.bind (lv_tr b s l) fun a a' h => .ok (h.deref _)
  | view v _ ih => exact Tr.bind ih fun a a' h => view_tr b h s v
  | unary hf _ ih => exact Tr.bind ih fun a a' h => .ok (.unary (fun x => .of_survives (hf x)) h)
  | binary hf _ _ ih1 ih2 =>
    exact Tr.bind ih1 fun a1 a1' h1 => Tr.bind ih2 fun a2 a2' h2 =>
      mkBinary_tr b _ (fun x y => .of_survives (hf x y)) h1 h2 s
  | scalarL x hf _ ih =>
    exact Tr.bind ih fun a a' h => Tr.bind (mkConstLike_tr b _ h s x) fun c c' hc =>
      mkBinary_tr b _ (fun x y => .of_survives (hf x y)) hc h s
  | scalarR x hf _ ih =>
    exact Tr.bind ih fun a a' h => Tr.bind (mkConstLike_tr b _ h s x) fun c c' hc =>
      mkBinary_tr b _ (fun x y => .of_survives (hf x y)) h hc s
  | sequence n x y hr => exact mkSequence_tr b hr n x y
  | linspace n x y hr =>
    exact Tr.bindEq (Tr.assertDebug _ _) fun _ => Tr.bindEq (.of_survives (hr.sub _ _)) fun _ =>
      Tr.bindEq (Tr.refl _) fun _ => Tr.bindEq (.of_survives (hr.ofIndex _)) fun _ =>
      Tr.bindEq (.of_survives (hr.div _ _)) fun _ => mkSequence_tr b hr _ _ _
  | eUnit k n hr =>
    simp only [Tm.build]
    rw [hr.zero, hr.one]
    exact Tr.bindEq (Tr.assertDebug _ _) fun _ => Tr.bindEq (Tr.assertDebug _ _) fun _ =>
      mkGen1_tr b _ fun _ _ => Tr.refl _
  | const1D n x => exact mkConst1D_tr b n x
  | const2D m n x => exact mkConst2D_tr b m n x
  | identity n hr =>
    simp only [Tm.build]
    rw [hr.zero, hr.one]
    exact Tr.bindEq (Tr.assertDebug _ _) fun _ => Tr.bindEq (Tr.assertDebug _ _) fun _ =>
      Tr.bindEq (Tr.assertDebug _ _) fun _ => .ok (AccTr.twoD b _ _ fun _ _ _ => Tr.refl _)
  | merge _ _ ih1 ih2 =>
    refine Tr.bind ih1 fun a1 a1' h1 => Tr.bind ih2 fun a2 a2' h2 => ?_
    rw [h1.rows, h2.rows]
    exact Tr.bindEq (Tr.refl _) fun _ => mkGen1_tr b _ (AccTr.mergeOp h1 h2)
  | append x _ ih =>
    refine Tr.bind ih fun a a' h => ?_
    rw [h.rows]
    exact Tr.bindEq (Tr.refl _) fun _ => mkGen1_tr b _ (AccTr.appendOp h x)
  | prepend x _ ih =>
    refine Tr.bind ih fun a a' h => ?_
    rw [h.rows]
    exact Tr.bindEq (Tr.refl _) fun _ => mkGen1_tr b _ (AccTr.prependOp h x)
  | exclude p c _ ih => exact Tr.bind ih fun a a' h => mkExclude_tr b h s p c
  | excludeLast k _ ih =>
    refine Tr.bind ih fun a a' h => ?_
    rw [h.rows]
    exact Tr.bindEq (Tr.refl _) fun _ => mkExclude_tr b h s _ _
  | reduce r hg _ ih =>
    exact Tr.bind ih fun a a' h => .ok (reduceAcc_tr b r
      (fun x x' s hx => .of_survives (hg _ _ (elems_tr hx s))) h)
  | matvec hr _ _ ih1 ih2 =>
    refine Tr.bind ih1 fun a1 a1' h1 => Tr.bind ih2 fun a2 a2' h2 => ?_
    rw [h1.cols, h2.rows]
    exact Tr.bindEq (Tr.assertDebug _ _) fun _ => .ok (reduceAcc_tr b true
      (fun x x' s hx => dotOp_tr b hr hx h2 s) h1)
  | bcast r _ ih => exact Tr.bind ih fun a a' h => .ok (h.bcast b r)
  | tensor hr _ _ ih1 ih2 =>
    exact Tr.bind ih1 fun a1 a1' h1 => Tr.bind ih2 fun a2 a2' h2 =>
      .ok (AccTr.tensor b (fun x y => .of_survives (hr.mul x y)) h1 h2)
  | transpose _ ih =>
    refine Tr.bind ih fun a a' h => ?_
    rw [h.rows, h.cols]
    exact Tr.bindEq (Tr.assertDebug _ _) fun _ => Tr.bindEq (Tr.assertDebug _ _) fun _ =>
      .ok (h.transpose b _ _)
  | mergeH _ _ ih1 ih2 =>
    exact Tr.bind ih1 fun a1 a1' h1 => Tr.bind ih2 fun a2 a2' h2 => mkMergeH_tr b h1 h2 s
  | mergeV _ _ ih1 ih2 =>
    exact Tr.bind ih1 fun a1 a1' h1 => Tr.bind ih2 fun a2 a2' h2 => mkMergeV_tr b h1 h2 s

/-! ### Statements -/

section

variable {α : Type} (b : Build) {dst dst' : Acc (Store α) Loc} {src src' : Acc (Store α) α}

theorem fillTo_tr (h : AccTr dst dst') (x : α) : OpTr false Eq (fillTo dst x) (fillTo dst' x) := by
  unfold fillTo
  checks

theorem copyList_tr (h : AccTr dst dst') (xs : List α) : OpTr false Eq (copyList dst xs) (copyList dst' xs) := by
  unfold copyList
  checks

theorem copyList2_tr (h : AccTr dst dst') (L : List (List α)) :
    OpTr false Eq (copyList2 dst L) (copyList2 dst' L) := by
  unfold copyList2
  checks

theorem copyLin_tr (h : AccTr dst dst') (h' : AccTr src src') :
    OpTr false Eq (copyLin dst src) (copyLin dst' src') := by
  unfold copyLin
  checks

theorem copyTwo_tr (h : AccTr dst dst') (h' : AccTr src src') :
    OpTr false Eq (copyTwo dst src) (copyTwo dst' src') := by
  unfold copyTwo
  rw [h'.rows, h'.cols]
  checks

theorem copyTo_tr (d : Dim) (r : Bool) (h : AccTr dst dst') (h' : AccTr src src') :
    OpTr false Eq (copyTo d r dst src) (copyTo d r dst' src') := by
  cases d
  · exact copyLin_tr h h'
  · exact OpTr.ite (copyLin_tr h h') (copyTwo_tr h h')

theorem updateAll_tr (h : AccTr dst dst') {g g' : Store α → Nat → α → Res α}
    (hg : ∀ s i u, Tr false Eq (g s i u) (g' s i u)) : OpTr false Eq (updateAll dst g) (updateAll dst' g') := by
  unfold updateAll
  refine OpTr.bindEq (OpTr.refl _) fun s => OpTr.bindEq (OpTr.lift (h.size s)) fun n => OpTr.forN _ fun k => ?_
  refine OpTr.bindEq (OpTr.refl _) fun s => OpTr.bindEq (OpTr.lift (h.un s k)) fun l => ?_
  exact OpTr.bindEq (OpTr.lift (Tr.bindEq (Tr.refl _) fun u => hg s k u)) fun _ => OpTr.refl _

theorem isArray2_eq {d : Dim} {t t' : Tm α d} (h : SameText t t') : t'.isArray2 = t.isArray2 := by
  cases h <;> rfl

theorem run_tr {st st' : AStmt α} (h : SameStmt st st') : OpTr false Eq (st.run b) (st'.run (off b)) := by
  cases h with
  | assign l ht =>
    refine OpTr.bindEq (OpTr.refl _) fun s => OpTr.bind (OpTr.lift (build_tr b s ht)) fun src src' h =>
      OpTr.bind (OpTr.lift (lv_tr b s l)) fun dst dst' h' => ?_
    rw [AccTr.sameSize _ h' h, isArray2_eq ht]
    exact OpTr.bindEq (OpTr.lift (Tr.assertDebug _ _)) fun _ => copyTo_tr _ _ h' h
  | fill l x =>
    exact OpTr.bindEq (OpTr.refl _) fun s => OpTr.bind (OpTr.lift (lv_tr b s l)) fun dst dst' h' => fillTo_tr h' x
  | list l xs =>
    refine OpTr.bindEq (OpTr.refl _) fun s => OpTr.bind (OpTr.lift (lv_tr b s l)) fun dst dst' h' => ?_
    rw [h'.rows]
    exact OpTr.bindEq (OpTr.lift (Tr.assertDebug _ _)) fun _ => copyList_tr h' xs
  | list2 l L =>
    refine OpTr.bindEq (OpTr.refl _) fun s => OpTr.bind (OpTr.lift (lv_tr b s l)) fun dst dst' h' => ?_
    rw [h'.rows, h'.cols]
    exact OpTr.bindEq (OpTr.lift (Tr.assertDebug _ _)) fun _ => OpTr.bindEq (OpTr.lift (Tr.assertDebug _ _)) fun _ =>
      OpTr.bindEq (OpTr.lift (Tr.assertDebug _ _)) fun _ => copyList2_tr h' L
  | compound l hf ht =>
    refine OpTr.bindEq (OpTr.refl _) fun s => OpTr.bind (OpTr.lift (build_tr b s ht)) fun src src' h =>
      OpTr.bind (OpTr.lift (lv_tr b s l)) fun dst dst' h' => ?_
    rw [AccTr.sameSize _ h' h]
    exact OpTr.bindEq (OpTr.lift (Tr.assertDebug _ _)) fun _ => updateAll_tr h' fun s i u =>
      Tr.bindEq (h.un s i) fun v => .of_survives (hf u v)
  | compoundX l x hf =>
    exact OpTr.bindEq (OpTr.refl _) fun s => OpTr.bind (OpTr.lift (lv_tr b s l)) fun dst dst' h' =>
      updateAll_tr h' fun s i u => .of_survives (hf u x)

theorem runAll_tr {p p' : List (AStmt α)} (h : List.Forall₂ SameStmt p p') :
    OpTr false Eq (AStmt.runAll b p) (AStmt.runAll (off b) p') := by
  induction h with
  | nil => exact OpTr.refl _
  | cons h _ ih => exact OpTr.bindEq (run_tr b h) fun _ => ih

end

end Spp
