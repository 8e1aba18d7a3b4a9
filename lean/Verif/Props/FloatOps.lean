import Verif.Model.FloatOps
import Verif.Props.ArrayOps
import Verif.Props.IeeeArith
import Verif.Props.ErrorFree

/-
C96: operators and functions of floating-point arrays work element by element, with NaN, infinities and both
zeros.
-/

set_option linter.unusedSectionVars false

namespace Spp.Props
open Spec FVal Lemmas

variable {p : Nat} {emin : Int} {F : Fmt}

/-! ### Numbers -/

/-- C96: what the function used by the operators gives, for all operands. -/
theorem C96_operators (hF : IsFmt p emin F) (op : FloatOp) {x y : FVal} (hx : Held p emin F x)
    (hy : Held p emin F y) :
    ∃ z, FloatArr.fn F.scalar op x y = .ok z ∧ op.Result F x y z ∧ Held p emin F z := by
  have hc : ∀ z, FloatArr.fn F.scalar op x y = .ok z → Held p emin F z := by
    intro z hz
    let F' : Fmt := { F with sqrt := fun _ => 0 }
    have hF' : IsFmt p emin F' := ⟨hF.near, hF.odd, hF.top, hF.one⟩
    obtain ⟨a, b, c, d, -, -, -, h1, g1, h2, g2, h3, g3, h4, g4, -⟩ :=
      C91_closed hF' (fun _ => le_refl _) (x := x) (y := y) (z := x) hx hy hx
    cases op with
    | add => rwa [show z = a from Res.ok.inj (hz.symm.trans h1)]
    | sub => rwa [show z = b from Res.ok.inj (hz.symm.trans h2)]
    | mul => rwa [show z = c from Res.ok.inj (hz.symm.trans h3)]
    | div => rwa [show z = d from Res.ok.inj (hz.symm.trans h4)]
  suffices h : ∃ z, FloatArr.fn F.scalar op x y = .ok z ∧ op.Result F x y z by
    obtain ⟨z, h1, h2⟩ := h
    exact ⟨z, h1, h2, hc z h1⟩
  cases op with
  | add =>
    obtain ⟨z, h1, h1', h2, h3, h4⟩ := C91_add hF x y
    obtain ⟨z', k1, k1', k2, k3, k4⟩ := C91_add hF y x
    have e : z' = z := Res.ok.inj (k1.symm.trans h1')
    subst e
    exact ⟨_, h1, h2, h3, h4, fun s hs hx => (k4 s hs).1 (.inl hx)⟩
  | sub =>
    obtain ⟨z, h1, h2, h3, h4, h5⟩ := C91_sub hF x y
    exact ⟨z, h1, fun a b => ⟨fun c => (h2 a b).1 (sub_ne_zero.1 c), fun c => (h2 a b).2 (sub_eq_zero.1 c)⟩,
      h3, h4, h5⟩
  | mul =>
    obtain ⟨z, h1, h1', h2, h3, h4⟩ := C91_mul hF hx hy
    obtain ⟨z', k1, k1', k2, k3, k4⟩ := C91_mul hF hy hx
    have e : z' = z := Res.ok.inj (k1.symm.trans h1')
    subst e
    have inf_of : ∀ {w : FVal}, w.isInf = true → w = inf (negative w) := by
      rintro (_ | s | ⟨s, m⟩) h
      · cases h
      · rfl
      · cases h
    refine ⟨_, h1, h2, h3, fun a b c => (h4 _ (inf_of a)).2 b c, fun a b c => (k4 _ (inf_of a)).2 b c,
      fun a b => (h4 _ (inf_of a)).1 b, fun a b c => ?_⟩
    rw [(k4 _ (inf_of a)).1 (.inr ⟨b, c⟩), signOf]
    cases negative x <;> cases negative y <;> rfl
  | div =>
    obtain ⟨z, h1, h2, h3, h4, h5⟩ := C91_div hF hx hy
    refine ⟨z, h1, fun a b => ⟨fun c => ⟨fun e => (h2 a b).1 (fun q => e (by rw [q, zero_div])) c,
      fun e => (h2 a b).2.1 ?_ c⟩, (h2 a b).2.2.1, (h2 a b).2.2.2⟩, h3, h4, h5⟩
    rcases div_eq_zero_iff.1 e with q | q
    · exact q
    · exact absurd q c

theorem fin_ext {z z' : FVal} (h : z.isFinite = true) (h' : z'.isFinite = true) (hs : negative z = negative z')
    (hv : z.val = z'.val) : z = z' := by
  obtain ⟨s, m, rfl⟩ := finite_cases h
  obtain ⟨t, n, rfl⟩ := finite_cases h'
  have : s = t := hs
  subst this
  cases s
  · exact congrArg _ hv
  · exact congrArg _ (neg_injective hv)

theorem roundsTo_unique {v : ℚ} {z z' : FVal} (h : RoundsTo F v z) (h' : RoundsTo F v z') : z = z' := by
  obtain ⟨a, b, c⟩ := h
  obtain ⟨a', b', c'⟩ := h'
  rcases le_or_gt |F.rn v| F.top with g | g
  · exact fin_ext (b g).1 (b' g).1 (a.trans a'.symm) ((b g).2.trans (b' g).2.symm)
  · have i := c g
    have i' := c' g
    rcases z with _ | s | ⟨s, m⟩ <;> rcases z' with _ | s' | ⟨s', m'⟩ <;> first | cases i; done | cases i'; done | skip
    exact congrArg _ (a.trans a'.symm)

theorem rounded_unique {v : ℚ} {s : Bool} {z z' : FVal} (h : Rounded F v s z) (h' : Rounded F v s z') : z = z' := by
  by_cases hv : v = 0
  · rw [h.2 hv, h'.2 hv]
  · exact roundsTo_unique (h.1 hv) (h'.1 hv)

/-- C96: the result of an operator is determined by the description, for all operands. -/
theorem C96_operator_unique (op : FloatOp) {x y z z' : FVal} (h : op.Result F x y z) (h' : op.Result F x y z') :
    z = z' := by
  rcases x with _ | s | ⟨s, m⟩
  · cases op <;> rw [h.2.1 (.inl rfl), h'.2.1 (.inl rfl)]
  · rcases y with _ | t | ⟨t, n⟩
    · cases op
      · rw [h.2.1 (.inr rfl), h'.2.1 (.inr rfl)]
      · rw [h.2.1 (.inr rfl), h'.2.1 (.inr rfl)]
      · rw [h.2.1 (.inr rfl), h'.2.1 (.inr rfl)]
      · rw [h.2.1 (.inr (.inl rfl)), h'.2.1 (.inr (.inl rfl))]
    · cases op
      · by_cases e : t = s
        · subst e
          rw [(h.2.2.1 _ rfl).1 (.inr rfl), (h'.2.2.1 _ rfl).1 (.inr rfl)]
        · have e : t = !s := by cases s <;> cases t <;> simp_all
          subst e
          rw [(h.2.2.1 _ rfl).2 rfl, (h'.2.2.1 _ rfl).2 rfl]
      · by_cases e : t = s
        · subst e
          rw [(h.2.2.1 _ rfl).2 rfl, (h'.2.2.1 _ rfl).2 rfl]
        · have e : t = !s := by cases s <;> cases t <;> simp_all
          subst e
          rw [(h.2.2.1 _ rfl).1 (.inr rfl), (h'.2.2.1 _ rfl).1 (.inr rfl)]
      · rw [h.2.2.2.2.1 rfl (.inl rfl), h'.2.2.2.2.1 rfl (.inl rfl)]
      · rw [h.2.1 (.inr (.inr ⟨rfl, rfl⟩)), h'.2.1 (.inr (.inr ⟨rfl, rfl⟩))]
    · cases op
      · rw [(h.2.2.1 _ rfl).1 (.inl rfl), (h'.2.2.1 _ rfl).1 (.inl rfl)]
      · rw [(h.2.2.1 _ rfl).1 (.inl rfl), (h'.2.2.1 _ rfl).1 (.inl rfl)]
      · by_cases e : (fin t n).val = 0
        · rw [h.2.2.1 rfl rfl e, h'.2.2.1 rfl rfl e]
        · rw [h.2.2.2.2.1 rfl (.inr ⟨rfl, e⟩), h'.2.2.2.2.1 rfl (.inr ⟨rfl, e⟩)]
      · rw [h.2.2.1 rfl rfl, h'.2.2.1 rfl rfl]
  · rcases y with _ | t | ⟨t, n⟩
    · cases op
      · rw [h.2.1 (.inr rfl), h'.2.1 (.inr rfl)]
      · rw [h.2.1 (.inr rfl), h'.2.1 (.inr rfl)]
      · rw [h.2.1 (.inr rfl), h'.2.1 (.inr rfl)]
      · rw [h.2.1 (.inr (.inl rfl)), h'.2.1 (.inr (.inl rfl))]
    · cases op
      · rw [h.2.2.2 _ rfl rfl, h'.2.2.2 _ rfl rfl]
      · rw [h.2.2.2 _ rfl rfl, h'.2.2.2 _ rfl rfl]
      · by_cases e : (fin s m).val = 0
        · rw [h.2.2.2.1 rfl rfl e, h'.2.2.2.1 rfl rfl e]
        · rw [h.2.2.2.2.2 rfl rfl e, h'.2.2.2.2.2 rfl rfl e]
      · rw [h.2.2.2 rfl rfl, h'.2.2.2 rfl rfl]
    · cases op
      · exact rounded_unique (h.1 rfl rfl) (h'.1 rfl rfl)
      · exact rounded_unique (h.1 rfl rfl) (h'.1 rfl rfl)
      · exact rounded_unique (h.1 rfl rfl) (h'.1 rfl rfl)
      · obtain ⟨a, b, c⟩ := h.1 rfl rfl
        obtain ⟨a', b', c'⟩ := h'.1 rfl rfl
        by_cases e : (fin t n).val = 0
        · by_cases g : (fin s m).val = 0
          · rw [c g e, c' g e]
          · rw [b g e, b' g e]
        · exact rounded_unique (a e) (a' e)

/-- C96: the functions used by the compound assignments are those of the operators. -/
theorem C96_compound_function {α : Type} (fs : FScalar α) (op : FloatOp) (u x : α) :
    FloatArr.assignFn fs op u x = FloatArr.fn fs op u x := by cases op <;> rfl

/-- C96: `+x`, `-x`, `abss(x)`, `invs(x)`, `sqrts(x)`. -/
theorem C96_unary_operators (hF : IsFmt p emin F) (h1 : Rep p emin 1) (hr : ∀ m, 0 < m → 0 < F.sqrt m)
    (op : FloatOp1) {x : FVal} (hx : Held p emin F x) :
    ∃ z, FloatArr.fn1 F.scalar op x = .ok z ∧ op.Result F x z ∧ Held p emin F z := by
  cases op with
  | plus => exact ⟨x, rfl, rfl, hx⟩
  | minus =>
    refine ⟨neg x, rfl, ⟨by rintro rfl; rfl, by rintro s rfl; rfl, by rintro s m rfl; rfl⟩, ?_⟩
    rcases x with _ | s | ⟨s, m⟩
    · trivial
    · trivial
    · exact hx
  | abs =>
    refine ⟨absV x, abss_ieee x, ⟨?_, ?_, ?_⟩, ?_⟩
    · rintro rfl; rfl
    · rcases x with _ | s | ⟨s, m⟩ <;> intro h <;> first | cases h; done | skip
      cases s <;> rfl
    · intro h
      refine ⟨(absV_finite x).trans h, val_absV, ?_, ?_⟩
      all_goals
        obtain ⟨s, m, rfl⟩ := finite_cases h
        have h0 := hx.1
        intro hm
      · rcases lt_or_eq_of_le h0 with g | g
        · cases s <;> simp [absV, negative, val, g, not_lt.2 g.le]
        · exact absurd (by rw [← g]; cases s <;> simp [val]) hm
      · have hm : m = 0 := val_fin_eq_zero.1 hm
        subst hm
        cases s <;> simp [absV, negative, val]
    · rcases x with _ | s | ⟨s, m⟩
      · trivial
      · trivial
      · unfold absV
        dsimp only
        split <;> exact hx
  | inv =>
    have h1 : Held p emin F (fin false 1) := ⟨by norm_num, hF.one, h1⟩
    obtain ⟨z, e, g, hz⟩ := C96_operators hF .div h1 hx
    refine ⟨z, e, ⟨fun q => g.2.1 (.inr (.inl q)), ?_, ?_, ?_⟩, hz⟩
    · rintro s rfl
      rw [g.2.2.2 rfl rfl]
      cases s <;> rfl
    · intro f0 v0
      rw [(g.1 rfl f0).2.1 (by simp [val]) v0]
      simp [signOf, negative]
    · intro f0 v0
      have := ((g.1 rfl f0).1 v0).1 (by simpa [val] using v0)
      simpa [val] using this
  | sqrt =>
    refine ⟨FVal.sqrt F x, rfl, ⟨by rintro rfl; rfl, by rintro rfl; rfl, by rintro rfl; rfl, ?_, ?_, ?_⟩, ?_⟩
    · intro f0 v0
      obtain ⟨s, m, rfl⟩ := finite_cases f0
      have hm : m = 0 := val_fin_eq_zero.1 v0
      subst hm
      simp [FVal.sqrt]
    · intro f0 v0
      obtain ⟨s, m, rfl⟩ := finite_cases f0
      have h0 := hx.1
      cases s
      · exact absurd v0 (not_lt.2 h0)
      · have hm : m ≠ 0 := by rintro rfl; simp [val] at v0
        simp [FVal.sqrt, hm]
    · intro f0 v0
      obtain ⟨s, m, rfl⟩ := finite_cases f0
      have h0 := hx.1
      cases s
      · have hm : 0 < m := v0
        have := round_roundsTo hF (s := false) (hr m hm)
        simpa [FVal.sqrt, hm.ne', val] using this
      · exact absurd v0 (by simp [val, h0])
    · rcases x with _ | s | ⟨s, m⟩
      · trivial
      · cases s <;> trivial
      · unfold FVal.sqrt
        dsimp only
        split
        · exact held_zero hF s
        · split
          · trivial
          · have := hx.1
            exact held_round hF (hr m (lt_of_le_of_ne this (Ne.symm ‹_›))).le

/-! ### Arrays -/

theorem un_unary {α : Type} (b : Build) {s : Store α} (hs : Store.Ok s) {d : Dim} (f : α → Res α) {A : Tm α d}
    (hS : A.Sound s) (hV : A.Valid s) :
    ∃ a, (Tm.unary f A).build b s = .ok a ∧ ∀ (i : Nat) r, elementAt A s i = some r → a.un s i = r.bind f := by
  obtain ⟨a, e, h⟩ := un_of_main b hs (t := Tm.unary f A) hS hV
  refine ⟨a, e, fun i r hr => h i _ ?_⟩
  show (Sem.map _ _).flat[i]? = _
  rw [flat_map, List.getElem?_map, show (A.meaning s).flat[i]? = some r from hr]
  rfl

theorem un_binary {α : Type} (b : Build) {s : Store α} (hs : Store.Ok s) {d : Dim} (f : α → α → Res α)
    {A1 A2 : Tm α d} (h1 : A1.Sound s) (v1 : A1.Valid s) (h2 : A2.Sound s) (v2 : A2.Valid s)
    (hd : (A1.meaning s).dims = (A2.meaning s).dims) :
    ∃ a, (Tm.binary f A1 A2).build b s = .ok a ∧ ∀ (i : Nat) r1 r2, elementAt A1 s i = some r1 →
      elementAt A2 s i = some r2 → a.un s i = (do let u ← r1; let v ← r2; f u v) := by
  obtain ⟨a, e, h⟩ := un_of_main b hs (t := Tm.binary f A1 A2) ⟨h1, h2⟩ ⟨v1, v2, hd⟩
  refine ⟨a, e, fun i r1 r2 e1 e2 => h i _ ?_⟩
  show (Sem.zip _ _ _).flat[i]? = _
  rw [flat_zip _ hd, List.getElem?_zipWith, show (A1.meaning s).flat[i]? = some r1 from e1,
    show (A2.meaning s).flat[i]? = some r2 from e2]

theorem rep_val {x : FVal} (h : Held p emin F x) (f : x.isFinite = true) : Rep p emin x.val := by
  obtain ⟨s, m, rfl⟩ := finite_cases f
  cases s
  · exact h.2.2
  · exact rep_neg h.2.2

section

variable {s : Store FVal} {d : Dim} {A A1 A2 : Tm FVal d} (b : Build)

/-- C96: `A1 op A2` has at every position the result of `op` on the elements of `A1` and `A2` there; if
one of them fails (the first one is evaluated first), it fails in the same way. -/
theorem C96_arrays (hF : IsFmt p emin F) (op : FloatOp) (hs : Store.Ok s) (h1 : A1.Sound s) (v1 : A1.Valid s)
    (h2 : A2.Sound s) (v2 : A2.Valid s) (hd : (A1.meaning s).dims = (A2.meaning s).dims) :
    ∃ a, (FloatArr.arrays F.scalar op A1 A2).build b s = .ok a ∧
      ∀ (i : Nat) r1 r2, elementAt A1 s i = some r1 → elementAt A2 s i = some r2 →
        (∀ x y, r1 = .ok x → r2 = .ok y → Held p emin F x → Held p emin F y →
          ∃ z, a.un s i = .ok z ∧ op.Result F x y z ∧ Held p emin F z) ∧
        ((∀ x, r1 ≠ .ok x) → a.un s i = r1) ∧
        (∀ x, r1 = .ok x → (∀ y, r2 ≠ .ok y) → a.un s i = r2) := by
  obtain ⟨a, e, h⟩ := un_binary b hs (FloatArr.fn F.scalar op) h1 v1 h2 v2 hd
  refine ⟨a, e, fun i r1 r2 e1 e2 => ?_⟩
  rw [h i r1 r2 e1 e2]
  refine ⟨?_, ?_, ?_⟩
  · rintro x y rfl rfl hx hy
    exact C96_operators hF op hx hy
  · intro hn
    cases r1 with
    | ok x => exact absurd rfl (hn x)
    | trap k => rfl
    | ub => rfl
  · rintro x rfl hn
    cases r2 with
    | ok y => exact absurd rfl (hn y)
    | trap k => rfl
    | ub => rfl

/-- C96: `c op A` and `A op c` with a number `c`. -/
theorem C96_array_and_number (hF : IsFmt p emin F) (op : FloatOp) (hs : Store.Ok s) (h1 : A.Sound s)
    (v1 : A.Valid s) {c : FVal} (hc : Held p emin F c) :
    (∃ a, (FloatArr.left F.scalar op c A).build b s = .ok a ∧
      ∀ (i : Nat) x, elementAt A s i = some (.ok x) → Held p emin F x →
        ∃ z, a.un s i = .ok z ∧ op.Result F c x z ∧ Held p emin F z) ∧
    (∃ a, (FloatArr.right F.scalar op A c).build b s = .ok a ∧
      ∀ (i : Nat) x, elementAt A s i = some (.ok x) → Held p emin F x →
        ∃ z, a.un s i = .ok z ∧ op.Result F x c z ∧ Held p emin F z) := by
  constructor
  · obtain ⟨a, e, h⟩ := un_of_main b hs (t := FloatArr.left F.scalar op c A) h1 v1
    refine ⟨a, e, fun i x e1 hx => ?_⟩
    rw [h i (FloatArr.fn F.scalar op c x) (by
      show (Sem.map _ _).flat[i]? = _
      rw [flat_map, List.getElem?_map, show (A.meaning s).flat[i]? = some (.ok x) from e1]; rfl)]
    exact C96_operators hF op hc hx
  · obtain ⟨a, e, h⟩ := un_of_main b hs (t := FloatArr.right F.scalar op A c) h1 v1
    refine ⟨a, e, fun i x e1 hx => ?_⟩
    rw [h i (FloatArr.fn F.scalar op x c) (by
      show (Sem.map _ _).flat[i]? = _
      rw [flat_map, List.getElem?_map, show (A.meaning s).flat[i]? = some (.ok x) from e1]; rfl)]
    exact C96_operators hF op hx hc

/-- C96: `+A`, `-A`, `abs(A)`, `inv(A)`, `sqrt(A)`. -/
theorem C96_unary (hF : IsFmt p emin F) (h1 : Rep p emin 1) (hr : ∀ m, 0 < m → 0 < F.sqrt m) (op : FloatOp1)
    (hs : Store.Ok s) (hA : A.Sound s) (vA : A.Valid s) :
    ∃ a, (FloatArr.one F.scalar op A).build b s = .ok a ∧
      ∀ (i : Nat) x, elementAt A s i = some (.ok x) → Held p emin F x →
        ∃ z, a.un s i = .ok z ∧ op.Result F x z ∧ Held p emin F z := by
  obtain ⟨a, e, h⟩ := un_unary b hs (FloatArr.fn1 F.scalar op) hA vA
  refine ⟨a, e, fun i x e1 hx => ?_⟩
  rw [h i _ e1]
  exact C96_unary_operators hF h1 hr op hx

/-- C96: `exp(A)` and so on have at every position what the function of that name gives for the element of `A`
there, and `pow(A, pw)` the power with exponent `pw`. -/
theorem C96_functions {α : Type} {s : Store α} {A : Tm α d} (fs : FScalar α) (lib : MathLib α) (f : LibFn) (pw : α)
    (hs : Store.Ok s) (hA : A.Sound s) (vA : A.Valid s) :
    (∃ a, (FloatArr.libArr lib f A).build b s = .ok a ∧
      ∀ (i : Nat) x, elementAt A s i = some (.ok x) → a.un s i = lib f x) ∧
    (∃ a, (FloatArr.pow fs A pw).build b s = .ok a ∧
      ∀ (i : Nat) x, elementAt A s i = some (.ok x) → a.un s i = fs.pow x pw) := by
  constructor
  · obtain ⟨a, e, h⟩ := un_unary b hs (FloatArr.libFn lib f) hA vA
    refine ⟨a, e, fun i x e1 => ?_⟩
    rw [h i _ e1]
    cases f <;> rfl
  · obtain ⟨a, e, h⟩ := un_unary b hs (FloatFunctor.unaryPow fs pw) hA vA
    exact ⟨a, e, fun i x e1 => by rw [h i _ e1]; rfl⟩

/-- C96: `two_prod(A1, A2)` is the pair of the rounded products and of their errors: the error is NaN if an operand
is not finite, and otherwise, if it is finite, product and error sum up exactly unless the product has digits below
the least exponent. -/
theorem C96_two_prod (hp : 1 ≤ p) (hF : IsFmt p emin F) (hs : Store.Ok s) (h1 : A1.Sound s) (v1 : A1.Valid s)
    (h2 : A2.Sound s) (v2 : A2.Valid s) (hd : (A1.meaning s).dims = (A2.meaning s).dims) :
    ∃ a1 a2, (FloatArr.twoProdFirst F.scalar A1 A2).build b s = .ok a1 ∧
      (FloatArr.twoProdSecond F.scalar A1 A2).build b s = .ok a2 ∧
      ∀ (i : Nat) x y, elementAt A1 s i = some (.ok x) → elementAt A2 s i = some (.ok y) → Held p emin F x →
        Held p emin F y → ∃ r e, a1.un s i = .ok r ∧ a2.un s i = .ok e ∧ FloatOp.mul.Result F x y r ∧
          (x.isFinite = false ∨ y.isFinite = false → e = nan) ∧
          (e.isFinite = true →
            (r.val + e.val = x.val * y.val ↔ ∃ k : Int, x.val * y.val = k * 2 ^ emin)) := by
  obtain ⟨a1, e1, g1⟩ := un_binary b hs (FloatFunctor.binaryTwoProdFirst F.scalar) h1 v1 h2 v2 hd
  obtain ⟨a2, e2, g2⟩ := un_binary b hs (FloatFunctor.binaryTwoProdSecond F.scalar) h1 v1 h2 v2 hd
  refine ⟨a1, a2, e1, e2, fun i x y hx hy qx qy => ?_⟩
  rw [g1 i _ _ hx hy, g2 i _ _ hx hy]
  refine ⟨(twoProdsV F (x, y)).1, (twoProdsV F (x, y)).2, rfl, rfl, ?_, ?_, ?_⟩
  · obtain ⟨z, h, h', -⟩ := C96_operators hF .mul qx qy
    rwa [show (twoProdsV F (x, y)).1 = z from Res.ok.inj h]
  · exact fun h => twoProdsV_nan h
  · intro h
    obtain ⟨fx, fy, fr, h4⟩ := twoProdsV_finite (pow := fun x _ => x) (sqrt := id) hF h
    obtain ⟨r, e, k1, -, -, -, k5⟩ := C12_two_prod (pow := fun x _ => x) (sqrt := id) hp hF.near
      (rep_val qx fx) (rep_val qy fy)
    have := Res.ok.inj (k1.symm.trans h4)
    simp only [vals, Prod.mk.injEq] at this
    rwa [this.1, this.2] at k5

/-- C96: `l op= A` writes to the elements of `l`, in order, the results of `op` on their values and the
elements of `A`, up to the first that fails; nothing else changes. -/
theorem C96_compound (hF : IsFmt p emin F) (op : FloatOp) (hs : Store.Ok s) {l : Lv d} (hS : l.Sound s)
    (hV : l.Valid s) (tS : A.Sound s) (tV : A.Valid s) (hd : (l.cells s).dims = (A.meaning s).dims)
    (ht : Pointwise l A) {cs : List Loc} (hp : Places l s cs) (hn : cs.Nodup) :
    ∃ vals, Writes cs vals s ((FloatArr.assign F.scalar op l A).run b s) ∧ vals.length = cs.length ∧
      ∀ (i : Nat) c x y, cs[i]? = some c → s.read c = .ok x → elementAt A s i = some (.ok y) →
        Held p emin F x → Held p emin F y →
        ∃ z, vals[i]? = some (.ok z) ∧ op.Result F x y z ∧ Held p emin F z := by
  refine ⟨_, C50_compound b (FloatArr.assignFn F.scalar op) hs hS hV tS tV hd ht hp hn, ?_, ?_⟩
  · have hlen : (A.meaning s).flat.length = cs.length := by rw [flat_dims, ← hd, ← Places.length hp]
    rw [List.length_zipWith, List.length_map, hlen, Nat.min_self]
  · intro i c x y hc hr hy hx hy'
    obtain ⟨z, h, h'⟩ := C96_operators hF op hx hy'
    refine ⟨z, ?_, h'⟩
    rw [List.getElem?_zipWith, List.getElem?_map, hc,
      show (A.meaning s).flat[i]? = some (.ok y) from hy, Option.map_some, hr]
    exact congrArg some ((C96_compound_function F.scalar op x y).trans h)

/-- C96: `l op= c` with a number `c`. -/
theorem C96_compound_number (hF : IsFmt p emin F) (op : FloatOp) (hs : Store.Ok s) {l : Lv d} (hS : l.Sound s)
    (hV : l.Valid s) {c : FVal} (hc : Held p emin F c) {cs : List Loc} (hp : Places l s cs) (hn : cs.Nodup) :
    ∃ vals, Writes cs vals s ((FloatArr.assignX F.scalar op l c).run b s) ∧ vals.length = cs.length ∧
      ∀ (i : Nat) k x, cs[i]? = some k → s.read k = .ok x → Held p emin F x →
        ∃ z, vals[i]? = some (.ok z) ∧ op.Result F x c z ∧ Held p emin F z := by
  refine ⟨_, C50_compound_scalar b (FloatArr.assignFn F.scalar op) hs hS hV c hp hn, List.length_map .., ?_⟩
  intro i k x hk hr hx
  obtain ⟨z, h, h'⟩ := C96_operators hF op hx hc
  refine ⟨z, ?_, h'⟩
  rw [List.getElem?_map, hk, Option.map_some, hr]
  exact congrArg some ((C96_compound_function F.scalar op x c).trans h)

end

/-! ### Powers with integer exponents -/

/-- The integer `2^p + 1` is rounded to one of its even neighbours. -/
theorem rn_odd_exponent (hp : 1 ≤ p) (he : emin ≤ 0) (hF : IsFmt p emin F) :
    F.rn (2 ^ p + 1) = 2 ^ p ∨ F.rn (2 ^ p + 1) = 2 ^ p + 2 := by
  have r1 : Rep p emin ((2 : ℚ) ^ p) := by
    have := rep_pow hp (emin := emin) (e := 0) he
    simpa using this
  have hn := hF.near.near (2 ^ p + 1) _ r1
  rw [show (2 : ℚ) ^ p + 1 - 2 ^ p = 1 by ring, abs_one] at hn
  obtain ⟨n1, n2⟩ := abs_le.1 hn
  have hpos : (0 : ℚ) < 2 ^ p := by positivity
  obtain ⟨k, hk⟩ : Mult 1 (F.rn (2 ^ p + 1)) := by
    refine mult_binade (hF.near.rep _) (.inl ?_)
    rw [abs_of_nonneg (by linarith), zpow_one]
    linarith
  rw [zpow_one] at hk
  have h2 : (2 : ℚ) ^ p = 2 ^ (p - 1) * 2 := by rw [← pow_succ, Nat.sub_add_cancel hp]
  have k1 : (2 : Int) ^ (p - 1) ≤ k := by
    have : ((2 : Int) ^ (p - 1) : ℚ) ≤ k := by push_cast; linarith
    exact_mod_cast this
  have k2 : k ≤ (2 : Int) ^ (p - 1) + 1 := by
    have : (k : ℚ) ≤ ((2 : Int) ^ (p - 1) + 1 : Int) := by push_cast; linarith
    exact_mod_cast this
  rcases (show k = 2 ^ (p - 1) ∨ k = 2 ^ (p - 1) + 1 by omega) with rfl | rfl
  · left; rw [hk, h2]; push_cast; ring
  · right; rw [hk, h2]; push_cast; ring

/-- An integer with at most `p` binary digits, or `±2^p`, is a number of the format. -/
theorem rep_int (hp : 1 ≤ p) (he : emin ≤ 0) {i : Int} (hi : |i| ≤ 2 ^ p) : Rep p emin (i : ℚ) := by
  refine rep_of_mult hp (g := 0) ⟨i, by simp⟩ he ?_
  rw [zpow_zero, mul_one]
  exact_mod_cast hi

theorem ofIndex_exact (hp : 1 ≤ p) (he : emin ≤ 0) (hF : IsFmt p emin F) {i : Int} (hi : |i| ≤ 2 ^ p)
    (ht : |(i : ℚ)| ≤ F.top) :
    F.scalar.ofIndex i = .ok (fin (decide (i < 0)) |(i : ℚ)|) := by
  have hr : F.rn |(i : ℚ)| = |(i : ℚ)| := by
    have : |(i : ℚ)| = ((|i| : Int) : ℚ) := by push_cast; rfl
    rw [this]
    exact rn_rep hF.near (rep_int hp he (by rwa [abs_abs]))
  show Res.ok (FVal.round F _ _) = _
  unfold FVal.round
  rw [hr, if_neg (not_lt.2 ht)]

section

variable {s : Store FVal} {d : Dim} {A : Tm FVal d} (b : Build)

/-- C96: `exps_int<T>(n)` is `exp` of the number `n` if `|n|` is at most `2^p`. -/
theorem C96_exp_int (hp : 1 ≤ p) (he : emin ≤ 0) (hF : IsFmt p emin F) {n : Int} (hn : |n| ≤ 2 ^ p)
    (ht : |(n : ℚ)| ≤ F.top) (lib : MathLib FVal) :
    ∃ e : FVal, e.isFinite = true ∧ e.val = n ∧ F.scalar.expsInt lib n = lib .exp e := by
  have hi := ofIndex_exact hp he hF hn ht
  refine ⟨fin (decide (n < 0)) |(n : ℚ)|, rfl, ?_, ?_⟩
  · by_cases h : n < 0
    · have : (n : ℚ) < 0 := by exact_mod_cast h
      simp [val, h, abs_of_neg this]
    · have : (0 : ℚ) ≤ n := by exact_mod_cast not_lt.1 h
      simp [val, h, abs_of_nonneg this]
  · unfold FScalar.expsInt
    rw [hi]; rfl

/-- C96: `pow_int(A, n)` and `pows_int(x, n)` are powers with the exponent `n` if `|n|` is at most `2^p`. -/
theorem C96_pow_int (hp : 1 ≤ p) (he : emin ≤ 0) (hF : IsFmt p emin F) {n : Int} (hn : |n| ≤ 2 ^ p)
    (ht : |(n : ℚ)| ≤ F.top) (hs : Store.Ok s) (hA : A.Sound s) (vA : A.Valid s) :
    ∃ e : FVal, e.isFinite = true ∧ e.val = n ∧ (∀ x, F.scalar.powsInt x n = .ok (F.pow x e)) ∧
      ∃ a, (FloatArr.powInt F.scalar A n).build b s = .ok a ∧
        ∀ (i : Nat) x, elementAt A s i = some (.ok x) → a.un s i = .ok (F.pow x e) := by
  have hi := ofIndex_exact hp he hF hn ht
  refine ⟨fin (decide (n < 0)) |(n : ℚ)|, rfl, ?_, fun x => ?_, ?_⟩
  · by_cases h : n < 0
    · have : (n : ℚ) < 0 := by exact_mod_cast h
      simp [val, h, abs_of_neg this]
    · have : (0 : ℚ) ≤ n := by exact_mod_cast not_lt.1 h
      simp [val, h, abs_of_nonneg this]
  · unfold FScalar.powsInt
    rw [hi]; rfl
  · obtain ⟨a, e, h⟩ := un_unary b hs (fun x => do
      let e ← F.scalar.ofIndex n
      FloatFunctor.unaryPow F.scalar e x) hA vA
    refine ⟨a, e, fun i x e1 => ?_⟩
    rw [h i _ e1, hi]; rfl

/-- C96: for larger exponents the exponent is rounded first: `pow_int(A, 2^p + 1)` and `pows_int(x, 2^p + 1)` use
the even exponent `2^p` or `2^p + 2` for all elements, so the sign of the results for negative elements is not that
of the power. -/
theorem C96_pow_int_rounded (hp : 1 ≤ p) (he : emin ≤ 0) (hF : IsFmt p emin F) (ht : 2 ^ p + 2 ≤ F.top)
    (hs : Store.Ok s) (hA : A.Sound s) (vA : A.Valid s) :
    ∃ e : FVal, e.isFinite = true ∧ (e.val = 2 ^ p ∨ e.val = 2 ^ p + 2) ∧
      (∀ x, F.scalar.powsInt x (2 ^ p + 1) = .ok (F.pow x e)) ∧
      ∃ a, (FloatArr.powInt F.scalar A (2 ^ p + 1)).build b s = .ok a ∧
        ∀ (i : Nat) x, elementAt A s i = some (.ok x) → a.un s i = .ok (F.pow x e) := by
  have hr := rn_odd_exponent hp he hF
  have hpos : (0 : ℚ) < 2 ^ p := by positivity
  have hposi : (0 : Int) < 2 ^ p := by positivity
  have hi : F.scalar.ofIndex (2 ^ p + 1) = .ok (fin false (F.rn (2 ^ p + 1))) := by
    show Res.ok (FVal.round F _ _) = _
    unfold FVal.round
    push_cast
    rw [abs_of_pos (by linarith), if_neg (by rcases hr with h | h <;> rw [h] <;> linarith)]
    rw [decide_eq_false (by omega)]
  refine ⟨fin false (F.rn (2 ^ p + 1)), rfl, hr, fun x => ?_, ?_⟩
  · unfold FScalar.powsInt
    rw [hi]; rfl
  · obtain ⟨a, e, h⟩ := un_unary b hs (fun x => do
      let e ← F.scalar.ofIndex (2 ^ p + 1)
      FloatFunctor.unaryPow F.scalar e x) hA vA
    refine ⟨a, e, fun i x e1 => ?_⟩
    rw [h i _ e1, hi]; rfl

/-- C96: `fast_pow_int(A, n)` has at every position what `fast_pows_int` gives for the element of `A` there. -/
theorem C96_fast_pow_int {α : Type} {s : Store α} {A : Tm α d} (fs : FScalar α) (n : Int) (hs : Store.Ok s)
    (hA : A.Sound s) (vA : A.Valid s) :
    ∃ a, (FloatArr.fastPowInt fs A n).build b s = .ok a ∧
      ∀ (i : Nat) x, elementAt A s i = some (.ok x) → a.un s i = fastPowsInt fs.mul fs.div fs.one x n := by
  obtain ⟨a, e, h⟩ := un_unary b hs (FloatFunctor.unaryFastPowInt fs n) hA vA
  exact ⟨a, e, fun i x e1 => by rw [h i _ e1]; rfl⟩

end

/-- C96: the elements of `pow_prod(A1, A2)` are the two parts of `pow_prods` (see C57); the exponents are checked
for every element. -/
theorem C96_pow_prod {α : Type} (b : Build) (fs : FScalar α) (x : α) (n : Int) {r : α × α}
    (h : fs.powProds b x n = .ok r) :
    FloatFunctor.binaryPowProdFirst fs b x n = .ok r.1 ∧ FloatFunctor.binaryPowProdSecond fs b x n = .ok r.2 := by
  unfold FloatFunctor.binaryPowProdFirst FloatFunctor.binaryPowProdSecond
  rw [h]
  exact ⟨rfl, rfl⟩

/-! ### Instances -/

/-- Two arrays of floating-point numbers. -/
def floatStore : Store FVal where
  a1 := fun id => if id = 0 then [fin false 3, inf true, fin true 0] else if id = 1 then [fin true 2, fin false 1, nan]
    else []
  a2 := fun _ => ⟨0, 0, []⟩

theorem floatStore_ok : Store.Ok floatStore := by
  constructor
  · intro id
    simp only [floatStore]
    by_cases h0 : id = 0
    · simp [h0]
    · by_cases h1 : id = 1 <;> simp [h0, h1]
  · intro id
    exact ⟨⟨by simp [floatStore], by simp [floatStore], by simp [floatStore], by simp [floatStore]⟩, by simp [floatStore]⟩

/-- The format of the example in `IeeeArith`: three digits. -/
theorem exists_fmt3 : ∃ F : Fmt, IsFmt 3 (-3) F ∧ F.top = 28 ∧ (∀ m, 0 < m → 0 < F.sqrt m) := by
  obtain ⟨rn, h⟩ := exists_nearest (p := 3) (by norm_num) (-3)
  obtain ⟨rn', h', ho⟩ := exists_odd h
  exact ⟨⟨rn', 28, id, fun x _ => x⟩, ⟨h', ho, ⟨7, 2, by norm_num, by norm_num, by norm_num⟩, by norm_num⟩, rfl,
    fun _ h => h⟩

/-- `[3, -inf, -0]`. -/
def floatX : Tm FVal .one := .lv (.arr1 0)
/-- `[-2, 1, NaN]`. -/
def floatY : Tm FVal .one := .lv (.arr1 1)

-- [3, -inf, -0] * [-2, 1, NaN] = [-6, -inf, NaN]
example : ∃ F : Fmt, IsFmt 3 (-3) F ∧
    ∃ a, (FloatArr.arrays F.scalar .mul floatX floatY).build ⟨false, true, false⟩ floatStore = .ok a ∧
      a.un floatStore 0 = .ok (fin true 6) ∧ a.un floatStore 1 = .ok (inf true) ∧ a.un floatStore 2 = .ok nan := by
  obtain ⟨F, hF, ht, -⟩ := exists_fmt3
  have hold : ∀ {s : Bool} {m : ℚ} (k : Int), m = k → |k| ≤ 7 → 0 ≤ m → Held 3 (-3) F (fin s m) := by
    rintro s m k rfl hk h0
    have h7 : (|k| : ℚ) ≤ 7 := by exact_mod_cast hk
    refine ⟨h0, ?_, k, 0, by rw [show (2 : Int) ^ 3 = 8 by norm_num]; omega, by norm_num, by simp⟩
    rw [ht]; linarith [le_abs_self (k : ℚ)]
  refine ⟨F, hF, ?_⟩
  obtain ⟨a, e, h⟩ := C96_arrays (A1 := floatX) (A2 := floatY) ⟨false, true, false⟩ hF .mul floatStore_ok (by decide)
    (by decide) (by decide) (by decide) rfl
  refine ⟨a, e, ?_, ?_, ?_⟩
  · obtain ⟨z, h1, h2, -⟩ := (h 0 (.ok (fin false 3)) (.ok (fin true 2)) rfl rfl).1 _ _ rfl rfl
      (hold 3 rfl (by norm_num) (by norm_num)) (hold 2 rfl (by norm_num) (by norm_num))
    rw [show a.un floatStore (0 : Int) = .ok z from h1]
    have h6 : F.rn (-6) = -6 := rn_rep hF.near ⟨-3, 1, by norm_num, by norm_num, by norm_num⟩
    have hv : (fin false 3).val * (fin true 2).val = -6 := by norm_num [val]
    obtain ⟨k1, k2, -⟩ := (h2.1 rfl rfl).1 (by rw [hv]; norm_num)
    rw [hv, h6] at k2
    obtain ⟨f, v⟩ := k2 (by rw [ht]; norm_num)
    rw [fin_ext f (z' := fin true 6) rfl (k1.trans (by rw [hv]; rfl)) (by rw [v]; rfl)]
  · obtain ⟨z, h1, h2, -⟩ := (h 1 (.ok (inf true)) (.ok (fin false 1)) rfl rfl).1 _ _ rfl rfl trivial
      (hold 1 rfl (by norm_num) (by norm_num))
    rw [show a.un floatStore (1 : Int) = .ok z from h1, h2.2.2.2.2.1 rfl (.inr ⟨rfl, by norm_num [val]⟩)]
    rfl
  · obtain ⟨z, h1, h2, -⟩ := (h 2 (.ok (fin true 0)) (.ok nan) rfl rfl).1 _ _ rfl rfl
      (hold 0 rfl (by norm_num) (by norm_num)) trivial
    rw [show a.un floatStore (2 : Int) = .ok z from h1, h2.2.1 (.inr rfl)]

-- the hypotheses of the theorems on powers can be met: exponents up to 8 are exact, 9 is used as 8 or 10
example : ∃ F : Fmt, IsFmt 3 (-3) F ∧ (∃ e : FVal, e.val = -7 ∧ ∀ x, F.scalar.powsInt x (-7) = .ok (F.pow x e)) ∧
    ∃ e : FVal, (e.val = 8 ∨ e.val = 10) ∧ ∀ x, F.scalar.powsInt x 9 = .ok (F.pow x e) := by
  obtain ⟨F, hF, ht, -⟩ := exists_fmt3
  obtain ⟨e, -, h1, h2, -⟩ := C96_pow_int (A := floatX) ⟨false, true, false⟩ (by norm_num) (by norm_num) hF
    (n := -7) (by norm_num) (by rw [ht]; norm_num) floatStore_ok (by decide) (by decide)
  obtain ⟨e', -, h1', h2', -⟩ := C96_pow_int_rounded (A := floatX) ⟨false, true, false⟩ (by norm_num) (by norm_num) hF
    (by rw [ht]; norm_num) floatStore_ok (by decide) (by decide)
  refine ⟨F, hF, ⟨e, by rw [h1]; norm_num, h2⟩, e', ?_, h2'⟩
  rcases h1' with h | h <;> rw [h] <;> norm_num

example : ∃ F : Fmt, IsFmt 3 (-3) F ∧
    ∃ a, (FloatArr.one F.scalar .abs floatX).build ⟨false, true, false⟩ floatStore = .ok a ∧
      a.un floatStore 1 = .ok (inf false) := by
  obtain ⟨F, hF, ht, hr⟩ := exists_fmt3
  obtain ⟨a, e, h⟩ := C96_unary (A := floatX) ⟨false, true, false⟩ hF ⟨1, 0, by norm_num, by norm_num, by norm_num⟩ hr
    .abs floatStore_ok (by decide) (by decide)
  obtain ⟨z, h1, h2, -⟩ := h 1 (inf true) rfl trivial
  exact ⟨F, hF, a, e, by rw [show a.un floatStore (1 : Int) = .ok z from h1, h2.2.1 rfl]⟩

example : ∃ F : Fmt, IsFmt 3 (-3) F ∧ ∃ vals, Writes [.one 0 0, .one 0 1, .one 0 2] vals floatStore
      ((FloatArr.assign F.scalar .add (.arr1 0) floatY).run ⟨false, true, false⟩ floatStore) ∧
    vals[1]? = some (.ok (inf true)) := by
  obtain ⟨F, hF, ht, -⟩ := exists_fmt3
  obtain ⟨vals, h1, -, h3⟩ := C96_compound (A := floatY) ⟨false, true, false⟩ hF .add floatStore_ok (l := .arr1 0)
    (by decide) (by decide) (by decide) (by decide) rfl (.other (by decide)) (cs := [.one 0 0, .one 0 1, .one 0 2])
    ⟨rfl, by decide⟩ (by decide)
  obtain ⟨z, k1, k2, -⟩ := h3 1 (.one 0 1) (inf true) (fin false 1) rfl rfl rfl trivial
    ⟨by norm_num, by rw [ht]; norm_num, 1, 0, by norm_num, by norm_num, by norm_num⟩
  exact ⟨F, hF, vals, h1, by rw [k1, (k2.2.2.1 _ rfl).1 (.inl rfl)]⟩

end Spp.Props
