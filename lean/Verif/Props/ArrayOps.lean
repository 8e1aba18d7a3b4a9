import Verif.Model.ArrayOps
import Verif.Props.Scalar
import Verif.Props.StrictInt
import Verif.Props.Assign
import Verif.Props.StrictMath

/-
C85: operators of integer and boolean arrays work element by element, and compound assignment does what
the operator does.
-/

set_option linter.unusedSectionVars false

namespace Spp.Props
open Spec

theorem assertDebug_unchecked {b : Build} (h : ¬ b.Checked) (c : Bool) : assertDebug b c = .ok () := by
  rcases b with ⟨_ | _, _ | _, _ | _⟩ <;> cases c <;> first | rfl | exact absurd (by decide) h

theorem exact_of_arith {t : IntTy} {v r : Int} (h : t.arith v = .ok r) : Fits t r ∧ Exact t v r := by
  obtain ⟨h1, h2⟩ := arith_ok_iff.1 h
  cases hs : t.signed
  · exact ⟨(h2 hs).1, fun h => (nomatch hs.symm.trans h), fun _ => (h2 hs).2⟩
  · obtain ⟨u, rfl⟩ := h1 hs
    exact ⟨u, fun _ => rfl, fun h => (nomatch hs.symm.trans h)⟩

theorem arith_outcome (t : IntTy) (v : Int) :
    ((t.signed = true ∧ ¬ Fits t v) ∧ t.arith v = .ub) ∨
    (¬ (t.signed = true ∧ ¬ Fits t v) ∧ ∃ r, t.arith v = .ok r ∧ Fits t r ∧ Exact t v r) := by
  cases h : t.arith v with
  | ok r => exact .inr ⟨fun c => (by rw [arith_ub_iff.2 c] at h; cases h), r, rfl, exact_of_arith h⟩
  | trap k => exact absurd h arith_not_trap
  | ub => exact .inl ⟨arith_ub_iff.1 h, rfl⟩

theorem shiftChecks_rejected {b : Build} (hb : b.Checked) {t : IntTy} {x y : Int}
    (h : t.signed = true ∧ (x < 0 ∨ y < 0)) : SInt.shiftChecks b t x y = .trap b.kind := by
  unfold SInt.shiftChecks
  rw [if_pos h.1]
  by_cases hx : x < 0
  · have : decide (x > -1) = false := by simp; omega
    rw [this, assertDebug_false hb]; rfl
  · have h1 : decide (x > -1) = true := by simp; omega
    have h2 : decide (y > -1) = false := by simp; omega
    rw [h1, h2, assertDebug_true, assertDebug_false hb]; rfl

theorem shiftChecks_passed {b : Build} {t : IntTy} {x y : Int}
    (h : ¬ (b.Checked ∧ t.signed = true ∧ (x < 0 ∨ y < 0))) : SInt.shiftChecks b t x y = .ok () := by
  unfold SInt.shiftChecks
  by_cases hb : b.Checked
  · by_cases hs : t.signed = true
    · have h1 : decide (x > -1) = true := by
        simp only [decide_eq_true_eq]; by_contra c; exact h ⟨hb, hs, by omega⟩
      have h2 : decide (y > -1) = true := by
        simp only [decide_eq_true_eq]; by_contra c; exact h ⟨hb, hs, by omega⟩
      simp [h1, h2]
    · rw [if_neg hs]
  · simp only [assertDebug_unchecked hb, Res.ok_bind]
    split <;> rfl

/-- C85: what the function used by the operators gives, for all operands and builds. -/
theorem C85_operators (b : Build) (op : IntOp) {t : IntTy} {x y : Int} (hx : Fits t x) (hy : Fits t y) :
    op.Outcome b t x y (ArrOp.fn b t op x y) := by
  have ar : ∀ {op : IntOp} (v : Int), (∀ x y, ¬ op.Rejected t x y) →
      (op.Undefined t x y ↔ t.signed = true ∧ ¬ Fits t v) →
      (∀ r, Exact t v r → op.Result t x y r) → op.Outcome b t x y (t.arith v) := by
    intro op v h1 h2 h3
    rcases arith_outcome t v with ⟨c, e⟩ | ⟨c, r, e, f, g⟩
    · exact .inr (.inl ⟨fun q => h1 _ _ q.2, h2.2 c, e⟩)
    · exact .inr (.inr ⟨fun q => h1 _ _ q.2, fun q => c (h2.1 q), r, e, f, h3 r g⟩)
  have dv : ∀ {op : IntOp} (f : Build → IntTy → Int → Int → Res Int), (op = .div ∧ f = SInt.div ∨ op = .rem ∧ f = SInt.rem) →
      op.Outcome b t x y (f b t x y) := by
    intro op f hf
    have hR : op.Rejected t x y ↔ y = 0 := by rcases hf with ⟨rfl, -⟩ | ⟨rfl, -⟩ <;> rfl
    have hU : op.Undefined t x y ↔ y = 0 ∨ MinOverMinusOne t x y := by
      rcases hf with ⟨rfl, -⟩ | ⟨rfl, -⟩ <;> rfl
    unfold IntOp.Outcome
    rw [hR, hU]
    by_cases h0 : y = 0
    · subst h0
      by_cases hb : b.Checked
      · refine .inl ⟨hb, rfl, ?_⟩
        rcases hf with ⟨-, rfl⟩ | ⟨-, rfl⟩
        · exact (C01_zero_divisor_traps hb t x).1
        · exact (C01_zero_divisor_traps hb t x).2.1
      · refine .inr (.inl ⟨fun q => hb q.1, .inl rfl, ?_⟩)
        rcases hf with ⟨-, rfl⟩ | ⟨-, rfl⟩ <;>
          simp [SInt.div, SInt.rem, assertDebug_unchecked hb, SInt.builtinDiv, SInt.builtinRem]
    · by_cases hm : MinOverMinusOne t x y
      · refine .inr (.inl ⟨fun q => h0 q.2, .inr hm, ?_⟩)
        rcases hf with ⟨-, rfl⟩ | ⟨-, rfl⟩
        · exact (C01_min_over_minus_one b hm).1
        · exact (C01_min_over_minus_one b hm).2
      · obtain ⟨q, r, h1, h2, h3, h4, -, -⟩ := C01_division_result b hx hy h0 hm
        refine .inr (.inr ⟨fun c => h0 c.2, by rintro (c | c); exacts [h0 c, hm c], ?_⟩)
        rcases hf with ⟨rfl, rfl⟩ | ⟨rfl, rfl⟩
        · exact ⟨q, h3, h2, r, h1⟩
        · refine ⟨r, h4, ?_, q, h1⟩
          have := h1.small; have := h1.sign_pos; have := h1.sign_neg
          refine ⟨fun hs => ?_, fun hs => ?_⟩
          · have := hy.1 hs; have := hx.1 hs; omega
          · have := hy.2 hs; have := hx.2 hs; omega
  have sh : ∀ {op : IntOp} (f : IntTy → Int → Int → Res Int),
      (op = .shl ∧ f = SInt.builtinShl ∨ op = .shr ∧ f = SInt.builtinShr) →
      op.Outcome b t x y (do SInt.shiftChecks b t x y; f t x y) := by
    intro op f hf
    have hR : op.Rejected t x y ↔ t.signed = true ∧ (x < 0 ∨ y < 0) := by
      rcases hf with ⟨rfl, -⟩ | ⟨rfl, -⟩ <;> rfl
    have hU : op.Undefined t x y ↔ y < 0 ∨ (t.bits : Int) ≤ y := by
      rcases hf with ⟨rfl, -⟩ | ⟨rfl, -⟩ <;> rfl
    unfold IntOp.Outcome
    rw [hR, hU]
    by_cases hc : b.Checked ∧ t.signed = true ∧ (x < 0 ∨ y < 0)
    · exact .inl ⟨hc.1, hc.2, by rw [shiftChecks_rejected hc.1 hc.2]; rfl⟩
    · rw [shiftChecks_passed hc, Res.ok_bind]
      by_cases hu : y < 0 ∨ (t.bits : Int) ≤ y
      · refine .inr (.inl ⟨hc, hu, ?_⟩)
        rcases hf with ⟨-, rfl⟩ | ⟨-, rfl⟩ <;> simp [SInt.builtinShl, SInt.builtinShr, hu]
      · refine .inr (.inr ⟨hc, hu, ?_⟩)
        rcases hf with ⟨rfl, rfl⟩ | ⟨rfl, rfl⟩
        · exact ⟨_, if_neg hu, wrap_fits _ _, wrap_same _ _⟩
        · have hp := two_pow_pos y.toNat
          refine ⟨x / 2 ^ y.toNat, if_neg hu, ?_, ?_, ?_⟩
          · by_cases h0 : 0 ≤ x
            · exact shr_fits hx _ h0
            · have h1 : x / 2 ^ y.toNat < 0 := Int.ediv_neg_of_neg_of_pos (by omega) hp
              have h2 : x ≤ x / 2 ^ y.toNat := by
                rw [Int.le_ediv_iff_mul_le hp]
                have : (1 : Int) ≤ 2 ^ y.toNat := hp
                nlinarith
              refine ⟨fun hs => ?_, fun hs => ?_⟩
              · have := hx.1 hs; omega
              · have := hx.2 hs; omega
          · rw [Int.mul_comm]; exact Int.ediv_mul_le _ hp.ne'
          · rw [Int.mul_comm]; exact Int.lt_ediv_add_one_mul_self _ hp
  have bw := C77_bitwise t x y
  cases op with
  | add => exact ar (op := .add) (x + y) (fun _ _ h => h) Iff.rfl (fun _ h => h)
  | sub => exact ar (op := .sub) (x - y) (fun _ _ h => h) Iff.rfl (fun _ h => h)
  | mul => exact ar (op := .mul) (x * y) (fun _ _ h => h) Iff.rfl (fun _ h => h)
  | div => exact dv _ (.inl ⟨rfl, rfl⟩)
  | rem => exact dv _ (.inr ⟨rfl, rfl⟩)
  | shl => exact sh _ (.inl ⟨rfl, rfl⟩)
  | shr => exact sh _ (.inr ⟨rfl, rfl⟩)
  | band => exact .inr (.inr ⟨fun h => h.2, fun h => h, _, rfl, bw.1.1, bw.1.2⟩)
  | bor => exact .inr (.inr ⟨fun h => h.2, fun h => h, _, rfl, bw.2.1.1, bw.2.1.2⟩)
  | bxor => exact .inr (.inr ⟨fun h => h.2, fun h => h, _, rfl, bw.2.2.1.1, bw.2.2.1.2⟩)

/-- C85: there is only one such outcome. -/
theorem C85_outcome_unique (b : Build) (op : IntOp) {t : IntTy} {x y : Int} {r r' : Res Int}
    (h : op.Outcome b t x y r) (h' : op.Outcome b t x y r') : r = r' := by
  rcases h with ⟨a, c, e⟩ | ⟨a, c, e⟩ | ⟨a, c, v, e, f, g⟩ <;>
  rcases h' with ⟨a', c', e'⟩ | ⟨a', c', e'⟩ | ⟨a', c', v', e', f', g'⟩
  · rw [e, e']
  · exact absurd ⟨a, c⟩ a'
  · exact absurd ⟨a, c⟩ a'
  · exact absurd ⟨a', c'⟩ a
  · rw [e, e']
  · exact absurd c c'
  · exact absurd ⟨a', c'⟩ a
  · exact absurd c' c
  · rw [e, e']
    congr 1
    have sm : ∀ {u v w : Int}, SameMod t u w → SameMod t v w → SameMod t u v := by
      rintro u v w ⟨k, h⟩ ⟨l, h'⟩
      exact ⟨k - l, by rw [h, h']; ring⟩
    have ex : ∀ {w : Int}, Exact t w v → Exact t w v' → v = v' := by
      intro w p q
      cases hs : t.signed
      · exact fits_unique f f' (sm (p.2 hs) (q.2 hs))
      · rw [p.1 hs, q.1 hs]
    cases op with
    | add => exact ex g g'
    | sub => exact ex g g'
    | mul => exact ex g g'
    | div => exact (TruncDiv_unique g.choose_spec g'.choose_spec).1
    | rem => exact (TruncDiv_unique g.choose_spec g'.choose_spec).2
    | shl => exact fits_unique f f' (sm g g')
    | shr =>
      have hp := two_pow_pos y.toNat
      obtain ⟨g1, g2⟩ := g
      obtain ⟨k1, k2⟩ := g'
      have a1 : v < v' + 1 := by
        by_contra q
        have := Int.mul_le_mul_of_nonneg_left (show v' + 1 ≤ v by omega) hp.le
        omega
      have a2 : v' < v + 1 := by
        by_contra q
        have := Int.mul_le_mul_of_nonneg_left (show v + 1 ≤ v' by omega) hp.le
        omega
      omega
    | band => exact C77_bits_determine f f' (fun i hi => (g i hi).trans (g' i hi).symm)
    | bor => exact C77_bits_determine f f' (fun i hi => (g i hi).trans (g' i hi).symm)
    | bxor => exact C77_bits_determine f f' (fun i hi => (g i hi).trans (g' i hi).symm)

/-- C85: the functions used by the compound assignments are those of the operators. -/
theorem C85_compound_function (b : Build) (t : IntTy) (op : IntOp) (u x : Int) :
    ArrOp.assignFn b t op u x = ArrOp.fn b t op u x := by
  have key : ∀ (o : Op Int Unit) (r : Res Int), o u = stores r u → ArrOp.stored o u = r := by
    intro o r h
    unfold ArrOp.stored
    rw [h]
    cases r <;> rfl
  obtain ⟨h1, h2, h3, h4, h5, h6, h7⟩ := C02_compound b t u x
  cases op with
  | add => exact key _ _ h1
  | sub => exact key _ _ h2
  | mul => exact key _ _ h3
  | div => exact key _ _ h4
  | rem => exact key _ _ h5
  | shl => exact key _ _ h6
  | shr => exact key _ _ h7
  | band => rfl
  | bor => rfl
  | bxor => rfl

/-- C85 (unary operators of integer arrays). -/
theorem C85_unary_operators (op : IntOp1) {t : IntTy} {x : Int} (hx : Fits t x)
    (hs : op = .minus → t.signed = true) : op.Outcome t x (ArrOp.fn1 t op x) := by
  have ng : t.signed = true → (Fits t (-x) → t.arith (-x) = .ok (-x)) ∧ (¬ Fits t (-x) → t.arith (-x) = .ub) :=
    fun hs => ⟨arith_of_fits, fun h => arith_ub_iff.2 ⟨hs, h⟩⟩
  cases op with
  | plus => rfl
  | minus => exact ng (hs rfl)
  | not => exact ⟨_, rfl, (C77_bitwise t x x).2.2.2⟩
  | abs =>
    show (Fits t |x| → abss t x = .ok |x|) ∧ (¬ Fits t |x| → abss t x = .ub)
    unfold abss
    by_cases hs : t.signed = true
    · rw [if_pos hs]
      by_cases h0 : x > 0
      · rw [if_pos h0, abs_of_pos h0]
        exact ⟨fun _ => rfl, fun h => absurd hx h⟩
      · rw [if_neg h0, abs_of_nonpos (by omega)]
        exact ng hs
    · have h0 := (hx.2 (by simpa using hs)).1
      rw [if_neg hs, abs_of_nonneg h0]
      exact ⟨fun _ => rfl, fun h => absurd hx h⟩

/-- C85 (boolean operators). -/
theorem C85_boolean_operators (op : BoolOp) (x y : Bool) :
    ArrOp.fnBool op x y = .ok (op.table x y) ∧ Functor.unaryLogicalNot x = .ok (!x) := by
  cases op <;> cases x <;> cases y <;> exact ⟨rfl, rfl⟩

/-- The element number `i` (in linear order) of the value of an expression. -/
def elementAt {α : Type} {d : Dim} (t : Tm α d) (s : Store α) (i : Nat) : Option (Res α) :=
  (t.meaning s).flat[i]?

theorem un_of_main {α : Type} (b : Build) {s : Store α} (hs : Store.Ok s) {d : Dim} {t : Tm α d}
    (hS : t.Sound s) (hV : t.Valid s) :
    ∃ a, t.build b s = .ok a ∧ ∀ (i : Nat) r, elementAt t s i = some r → a.un s i = r := by
  obtain ⟨_, a, e, h⟩ := t.main b hs hS hV
  refine ⟨a, e, fun i r hr => ?_⟩
  obtain ⟨hi, hr⟩ := List.getElem?_eq_some_iff.1 hr
  rw [den_un (h s (SameSizes.refl s)) hi, hr]

/-- C85: `A1 op A2` has at every position the outcome of `op` on the elements of `A1` and `A2` there; if
one of them fails (the first one is evaluated first), it fails in the same way. -/
theorem C85_arrays (b : Build) (t : IntTy) (op : IntOp) {s : Store Int} (hs : Store.Ok s) {d : Dim}
    {A1 A2 : Tm Int d} (h1 : A1.Sound s) (v1 : A1.Valid s) (h2 : A2.Sound s) (v2 : A2.Valid s)
    (hd : (A1.meaning s).dims = (A2.meaning s).dims) :
    ∃ a, (ArrOp.arrays b t op A1 A2).build b s = .ok a ∧
      ∀ (i : Nat) r1 r2, elementAt A1 s i = some r1 → elementAt A2 s i = some r2 →
        (∀ x y, r1 = .ok x → r2 = .ok y → Fits t x → Fits t y → op.Outcome b t x y (a.un s i)) ∧
        ((∀ x, r1 ≠ .ok x) → a.un s i = r1) ∧
        (∀ x, r1 = .ok x → (∀ y, r2 ≠ .ok y) → a.un s i = r2) := by
  obtain ⟨a, e, h⟩ := un_of_main b hs (t := ArrOp.arrays b t op A1 A2) ⟨h1, h2⟩ ⟨v1, v2, hd⟩
  refine ⟨a, e, fun i r1 r2 e1 e2 => ?_⟩
  have := h i (do let u ← r1; let v ← r2; ArrOp.fn b t op u v) (by
    show (Sem.zip _ _ _).flat[i]? = _
    rw [flat_zip _ hd, List.getElem?_zipWith, show (A1.meaning s).flat[i]? = some r1 from e1,
      show (A2.meaning s).flat[i]? = some r2 from e2])
  rw [this]
  refine ⟨?_, ?_, ?_⟩
  · rintro x y rfl rfl hx hy
    exact C85_operators b op hx hy
  · intro hn
    cases r1 with
    | ok x => exact absurd rfl (hn x)
    | trap k => rfl
    | ub => rfl
  · rintro x rfl hn
    cases r2 with
    | ok y => exact absurd rfl (hn y)
    | trap k => rfl
    | ub => rfl

/-- C85: `c op A` and `A op c` with a number `c`. -/
theorem C85_array_and_number (b : Build) (t : IntTy) (op : IntOp) {s : Store Int} (hs : Store.Ok s)
    {d : Dim} {A : Tm Int d} (h1 : A.Sound s) (v1 : A.Valid s) {c : Int} (hc : Fits t c) :
    (∃ a, (ArrOp.left b t op c A).build b s = .ok a ∧
      ∀ (i : Nat) x, elementAt A s i = some (.ok x) → Fits t x → op.Outcome b t c x (a.un s i)) ∧
    (∃ a, (ArrOp.right b t op A c).build b s = .ok a ∧
      ∀ (i : Nat) x, elementAt A s i = some (.ok x) → Fits t x → op.Outcome b t x c (a.un s i)) := by
  constructor
  · obtain ⟨a, e, h⟩ := un_of_main b hs (t := ArrOp.left b t op c A) h1 v1
    refine ⟨a, e, fun i x e1 hx => ?_⟩
    rw [h i (ArrOp.fn b t op c x) (by
      show (Sem.map _ _).flat[i]? = _
      rw [flat_map, List.getElem?_map, show (A.meaning s).flat[i]? = some (.ok x) from e1]; rfl)]
    exact C85_operators b op hc hx
  · obtain ⟨a, e, h⟩ := un_of_main b hs (t := ArrOp.right b t op A c) h1 v1
    refine ⟨a, e, fun i x e1 hx => ?_⟩
    rw [h i (ArrOp.fn b t op x c) (by
      show (Sem.map _ _).flat[i]? = _
      rw [flat_map, List.getElem?_map, show (A.meaning s).flat[i]? = some (.ok x) from e1]; rfl)]
    exact C85_operators b op hx hc

/-- C85: `+A`, `-A`, `~A`, `abs(A)` and conversion to another integer type. -/
theorem C85_unary (b : Build) (t : IntTy) (op : IntOp1) (hsg : op = .minus → t.signed = true)
    {s : Store Int} (hs : Store.Ok s) {d : Dim} {A : Tm Int d} (h1 : A.Sound s) (v1 : A.Valid s) :
    (∃ a, (ArrOp.one t op A).build b s = .ok a ∧
      ∀ (i : Nat) x, elementAt A s i = some (.ok x) → Fits t x → op.Outcome t x (a.un s i)) ∧
    (∃ a, (ArrOp.cast t A).build b s = .ok a ∧
      ∀ (i : Nat) x, elementAt A s i = some (.ok x) →
        ∃ v, a.un s i = .ok v ∧ Fits t v ∧ SameMod t v x) := by
  constructor
  · obtain ⟨a, e, h⟩ := un_of_main b hs (t := ArrOp.one t op A) h1 v1
    refine ⟨a, e, fun i x e1 hx => ?_⟩
    rw [h i (ArrOp.fn1 t op x) (by
      show (Sem.map _ _).flat[i]? = _
      rw [flat_map, List.getElem?_map, show (A.meaning s).flat[i]? = some (.ok x) from e1]; rfl)]
    exact C85_unary_operators op hx hsg
  · obtain ⟨a, e, h⟩ := un_of_main b hs (t := ArrOp.cast t A) h1 v1
    refine ⟨a, e, fun i x e1 => ⟨SInt.cast t x, ?_, (C02_cast t x).1, (C02_cast t x).2.1⟩⟩
    exact h i (.ok (SInt.cast t x)) (by
      show (Sem.map _ _).flat[i]? = _
      rw [flat_map, List.getElem?_map, show (A.meaning s).flat[i]? = some (.ok x) from e1]; rfl)

/-- C85: boolean arrays. -/
theorem C85_boolean (b : Build) (op : BoolOp) {s : Store Bool} (hs : Store.Ok s) {d : Dim}
    {A1 A2 : Tm Bool d} (h1 : A1.Sound s) (v1 : A1.Valid s) (h2 : A2.Sound s) (v2 : A2.Valid s)
    (hd : (A1.meaning s).dims = (A2.meaning s).dims) (c : Bool) :
    ∃ aa al ar an, (ArrOp.arraysBool op A1 A2).build b s = .ok aa ∧
      (ArrOp.leftBool op c A1).build b s = .ok al ∧ (ArrOp.rightBool op A1 c).build b s = .ok ar ∧
      (ArrOp.notBool A1).build b s = .ok an ∧
      ∀ (i : Nat) x, elementAt A1 s i = some (.ok x) →
        (∀ y, elementAt A2 s i = some (.ok y) → aa.un s i = .ok (op.table x y)) ∧
        al.un s i = .ok (op.table c x) ∧ ar.un s i = .ok (op.table x c) ∧ an.un s i = .ok (!x) := by
  obtain ⟨aa, e1, g1⟩ := un_of_main b hs (t := ArrOp.arraysBool op A1 A2) ⟨h1, h2⟩ ⟨v1, v2, hd⟩
  obtain ⟨al, e2, g2⟩ := un_of_main b hs (t := ArrOp.leftBool op c A1) h1 v1
  obtain ⟨ar, e3, g3⟩ := un_of_main b hs (t := ArrOp.rightBool op A1 c) h1 v1
  obtain ⟨an, e4, g4⟩ := un_of_main b hs (t := ArrOp.notBool A1) h1 v1
  refine ⟨aa, al, ar, an, e1, e2, e3, e4, fun i x hx => ⟨fun y hy => g1 i _ ?_, g2 i _ ?_, g3 i _ ?_, g4 i _ ?_⟩⟩
  · show (Sem.zip _ _ _).flat[i]? = _
    rw [flat_zip _ hd, List.getElem?_zipWith, show (A1.meaning s).flat[i]? = some (.ok x) from hx,
      show (A2.meaning s).flat[i]? = some (.ok y) from hy]
    exact congrArg some (C85_boolean_operators op x y).1
  · show (Sem.map _ _).flat[i]? = _
    rw [flat_map, List.getElem?_map, show (A1.meaning s).flat[i]? = some (.ok x) from hx]
    exact congrArg some (C85_boolean_operators op c x).1
  · show (Sem.map _ _).flat[i]? = _
    rw [flat_map, List.getElem?_map, show (A1.meaning s).flat[i]? = some (.ok x) from hx]
    exact congrArg some (C85_boolean_operators op x c).1
  · show (Sem.map _ _).flat[i]? = _
    rw [flat_map, List.getElem?_map, show (A1.meaning s).flat[i]? = some (.ok x) from hx]
    exact congrArg some (C85_boolean_operators op x x).2

/-- C85: `l op= A` writes to the elements of `l`, in order, the outcomes of `op` on their values and the
elements of `A`, up to the first that fails; nothing else changes. -/
theorem C85_compound (b : Build) (t : IntTy) (op : IntOp) {s : Store Int} (hs : Store.Ok s) {d : Dim}
    {l : Lv d} {A : Tm Int d} (hS : l.Sound s) (hV : l.Valid s) (tS : A.Sound s) (tV : A.Valid s)
    (hd : (l.cells s).dims = (A.meaning s).dims) (ht : Pointwise l A) {cs : List Loc}
    (hp : Places l s cs) (hn : cs.Nodup) :
    ∃ vals, Writes cs vals s ((ArrOp.assign b t op l A).run b s) ∧ vals.length = cs.length ∧
      ∀ (i : Nat) c x y, cs[i]? = some c → s.read c = .ok x → elementAt A s i = some (.ok y) →
        Fits t x → Fits t y → ∃ r, vals[i]? = some r ∧ op.Outcome b t x y r := by
  refine ⟨_, C50_compound b (ArrOp.assignFn b t op) hs hS hV tS tV hd ht hp hn, ?_, ?_⟩
  · have hlen : (A.meaning s).flat.length = cs.length := by rw [flat_dims, ← hd, ← Places.length hp]
    rw [List.length_zipWith, List.length_map, hlen, Nat.min_self]
  · intro i c x y hc hr hy hx hy'
    refine ⟨ArrOp.fn b t op x y, ?_, C85_operators b op hx hy'⟩
    rw [List.getElem?_zipWith, List.getElem?_map, hc,
      show (A.meaning s).flat[i]? = some (.ok y) from hy, Option.map_some, hr]
    exact congrArg some (C85_compound_function b t op x y)

/-- C85: `l op= c` with a number `c`. -/
theorem C85_compound_number (b : Build) (t : IntTy) (op : IntOp) {s : Store Int} (hs : Store.Ok s)
    {d : Dim} {l : Lv d} (hS : l.Sound s) (hV : l.Valid s) {c : Int} (hc : Fits t c) {cs : List Loc}
    (hp : Places l s cs) (hn : cs.Nodup) :
    ∃ vals, Writes cs vals s ((ArrOp.assignX b t op l c).run b s) ∧ vals.length = cs.length ∧
      ∀ (i : Nat) k x, cs[i]? = some k → s.read k = .ok x → Fits t x →
        ∃ r, vals[i]? = some r ∧ op.Outcome b t x c r := by
  refine ⟨_, C50_compound_scalar b (ArrOp.assignFn b t op) hs hS hV c hp hn, List.length_map .., ?_⟩
  intro i k x hk hr hx
  refine ⟨ArrOp.fn b t op x c, ?_, C85_operators b op hx hc⟩
  rw [List.getElem?_map, hk, Option.map_some, hr]
  exact congrArg some (C85_compound_function b t op x c)

/-! ### Instances -/

theorem fits_int_ops {x : Int} (h : -2147483648 ≤ x ∧ x < 2147483648) : Fits IntTy.int x :=
  ⟨fun _ => h, fun h => (nomatch h)⟩

example : ∃ a, (ArrOp.arrays ⟨false, true, false⟩ IntTy.int .sub Sample.x Sample.y).build ⟨false, true, false⟩
    Sample.store = .ok a ∧ a.un Sample.store 1 = .ok (2 - 5) := by
  obtain ⟨a, e, h⟩ := C85_arrays ⟨false, true, false⟩ IntTy.int .sub Sample.store_ok (A1 := Sample.x)
    (A2 := Sample.y) (by decide) (by decide) (by decide) (by decide) rfl
  refine ⟨a, e, ?_⟩
  rcases (h 1 (.ok 2) (.ok 5) rfl rfl).1 2 5 rfl rfl (fits_int_ops (by decide)) (fits_int_ops (by decide)) with
    ⟨_, h, _⟩ | ⟨_, h, _⟩ | ⟨_, _, v, h, _, g⟩
  · exact h.elim
  · exact absurd (fits_int_ops (by decide)) h.2
  · exact h.trans (congrArg _ (g.1 rfl))

/-- `1 << A` and `A << 1`: the order of the operands matters. -/
example : ArrOp.fn ⟨false, true, false⟩ IntTy.int .shl 1 3 = .ok 8 ∧
    ArrOp.fn ⟨false, true, false⟩ IntTy.int .shl 3 1 = .ok 6 ∧
    ArrOp.fn ⟨false, true, false⟩ IntTy.int .shr 8 1 = .ok 4 ∧
    ArrOp.fn ⟨false, true, false⟩ IntTy.int .div (-7) 2 = .ok (-3) ∧
    ArrOp.fn ⟨false, true, false⟩ IntTy.int .rem (-7) 0 = .trap .exception ∧
    ArrOp.fn ⟨true, true, false⟩ IntTy.int .rem (-7) 0 = .ub ∧
    ArrOp.fn ⟨false, true, false⟩ IntTy.uint .sub 3 5 = .ok 4294967294 := by decide

/-- `x -= y` changes `[1,2,3]` to `[-3,-3,-3]`; `x %= 0` traps at the first element. -/
example : ((ArrOp.assign ⟨false, true, false⟩ IntTy.int .sub (.arr1 0) Sample.y).run ⟨false, true, false⟩
      Sample.store).2.a1 0 = [-3, -3, -3] ∧
    ((ArrOp.assignX ⟨false, true, false⟩ IntTy.int .rem (.arr1 0) 0).run ⟨false, true, false⟩
      Sample.store).1 = .trap .exception := by decide

example : ∃ vals, Writes [.one 0 0, .one 0 1, .one 0 2] vals Sample.store
      ((ArrOp.assign ⟨false, true, false⟩ IntTy.int .sub (.arr1 0) Sample.y).run ⟨false, true, false⟩
        Sample.store) ∧ vals.length = 3 := by
  obtain ⟨v, h1, h2, _⟩ := C85_compound (l := .arr1 0) (A := Sample.y) ⟨false, true, false⟩ IntTy.int .sub
    Sample.store_ok (by decide) (by decide) (by decide) (by decide) rfl (.other (by decide))
    (cs := [.one 0 0, .one 0 1, .one 0 2]) ⟨rfl, by decide⟩ (by decide)
  exact ⟨v, h1, h2⟩

example : ArrOp.fn1 IntTy.int .abs (-5) = .ok 5 ∧ ArrOp.fn1 IntTy.int .minus (-2147483648) = .ub ∧
    ArrOp.fn1 IntTy.uint .not 0 = .ok 4294967295 ∧ Functor.unaryCast IntTy.uint (-1) = .ok 4294967295 := by
  decide

end Spp.Props
