import Verif.Spec.Ieee
import Verif.Lemmas.Stable
import Verif.Lemmas.StableDot
import Verif.Lemmas.StableProd

namespace Spp.Lemmas

open Spp.Spec FVal

variable {F : Fmt}

/-! ### NaN -/

@[simp] theorem add_nan_left (y : FVal) : add F nan y = nan := by cases y <;> rfl
@[simp] theorem add_nan_right (x : FVal) : add F x nan = nan := by cases x <;> rfl
@[simp] theorem sub_nan_left (y : FVal) : sub F nan y = nan := add_nan_left _
@[simp] theorem sub_nan_right (x : FVal) : sub F x nan = nan := add_nan_right x
@[simp] theorem exactMul_nan_left (y : FVal) : exactMul nan y = nan := by cases y <;> rfl
@[simp] theorem exactMul_nan_right (x : FVal) : exactMul x nan = nan := by cases x <;> rfl
@[simp] theorem mul_nan_left (y : FVal) : mul F nan y = nan := by simp [mul, roundV]
@[simp] theorem mul_nan_right (x : FVal) : mul F x nan = nan := by simp [mul, roundV]
@[simp] theorem div_nan_left (y : FVal) : div F nan y = nan := by cases y <;> rfl
@[simp] theorem div_nan_right (x : FVal) : div F x nan = nan := by cases x <;> rfl
@[simp] theorem fma_nan_left (y z : FVal) : fma F nan y z = nan := by simp [fma]
@[simp] theorem fma_nan_mid (x z : FVal) : fma F x nan z = nan := by simp [fma]
@[simp] theorem fma_nan_right (x y : FVal) : fma F x y nan = nan := by simp [fma]
@[simp] theorem sqrt_nan : FVal.sqrt F nan = nan := rfl
@[simp] theorem neg_nan : neg nan = nan := rfl
@[simp] theorem lt_nan_left (y : FVal) : lt nan y = false := by cases y <;> rfl
@[simp] theorem lt_nan_right (x : FVal) : lt x nan = false := by cases x <;> rfl
@[simp] theorem le_nan_left (y : FVal) : le nan y = false := by cases y <;> rfl
@[simp] theorem le_nan_right (x : FVal) : le x nan = false := by cases x <;> rfl
@[simp] theorem eq_nan_left (y : FVal) : FVal.eq nan y = false := by cases y <;> rfl
@[simp] theorem eq_nan_right (x : FVal) : FVal.eq x nan = false := by cases x <;> rfl

/-! ### Finite results have finite operands -/

theorem add_finite {x y : FVal} (h : (add F x y).isFinite = true) : x.isFinite = true ∧ y.isFinite = true := by
  cases x with
  | nan => simp [isFinite] at h
  | inf s => cases y with
    | nan => simp [isFinite] at h
    | inf t => simp only [add] at h; split at h <;> simp [isFinite] at h
    | fin t n => simp [add, isFinite] at h
  | fin s m => cases y with
    | nan => simp [isFinite] at h
    | inf t => simp [add, isFinite] at h
    | fin t n => exact ⟨rfl, rfl⟩

theorem neg_finite (x : FVal) : (neg x).isFinite = x.isFinite := by cases x <;> rfl

theorem sub_finite {x y : FVal} (h : (sub F x y).isFinite = true) : x.isFinite = true ∧ y.isFinite = true := by
  have := add_finite h
  rwa [neg_finite] at this

theorem exactMul_finite {x y : FVal} (h : (exactMul x y).isFinite = true) :
    x.isFinite = true ∧ y.isFinite = true := by
  cases x with
  | nan => simp [isFinite] at h
  | inf s => cases y with
    | nan => simp [isFinite] at h
    | inf t => simp [exactMul, isFinite] at h
    | fin t n => simp only [exactMul] at h; split at h <;> simp [isFinite] at h
  | fin s m => cases y with
    | nan => simp [isFinite] at h
    | inf t => simp only [exactMul] at h; split at h <;> simp [isFinite] at h
    | fin t n => exact ⟨rfl, rfl⟩

theorem roundV_finite {x : FVal} (h : (roundV F x).isFinite = true) : x.isFinite = true := by
  cases x with
  | nan => exact h
  | inf s => exact h
  | fin s m => rfl

theorem mul_finite {x y : FVal} (h : (mul F x y).isFinite = true) : x.isFinite = true ∧ y.isFinite = true :=
  exactMul_finite (roundV_finite h)

theorem fma_finite {x y z : FVal} (h : (fma F x y z).isFinite = true) :
    x.isFinite = true ∧ y.isFinite = true ∧ z.isFinite = true := by
  have := add_finite h
  exact ⟨(exactMul_finite this.1).1, (exactMul_finite this.1).2, this.2⟩

/-! ### Finite results are the rounded exact results -/

variable {p : Nat} {emin : Int}

theorem val_neg (x : FVal) : (neg x).val = -x.val := by
  rcases x with _ | s | ⟨s, m⟩
  · rfl
  · rfl
  · cases s <;> simp [neg, val]

theorem val_fin (s : Bool) (m : ℚ) : (fin s m).val = if s then -m else m := by cases s <;> rfl

theorem val_exactMul {x y : FVal} (h : (exactMul x y).isFinite = true) :
    (exactMul x y).val = x.val * y.val := by
  obtain ⟨h1, h2⟩ := exactMul_finite h
  rcases x with _ | s | ⟨s, m⟩
  · simp [isFinite] at h1
  · simp [isFinite] at h1
  rcases y with _ | t | ⟨t, n⟩
  · simp [isFinite] at h2
  · simp [isFinite] at h2
  cases s <;> cases t <;> simp [exactMul, val]

theorem rn_zero (hF : IsFmt p emin F) : F.rn 0 = 0 := by
  have := hF.odd 0
  rw [neg_zero] at this
  linarith

theorem val_round (hF : IsFmt p emin F) {s : Bool} {m : ℚ} (h : (FVal.round F s m).isFinite = true) :
    (FVal.round F s m).val = F.rn (if s then -m else m) := by
  unfold FVal.round at h ⊢
  split at h
  · simp [isFinite] at h
  · rename_i hh
    rw [if_neg hh, val_fin]
    cases s
    · rfl
    · simp [hF.odd]

theorem val_add (hF : IsFmt p emin F) {x y : FVal} (h : (add F x y).isFinite = true) :
    (add F x y).val = F.rn (x.val + y.val) := by
  obtain ⟨h1, h2⟩ := add_finite h
  rcases x with _ | s | ⟨s, m⟩
  · simp [isFinite] at h1
  · simp [isFinite] at h1
  rcases y with _ | t | ⟨t, n⟩
  · simp [isFinite] at h2
  · simp [isFinite] at h2
  simp only [add] at h ⊢
  by_cases hv : val (fin s m) + val (fin t n) = 0
  · rw [if_pos hv, hv, rn_zero hF, val_fin]; simp
  · rw [if_neg hv] at h ⊢
    rw [val_round hF h]
    congr 1
    rcases lt_or_ge (val (fin s m) + val (fin t n)) 0 with hl | hl
    · rw [if_pos (decide_eq_true hl), abs_of_neg hl, neg_neg]
    · rw [if_neg (by simpa using hl), abs_of_nonneg hl]

theorem val_sub (hF : IsFmt p emin F) {x y : FVal} (h : (sub F x y).isFinite = true) :
    (sub F x y).val = F.rn (x.val - y.val) := by
  unfold sub at h ⊢
  rw [val_add hF h, val_neg, sub_eq_add_neg]

theorem val_roundV (hF : IsFmt p emin F) {x : FVal} (h : (roundV F x).isFinite = true) :
    (roundV F x).val = F.rn x.val := by
  rcases x with _ | s | ⟨s, m⟩
  · simp [roundV, isFinite] at h
  · simp [roundV, isFinite] at h
  · unfold roundV at h ⊢
    rw [val_round hF h, val_fin]

theorem val_mul (hF : IsFmt p emin F) {x y : FVal} (h : (mul F x y).isFinite = true) :
    (mul F x y).val = F.rn (x.val * y.val) := by
  unfold mul at h ⊢
  rw [val_roundV hF h, val_exactMul (roundV_finite h)]

theorem val_fma (hF : IsFmt p emin F) {x y z : FVal} (h : (fma F x y z).isFinite = true) :
    (fma F x y z).val = F.rn (x.val * y.val + z.val) := by
  unfold fma at h ⊢
  rw [val_add hF h, val_exactMul (add_finite h).1]

/-! ### Comparisons of finite numbers -/

theorem lt_finite {x y : FVal} (hx : x.isFinite = true) (hy : y.isFinite = true) :
    lt x y = decide (x.val < y.val) := by
  cases x <;> cases y <;> first | rfl | (exact absurd hx (by decide)) | (exact absurd hy (by decide)) | (simp [isFinite] at hx; done) | (simp [isFinite] at hy; done)

theorem le_finite {x y : FVal} (hx : x.isFinite = true) (hy : y.isFinite = true) :
    le x y = decide (x.val ≤ y.val) := by
  cases x <;> cases y <;> first | rfl | (exact absurd hx (by decide)) | (exact absurd hy (by decide)) | (simp [isFinite] at hx; done) | (simp [isFinite] at hy; done)

/-! ### Absolute values -/

/-- What `abss` returns. -/
def absV : FVal → FVal
  | nan => nan
  | inf _ => inf false
  | fin s m => if 0 < (fin s m).val then fin s m else fin (!s) m

theorem abss_ieee (x : FVal) : F.scalar.abss x = .ok (absV x) := by
  rcases x with _ | s | ⟨s, m⟩
  · rfl
  · cases s <;> rfl
  · show (if decide ((fin false 0).val < (fin s m).val) = true then Res.ok (fin s m) else Res.ok (fin (!s) m)) = _
    simp only [absV, decide_eq_true_iff, show (fin false 0).val = 0 from rfl]
    split <;> rfl

theorem absV_finite (x : FVal) : (absV x).isFinite = x.isFinite := by
  rcases x with _ | s | ⟨s, m⟩
  · rfl
  · rfl
  · simp only [absV]; split <;> rfl

theorem val_absV {x : FVal} : (absV x).val = |x.val| := by
  rcases x with _ | s | ⟨s, m⟩
  · simp [absV, val]
  · simp [absV, val]
  · simp only [absV]
    split
    · rename_i h; rw [abs_of_pos h]
    · rename_i h
      rw [abs_of_nonpos (not_lt.1 h)]
      exact val_neg (fin s m)

/-! ### Compensated sums -/

variable {pow : ℚ → ℚ → ℚ} {sqrt : ℚ → ℚ}

/-- The two components, as numbers. -/
def vals (q : FVal × FVal) : ℚ × ℚ := (q.1.val, q.2.val)

/-- One pass of the loop of `stable_sum`. -/
def stepV (F : Fmt) (x : FVal) (sc : FVal × FVal) : FVal × FVal :=
  let t := add F sc.1 x
  (t, if le (absV x) (absV sc.1) then add F sc.2 (add F (sub F sc.1 t) x)
      else add F sc.2 (add F (sub F x t) sc.1))

theorem sumStep_ieee (x : FVal) (sc : FVal × FVal) :
    Stable.sumStep F.scalar x sc = .ok (stepV F x sc) := by
  unfold Stable.sumStep stepV
  rw [abss_ieee, abss_ieee]
  show (if le (absV x) (absV sc.1) = true then Res.ok _ else Res.ok _) = _
  split <;> rfl

theorem stepV_finite (hF : IsFmt p emin F) {x : FVal} {sc : FVal × FVal}
    (h1 : (stepV F x sc).1.isFinite = true) (h2 : (stepV F x sc).2.isFinite = true) :
    x.isFinite = true ∧ sc.1.isFinite = true ∧ sc.2.isFinite = true ∧
    Stable.sumStep (rounded F.rn pow sqrt) x.val (vals sc) = .ok (vals (stepV F x sc)) := by
  obtain ⟨e1, e2⟩ := add_finite h1
  have et := val_add hF h1
  unfold Stable.sumStep
  rw [abss_rounded, abss_rounded]
  unfold stepV vals at *
  simp only at h1 h2 e1 e2 et ⊢
  rw [le_finite (by rw [absV_finite]; exact e2) (by rw [absV_finite]; exact e1), val_absV, val_absV] at h2 ⊢
  show _ ∧ _ ∧ _ ∧ (if decide (|x.val| ≤ |sc.1.val|) = true then Res.ok _ else Res.ok _) = _
  by_cases hc : |x.val| ≤ |sc.1.val|
  · rw [if_pos (decide_eq_true hc)] at h2 ⊢
    rw [if_pos (decide_eq_true hc)]
    obtain ⟨a1, a2⟩ := add_finite h2
    obtain ⟨b1, b2⟩ := add_finite a2
    refine ⟨e2, e1, a1, ?_⟩
    rw [val_add hF h2, val_add hF a2, val_sub hF b1, et]
  · rw [if_neg (by simpa using hc)] at h2 ⊢
    rw [if_neg (by simpa using hc)]
    obtain ⟨a1, a2⟩ := add_finite h2
    obtain ⟨b1, b2⟩ := add_finite a2
    refine ⟨e2, e1, a1, ?_⟩
    rw [val_add hF h2, val_add hF a2, val_sub hF b1, et]

theorem sumFold_ieee (l : List FVal) (sc : FVal × FVal) :
    l.foldlM (fun sc x => Stable.sumStep F.scalar x sc) sc = .ok (l.foldl (fun sc x => stepV F x sc) sc) :=
  foldlM_pure l sc fun _ _ _ => sumStep_ieee _ _

theorem sumFold_finite (hF : IsFmt p emin F) {l : List FVal} {sc : FVal × FVal}
    (h1 : (l.foldl (fun sc x => stepV F x sc) sc).1.isFinite = true)
    (h2 : (l.foldl (fun sc x => stepV F x sc) sc).2.isFinite = true) :
    (∀ x ∈ l, x.isFinite = true) ∧ sc.1.isFinite = true ∧ sc.2.isFinite = true ∧
    (l.map val).foldlM (fun sc x => Stable.sumStep (rounded F.rn pow sqrt) x sc) (vals sc) =
      .ok (vals (l.foldl (fun sc x => stepV F x sc) sc)) := by
  induction l generalizing sc with
  | nil => exact ⟨fun _ h => absurd h (by simp), h1, h2, rfl⟩
  | cons x l ih =>
    obtain ⟨i1, i2, i3, i4⟩ := ih h1 h2
    obtain ⟨j1, j2, j3, j4⟩ := stepV_finite (pow := pow) (sqrt := sqrt) hF i2 i3
    refine ⟨?_, j2, j3, ?_⟩
    · intro y hy
      rcases List.mem_cons.1 hy with rfl | hy
      · exact j1
      · exact i1 y hy
    · rw [List.map_cons, List.foldlM_cons, j4, Res.ok_bind, i4, List.foldl_cons]

/-- As soon as the running sum is not finite, sum and correction add up to NaN. -/
def Spoilt (F : Fmt) (sc : FVal × FVal) : Prop := sc.1.isFinite = true ∨ add F sc.1 sc.2 = nan

theorem add_self_inf (s : Bool) (c : FVal) (h : add F (inf s) c = nan) : c = nan ∨ c = inf (!s) := by
  rcases c with _ | t | ⟨t, n⟩
  · exact Or.inl rfl
  · right
    cases s <;> cases t <;> simp_all [add]
  · simp [add] at h

theorem step_spoilt {x : FVal} {sc : FVal × FVal} (h : Spoilt F sc) : Spoilt F (stepV F x sc) := by
  obtain ⟨s, c⟩ := sc
  unfold Spoilt stepV at *
  simp only at *
  rcases ht : add F s x with _ | σ | ⟨σ, m⟩
  · right; simp
  · right
    rcases s with _ | s | ⟨s, m⟩
    · simp at ht
    · -- the running sum was infinite before
      have hc := add_self_inf s c (by simpa [isFinite] using h)
      have hσ : s = σ ∧ x ≠ nan := by
        rcases x with _ | t | ⟨t, n⟩
        · simp at ht
        · simp only [add] at ht; split at ht <;> simp_all
        · simpa [add] using ht
      obtain ⟨rfl, hx⟩ := hσ
      have hle : le (absV x) (absV (inf s)) = true := by
        rcases x with _ | t | ⟨t, n⟩
        · exact absurd rfl hx
        · rfl
        · simp only [absV]; split <;> rfl
      rw [if_pos hle]
      have : sub F (inf s) (inf s) = nan := by cases s <;> rfl
      rw [this]; simp
    · rcases x with _ | t | ⟨t, n⟩
      · simp at ht
      · -- the element is infinite
        have : t = σ := by simpa [add] using ht
        subst this
        have hle : le (absV (inf t)) (absV (fin s m)) = false := by
          simp only [absV]; split <;> rfl
        rw [hle, if_neg (by decide)]
        have : sub F (inf t) (inf t) = nan := by cases t <;> rfl
        rw [this]; simp
      · -- the addition overflows
        have e1 : ∀ (u : Bool) (k : ℚ), sub F (fin u k) (inf σ) = inf (!σ) := fun _ _ => rfl
        have e2 : ∀ (u : Bool) (k : ℚ), add F (inf (!σ)) (fin u k) = inf (!σ) := fun _ _ => rfl
        have e3 : add F (inf σ) (add F c (inf (!σ))) = nan := by
          rcases c with _ | τ | ⟨τ, k⟩
          · simp
          · cases σ <;> cases τ <;> rfl
          · cases σ <;> rfl
        rw [e1, e1, e2, e2]
        split <;> exact e3
  · left; rfl

theorem fold_spoilt (l : List FVal) {sc : FVal × FVal} (h : Spoilt F sc) :
    Spoilt F (l.foldl (fun sc x => stepV F x sc) sc) := by
  induction l generalizing sc with
  | nil => exact h
  | cons x l ih => exact ih (step_spoilt h)

theorem fold_first (l : List FVal) (sc : FVal × FVal) :
    (l.foldl (fun sc x => stepV F x sc) sc).1 = total F sc.1 l := by
  induction l generalizing sc with
  | nil => rfl
  | cons x l ih => exact ih _

theorem total_nan_acc (l : List FVal) : total F nan l = nan := by
  induction l with
  | nil => rfl
  | cons x l ih => rw [total, add_nan_left]; exact ih

theorem total_nan {l : List FVal} (h : nan ∈ l) (acc : FVal) : total F acc l = nan := by
  induction l generalizing acc with
  | nil => simp at h
  | cons x l ih =>
    rcases List.mem_cons.1 h with rfl | h
    · rw [total, add_nan_right, total_nan_acc]
    · exact ih h _

theorem total_finite {l : List FVal} {acc : FVal} (h : (total F acc l).isFinite = true) :
    acc.isFinite = true ∧ ∀ x ∈ l, x.isFinite = true := by
  induction l generalizing acc with
  | nil => exact ⟨h, fun _ hx => absurd hx (by simp)⟩
  | cons x l ih =>
    obtain ⟨i1, i2⟩ := ih h
    obtain ⟨j1, j2⟩ := add_finite i1
    refine ⟨j1, fun y hy => ?_⟩
    rcases List.mem_cons.1 hy with rfl | hy
    · exact j2
    · exact i2 y hy

theorem total_foldl (acc : FVal) (l : List FVal) : l.foldl (add F) acc = total F acc l := by
  induction l generalizing acc with
  | nil => rfl
  | cons x l ih => exact ih _

/-! ### Inner products -/

/-- `two_prods`. -/
def twoProdsV (F : Fmt) (q : FVal × FVal) : FVal × FVal :=
  (mul F q.1 q.2, fma F q.1 q.2 (neg (mul F q.1 q.2)))

theorem twoProds_ieee (x y : FVal) : F.scalar.twoProds x y = .ok (twoProdsV F (x, y)) := rfl

theorem twoProdsV_finite (hF : IsFmt p emin F) {q : FVal × FVal} (h : (twoProdsV F q).2.isFinite = true) :
    q.1.isFinite = true ∧ q.2.isFinite = true ∧ (twoProdsV F q).1.isFinite = true ∧
    (rounded F.rn pow sqrt).twoProds q.1.val q.2.val = .ok (vals (twoProdsV F q)) := by
  obtain ⟨h1, h2, h3⟩ := fma_finite h
  rw [neg_finite] at h3
  refine ⟨h1, h2, h3, ?_⟩
  have e1 := val_mul hF h3
  have e2 := val_fma hF h
  rw [val_neg, e1] at e2
  unfold vals
  unfold twoProdsV at *
  simp only at *
  rw [e1, e2]
  rfl

/-- A product with an operand that is not finite spoils the error term. -/
theorem twoProdsV_nan {q : FVal × FVal} (h : q.1.isFinite = false ∨ q.2.isFinite = false) :
    (twoProdsV F q).2 = nan := by
  obtain ⟨x, y⟩ := q
  unfold twoProdsV
  rcases x with _ | s | ⟨s, m⟩ <;> rcases y with _ | t | ⟨t, n⟩ <;> simp_all [isFinite]
  · cases s <;> cases t <;> rfl
  · unfold fma mul exactMul
    by_cases hn : n = 0
    · simp [hn]
    · simp only [if_neg hn, roundV]
      cases s <;> cases t <;> rfl
  · unfold fma mul exactMul
    by_cases hn : m = 0
    · simp [hn]
    · simp only [if_neg hn, roundV]
      cases s <;> cases t <;> rfl

/-- The error term of `two_sums`. -/
def sumErrV (F : Fmt) (x y : FVal) : FVal :=
  let r := add F x y
  let z := sub F r x
  add F (sub F x (sub F r z)) (sub F y z)

theorem twoSums_ieee (x y : FVal) : F.scalar.twoSums x y = .ok (add F x y, sumErrV F x y) := rfl

theorem sumErrV_finite (hF : IsFmt p emin F) {x y : FVal} (h : (sumErrV F x y).isFinite = true) :
    x.isFinite = true ∧ y.isFinite = true ∧ (add F x y).isFinite = true ∧
    (rounded F.rn pow sqrt).twoSums x.val y.val = .ok ((add F x y).val, (sumErrV F x y).val) := by
  unfold sumErrV at h ⊢
  simp only at h ⊢
  obtain ⟨h1, h2⟩ := add_finite h
  obtain ⟨h3, h4⟩ := sub_finite h1
  obtain ⟨h5, h6⟩ := sub_finite h2
  obtain ⟨h7, h8⟩ := sub_finite h4
  refine ⟨h3, h5, h7, ?_⟩
  rw [val_add hF h, val_sub hF h1, val_sub hF h2, val_sub hF h4, val_sub hF h6, val_add hF h7]
  rfl

/-- When the sum is not finite the error term is NaN. -/
theorem sumErrV_nan {x y : FVal} (h : (add F x y).isFinite = false) : sumErrV F x y = nan := by
  unfold sumErrV
  simp only
  rcases hr : add F x y with _ | σ | ⟨σ, k⟩
  · simp
  · rcases x with _ | s | ⟨s, m⟩
    · simp
    · have hσ : s = σ := by
        rcases y with _ | t | ⟨t, n⟩
        · simp at hr
        · simp only [add] at hr; split at hr <;> simp_all
        · simpa [add] using hr
      subst hσ
      have : sub F (inf s) (inf s) = nan := by cases s <;> rfl
      rw [this]; simp
    · have e1 : sub F (inf σ) (fin s m) = inf σ := rfl
      have e2 : sub F (inf σ) (inf σ) = nan := by cases σ <;> rfl
      rw [e1, e2]; simp
  · rw [hr] at h; exact absurd h (by simp [isFinite])

/-- One pass of the loop of `stable_dot_prod`. -/
def dotStepV (F : Fmt) (ps q : FVal × FVal) : FVal × FVal :=
  (add F ps.1 (mul F q.1 q.2),
   add F ps.2 (add F (sumErrV F ps.1 (mul F q.1 q.2)) (twoProdsV F q).2))

theorem dotStep_ieee (ps q : FVal × FVal) : dotStep F.scalar ps q = .ok (dotStepV F ps q) := rfl

theorem dotStepV_finite (hF : IsFmt p emin F) {ps q : FVal × FVal}
    (h : (dotStepV F ps q).2.isFinite = true) :
    q.1.isFinite = true ∧ q.2.isFinite = true ∧ ps.1.isFinite = true ∧ ps.2.isFinite = true ∧
    (dotStepV F ps q).1.isFinite = true ∧
    dotStep (rounded F.rn pow sqrt) (vals ps) (vals q) = .ok (vals (dotStepV F ps q)) := by
  obtain ⟨h1, h2⟩ := add_finite h
  obtain ⟨h3, h4⟩ := add_finite h2
  obtain ⟨a1, a2, a3, a4⟩ := twoProdsV_finite (pow := pow) (sqrt := sqrt) hF h4
  obtain ⟨b1, b2, b3, b4⟩ := sumErrV_finite (pow := pow) (sqrt := sqrt) hF h3
  refine ⟨a1, a2, b1, h1, b3, ?_⟩
  unfold dotStep
  show ((rounded F.rn pow sqrt).twoProds q.1.val q.2.val >>= _) = _
  rw [a4, Res.ok_bind]
  show ((rounded F.rn pow sqrt).twoSums ps.1.val (mul F q.1 q.2).val >>= _) = _
  rw [b4, Res.ok_bind]
  have e1 := val_add hF h
  have e2 := val_add hF h2
  show Res.ok ((add F ps.1 (mul F q.1 q.2)).val,
    F.rn (ps.2.val + F.rn ((sumErrV F ps.1 (mul F q.1 q.2)).val + (twoProdsV F q).2.val))) = _
  unfold vals dotStepV
  simp only
  rw [e1, e2]

theorem dotFold_ieee (qs : List (FVal × FVal)) (ps : FVal × FVal) :
    qs.foldlM (dotStep F.scalar) ps = .ok (qs.foldl (dotStepV F) ps) :=
  foldlM_pure qs ps fun _ _ _ => rfl

theorem dotFold_finite (hF : IsFmt p emin F) {qs : List (FVal × FVal)} {ps : FVal × FVal}
    (h1 : (qs.foldl (dotStepV F) ps).1.isFinite = true) (h2 : (qs.foldl (dotStepV F) ps).2.isFinite = true) :
    (∀ q ∈ qs, q.1.isFinite = true ∧ q.2.isFinite = true) ∧ ps.1.isFinite = true ∧ ps.2.isFinite = true ∧
    (qs.map vals).foldlM (dotStep (rounded F.rn pow sqrt)) (vals ps) =
      .ok (vals (qs.foldl (dotStepV F) ps)) := by
  induction qs generalizing ps with
  | nil => exact ⟨fun _ h => absurd h (by simp), h1, h2, rfl⟩
  | cons q qs ih =>
    obtain ⟨i1, i2, i3, i4⟩ := ih h1 h2
    obtain ⟨j1, j2, j3, j4, j5, j6⟩ := dotStepV_finite (pow := pow) (sqrt := sqrt) hF i3
    refine ⟨?_, j3, j4, ?_⟩
    · intro y hy
      rcases List.mem_cons.1 hy with rfl | hy
      · exact ⟨j1, j2⟩
      · exact i1 y hy
    · rw [List.map_cons, List.foldlM_cons, j6, Res.ok_bind, i4, List.foldl_cons]

theorem dotFold_first (qs : List (FVal × FVal)) (ps : FVal × FVal) :
    (qs.foldl (dotStepV F) ps).1 = total F ps.1 (qs.map fun q => mul F q.1 q.2) := by
  induction qs generalizing ps with
  | nil => rfl
  | cons x l ih => exact ih _

theorem dotFold_nan {qs : List (FVal × FVal)} {ps : FVal × FVal} (h : ps.2 = nan) :
    (qs.foldl (dotStepV F) ps).2 = nan := by
  induction qs generalizing ps with
  | nil => exact h
  | cons x l ih =>
    have e : (dotStepV F ps x).2 = nan := by unfold dotStepV; simp [h]
    exact ih e

theorem dotFold_element {qs : List (FVal × FVal)} {ps : FVal × FVal}
    (h : ∃ q ∈ qs, q.1.isFinite = false ∨ q.2.isFinite = false) : (qs.foldl (dotStepV F) ps).2 = nan := by
  induction qs generalizing ps with
  | nil => obtain ⟨q, hq, _⟩ := h; simp at hq
  | cons x l ih =>
    obtain ⟨q, hq, h⟩ := h
    rcases List.mem_cons.1 hq with rfl | hq
    · have e : (dotStepV F ps q).2 = nan := by unfold dotStepV; rw [twoProdsV_nan h]; simp
      exact dotFold_nan (qs := l) (ps := dotStepV F ps q) e
    · exact ih ⟨q, hq, h⟩

theorem dot_spoilt {ps q : FVal × FVal} : Spoilt F (dotStepV F ps q) := by
  by_cases h : (dotStepV F ps q).1.isFinite = true
  · exact Or.inl h
  · right
    have : sumErrV F ps.1 (mul F q.1 q.2) = nan := sumErrV_nan (by simpa [dotStepV] using h)
    have e : (dotStepV F ps q).2 = nan := by unfold dotStepV; simp [this]
    rw [e]; simp

theorem dotFold_spoilt (qs : List (FVal × FVal)) {ps : FVal × FVal} (h : Spoilt F ps) :
    Spoilt F (qs.foldl (dotStepV F) ps) := by
  induction qs generalizing ps with
  | nil => exact h
  | cons x l ih => exact ih dot_spoilt

theorem twoProds_spoilt (q : FVal × FVal) : Spoilt F (twoProdsV F q) := by
  by_cases h : (twoProdsV F q).1.isFinite = true
  · exact Or.inl h
  · right
    by_cases hq : q.1.isFinite = false ∨ q.2.isFinite = false
    · rw [twoProdsV_nan hq]; simp
    · obtain ⟨x, y⟩ := q
      rcases x with _ | s | ⟨s, m⟩
      · simp [isFinite] at hq
      · simp [isFinite] at hq
      rcases y with _ | t | ⟨t, n⟩
      · simp [isFinite] at hq
      · simp [isFinite] at hq
      have e : mul F (fin s m) (fin t n) = inf (s != t) := by
        unfold twoProdsV at h
        simp only [mul, exactMul, roundV, FVal.round] at h ⊢
        split at h
        · rename_i hh; rw [if_pos hh]
        · simp [isFinite] at h
      unfold twoProdsV
      simp only [e]
      cases s <;> cases t <;> rfl

/-- Elements of a list are finite or one of them is not. -/
theorem all_or_some (l : List FVal) : (∀ x ∈ l, x.isFinite = true) ∨ ∃ x ∈ l, x.isFinite = false := by
  by_cases h : ∃ x ∈ l, x.isFinite = false
  · exact Or.inr h
  · left
    intro x hx
    by_contra hc
    exact h ⟨x, hx, by simpa using hc⟩

/-! ### Products -/

theorem foldl_mul_nan {l : List FVal} (acc : FVal) (h : acc = nan ∨ nan ∈ l) : l.foldl (mul F) acc = nan := by
  induction l generalizing acc with
  | nil =>
    rcases h with h | h
    · exact h
    · simp at h
  | cons x l ih =>
    refine ih _ ?_
    rcases h with rfl | h
    · left; simp
    · rcases List.mem_cons.1 h with rfl | h
      · left; simp
      · exact Or.inr h

theorem foldl_mul_finite (hF : IsFmt p emin F) {l : List FVal} {acc : FVal}
    (h : (l.foldl (mul F) acc).isFinite = true) :
    acc.isFinite = true ∧ (∀ x ∈ l, x.isFinite = true) ∧
    (l.foldl (mul F) acc).val = (l.map val).foldl (fun a y => F.rn (a * y)) acc.val := by
  induction l generalizing acc with
  | nil => exact ⟨h, fun _ hx => absurd hx (by simp), rfl⟩
  | cons x l ih =>
    obtain ⟨i1, i2, i3⟩ := ih h
    obtain ⟨j1, j2⟩ := mul_finite i1
    refine ⟨j1, fun y hy => ?_, ?_⟩
    · rcases List.mem_cons.1 hy with rfl | hy
      · exact j2
      · exact i2 y hy
    · rw [List.foldl_cons, i3, List.map_cons, List.foldl_cons, val_mul hF i1]

theorem total_val (hF : IsFmt p emin F) {l : List FVal} {acc : FVal} (h : (total F acc l).isFinite = true) :
    (total F acc l).val = (l.map val).foldl (fun a y => F.rn (a + y)) acc.val := by
  induction l generalizing acc with
  | nil => rfl
  | cons x l ih =>
    have i1 := (total_finite h).1
    obtain ⟨j1, j2⟩ := total_finite (F := F) (acc := add F acc x) (l := l) h
    rw [List.map_cons, List.foldl_cons, ← val_add hF j1]
    exact ih h

/-! ### Rounding in the same way for both signs -/

/-- Rounding to nearest can be done in the same way for both signs. -/
theorem exists_odd {rn : ℚ → ℚ} (h : Nearest p emin rn) :
    ∃ rn' : ℚ → ℚ, Nearest p emin rn' ∧ ∀ x, rn' (-x) = -rn' x := by
  have rneg : ∀ {x : ℚ}, Rep p emin x → Rep p emin (-x) := by
    rintro x ⟨m, e, h1, h2, rfl⟩
    exact ⟨-m, e, by rwa [abs_neg], h2, by push_cast; ring⟩
  have r0 : Rep p emin 0 := ⟨0, emin, by simp, le_rfl, by simp⟩
  refine ⟨fun x => if x < 0 then -rn (-x) else if x = 0 then 0 else rn x, ⟨fun x => ?_, fun x y hy => ?_⟩, fun x => ?_⟩
  · show Rep p emin (if x < 0 then -rn (-x) else if x = 0 then 0 else rn x)
    split
    · exact rneg (h.rep _)
    · split
      · exact r0
      · exact h.rep _
  · show |x - (if x < 0 then -rn (-x) else if x = 0 then 0 else rn x)| ≤ _
    split
    · have := h.near (-x) (-y) (rneg hy)
      rw [show -x - rn (-x) = -(x - -rn (-x)) by ring, abs_neg, show -x - -y = -(x - y) by ring, abs_neg] at this
      exact this
    · split
      · rename_i h0; rw [h0]; simp
      · exact h.near _ _ hy
  · show (if -x < 0 then -rn (- -x) else if -x = 0 then 0 else rn (-x)) =
      -(if x < 0 then -rn (-x) else if x = 0 then 0 else rn x)
    rcases lt_trichotomy x 0 with hx | hx | hx
    · rw [if_neg (by linarith), if_neg (by linarith), if_pos hx, neg_neg]
    · subst hx; simp
    · rw [if_pos (by linarith), if_neg (by linarith), if_neg (by linarith), neg_neg]

end Spp.Lemmas
