import Verif.Lemmas.StableSemi

/-
Lemmas for compensated powers: the scratch buffer of `pow_prods` and its value for operations that
always succeed.
-/

set_option linter.unusedSectionVars false

namespace Spp.Lemmas

open Spp.Spec

variable {α : Type}

/-! ### The scratch buffer -/

def buf (n : Nat) (f h : Nat → α) : List α := (List.range n).map f ++ (List.range n).map h

theorem buf_length (n : Nat) (f h : Nat → α) : (buf n f h).length = 2 * n := by
  simp [buf]; omega

theorem buf_left {n : Nat} (f h : Nat → α) {i : Nat} (hi : i < n) {j : Int} (hj : j = i) :
    rd (buf n f h) j = .ok (f i) := by
  subst hj
  rw [rd_nat (by rw [buf_length]; omega)]
  simp [buf, List.getElem_append, hi]

theorem buf_right {n : Nat} (f h : Nat → α) {i : Nat} (hi : i < n) {j : Int} (hj : j = n + i) :
    rd (buf n f h) j = .ok (h i) := by
  have : j = ((n + i : Nat) : Int) := by omega
  subst this
  rw [rd_nat (by rw [buf_length]; omega)]
  simp [buf, List.getElem_append]

theorem buf_ext {n : Nat} {f h f' h' : Nat → α} (h1 : ∀ i < n, f i = f' i) (h2 : ∀ i < n, h i = h' i) :
    buf n f h = buf n f' h' := by
  unfold buf
  rw [List.map_congr_left (fun i hi => h1 i (List.mem_range.1 hi)),
    List.map_congr_left (fun i hi => h2 i (List.mem_range.1 hi))]

theorem map_range_set (n : Nat) (f : Nat → α) (i : Nat) (v : α) :
    ((List.range n).map f).set i v = (List.range n).map (fun j => if j = i then v else f j) := by
  apply List.ext_getElem
  · simp
  · intro k h1 h2
    rw [List.getElem_set]
    simp only [List.getElem_map, List.getElem_range]
    by_cases hk : i = k
    · rw [if_pos hk, if_pos hk.symm]
    · rw [if_neg hk, if_neg (Ne.symm hk)]

theorem buf_wr_left {n : Nat} (f h : Nat → α) {i : Nat} (hi : i < n) {j : Int} (hj : j = i) (v : α) :
    wr (buf n f h) j v = .ok (buf n (fun k => if k = i then v else f k) h) := by
  subst hj
  rw [wr_ok ⟨by omega, by rw [buf_length]; omega⟩]
  unfold buf
  rw [Int.toNat_natCast, List.set_append_left _ _ (by simpa using hi), map_range_set]

theorem buf_wr_right {n : Nat} (f h : Nat → α) {i : Nat} (hi : i < n) {j : Int} (hj : j = n + i)
    (v : α) : wr (buf n f h) j v = .ok (buf n f (fun k => if k = i then v else h k)) := by
  have : j = ((n + i : Nat) : Int) := by omega
  subst this
  rw [wr_ok ⟨by omega, by rw [buf_length]; omega⟩]
  unfold buf
  rw [Int.toNat_natCast, List.set_append_right _ _ (by simp), map_range_set]
  simp

theorem buf_zero (n : Nat) (z : α) : List.replicate (2 * n) z = buf n (fun _ => z) (fun _ => z) := by
  unfold buf
  rw [List.map_const', List.length_range, ← List.replicate_add]
  congr 1; omega

/-! ### The value -/

/-- Operations that always succeed. -/
structure Pure (fs : FScalar α) (fa fm fe : α → α → α) (fi : Int → α) : Prop where
  add : ∀ x y, fs.add x y = .ok (fa x y)
  mul : ∀ x y, fs.mul x y = .ok (fm x y)
  prods : ∀ x y, fs.twoProds x y = .ok (fm x y, fe x y)
  num : ∀ i, fs.ofIndex i = .ok (fi i)

/-- Rounded powers of `r`. -/
def rpow (mul : α → α → α) (one r : α) : Nat → α
  | 0 => one
  | 1 => r
  | k + 2 => mul (rpow mul one r (k + 1)) r

/-- The error of the last multiplication in `rpow`. -/
def epow (mul err : α → α → α) (one r : α) (k : Nat) : α := err (rpow mul one r (k - 1)) r

def locSum (add mul err : α → α → α) (zero one r : α) (n : Nat) : Nat → α
  | 0 => zero
  | i + 1 => add (locSum add mul err zero one r n i)
      (mul (rpow mul one r i) (epow mul err one r (n - i)))

/-- The value of `pow_prods`, from `n = p / 2`. -/
def powPair (add mul err : α → α → α) (num : Int → α) (zero one x : α) (n : Nat) (odd : Bool) : α × α :=
  let r := mul x x
  let s := err x x
  let m1 := rpow mul one r (n - 1)
  let top := rpow mul one r n
  let loc := locSum add mul err zero one r n (n - 1)
  if odd then
    (mul top x, add (add (mul (mul (mul (num n) x) m1) s) (mul x loc)) (err top x))
  else
    (top, add (mul (mul (num n) m1) s) loc)

theorem powProdsGeneral_eq (fs : FScalar α) {add mul err : α → α → α} {num : Int → α}
    (h : Pure fs add mul err num) (x : α) {n : Nat} (hn : 3 ≤ n) {p : Int} (hp : p / 2 = n) :
    fs.powProdsGeneral x p =
      .ok (powPair add mul err num fs.zero fs.one x n (decide (p % 2 ≠ 0))) := by
  obtain ⟨m, rfl⟩ : ∃ m, n = m + 1 := ⟨n - 1, by omega⟩
  have esz : ((m + 1 : Nat) : Int) - 1 = (m : Int) := by push_cast; ring
  unfold FScalar.powProdsGeneral
  rw [h.prods, Res.ok_bind, hp]
  simp only [esz]
  rw [show ((2 : Int) * m).toNat = 2 * m by omega, buf_zero,
    buf_wr_left _ _ (i := 0) (by omega) (by simp), Res.ok_bind,
    buf_wr_left _ _ (i := 1) (by omega) (by simp), Res.ok_bind]
  set r := mul x x
  set s := err x x
  let R := rpow mul fs.one r
  let E := epow mul err fs.one r
  have eloop : foldN ((m : Int) - 2).toNat (fun k buf => do
        let i : Int := (k : Int) + 2
        let prev ← rd buf (i - 1)
        let cur ← fs.twoProds prev r
        let buf ← wr buf i cur.1
        wr buf (m + (i - 2)) cur.2)
        (buf m (fun k => if k = 1 then r else if k = 0 then fs.one else fs.zero) (fun _ => fs.zero)) =
      .ok (buf m R (fun j => if j < m - 2 then E (j + 2) else fs.zero)) := by
    rw [foldN_ok (fun k => buf m (fun j => if j < k + 2 then R j else fs.zero)
      (fun j => if j < k then E (j + 2) else fs.zero))]
    · congr 1
      refine buf_ext (fun i hi => ?_) (fun i hi => ?_)
      · rw [if_pos (by omega)]
      · rw [show ((m : Int) - 2).toNat = m - 2 by omega]
    · refine buf_ext (fun i hi => ?_) (fun i hi => by simp)
      rcases i with _ | _ | i
      · rfl
      · rfl
      · simp
    · intro k hk
      have hk' : k + 2 < m := by omega
      simp only [Res.ok_bind]
      rw [buf_left _ _ (i := k + 1) (by omega) (by push_cast; ring), Res.ok_bind,
        if_pos (by omega), h.prods, Res.ok_bind, buf_wr_left _ _ (i := k + 2) hk' (by push_cast; ring),
        Res.ok_bind, buf_wr_right _ _ (i := k) (by omega) (by ring)]
      congr 1
      refine buf_ext (fun i hi => ?_) (fun i hi => ?_)
      · by_cases e : i = k + 2
        · subst e
          rw [if_pos rfl, if_pos (by omega)]; rfl
        · rw [if_neg e]
          by_cases e2 : i < k + 2
          · rw [if_pos e2, if_pos (by omega)]
          · rw [if_neg e2, if_neg (by omega)]
      · by_cases e : i = k
        · subst e
          rw [if_pos rfl, if_pos (by omega)]; rfl
        · rw [if_neg e]
          by_cases e2 : i < k
          · rw [if_pos e2, if_pos (by omega)]
          · rw [if_neg e2, if_neg (by omega)]
  rw [eloop, Res.ok_bind, buf_left _ _ (i := m - 1) (by omega) (by omega), Res.ok_bind, h.prods,
    Res.ok_bind, buf_wr_right _ _ (i := m - 2) (by omega) (by omega), Res.ok_bind, h.prods, Res.ok_bind,
    buf_wr_right _ _ (i := m - 1) (by omega) (by omega), Res.ok_bind]
  have eR1 : mul (R (m - 1)) r = R m := by
    obtain ⟨k, rfl⟩ : ∃ k, m = k + 2 := ⟨m - 2, by omega⟩
    rfl
  have eR2 : mul (R m) r = R (m + 1) := by
    obtain ⟨k, rfl⟩ : ∃ k, m = k + 2 := ⟨m - 2, by omega⟩
    rfl
  have eE1 : err (R (m - 1)) r = E m := rfl
  have eE2 : err (R m) r = E (m + 1) := by
    show _ = err (rpow mul fs.one r (m + 1 - 1)) r
    rw [Nat.add_sub_cancel]
  simp only [eR1, eR2, eE1, eE2]
  have ebuf : buf m R (fun k => if k = m - 1 then E (m + 1) else if k = m - 2 then E m
      else if k < m - 2 then E (k + 2) else fs.zero) = buf m R (fun k => E (k + 2)) := by
    refine buf_ext (fun _ _ => rfl) (fun i hi => ?_)
    by_cases e1 : i = m - 1
    · rw [if_pos e1, e1]; congr 1; omega
    · by_cases e2 : i = m - 2
      · rw [if_neg e1, if_pos e2, e2]; congr 1; omega
      · rw [if_neg e1, if_neg e2, if_pos (by omega)]
  rw [ebuf, Int.toNat_natCast, foldN_ok (init := fs.zero)
    (locSum add mul err fs.zero fs.one r (m + 1)) m rfl]
  · rw [Res.ok_bind, h.num, Res.ok_bind]
    unfold powPair
    by_cases hpar : p % 2 = 0
    · rw [if_pos hpar, decide_eq_false (by simpa using hpar), h.mul, Res.ok_bind, h.mul, Res.ok_bind,
        h.add, Res.ok_bind]
      rfl
    · rw [if_neg hpar, decide_eq_true (by simpa using hpar), h.prods, Res.ok_bind, h.mul, Res.ok_bind,
        h.mul, Res.ok_bind, h.mul, Res.ok_bind, h.mul, Res.ok_bind, h.add, Res.ok_bind, h.add,
        Res.ok_bind]
      rfl
  · intro i hi
    rw [buf_left _ _ hi rfl, Res.ok_bind, buf_right _ _ (i := m - 1 - i) (by omega) (by omega),
      Res.ok_bind, h.mul, Res.ok_bind, h.add]
    show Res.ok (add _ (mul (R i) (E (m - 1 - i + 2)))) = Res.ok (add _ (mul (R i) (E (m + 1 - i))))
    rw [show m - 1 - i + 2 = m + 1 - i by omega]

/-! ### Closeness: `k` rounding errors relative to a majorant -/

section close

variable {G : ℚ → Prop} {u : ℚ} {rn : ℚ → ℚ} {pow : ℚ → ℚ → ℚ} {sqrt : ℚ → ℚ}

/-- A floating-point format without underflow. -/
structure FlX (G : ℚ → Prop) (u : ℚ) (rn : ℚ → ℚ) : Prop extends Fl G u rn where
  one : G 1
  relX : ∀ v, |v - rn v| ≤ u * |v|
  mulErr : ∀ a b, G a → G b → G (a * b - rn (a * b))

theorem flX_nearestX {p : Nat} (hp : 2 ≤ p) (h : NearestX p rn) : FlX (RepX p) (unit p) rn where
  toFl := fl_nearestX hp h
  one := ⟨1, 0, by
    have : (1 : Int) < 2 ^ p := one_lt_pow₀ (by norm_num) (by omega)
    simpa using this, by simp⟩
  relX := rel_errX (by omega) h
  mulErr a b ha hb := by
    obtain ⟨e, he0, he⟩ := repX_common (l := [a, b]) (p := p) (by simp [ha, hb]) 0
    obtain ⟨r', h1, h2⟩ := transfer (by omega) h (e + e)
    have ma := he a (by simp)
    have mb := he b (by simp)
    have mab := ma.mul mb
    have ra : Rep p (e + e) a := rep_of_repX ha (ma.mono (by omega))
    have rb : Rep p (e + e) b := rep_of_repX hb (mb.mono (by omega))
    obtain ⟨r, s, -, e2, -, e4, e5⟩ := Props.C12_two_prod (pow := fun x _ => x) (sqrt := id)
      (by omega) h1 ra rb
    have := e5.2 mab
    rw [← h2 _ mab, ← e2, ← this, add_sub_cancel_left]
    exact repX_of_rep e4

def Close (u v V M : ℚ) (k : Nat) : Prop := |v - V| ≤ ((1 + u) ^ k - 1) * M ∧ |V| ≤ M

theorem Close.refl (v : ℚ) : Close u v v |v| 0 := ⟨by simp, le_rfl⟩

theorem Close.nonneg {v V M : ℚ} {k : Nat} (h : Close u v V M k) : 0 ≤ M :=
  (abs_nonneg _).trans h.2

theorem Close.mono (hu : 0 < u) {v V M : ℚ} {k j : Nat} (h : Close u v V M k) (hk : k ≤ j) :
    Close u v V M j :=
  ⟨h.1.trans (mul_le_mul_of_nonneg_right (growth_mono hu hk) h.nonneg), h.2⟩

theorem Close.weaken (hu : 0 < u) {v V M N : ℚ} {k : Nat} (h : Close u v V M k) (hk : M ≤ N) :
    Close u v V N k :=
  ⟨h.1.trans (mul_le_mul_of_nonneg_left hk (growth_nonneg hu k)), h.2.trans hk⟩

theorem Close.abs {v V M : ℚ} {k : Nat} (h : Close u v V M k) : |v| ≤ (1 + u) ^ k * M := by
  have e : v = V + (v - V) := by ring
  have : |v| ≤ |V| + |v - V| := by
    calc |v| = |V + (v - V)| := by rw [← e]
      _ ≤ _ := abs_add_le _ _
  linarith [h.1, h.2]

theorem Close.round (hf : FlX G u rn) {v V M : ℚ} {k : Nat} (h : Close u v V M k) :
    Close u (rn v) V M (k + 1) := by
  refine ⟨?_, h.2⟩
  have h1 := hf.relX v
  have h2 := mul_le_mul_of_nonneg_left h.abs hf.pos.le
  have h3 : |rn v - V| ≤ |v - V| + |v - rn v| := by
    have e : rn v - V = (v - V) - (v - rn v) := by ring
    rw [e]; exact abs_sub _ _
  have h4 := h.1
  have h5 : ((1 + u) ^ (k + 1) - 1) * M = ((1 + u) ^ k - 1) * M + u * ((1 + u) ^ k * M) := by
    rw [pow_succ]; ring
  rw [h5]
  linarith

theorem Close.mul {v V M w W N : ℚ} {k j : Nat} (hu : 0 < u) (h : Close u v V M k)
    (h' : Close u w W N j) : Close u (v * w) (V * W) (M * N) (k + j) := by
  constructor
  · have e : v * w - V * W = v * (w - W) + (v - V) * W := by ring
    have h1 : |v * (w - W)| ≤ ((1 + u) ^ k * M) * (((1 + u) ^ j - 1) * N) := by
      rw [abs_mul]
      exact mul_le_mul h.abs h'.1 (abs_nonneg _) (by have := h.nonneg; positivity)
    have h2 : |(v - V) * W| ≤ (((1 + u) ^ k - 1) * M) * N := by
      rw [abs_mul]
      exact mul_le_mul h.1 h'.2 (abs_nonneg _) ((abs_nonneg _).trans h.1)
    rw [e]
    refine (abs_add_le _ _).trans ((add_le_add h1 h2).trans (le_of_eq ?_))
    rw [pow_add]; ring
  · rw [abs_mul]
    exact mul_le_mul h.2 h'.2 (abs_nonneg _) h.nonneg

theorem Close.add {v V M w W N : ℚ} {k : Nat} (h : Close u v V M k)
    (h' : Close u w W N k) : Close u (v + w) (V + W) (M + N) k := by
  constructor
  · have e : v + w - (V + W) = (v - V) + (w - W) := by ring
    rw [e]
    refine (abs_add_le _ _).trans ((add_le_add h.1 h'.1).trans (le_of_eq ?_))
    ring
  · exact (abs_add_le _ _).trans (add_le_add h.2 h'.2)

/-! ### The error of compensated powers -/

/-- The exact first-order correction of the powers of `r`. -/
def locV (r : ℚ) (e : Nat → ℚ) (n : Nat) : Nat → ℚ
  | 0 => 0
  | i + 1 => locV r e n i + r ^ i * e (n - i)

theorem rounded_pure (hf : FlX G u rn) :
    Pure (rounded rn pow sqrt) (fun x y => rn (x + y)) (fun x y => rn (x * y))
      (fun x y => rn (x * y - rn (x * y))) (fun i => rn i) where
  add _ _ := rfl
  mul _ _ := rfl
  prods x y := by
    show (Res.ok (rn (x * y), rn (x * y + -rn (x * y))) : Res (ℚ × ℚ)) = _
    rw [← sub_eq_add_neg]
  num _ := rfl

variable (hf : FlX G u rn) (x : ℚ)
include hf

/-- Rounded powers. -/
local notation "R" => rpow (fun x y : ℚ => rn (x * y)) 1 (rn (x * x))
local notation "E" => epow (fun x y : ℚ => rn (x * y)) (fun x y => rn (x * y - rn (x * y))) 1 (rn (x * x))
local notation "L" => locSum (fun x y : ℚ => rn (x + y)) (fun x y => rn (x * y))
  (fun x y => rn (x * y - rn (x * y))) 0 1 (rn (x * x))

theorem R_good (k : Nat) : G (R k) := by
  rcases k with _ | _ | k
  · exact hf.one
  · exact hf.good _
  · exact hf.good _

theorem R_succ (k : Nat) : R (k + 1) = rn (R k * rn (x * x)) := by
  cases k with
  | zero =>
    show rn (x * x) = rn (1 * rn (x * x))
    rw [one_mul, hf.fix _ (hf.good _)]
  | succ k => rfl

theorem E_succ (k : Nat) : E (k + 1) = R k * rn (x * x) - R (k + 1) := by
  show rn (R k * rn (x * x) - rn (R k * rn (x * x))) = _
  rw [R_succ hf x k, hf.fix _ (hf.mulErr _ _ (R_good hf x k) (hf.good _))]

theorem R_close (k : Nat) : Close u (R k) (rn (x * x) ^ k) (|rn (x * x)| ^ k) k := by
  induction k with
  | zero => exact ⟨by simp [rpow], by simp⟩
  | succ k ih =>
    rw [R_succ hf x, pow_succ, pow_succ]
    exact (ih.mul hf.pos (Close.refl _)).round hf

theorem E_abs (k : Nat) : |E (k + 1)| ≤ u * (1 + u) ^ k * |rn (x * x)| ^ (k + 1) := by
  have h1 := hf.relX (R k * rn (x * x))
  rw [← R_succ hf x, ← E_succ hf x, abs_mul] at h1
  have h2 := (R_close hf x k).abs
  refine h1.trans ?_
  have h3 := mul_le_mul_of_nonneg_right h2 (abs_nonneg (rn (x * x)))
  have h4 := mul_le_mul_of_nonneg_left h3 hf.pos.le
  refine h4.trans (le_of_eq ?_)
  rw [pow_succ]; ring

theorem L_close (n i : Nat) : Close u (L n i) (locV (rn (x * x)) E n i)
    (locV |rn (x * x)| (fun k => |E k|) n i) (2 * i) := by
  induction i with
  | zero => exact ⟨by simp [locSum, locV], by simp [locV]⟩
  | succ i ih =>
    have h1 := (((R_close hf x i).mul hf.pos (Close.refl (E (n - i)))).round hf)
    have h2 := (h1.mono hf.pos (show i + 0 + 1 ≤ 2 * i + 1 by omega))
    exact ((ih.mono hf.pos (by omega : 2 * i ≤ 2 * i + 1)).add h2).round hf

/-- `r^n` is the rounded power and the weighted errors. -/
theorem pow_expand (n : Nat) : ∀ i, i ≤ n →
    R n + locV (rn (x * x)) E n i = rn (x * x) ^ i * R (n - i) := by
  intro i
  induction i with
  | zero => intro _; simp [locV]
  | succ i ih =>
    intro hi
    obtain ⟨k, rfl⟩ : ∃ k, n = k + 1 + i := ⟨n - 1 - i, by omega⟩
    have h1 := ih (by omega)
    have h2 := E_succ hf x k
    rw [show k + 1 + i - i = k + 1 by omega] at h1
    show R (k + 1 + i) + (locV (rn (x * x)) E (k + 1 + i) i + rn (x * x) ^ i * E (k + 1 + i - i)) = _
    rw [show k + 1 + i - i = k + 1 by omega, show k + 1 + i - (i + 1) = k by omega, h2, ← add_assoc, h1,
      pow_succ]
    ring

theorem locM_bound (n : Nat) : ∀ i, i ≤ n → locV |rn (x * x)| (fun k => |E k|) n i ≤
    ((1 + u) ^ n - (1 + u) ^ (n - i)) * |rn (x * x)| ^ n := by
  intro i
  induction i with
  | zero => intro _; simp [locV]
  | succ i ih =>
    intro hi
    obtain ⟨k, rfl⟩ : ∃ k, n = k + 1 + i := ⟨n - 1 - i, by omega⟩
    have h1 := ih (by omega)
    have h2 := E_abs hf x k
    rw [show k + 1 + i - i = k + 1 by omega] at h1
    show locV |rn (x * x)| (fun k => |E k|) (k + 1 + i) i +
      |rn (x * x)| ^ i * |E (k + 1 + i - i)| ≤ _
    rw [show k + 1 + i - i = k + 1 by omega, show k + 1 + i - (i + 1) = k by omega]
    have h3 := mul_le_mul_of_nonneg_left h2 (pow_nonneg (abs_nonneg (rn (x * x))) i)
    have h4 : |rn (x * x)| ^ i * (u * (1 + u) ^ k * |rn (x * x)| ^ (k + 1)) =
        u * (1 + u) ^ k * |rn (x * x)| ^ (k + 1 + i) := by
      rw [pow_add |rn (x * x)| (k + 1) i]; ring
    have h5 : ((1 + u) ^ (k + 1 + i) - (1 + u) ^ k) * |rn (x * x)| ^ (k + 1 + i) =
        ((1 + u) ^ (k + 1 + i) - (1 + u) ^ (k + 1)) * |rn (x * x)| ^ (k + 1 + i) +
        u * (1 + u) ^ k * |rn (x * x)| ^ (k + 1 + i) := by
      rw [pow_succ (1 + u) k]; ring
    rw [h5, ← h4]
    exact add_le_add h1 h3

omit hf in
/-- Second-order remainder of a power. -/
theorem remainder_bound (hu : 0 < u) {X r s : ℚ} (hX : 0 ≤ X) (he : X = r + s) (hr : |r| ≤ (1 + u) * X)
    (hs : |s| ≤ u * X) (m : Nat) :
    |X ^ (m + 1) - r ^ (m + 1) - (m + 1) * r ^ m * s| ≤ ((1 + u) ^ (m + 1) - 1) ^ 2 * X ^ (m + 1) := by
  induction m with
  | zero =>
    have : X ^ (0 + 1) - r ^ (0 + 1) - ((0 : Nat) + 1) * r ^ 0 * s = 0 := by rw [he]; push_cast; ring
    rw [this, abs_zero]; positivity
  | succ m ih =>
    have e : X ^ (m + 1 + 1) - r ^ (m + 1 + 1) - ((m + 1 : Nat) + 1) * r ^ (m + 1) * s =
        X * (X ^ (m + 1) - r ^ (m + 1) - (m + 1) * r ^ m * s) + (m + 1) * r ^ m * s ^ 2 := by
      rw [he]; push_cast; ring
    rw [e]
    refine (abs_add_le _ _).trans ?_
    rw [abs_mul, abs_of_nonneg hX]
    have h1 := mul_le_mul_of_nonneg_left ih hX
    have h2 : |(m + 1) * r ^ m * s ^ 2| ≤ (m + 1) * ((1 + u) ^ m * X ^ m) * (u * X) ^ 2 := by
      rw [abs_mul, abs_mul, abs_pow, abs_pow, ← mul_pow, abs_of_nonneg (by positivity : (0 : ℚ) ≤ m + 1)]
      have a1 : |r| ^ m ≤ ((1 + u) * X) ^ m := pow_le_pow_left₀ (abs_nonneg _) hr m
      have a2 : |s| ^ 2 ≤ (u * X) ^ 2 := pow_le_pow_left₀ (abs_nonneg _) hs 2
      exact mul_le_mul (mul_le_mul_of_nonneg_left a1 (by positivity)) a2 (by positivity) (by positivity)
    have h3 : (1 : ℚ) + (m + 1 : Nat) * u ≤ (1 + u) ^ (m + 1) :=
      one_add_mul_le_pow (by linarith) (m + 1)
    push_cast at h3
    have hXp : 0 ≤ X ^ (m + 2) := by positivity
    have h4 : X * (((1 + u) ^ (m + 1) - 1) ^ 2 * X ^ (m + 1)) +
        (m + 1) * ((1 + u) ^ m * X ^ m) * (u * X) ^ 2 =
        (((1 + u) ^ (m + 1) - 1) ^ 2 + (m + 1) * (1 + u) ^ m * u ^ 2) * X ^ (m + 2) := by ring
    have h5 : ((1 + u) ^ (m + 1) - 1) ^ 2 + (m + 1) * (1 + u) ^ m * u ^ 2 ≤
        ((1 + u) ^ (m + 2) - 1) ^ 2 := by
      have b1 : (1 + u) ^ (m + 2) - 1 = ((1 + u) ^ (m + 1) - 1) + u * (1 + u) ^ (m + 1) := by ring
      have b2 : 0 ≤ (1 + u) ^ (m + 1) - 1 := growth_nonneg hu _
      have b3 : (1 + u) ^ m ≤ (1 + u) ^ (m + 1) := pow_le_pow_right₀ (by linarith) (by omega)
      rw [b1]
      have b4 : (m + 1) * (1 + u) ^ m * u ^ 2 ≤ ((1 + u) ^ (m + 1) - 1) * (u * (1 + u) ^ (m + 1)) := by
        have : (m + 1) * (1 + u) ^ m * u ^ 2 = ((m + 1) * u) * (u * (1 + u) ^ m) := by ring
        rw [this]
        refine mul_le_mul (by linarith) (mul_le_mul_of_nonneg_left b3 hu.le) (by positivity) b2
      have b5 : 0 ≤ (u * (1 + u) ^ (m + 1)) ^ 2 := by positivity
      have b6 : 0 ≤ ((1 + u) ^ (m + 1) - 1) * (u * (1 + u) ^ (m + 1)) := by positivity
      nlinarith
    have h6 := mul_le_mul_of_nonneg_right h5 hXp
    calc _ ≤ _ := add_le_add h1 h2
      _ = _ := h4
      _ ≤ _ := h6

/-- Everything about the squares: `r = rn (x²)` and the exact error `s`. -/
theorem square_facts (hx : G x) :
    x * x = rn (x * x) + (x * x - rn (x * x)) ∧ |rn (x * x)| ≤ (1 + u) * (x * x) ∧
      |x * x - rn (x * x)| ≤ u * (x * x) ∧ rn (x * x - rn (x * x)) = x * x - rn (x * x) := by
  have h1 := hf.relX (x * x)
  have h2 := abs_le_of_rel h1
  rw [abs_of_nonneg (mul_self_nonneg x)] at h1 h2
  exact ⟨by ring, h2, h1, hf.fix _ (hf.mulErr _ _ hx hx)⟩

/-- The exact correction `C` for the square power, and how large it can be. -/
theorem correction_facts (hx : G x) (m : Nat) :
    let r := rn (x * x)
    let s := x * x - rn (x * x)
    let C := (m + 1) * r ^ m * s + locV r E (m + 1) m
    |R (m + 1) + C - (x * x) ^ (m + 1)| ≤ ((1 + u) ^ (m + 1) - 1) ^ 2 * (x * x) ^ (m + 1) ∧
    (m + 1) * |r| ^ m * |s| + locV |r| (fun k => |E k|) (m + 1) m ≤
      ((1 + u) ^ (3 * (m + 1)) - 1) * (x * x) ^ (m + 1) := by
  intro r s C
  obtain ⟨f1, f2, f3, -⟩ := square_facts hf x hx
  have hu := hf.pos
  have hX : 0 ≤ x * x := mul_self_nonneg x
  constructor
  · have h1 := remainder_bound hu hX f1 f2 f3 m
    have h2 := pow_expand hf x (m + 1) m (by omega)
    rw [show m + 1 - m = 1 by omega] at h2
    have h3 : R (m + 1) + C - (x * x) ^ (m + 1) =
        -((x * x) ^ (m + 1) - rn (x * x) ^ (m + 1) - (m + 1) * rn (x * x) ^ m * (x * x - rn (x * x))) := by
      have : R 1 = rn (x * x) := rfl
      rw [this, ← pow_succ] at h2
      show R (m + 1) + ((m + 1) * r ^ m * s + locV r E (m + 1) m) - _ = _
      rw [← h2]; ring
    rw [h3, abs_neg]; exact h1
  · have h1 := locM_bound hf x (m + 1) m (by omega)
    rw [show m + 1 - m = 1 by omega, pow_one] at h1
    have hB : (1 : ℚ) + (m + 1 : Nat) * u ≤ (1 + u) ^ (m + 1) :=
      one_add_mul_le_pow (by linarith) (m + 1)
    push_cast at hB
    have hg := growth_nonneg hu (m + 1)
    have hrn : |r| ^ (m + 1) ≤ (1 + u) ^ (m + 1) * (x * x) ^ (m + 1) := by
      rw [← mul_pow]; exact pow_le_pow_left₀ (abs_nonneg _) f2 _
    have hrm : |r| ^ m ≤ (1 + u) ^ (m + 1) * (x * x) ^ m := by
      calc |r| ^ m ≤ ((1 + u) * (x * x)) ^ m := pow_le_pow_left₀ (abs_nonneg _) f2 _
        _ = (1 + u) ^ m * (x * x) ^ m := mul_pow ..
        _ ≤ _ := mul_le_mul_of_nonneg_right (pow_le_pow_right₀ (by linarith) (by omega)) (by positivity)
    generalize hA : (1 + u) ^ (m + 1) = A at *
    have hA1 : 1 ≤ A := by linarith
    have t1 : (m + 1) * |r| ^ m * |s| ≤ (A - 1) * A * (x * x) ^ (m + 1) := by
      have q1 : (m + 1) * |r| ^ m * |s| ≤ (m + 1) * (A * (x * x) ^ m) * (u * (x * x)) :=
        mul_le_mul (mul_le_mul_of_nonneg_left hrm (by positivity)) f3 (abs_nonneg _) (by positivity)
      have q2 : (m + 1) * (A * (x * x) ^ m) * (u * (x * x)) = ((m + 1) * u) * (A * (x * x) ^ (m + 1)) := by
        rw [pow_succ]; ring
      have q3 : ((m + 1) * u) * (A * (x * x) ^ (m + 1)) ≤ (A - 1) * (A * (x * x) ^ (m + 1)) :=
        mul_le_mul_of_nonneg_right (by linarith) (by positivity)
      linarith
    have t2 : (A - (1 + u)) * |r| ^ (m + 1) ≤ (A - 1) * A * (x * x) ^ (m + 1) := by
      have q1 : (A - (1 + u)) * |r| ^ (m + 1) ≤ (A - 1) * |r| ^ (m + 1) :=
        mul_le_mul_of_nonneg_right (by linarith) (by positivity)
      have q2 := mul_le_mul_of_nonneg_left hrn (by linarith : 0 ≤ A - 1)
      linarith
    have t3 : (1 + u) ^ (3 * (m + 1)) = A ^ 3 := by rw [mul_comm, pow_mul, hA]
    have t4 : 2 * ((A - 1) * A) ≤ A ^ 3 - 1 := by nlinarith [sq_nonneg (A - 1)]
    rw [t3]
    have t5 := mul_le_mul_of_nonneg_right t4 (by positivity : (0 : ℚ) ≤ (x * x) ^ (m + 1))
    linarith

/-- Even powers. -/
theorem powPair_even (hx : G x) (m : Nat) :
    let q := powPair (fun x y => rn (x + y)) (fun x y => rn (x * y)) (fun x y => rn (x * y - rn (x * y)))
      (fun i => rn i) 0 1 x (m + 1) false
    |q.1 + q.2 - (x * x) ^ (m + 1)| ≤
      (((1 + u) ^ (m + 1) - 1) ^ 2 + ((1 + u) ^ (2 * m + 4) - 1) * ((1 + u) ^ (3 * (m + 1)) - 1)) *
        (x * x) ^ (m + 1) := by
  intro q
  obtain ⟨f1, f2, f3, f4⟩ := square_facts hf x hx
  obtain ⟨c1, c2⟩ := correction_facts hf x hx m
  have hu := hf.pos
  have k1 : Close u (rn ((m + 1 : Nat) : Int)) ((m : ℚ) + 1) (m + 1) 1 := by
    have := (Close.refl (u := u) ((m : ℚ) + 1)).round hf
    rw [abs_of_nonneg (by positivity)] at this
    have e : (((m + 1 : Nat) : Int) : ℚ) = (m : ℚ) + 1 := by push_cast; ring
    rw [e]; exact this
  have k2 := ((k1.mul hu (R_close hf x m)).round hf)
  have k3 := ((k2.mul hu (Close.refl (x * x - rn (x * x)))).round hf).mono hu
    (show 1 + m + 1 + 0 + 1 ≤ 2 * m + 3 by omega)
  have k4 := (L_close hf x (m + 1) m).mono hu (show 2 * m ≤ 2 * m + 3 by omega)
  have k5 := ((k3.add k4).round hf).weaken hu c2
  have hq : q = (R (m + 1), rn (rn (rn (rn ((m + 1 : Nat) : Int) * R m) * (x * x - rn (x * x))) +
      L (m + 1) m)) := by
    show (R (m + 1), rn (rn (rn (rn ((m + 1 : Nat) : Int) * R m) * rn (x * x - rn (x * x))) +
      L (m + 1) m)) = _
    rw [f4]
  rw [hq]
  generalize rn (rn (rn (rn ((m + 1 : Nat) : Int) * R m) * (x * x - rn (x * x))) + L (m + 1) m) = S at *
  have e := k5.1
  generalize (m + 1) * rn (x * x) ^ m * (x * x - rn (x * x)) + locV (rn (x * x)) E (m + 1) m = C at *
  show |R (m + 1) + S - _| ≤ _
  have e1 : R (m + 1) + S - (x * x) ^ (m + 1) = (R (m + 1) + C - (x * x) ^ (m + 1)) + (S - C) := by ring
  rw [e1]
  refine (abs_add_le _ _).trans ((add_le_add c1 e).trans (le_of_eq ?_))
  rw [show 2 * m + 3 + 1 = 2 * m + 4 by omega]
  ring

/-- Odd powers. -/
theorem powPair_odd (hx : G x) (m : Nat) :
    let q := powPair (fun x y => rn (x + y)) (fun x y => rn (x * y)) (fun x y => rn (x * y - rn (x * y)))
      (fun i => rn i) 0 1 x (m + 1) true
    |q.1 + q.2 - (x * x) ^ (m + 1) * x| ≤
      (((1 + u) ^ (m + 1) - 1) ^ 2 + ((1 + u) ^ (2 * m + 6) - 1) * ((1 + u) ^ (3 * (m + 1) + 1) - 1)) *
        ((x * x) ^ (m + 1) * |x|) := by
  intro q
  obtain ⟨f1, f2, f3, f4⟩ := square_facts hf x hx
  obtain ⟨c1, c2⟩ := correction_facts hf x hx m
  have hu := hf.pos
  have k1 : Close u (rn ((m + 1 : Nat) : Int)) ((m : ℚ) + 1) (m + 1) 1 := by
    have := (Close.refl (u := u) ((m : ℚ) + 1)).round hf
    rw [abs_of_nonneg (by positivity)] at this
    have e : (((m + 1 : Nat) : Int) : ℚ) = (m : ℚ) + 1 := by push_cast; ring
    rw [e]; exact this
  have k2 := (((k1.mul hu (Close.refl x)).round hf).mul hu (R_close hf x m)).round hf
  have k3 := ((k2.mul hu (Close.refl (x * x - rn (x * x)))).round hf).mono hu
    (show 1 + 0 + 1 + m + 1 + 0 + 1 ≤ 2 * m + 4 by omega)
  have k4 := (((Close.refl (u := u) x).mul hu (L_close hf x (m + 1) m)).round hf).mono hu
    (show 0 + 2 * m + 1 ≤ 2 * m + 4 by omega)
  have k5 := (k3.add k4).round hf
  have hq2 : rn (R (m + 1) * x - rn (R (m + 1) * x)) = R (m + 1) * x - rn (R (m + 1) * x) :=
    hf.fix _ (hf.mulErr _ _ (R_good hf x _) hx)
  have k6 := (k5.add ((Close.refl (u := u) (R (m + 1) * x - rn (R (m + 1) * x))).mono hu
    (Nat.zero_le (2 * m + 4 + 1)))).round hf
  have hq : q = (rn (R (m + 1) * x), rn (rn (rn (rn (rn (rn ((m + 1 : Nat) : Int) * x) * R m) *
      (x * x - rn (x * x))) + rn (x * L (m + 1) m)) + (R (m + 1) * x - rn (R (m + 1) * x)))) := by
    show (rn (R (m + 1) * x), rn (rn (rn (rn (rn (rn ((m + 1 : Nat) : Int) * x) * R m) *
      rn (x * x - rn (x * x))) + rn (x * L (m + 1) m)) +
      rn (R (m + 1) * x - rn (R (m + 1) * x)))) = _
    rw [f4, hq2]
  -- the size of the last error
  have hR : |R (m + 1)| ≤ (1 + u) ^ (2 * (m + 1)) * (x * x) ^ (m + 1) := by
    have h1 := (R_close hf x (m + 1)).abs
    have h2 : |rn (x * x)| ^ (m + 1) ≤ (1 + u) ^ (m + 1) * (x * x) ^ (m + 1) := by
      rw [← mul_pow]; exact pow_le_pow_left₀ (abs_nonneg _) f2 _
    have h3 := mul_le_mul_of_nonneg_left h2 (by positivity : (0 : ℚ) ≤ (1 + u) ^ (m + 1))
    rw [two_mul, pow_add]
    linarith
  have hE : |R (m + 1) * x - rn (R (m + 1) * x)| ≤
      u * (1 + u) ^ (3 * (m + 1)) * ((x * x) ^ (m + 1) * |x|) := by
    have h1 := hf.relX (R (m + 1) * x)
    rw [abs_mul] at h1
    refine h1.trans ?_
    have h2 : (1 + u) ^ (2 * (m + 1)) ≤ (1 + u) ^ (3 * (m + 1)) :=
      pow_le_pow_right₀ (by linarith) (by omega)
    have h3 : |R (m + 1)| ≤ (1 + u) ^ (3 * (m + 1)) * (x * x) ^ (m + 1) :=
      hR.trans (mul_le_mul_of_nonneg_right h2 (by have := mul_self_nonneg x; positivity))
    have h4 := mul_le_mul_of_nonneg_left (mul_le_mul_of_nonneg_right h3 (abs_nonneg x)) hu.le
    refine h4.trans (le_of_eq ?_)
    ring
  have c2' := mul_le_mul_of_nonneg_right c2 (abs_nonneg x)
  rw [hq]
  have e := k6.1
  generalize rn (rn (rn (rn (rn (rn ((m + 1 : Nat) : Int) * x) * R m) *
      (x * x - rn (x * x))) + rn (x * L (m + 1) m)) + (R (m + 1) * x - rn (R (m + 1) * x))) = S at *
  have hM : (m + 1) * |x| * |rn (x * x)| ^ m * |x * x - rn (x * x)| +
      |x| * locV |rn (x * x)| (fun k => |E k|) (m + 1) m + |R (m + 1) * x - rn (R (m + 1) * x)| ≤
      ((1 + u) ^ (3 * (m + 1) + 1) - 1) * ((x * x) ^ (m + 1) * |x|) := by
    rw [pow_succ (1 + u) (3 * (m + 1))]
    linarith
  have e' := e.trans (mul_le_mul_of_nonneg_left hM (growth_nonneg hu _))
  rw [show 2 * m + 4 + 1 + 1 = 2 * m + 6 by omega] at e'
  have c1' := mul_le_mul_of_nonneg_right c1 (abs_nonneg x)
  rw [← abs_mul] at c1'
  show |rn (R (m + 1) * x) + S - _| ≤ _
  generalize rn (R (m + 1) * x) = Q at *
  have e1 : Q + S - (x * x) ^ (m + 1) * x =
      (R (m + 1) + ((m + 1) * rn (x * x) ^ m * (x * x - rn (x * x)) + locV (rn (x * x)) E (m + 1) m) -
        (x * x) ^ (m + 1)) * x +
      (S - ((m + 1) * x * rn (x * x) ^ m * (x * x - rn (x * x)) + x * locV (rn (x * x)) E (m + 1) m +
        (R (m + 1) * x - Q))) := by ring
  rw [e1]
  refine (abs_add_le _ _).trans ((add_le_add c1' e').trans (le_of_eq ?_))
  ring

end close

end Spp.Lemmas
