import Verif.Props.Rounding
import Verif.Props.StablePoly
import Mathlib.Analysis.Complex.ExponentialBounds

/-
C102: rounding errors of `norm_lp`.
-/

set_option linter.unusedSectionVars false

namespace Spp.Props

open Spp.Spec Spp.Lemmas

variable {σ : Type} {s : σ} {d : Dim} {p : Nat} {rn : ℚ → ℚ} {pow : ℚ → ℚ → ℚ} {sqrt : ℚ → ℚ} {u : ℚ} {G : ℚ → Prop}

/-! ### Roots of real numbers -/

/-- A root with exponent at most one does not increase relative errors. -/
theorem root_contract {g ρ S T : ℝ} (hS : 0 ≤ S) (hT : 0 ≤ T) (hρ : 0 < ρ) (hρ1 : ρ ≤ 1)
    (h : |S - T| ≤ g * T) : |S ^ ρ - T ^ ρ| ≤ g * T ^ ρ := by
  rcases hT.eq_or_lt with rfl | hT
  · have : S = 0 := by simpa using h
    simp [this, Real.zero_rpow hρ.ne']
  · have ht0 : 0 ≤ S / T := by positivity
    have e : S ^ ρ = (S / T) ^ ρ * T ^ ρ := by
      rw [← Real.mul_rpow ht0 hT.le, div_mul_cancel₀ _ hT.ne']
    have h1 : |S / T - 1| ≤ g := by
      rw [div_sub_one hT.ne', abs_div, abs_of_pos hT, div_le_iff₀ hT]; exact h
    have h2 : |(S / T) ^ ρ - 1| ≤ |S / T - 1| := by
      rcases le_total (S / T) 1 with h3 | h3
      · have a1 := Real.self_le_rpow_of_le_one ht0 h3 hρ1
        have a2 := Real.rpow_le_one ht0 h3 hρ.le
        rw [abs_of_nonpos (by linarith), abs_of_nonpos (by linarith)]; linarith
      · have a1 := Real.rpow_le_self_of_one_le h3 hρ1
        have a2 := Real.one_le_rpow h3 hρ.le
        rw [abs_of_nonneg (by linarith), abs_of_nonneg (by linarith)]; linarith
    have hp := Real.rpow_nonneg hT.le ρ
    rw [e, ← sub_one_mul, abs_mul, abs_of_nonneg hp]
    exact mul_le_mul_of_nonneg_right (h2.trans h1) hp

/-- Three relative errors one after the other. -/
theorem root_chain {K D g a b c v : ℝ} (hK : 1 ≤ K) (hD : 1 ≤ D) (h1 : |a - c| ≤ g * c)
    (h2 : |b - a| ≤ (D - 1) * a) (h3 : |v - b| ≤ (K - 1) * b) : |v - c| ≤ (K * D * (1 + g) - 1) * c := by
  have a1 : a ≤ (1 + g) * c := by linarith [(abs_le.1 h1).2]
  have b1 : b ≤ D * a := by linarith [(abs_le.1 h2).2]
  have t : |v - c| ≤ |v - b| + |b - a| + |a - c| := by
    rw [show v - c = (v - b) + (b - a) + (a - c) by ring]; exact abs_add_three _ _ _
  have m1 : (K - 1) * b ≤ (K - 1) * (D * a) := mul_le_mul_of_nonneg_left b1 (by linarith)
  have m2 : (K * D - 1) * a ≤ (K * D - 1) * ((1 + g) * c) :=
    mul_le_mul_of_nonneg_left a1 (by nlinarith)
  nlinarith

/-- A small change of the exponent. -/
theorem exponent_change {S L ρ r e : ℝ} (hS : 0 < S) (hL : 1 ≤ L) (h1 : S ≤ L) (h2 : 1 ≤ S * L)
    (he : |r - ρ| ≤ e) : |S ^ r - S ^ ρ| ≤ (L ^ e - 1) * S ^ ρ := by
  have hL0 : 0 < L := by linarith
  have he0 : 0 ≤ e := (abs_nonneg _).trans he
  have hs : S ^ r = S ^ (r - ρ) * S ^ ρ := by rw [← Real.rpow_add hS]; congr 1; ring
  have hp := Real.rpow_nonneg hS.le ρ
  rw [hs, ← sub_one_mul, abs_mul, abs_of_nonneg hp]
  refine mul_le_mul_of_nonneg_right ?_ hp
  have hi : L⁻¹ ≤ S := by rw [inv_le_iff_one_le_mul₀ hL0]; exact h2
  have key : ∀ t : ℝ, 0 ≤ t → t ≤ e → S ^ t ≤ L ^ e ∧ L ^ (-e) ≤ S ^ t := by
    intro t t0 te
    refine ⟨(Real.rpow_le_rpow hS.le h1 t0).trans (Real.rpow_le_rpow_of_exponent_le hL te), ?_⟩
    refine (Real.rpow_le_rpow_of_exponent_le hL (neg_le_neg te)).trans ?_
    rw [Real.rpow_neg hL0.le, ← Real.inv_rpow hL0.le]
    exact Real.rpow_le_rpow (by positivity) hi t0
  have hLe : 1 ≤ L ^ e := Real.one_le_rpow hL he0
  have both : S ^ (r - ρ) ≤ L ^ e ∧ L ^ (-e) ≤ S ^ (r - ρ) := by
    rcases le_total 0 (r - ρ) with h0 | h0
    · exact key _ h0 ((le_abs_self _).trans he)
    · obtain ⟨k1, k2⟩ := key (-(r - ρ)) (by linarith) ((neg_le_abs _).trans he)
      rw [Real.rpow_neg hS.le] at k1 k2
      have hq : 0 < S ^ (r - ρ) := Real.rpow_pos_of_pos hS _
      rw [Real.rpow_neg hL0.le] at k2 ⊢
      exact ⟨(inv_le_inv₀ (by positivity) hq).1 k2, inv_le_of_inv_le₀ hq k1⟩
  rw [Real.rpow_neg hL0.le] at both
  have hinv : 1 - (L ^ e)⁻¹ ≤ L ^ e - 1 := by
    have : (L ^ e)⁻¹ * L ^ e = 1 := inv_mul_cancel₀ (by positivity)
    have h0 : 0 < (L ^ e)⁻¹ := by positivity
    nlinarith [mul_nonneg h0.le (sq_nonneg (L ^ e - 1))]
  exact abs_le.2 ⟨by linarith [both.2], by linarith [both.1]⟩

/-! ### The computed sum -/

theorem plain_sum_nonneg (hf : FlX G u rn) (hu : u ≤ 1) (l : List ℚ) (hl : ∀ x ∈ l, 0 ≤ x) {z : ℚ} (hz : 0 ≤ z) :
    0 ≤ l.foldl (fun a x => rn (a + x)) z := by
  induction l generalizing z with
  | nil => exact hz
  | cons x l ih =>
    exact ih (fun y hy => hl y (by simp [hy])) (round_nonneg hf hu (add_nonneg hz (hl x (by simp))))

/-- What `norm_lp` computes: a power, with exponent `1 / q` rounded, of a sum that is close. -/
theorem norm_lp_parts (hp : 2 ≤ p) (h : NearestX p rn) {k : Nat} (hw : AccuratePow p k pow) (b : Build) {a : Acc σ ℚ}
    {l : List ℚ} (ha : Elems d a s l) (hne : l ≠ []) {q : Nat} (hq : 0 < q) (hq' : q ≤ 2 ^ p) (dflt : ℚ) :
    ∃ S, Ops.normLp b (rounded rn pow sqrt).toScalar a s q dflt = .ok (pow S (rn (1 / q))) ∧ 0 ≤ S ∧
      |S - (l.map (fun x => |x| ^ q)).sum| ≤
        ((1 + unit p) ^ (l.length - 1 + k) - 1) * (l.map (fun x => |x| ^ q)).sum := by
  have hne' : l.isEmpty = false := by simpa using hne
  have hf := flX_nearestX hp h
  have hu : unit p ≤ 1 := by
    unfold unit
    exact inv_le_one_of_one_le₀ (one_le_pow₀ (by norm_num))
  have hA := Elems.unary (Elems.unary ha (f := fun x => (rounded rn pow sqrt).toScalar.pow x (q : ℚ))
    (g := fun x => pow x q) (fun x _ => rfl))
    (f := (rounded rn pow sqrt).toScalar.abss) (g := fun x => |x|) (fun x _ => abss_rounded x)
  have hpd : decide ((q : Int) > 0) = true := decide_eq_true (by omega)
  rw [List.map_map] at hA
  cases l with
  | nil => exact absurd rfl hne
  | cons x xs =>
    have hsum := ((C52_left_to_right hA (rounded rn pow sqrt).toScalar.toArith 0).2 _ _ rfl).1.trans
      (foldlM_pure (g := fun a y => rn (a + y)) _ _ fun _ _ _ => rfl)
    refine ⟨(xs.map (fun y => |pow y q|)).foldl (fun a y => rn (a + y)) |pow x q|, ?_,
      plain_sum_nonneg hf hu _ (fun y hy => ?_) (abs_nonneg (pow x q)), ?_⟩
    · unfold Ops.normLp
      rw [hpd, Elems.empty ha, hne']
      simp only [assertDebug_true, Res.ok_bind, Bool.false_eq_true, if_false]
      have e : (rounded rn pow sqrt).toScalar.ofIndex (q : Int) = .ok (q : ℚ) := by
        show Res.ok (rn (((q : Nat) : Int) : ℚ)) = _
        rw [Int.cast_natCast, round_count h hq' hp]
      rw [e]
      show (do
        let t ← Ops.sum (rounded rn pow sqrt).toScalar.toArith
          ((a.unary fun x => (rounded rn pow sqrt).toScalar.pow x (q : ℚ)).unary (rounded rn pow sqrt).toScalar.abss) s 0
        Res.ok (pow t (rn (1 / (q : ℚ))))) = _
      rw [hsum, Res.ok_bind]
      rfl
    · obtain ⟨z, _, rfl⟩ := List.mem_map.1 hy
      exact abs_nonneg _
    · have hc : ∀ y : ℚ, Close (unit p) |pow y q| (|y| ^ q) (|y| ^ q) k := by
        intro y
        refine ⟨(abs_pow y q ▸ abs_abs_sub_abs_le (pow y q) (y ^ q)).trans (hw y q), ?_⟩
        rw [abs_of_nonneg (by positivity)]
      have := (close_foldl_add hf xs (k := k) (fun y _ => hc y) (hc x) le_rfl).1
      rw [List.foldl_map]
      simp only [List.map_cons, List.sum_cons, List.length_cons, Nat.add_sub_cancel]
      rw [add_comm xs.length k]
      exact this

theorem power_sum_nonneg (l : List ℚ) (q : Nat) : 0 ≤ (l.map (fun x => |x| ^ q)).sum :=
  List.sum_nonneg fun y hy => by obtain ⟨x, _, rfl⟩ := List.mem_map.1 hy; positivity

/-- The reciprocal of a count, rounded: positive, and as close as one rounding. -/
theorem reciprocal (hp : 2 ≤ p) (h : NearestX p rn) {q : Nat} (hq : 0 < q) :
    0 < rn (1 / q) ∧ |((rn (1 / q) : ℚ) : ℝ) - 1 / (q : ℝ)| ≤ ((unit p : ℚ) : ℝ) / q := by
  have hf := flX_nearestX hp h
  have hq0 : (0 : ℚ) < q := by exact_mod_cast hq
  have h1 := hf.relX (1 / q)
  rw [abs_of_pos (show (0 : ℚ) < 1 / q by positivity)] at h1
  have hu : unit p < 1 := by
    unfold unit
    exact inv_lt_one_of_one_lt₀ (one_lt_pow₀ (by norm_num) (by omega))
  refine ⟨?_, ?_⟩
  · have h2 := (abs_le.1 h1).2
    have h3 : 0 < 1 / (q : ℚ) := by positivity
    nlinarith
  · rw [abs_sub_comm] at h1
    rw [mul_one_div] at h1
    have h2 := (Rat.cast_le (K := ℝ)).2 h1
    push_cast at h2
    exact h2

/-- The reciprocal of a power of two is a number of the format. -/
theorem reciprocal_exact (hp : 2 ≤ p) (h : NearestX p rn) (e : Nat) :
    rn (1 / ((2 ^ e : Nat) : ℚ)) = 1 / ((2 ^ e : Nat) : ℚ) := by
  refine (fl_nearestX hp h).fix _ ⟨1, -(e : Int), ?_, ?_⟩
  · simpa using (one_lt_pow₀ (by norm_num) (by omega) : (1 : Int) < 2 ^ p)
  · push_cast
    rw [zpow_neg, zpow_natCast]
    ring

/-- C102: `norm_lp(A, q)` of `n` numbers, for an exponent `q` that is a power of two (1, 2, 4, ...): with a power
function of relative error at most `k` roundings, the norm has a relative error of at most `n - 1 + 2k` roundings. -/
theorem C102_norm_lp (hp : 2 ≤ p) (h : NearestX p rn) {k : Nat} (hw : AccuratePow p k pow)
    (hr : AccurateRoot p k pow) (b : Build) {a : Acc σ ℚ} {l : List ℚ} (ha : Elems d a s l) (hne : l ≠ []) {e : Nat}
    (he : e ≤ p) (dflt : ℚ) :
    ∃ v, Ops.normLp b (rounded rn pow sqrt).toScalar a s (2 ^ e : Nat) dflt = .ok v ∧
      |(v : ℝ) - lpNorm (2 ^ e) l| ≤ ((1 + unit p : ℚ) ^ (l.length - 1 + 2 * k) - 1) * lpNorm (2 ^ e) l := by
  have hq : 0 < 2 ^ e := by positivity
  have hf := flX_nearestX hp h
  obtain ⟨S, e1, e2, e3⟩ := norm_lp_parts (sqrt := sqrt) hp h hw b ha hne hq
    (Nat.pow_le_pow_right (by norm_num) he) dflt
  refine ⟨_, e1, ?_⟩
  have hT := power_sum_nonneg l (2 ^ e)
  have hS := hr S _ e2 (reciprocal hp h hq).1
  rw [reciprocal_exact hp h] at hS ⊢
  have hgk : (1 : ℝ) ≤ ((1 + unit p : ℚ) : ℝ) ^ k := by
    have := growth_nonneg hf.pos k
    have : (1 : ℚ) ≤ (1 + unit p) ^ k := by linarith
    exact_mod_cast this
  have hq1 : (1 : ℝ) ≤ ((2 ^ e : Nat) : ℝ) := by exact_mod_cast hq
  have h1 := root_contract (ρ := 1 / ((2 ^ e : Nat) : ℝ)) (S := (S : ℝ))
    (T := (((l.map (fun x => |x| ^ 2 ^ e)).sum : ℚ) : ℝ))
    (g := (((1 + unit p : ℚ) ^ (l.length - 1 + k) - 1 : ℚ) : ℝ)) (by exact_mod_cast e2) (by exact_mod_cast hT)
    (by positivity) (by rw [div_le_one (by linarith)]; exact hq1) (by exact_mod_cast e3)
  have hcast : (((1 / ((2 ^ e : Nat) : ℚ) : ℚ)) : ℝ) = 1 / ((2 ^ e : Nat) : ℝ) := by push_cast; rfl
  rw [hcast] at hS
  have h2 := root_chain (D := 1) (b := (S : ℝ) ^ (1 / ((2 ^ e : Nat) : ℝ))) hgk le_rfl h1 (by simp) hS
  refine h2.trans (le_of_eq ?_)
  unfold lpNorm
  congr 1
  push_cast
  ring

/-- C102: `norm_lp_scaled(A, q)` for `q` a power of two, if powers have a relative error of one rounding: at most `n + 3`
roundings (one of them by division). -/
theorem C102_norm_lp_scaled (hp : 2 ≤ p) (h : NearestX p rn) (hw : AccuratePow p 1 pow)
    (hr : AccurateRoot p 1 pow) (b : Build) {a : Acc σ ℚ} {l : List ℚ} (ha : Elems d a s l) (hne : l ≠ []) {e : Nat}
    (he : e ≤ p) (hn : l.length ≤ 2 ^ p) (dflt : ℚ) :
    ∃ v, Ops.normLpScaled b (rounded rn pow sqrt).toScalar a s (2 ^ e : Nat) dflt = .ok v ∧
      |(v : ℝ) - lpNorm (2 ^ e) l / (l.length : ℝ) ^ (1 / ((2 ^ e : Nat) : ℝ))| ≤
        ((1 + unit p) ^ (l.length + 2) / (1 - unit p) - 1 : ℚ) *
          (lpNorm (2 ^ e) l / (l.length : ℝ) ^ (1 / ((2 ^ e : Nat) : ℝ))) := by
  have hne' : l.isEmpty = false := by simpa using hne
  have hl0 : 0 < l.length := List.length_pos_iff.2 hne
  have hq : 0 < 2 ^ e := by positivity
  have hf := flX_nearestX hp h
  have hu : unit p < 1 := (unit_le hp).trans_lt (by norm_num)
  obtain ⟨v, e1, e2⟩ := C102_norm_lp (sqrt := sqrt) hp h hw hr b ha hne he 0
  have hS := hr (l.length : ℚ) _ (by positivity) (reciprocal hp h hq).1
  have hpd : decide (((2 ^ e : Nat) : Int) > 0) = true := decide_eq_true (by exact_mod_cast hq)
  refine ⟨rn (v / pow l.length (rn (1 / ((2 ^ e : Nat) : ℚ)))), ?_, ?_⟩
  · unfold Ops.normLpScaled
    rw [hpd, Elems.empty ha, hne', Elems.size ha]
    simp only [assertDebug_true, Res.ok_bind, Bool.false_eq_true, if_false]
    show ((Ops.normLp b (rounded rn pow sqrt).toScalar a s (2 ^ e : Nat) 0) >>= _) = _
    rw [e1]
    show Res.ok (rn (v / pow (rn ((l.length : Int) : ℚ)) (rn (1 / rn (((2 ^ e : Nat) : Int) : ℚ))))) = _
    rw [Int.cast_natCast, Int.cast_natCast, round_count h hn hp,
      round_count h (Nat.pow_le_pow_right (by norm_num) he) hp]
  · rw [reciprocal_exact hp h] at hS ⊢
    have hcast : (((1 / ((2 ^ e : Nat) : ℚ) : ℚ)) : ℝ) = 1 / ((2 ^ e : Nat) : ℝ) := by push_cast; rfl
    rw [hcast, Rat.cast_natCast] at hS
    generalize hw' : pow l.length (1 / ((2 ^ e : Nat) : ℚ)) = w at hS ⊢
    have h2 : |((v : ℝ) / (w : ℚ)) - (rn (v / w) : ℚ)| ≤ (unit p : ℝ) * |(v : ℝ) / (w : ℚ)| := by
      exact_mod_cast hf.relX (v / w)
    have hN : (0 : ℝ) < (l.length : ℝ) ^ (1 / ((2 ^ e : Nat) : ℝ)) := Real.rpow_pos_of_pos (by exact_mod_cast hl0) _
    generalize (l.length : ℝ) ^ (1 / ((2 ^ e : Nat) : ℝ)) = N at hN hS ⊢
    have hT : 0 ≤ lpNorm (2 ^ e) l := Real.rpow_nonneg (by exact_mod_cast power_sum_nonneg l (2 ^ e)) _
    have := ratio_close (u := (unit p : ℚ)) (g := (((1 + unit p : ℚ) ^ (l.length - 1 + 2 * 1) - 1 : ℚ) : ℝ))
      (by exact_mod_cast hf.pos.le) (by exact_mod_cast hu) (by exact_mod_cast growth_nonneg hf.pos _) hT
      hN (by push_cast at e2 ⊢; exact e2)
      (by push_cast at hS; rw [pow_one, add_sub_cancel_left] at hS; exact hS) h2
    refine this.trans (le_of_eq ?_)
    congr 1
    rw [show l.length - 1 + 2 * 1 = l.length + 1 by omega]
    push_cast
    ring

/-- C102: `norm_lp(A, q)` for every exponent. `1 / q` is rounded as well, which matters if the sum of the powers is
far from one: if it lies between `1 / L` and `L`, with room for its error, the factor `L^(u/q)` comes on top. -/
theorem C102_norm_lp_any (hp : 2 ≤ p) (h : NearestX p rn) {k : Nat} (hw : AccuratePow p k pow)
    (hr : AccurateRoot p k pow) (b : Build) {a : Acc σ ℚ} {l : List ℚ} (ha : Elems d a s l) (hne : l ≠ []) {q : Nat}
    (hq : 0 < q) (hq' : q ≤ 2 ^ p) {L : ℚ} (hL : 1 ≤ L)
    (hhi : (1 + unit p) ^ (l.length - 1 + k) * (l.map (fun x => |x| ^ q)).sum ≤ L)
    (hlo : 1 ≤ (2 - (1 + unit p) ^ (l.length - 1 + k)) * (l.map (fun x => |x| ^ q)).sum * L) (dflt : ℚ) :
    ∃ v, Ops.normLp b (rounded rn pow sqrt).toScalar a s q dflt = .ok v ∧
      |(v : ℝ) - lpNorm q l| ≤
        ((1 + unit p : ℚ) ^ (l.length - 1 + 2 * k) * (L : ℝ) ^ (((unit p : ℚ) : ℝ) / q) - 1) * lpNorm q l := by
  have hf := flX_nearestX hp h
  obtain ⟨S, e1, e2, e3⟩ := norm_lp_parts (sqrt := sqrt) hp h hw b ha hne hq hq' dflt
  refine ⟨_, e1, ?_⟩
  have hT := power_sum_nonneg l q
  obtain ⟨r1, r2⟩ := reciprocal hp h hq
  have hS := hr S _ e2 r1
  have hgk : (1 : ℝ) ≤ ((1 + unit p : ℚ) : ℝ) ^ k := by
    have := growth_nonneg hf.pos k
    have : (1 : ℚ) ≤ (1 + unit p) ^ k := by linarith
    exact_mod_cast this
  have hq1 : (1 : ℝ) ≤ (q : ℝ) := by exact_mod_cast hq
  have h1 := root_contract (ρ := 1 / (q : ℝ)) (S := (S : ℝ))
    (T := (((l.map (fun x => |x| ^ q)).sum : ℚ) : ℝ))
    (g := (((1 + unit p : ℚ) ^ (l.length - 1 + k) - 1 : ℚ) : ℝ)) (by exact_mod_cast e2) (by exact_mod_cast hT)
    (by positivity) (by rw [div_le_one (by linarith)]; exact hq1) (by exact_mod_cast e3)
  obtain ⟨b1, b2⟩ := abs_le.1 e3
  have hSL : S ≤ L := by linarith
  have hSL' : 1 ≤ S * L := hlo.trans (mul_le_mul_of_nonneg_right (by linarith) (by linarith))
  have hS0 : 0 < S := by
    rcases e2.eq_or_lt with e | e
    · rw [← e, zero_mul] at hSL'; linarith
    · exact e
  have h0 := exponent_change (S := (S : ℝ)) (L := (L : ℝ)) (by exact_mod_cast hS0) (by exact_mod_cast hL)
    (by exact_mod_cast hSL) (by exact_mod_cast hSL') r2
  have hD : 1 ≤ (L : ℝ) ^ (((unit p : ℚ) : ℝ) / q) :=
    Real.one_le_rpow (by exact_mod_cast hL) (div_nonneg (by exact_mod_cast hf.pos.le) (by linarith))
  have h2 := root_chain hgk hD h1 h0 hS
  refine h2.trans (le_of_eq ?_)
  unfold lpNorm
  congr 1
  push_cast
  ring

/-- C102: `norm_lp` of zeros is zero. -/
theorem C102_norm_lp_zero (hp : 2 ≤ p) (h : NearestX p rn) {k : Nat} (hw : AccuratePow p k pow)
    (hr : AccurateRoot p k pow) (b : Build) {a : Acc σ ℚ} {l : List ℚ} (ha : Elems d a s l) (hne : l ≠ []) {q : Nat}
    (hq : 0 < q) (hq' : q ≤ 2 ^ p) (hz : ∀ x ∈ l, x = 0) (dflt : ℚ) :
    Ops.normLp b (rounded rn pow sqrt).toScalar a s q dflt = .ok 0 := by
  obtain ⟨S, e1, e2, e3⟩ := norm_lp_parts (sqrt := sqrt) hp h hw b ha hne hq hq' dflt
  have hT : (l.map (fun x => |x| ^ q)).sum = 0 := List.sum_eq_zero fun y hy => by
    obtain ⟨x, hx, rfl⟩ := List.mem_map.1 hy
    simp [hz x hx, hq.ne']
  have hS0 : S = 0 := by simpa [hT] using e3
  obtain ⟨r1, _⟩ := reciprocal hp h hq
  have hS := hr S _ e2 r1
  have r1' : ((rn (1 / q) : ℚ) : ℝ) ≠ 0 := by exact_mod_cast r1.ne'
  rw [hS0, Rat.cast_zero, Real.zero_rpow r1'] at hS
  rw [e1, hS0]
  have : ((pow 0 (rn (1 / q)) : ℚ) : ℝ) = 0 := by simpa using hS
  rw [show pow 0 (rn (1 / q)) = 0 by exact_mod_cast this]

/-! ### The compensated version -/

/-- What `stable_norm_lp` computes. -/
theorem stable_norm_lp_parts (hp : 2 ≤ p) (h : NearestX p rn) (b : Build) {a : Acc σ ℚ} {l : List ℚ}
    (ha : Elems d a s l) (hl : ∀ x ∈ l, RepX p x) (hne : l ≠ []) (hsmall : (l.length : Int) < 2 ^ 62 - 1) {q : Nat}
    (hq : 0 < q) (hq' : q ≤ 2 ^ p) {D g : ℚ} (hD : D = 2 * ((1 + unit p) ^ (2 * q) - 1) ^ 2)
    (hg : g = unit p + (1 + unit p) *
      (D + ((1 + unit p) ^ (2 * l.length) - 1) ^ 2 * (1 + 2 * ((1 + unit p) ^ q - 1) + D))) (dflt : ℚ) :
    ∃ S, Stable.normLp b d (rounded rn pow sqrt) a s q dflt = .ok (pow S (rn (1 / q))) ∧
      |S - (l.map (fun x => |x| ^ q)).sum| ≤ g * (l.map (fun x => |x| ^ q)).sum := by
  have hne' : l.isEmpty = false := by simpa using hne
  have hf := flX_nearestX hp h
  have hpd : decide ((q : Int) > 0) = true := decide_eq_true (by omega)
  obtain ⟨c, c1, c2⟩ := const_elems (σ := σ) (s := s) b l.length (by omega) (1 : ℚ)
  obtain ⟨P, p1, p2⟩ := const_elems (σ := σ) (s := s) b l.length (by omega) (q : Int)
  obtain ⟨v, v1, v2⟩ := view1D_elems b ha (by omega)
  have hA := Elems.unary v2 (f := (rounded rn pow sqrt).abss) (g := fun x => |x|) (fun x _ => abss_rounded x)
  have e1 : (rounded rn pow sqrt).ofIndex 1 = .ok (1 : ℚ) := by
    show Res.ok (rn ((1 : Int) : ℚ)) = _
    rw [Int.cast_one, hf.fix 1 hf.one]
  have e2 : (rounded rn pow sqrt).ofIndex (q : Int) = .ok (q : ℚ) := by
    show Res.ok (rn (((q : Nat) : Int) : ℚ)) = _
    rw [Int.cast_natCast, round_count h hq' hp]
  have p2' : Elems .one P s ((List.replicate l.length q).map (fun p : Nat => (p : Int))) := by
    rw [List.map_replicate]; exact p2
  obtain ⟨S, s1, s2⟩ := C62_bound (pow := pow) (sqrt := sqrt) hp h b c2 hA p2' (by simp) (by simp)
    (by rw [← List.length_pos_iff, List.length_replicate, List.length_pos_iff]; exact hne)
    (by rw [List.length_replicate]; exact hsmall)
    (by intro y hy; rw [List.eq_of_mem_replicate hy]; exact hf.one)
    (by
      intro y hy
      obtain ⟨z, hz, rfl⟩ := List.mem_map.1 hy
      show RepX p |z|
      rcases abs_choice z with e | e <;> rw [e]
      · exact hl z hz
      · exact hf.neg _ (hl z hz))
    (N := q) (by intro i hi; rw [List.eq_of_mem_replicate hi]) (rounded rn pow sqrt).zero
  refine ⟨S, ?_, ?_⟩
  · unfold Stable.normLp
    rw [hpd, Elems.empty ha, hne', Elems.size ha]
    simp only [assertDebug_true, Res.ok_bind, Bool.false_eq_true, if_false, e1, c1, p1, v1]
    rw [s1]
    simp only [Res.ok_bind, e2]
    rfl
  · have t1 : ((List.zip (List.replicate l.length (1 : ℚ)) (List.zip (l.map (fun x => |x|)) (List.replicate l.length q))).map
        (fun q => q.1 * q.2.1 ^ q.2.2)) = l.map (fun x => |x| ^ q) := by
      apply List.ext_getElem
      · simp
      · intro i h1 h2; simp
    have t2 : ((List.zip (List.replicate l.length (1 : ℚ)) (List.zip (l.map (fun x => |x|)) (List.replicate l.length q))).map
        (fun q => |q.1| * |q.2.1| ^ q.2.2)) = l.map (fun x => |x| ^ q) := by
      apply List.ext_getElem
      · simp
      · intro i h1 h2; simp
    rw [t1, t2, abs_of_nonneg (power_sum_nonneg l q), List.length_replicate] at s2
    refine s2.trans (le_of_eq ?_)
    rw [hg, hD]
    ring

/-- C102: `stable_norm_lp(A, q)` for `q` a power of two: as long as `g` is at most one, a relative error of one rounding,
the `k` roundings of the final power, and terms of second order in which the number of elements occurs. -/
theorem C102_stable_norm_lp (hp : 2 ≤ p) (h : NearestX p rn) {k : Nat} (hr : AccurateRoot p k pow) (b : Build)
    {a : Acc σ ℚ} {l : List ℚ} (ha : Elems d a s l) (hl : ∀ x ∈ l, RepX p x) (hne : l ≠ [])
    (hsmall : (l.length : Int) < 2 ^ 62 - 1) {e : Nat} (he : e ≤ p) {D g : ℚ}
    (hD : D = 2 * ((1 + unit p) ^ (2 * 2 ^ e) - 1) ^ 2)
    (hg : g = unit p + (1 + unit p) *
      (D + ((1 + unit p) ^ (2 * l.length) - 1) ^ 2 * (1 + 2 * ((1 + unit p) ^ 2 ^ e - 1) + D))) (hg1 : g ≤ 1)
    (dflt : ℚ) :
    ∃ v, Stable.normLp b d (rounded rn pow sqrt) a s (2 ^ e : Nat) dflt = .ok v ∧
      |(v : ℝ) - lpNorm (2 ^ e) l| ≤ (((1 + unit p) ^ k * (1 + g) - 1 : ℚ) : ℝ) * lpNorm (2 ^ e) l := by
  have hq : 0 < 2 ^ e := by positivity
  have hf := flX_nearestX hp h
  obtain ⟨S, e1, e3⟩ := stable_norm_lp_parts (pow := pow) (sqrt := sqrt) hp h b ha hl hne hsmall hq
    (Nat.pow_le_pow_right (by norm_num) he) hD hg dflt
  refine ⟨_, e1, ?_⟩
  have hT := power_sum_nonneg l (2 ^ e)
  have e2 : 0 ≤ S := by
    have := (abs_le.1 e3).1
    nlinarith
  have hS := hr S _ e2 (reciprocal hp h hq).1
  rw [reciprocal_exact hp h] at hS ⊢
  have hgk : (1 : ℝ) ≤ ((1 + unit p : ℚ) : ℝ) ^ k := by
    have := growth_nonneg hf.pos k
    have : (1 : ℚ) ≤ (1 + unit p) ^ k := by linarith
    exact_mod_cast this
  have hq1 : (1 : ℝ) ≤ ((2 ^ e : Nat) : ℝ) := by exact_mod_cast hq
  have h1 := root_contract (ρ := 1 / ((2 ^ e : Nat) : ℝ)) (S := (S : ℝ))
    (T := (((l.map (fun x => |x| ^ 2 ^ e)).sum : ℚ) : ℝ)) (g := (g : ℝ)) (by exact_mod_cast e2) (by exact_mod_cast hT)
    (by positivity) (by rw [div_le_one (by linarith)]; exact hq1) (by exact_mod_cast e3)
  have hcast : (((1 / ((2 ^ e : Nat) : ℚ) : ℚ)) : ℝ) = 1 / ((2 ^ e : Nat) : ℝ) := by push_cast; rfl
  rw [hcast] at hS
  have h2 := root_chain (D := 1) (b := (S : ℝ) ^ (1 / ((2 ^ e : Nat) : ℝ))) hgk le_rfl h1 (by simp) hS
  refine h2.trans (le_of_eq ?_)
  unfold lpNorm
  congr 1
  push_cast
  ring

/-! ### Other exponents -/

/-- In double precision `1 / 3` is rounded down. -/
theorem third_rounded {rn : ℚ → ℚ} (h : NearestX 53 rn) : rn (1 / 3) ≤ 1 / 3 - 1 / (3 * 2 ^ 54) := by
  have hrep : RepX 53 (6004799503160661 / 2 ^ 54) := ⟨6004799503160661, -54, by norm_num, by norm_num⟩
  have h1 := h.near (1 / 3) _ hrep
  have hb : |(1 / 3 : ℚ) - rn (1 / 3)| ≤ 1 / (3 * 2 ^ 54) := h1.trans (le_of_eq (by norm_num [abs_of_nonneg]))
  obtain ⟨b1, b2⟩ := abs_le.1 hb
  obtain ⟨m, e, hm, he⟩ := h.rep (1 / 3)
  rcases le_or_gt (-54) e with h54 | h54
  · obtain ⟨j, rfl⟩ : ∃ j : Nat, e = -54 + j := ⟨(e + 54).toNat, by omega⟩
    have e2 : rn (1 / 3) = ((m * 2 ^ j : Int) : ℚ) / 2 ^ 54 := by
      rw [he, zpow_add₀ (by norm_num), zpow_natCast]
      push_cast
      rw [show (2 : ℚ) ^ (-54 : Int) = 1 / 2 ^ 54 by norm_num]
      ring
    rw [e2] at b1 ⊢
    have : ((m * 2 ^ j : Int) : ℚ) < ((6004799503160662 : Int) : ℚ) := by
      push_cast at b1 ⊢
      norm_num at b1 ⊢
      linarith
    have h3 : m * 2 ^ j ≤ 6004799503160661 := by
      have := Int.cast_lt.1 this
      omega
    have h4 : ((m * 2 ^ j : Int) : ℚ) ≤ ((6004799503160661 : Int) : ℚ) := Int.cast_le.2 h3
    refine (div_le_div_of_nonneg_right h4 (by positivity)).trans ?_
    norm_num
  · exfalso
    have hm' : (m : ℚ) ≤ 2 ^ 53 := by
      have : m ≤ 2 ^ 53 := (le_abs_self m).trans hm.le
      exact_mod_cast this
    have hz : (2 : ℚ) ^ e ≤ 2 ^ (-55 : Int) := zpow_le_zpow_right₀ (by norm_num) (by omega)
    have hz0 : (0 : ℚ) < 2 ^ e := by positivity
    have : rn (1 / 3) ≤ 1 / 4 := by
      rw [he]
      calc (m : ℚ) * 2 ^ e ≤ 2 ^ 53 * 2 ^ e := mul_le_mul_of_nonneg_right hm' hz0.le
        _ ≤ 2 ^ 53 * 2 ^ (-55 : Int) := mul_le_mul_of_nonneg_left hz (by positivity)
        _ = 1 / 4 := by norm_num
    norm_num at b2 this
    linarith

/-- C102: for exponents that are not powers of two an error of a few roundings cannot be promised, however good the
power function is: in double precision `norm_lp(A, 3)` of the single number `2^300`, whose norm is `2^300`, is off by
more than 99 roundings. -/
theorem C102_norm_lp_cube {rn : ℚ → ℚ} (h : NearestX 53 rn) (hw : AccuratePow 53 1 pow) (hr : AccurateRoot 53 1 pow)
    (b : Build) {a : Acc σ ℚ} (ha : Elems d a s [2 ^ 300]) (dflt : ℚ) :
    ∃ v, Ops.normLp b (rounded rn pow sqrt).toScalar a s 3 dflt = .ok v ∧ v < 2 ^ 300 * (1 - 99 * unit 53) := by
  obtain ⟨S, e1, e2, e3⟩ := norm_lp_parts (sqrt := sqrt) (by norm_num) h hw b ha (by simp) (q := 3) (by norm_num)
    (by norm_num) dflt
  refine ⟨_, e1, ?_⟩
  have r1 := (reciprocal (by norm_num) h (q := 3) (by norm_num)).1
  have hS := hr S _ e2 r1
  have r2 := third_rounded h
  have r3 : rn (1 / (3 : Nat)) = rn (1 / 3) := by norm_num
  rw [r3] at r1 hS ⊢
  have hSu : S ≤ 2 ^ 900 * (1 + unit 53) := by
    simp only [List.map_cons, List.map_nil, List.sum_cons, List.sum_nil, List.length_cons, List.length_nil, add_zero,
      abs_of_nonneg (show (0 : ℚ) ≤ 2 ^ 300 by positivity)] at e3
    have := (abs_le.1 e3).2
    rw [← pow_mul] at this
    simp only [Nat.reduceMul, zero_add, Nat.sub_self, pow_one] at this
    linarith
  have hu0 : (0 : ℝ) < ((unit 53 : ℚ) : ℝ) := by
    have : (0 : ℚ) < unit 53 := by unfold unit; positivity
    exact_mod_cast this
  have hSR : (S : ℝ) ≤ 2 ^ 900 * (1 + ((unit 53 : ℚ) : ℝ)) := by exact_mod_cast hSu
  have hr1 : (0 : ℝ) < ((rn (1 / 3) : ℚ) : ℝ) := by exact_mod_cast r1
  have hr2 : ((rn (1 / 3) : ℚ) : ℝ) ≤ 1 / 3 - 1 / (3 * 2 ^ 54) := by
    have := (Rat.cast_le (K := ℝ)).2 r2
    push_cast at this
    exact this
  generalize ((rn (1 / 3) : ℚ) : ℝ) = r at hr1 hr2 hS
  generalize hU : ((unit 53 : ℚ) : ℝ) = U at *
  have hUv : U = 1 / 2 ^ 53 := by rw [← hU]; unfold unit; push_cast; norm_num
  have hS0 : (0 : ℝ) ≤ (S : ℝ) := by exact_mod_cast e2
  -- the power itself
  have k1 : (S : ℝ) ^ r ≤ 2 ^ 300 * (1 + U) * Real.exp (-(103 * U)) := by
    calc (S : ℝ) ^ r ≤ (2 ^ 900 * (1 + U)) ^ r := Real.rpow_le_rpow hS0 hSR hr1.le
      _ = (2 ^ 900 : ℝ) ^ r * (1 + U) ^ r := Real.mul_rpow (by positivity) (by positivity)
      _ ≤ (2 ^ 300 * Real.exp (-(103 * U))) * (1 + U) := by
        refine mul_le_mul ?_ (Real.rpow_le_self_of_one_le (by linarith) ?_) (by positivity) (by positivity)
        · have h9 : (2 ^ 900 : ℝ) ^ r ≤ (2 ^ 900 : ℝ) ^ (1 / 3 - 1 / (3 * 2 ^ 54) : ℝ) :=
            Real.rpow_le_rpow_of_exponent_le (one_le_pow₀ (by norm_num)) hr2
          refine h9.trans ?_
          rw [Real.rpow_def_of_pos (by positivity), Real.log_pow,
            show (2 : ℝ) ^ 300 = Real.exp (300 * Real.log 2) by
              rw [← Real.exp_log (show (0 : ℝ) < 2 ^ 300 by positivity), Real.log_pow]; norm_num, ← Real.exp_add]
          refine Real.exp_le_exp.2 ?_
          have := Real.log_two_gt_d9
          rw [hUv]
          push_cast
          norm_num at this ⊢
          linarith
        · refine hr2.trans ?_
          norm_num
      _ = _ := by ring
  have k2 : Real.exp (-(103 * U)) ≤ 1 - 102 * U := by
    have h1 := Real.add_one_le_exp (103 * U)
    rw [Real.exp_neg]
    refine (inv_anti₀ (by positivity) h1).trans ?_
    rw [inv_le_iff_one_le_mul₀ (by positivity), hUv]
    norm_num
  have k3 := (abs_le.1 hS).2
  have hfin : ((pow S (rn (1 / 3)) : ℚ) : ℝ) < 2 ^ 300 * (1 - 99 * U) := by
    have hK : ((((1 + unit 53 : ℚ) : ℝ)) ^ 1 - 1) = U := by push_cast; rw [hU]; ring
    rw [hK] at k3
    have k4 : ((pow S (rn (1 / 3)) : ℚ) : ℝ) ≤ (1 + U) * (2 ^ 300 * (1 + U) * (1 - 102 * U)) := by
      have := k1.trans (mul_le_mul_of_nonneg_left k2 (by positivity))
      nlinarith
    refine k4.trans_lt ?_
    have h300 : (0 : ℝ) < 2 ^ 300 := by positivity
    have hc : (1 + U) * ((1 + U) * (1 - 102 * U)) < 1 - 99 * U := by rw [hUv]; norm_num
    refine lt_of_eq_of_lt ?_ (mul_lt_mul_of_pos_left hc h300)
    generalize (2 : ℝ) ^ 300 = B
    ring
  rw [← hU] at hfin
  exact_mod_cast hfin

/-! ### Cases that meet the hypotheses -/

open Spp.Sample

/-- Power functions accurate to one rounding exist. -/
theorem exists_accurateRoot (p : Nat) : ∃ pow, AccuratePow p 1 pow ∧ AccurateRoot p 1 pow := by
  have hu : (0 : ℝ) < (unit p : ℚ) := by
    have : (0 : ℚ) < unit p := by unfold unit; positivity
    exact_mod_cast this
  have hu' : (0 : ℚ) < unit p := by unfold unit; positivity
  have : ∀ x r : ℚ, ∃ y : ℚ, (∀ n : Nat, r = n → y = x ^ n) ∧
      (0 ≤ x → 0 < r → |(y : ℝ) - (x : ℝ) ^ (r : ℝ)| ≤ ((1 + unit p : ℚ) ^ 1 - 1) * (x : ℝ) ^ (r : ℝ)) := by
    intro x r
    by_cases hr : ∃ n : Nat, r = n
    · obtain ⟨n, rfl⟩ := hr
      refine ⟨x ^ n, fun m hm => by rw [Nat.cast_inj.1 hm], fun hx _ => ?_⟩
      have hx' : (0 : ℝ) ≤ (x : ℝ) := by exact_mod_cast hx
      rw [Rat.cast_natCast, Real.rpow_natCast, Rat.cast_pow, sub_self, abs_zero]
      push_cast
      rw [pow_one, add_sub_cancel_left]
      positivity
    · have hn : ∀ (y : ℚ) (n : Nat), r = n → y = x ^ n := fun _ n e => absurd ⟨n, e⟩ hr
      by_cases hx : 0 < x
      · have hs : 0 < (x : ℝ) ^ (r : ℝ) := Real.rpow_pos_of_pos (by exact_mod_cast hx) _
        obtain ⟨y, h1, h2⟩ := exists_rat_btwn
          (show (x : ℝ) ^ (r : ℝ) < (x : ℝ) ^ (r : ℝ) + unit p * (x : ℝ) ^ (r : ℝ) by nlinarith)
        refine ⟨y, hn y, fun _ _ => ?_⟩
        push_cast
        exact abs_le.2 ⟨by nlinarith, by linarith⟩
      · refine ⟨0, hn 0, fun h0 h1 => ?_⟩
        have hx0 : x = 0 := le_antisymm (not_lt.1 hx) h0
        have hr0 : (r : ℝ) ≠ 0 := by exact_mod_cast h1.ne'
        simp [hx0, Real.zero_rpow hr0]
  choose f hf using this
  refine ⟨f, fun x n => ?_, fun x r => (hf x r).2⟩
  rw [(hf x n).1 n rfl, sub_self, abs_zero]
  have := growth_nonneg hu' 1
  positivity

/-- Double precision: `norm_lp((3, -4), 2)` is 5 up to three roundings. -/
example : ∃ rn pow, NearestX 53 rn ∧
    ∃ v, Ops.normLp ⟨false, true, false⟩ (rounded rn pow id).toScalar (lit [3, -4]) () 2 0 = .ok v ∧
      |(v : ℝ) - 5| ≤ 1 / 2 ^ 49 := by
  obtain ⟨rn, h⟩ := exists_nearestX (p := 53) (by norm_num)
  obtain ⟨pow, hw, hr⟩ := exists_accurateRoot 53
  obtain ⟨v, h1, h2⟩ := C102_norm_lp (sqrt := id) (by norm_num) h hw hr ⟨false, true, false⟩
    (Shaped.elems (lit_shaped () [(3 : ℚ), -4])) (by simp) (e := 1) (by norm_num) 0
  refine ⟨rn, pow, h, v, h1, ?_⟩
  have e : lpNorm (2 ^ 1) [(3 : ℚ), -4] = 5 := by
    unfold lpNorm
    rw [show ((([(3 : ℚ), -4].map (fun x => |x| ^ 2 ^ 1)).sum : ℚ) : ℝ) = 5 ^ 2 by norm_num [abs_of_nonneg],
      show (1 / ((2 ^ 1 : Nat) : ℝ)) = (1 / 2 : ℝ) by norm_num, ← Real.sqrt_eq_rpow]
    exact Real.sqrt_sq (by norm_num)
  rw [e] at h2
  refine h2.trans ?_
  simp only [unit, List.length_cons, List.length_nil]
  norm_num

/-- Single precision: `norm_lp_scaled((1, 1, -1, 1), 4)` is 1 up to the roundings. -/
example : ∃ rn pow, NearestX 24 rn ∧
    ∃ v, Ops.normLpScaled ⟨false, true, false⟩ (rounded rn pow id).toScalar (lit [1, 1, -1, 1]) () 4 0 = .ok v ∧
      |(v : ℝ) - 1| ≤ 1 / 2 ^ 20 := by
  obtain ⟨rn, h⟩ := exists_nearestX (p := 24) (by norm_num)
  obtain ⟨pow, hw, hr⟩ := exists_accurateRoot 24
  obtain ⟨v, h1, h2⟩ := C102_norm_lp_scaled (sqrt := id) (by norm_num) h hw hr ⟨false, true, false⟩
    (Shaped.elems (lit_shaped () [(1 : ℚ), 1, -1, 1])) (by simp) (e := 2) (by norm_num) (by norm_num) 0
  refine ⟨rn, pow, h, v, h1, ?_⟩
  have e : lpNorm (2 ^ 2) [(1 : ℚ), 1, -1, 1] / (([(1 : ℚ), 1, -1, 1].length : Nat) : ℝ) ^ (1 / ((2 ^ 2 : Nat) : ℝ)) = 1 := by
    unfold lpNorm
    rw [show ((([(1 : ℚ), 1, -1, 1].map (fun x => |x| ^ 2 ^ 2)).sum : ℚ) : ℝ) = 4 by norm_num [abs_of_nonneg],
      show (([(1 : ℚ), 1, -1, 1].length : Nat) : ℝ) = 4 by norm_num]
    exact div_self (Real.rpow_pos_of_pos (by norm_num) _).ne'
  rw [e] at h2
  refine h2.trans ?_
  simp only [unit, List.length_cons, List.length_nil]
  norm_num

/-- Single precision: `stable_norm_lp((3, -4), 2)`, with the hypothesis on the number of elements. -/
example : ∃ rn pow, NearestX 24 rn ∧
    ∃ v, Stable.normLp ⟨false, true, false⟩ .one (rounded rn pow id) (lit [3, -4]) () 2 0 = .ok v ∧
      |(v : ℝ) - 5| ≤ 1 / 2 ^ 19 := by
  obtain ⟨rn, h⟩ := exists_nearestX (p := 24) (by norm_num)
  obtain ⟨pow, _, hr⟩ := exists_accurateRoot 24
  obtain ⟨v, h1, h2⟩ := C102_stable_norm_lp (sqrt := id) (by norm_num) h hr ⟨false, true, false⟩
    (Shaped.elems (lit_shaped () [(3 : ℚ), -4]))
    (by
      intro x hx
      simp only [List.mem_cons, List.not_mem_nil, or_false] at hx
      rcases hx with rfl | rfl
      · exact ⟨3, 0, by norm_num, by norm_num⟩
      · exact ⟨-4, 0, by norm_num, by norm_num⟩) (by simp) (by simp) (e := 1) (by norm_num) rfl rfl
    (by simp only [unit, List.length_cons, List.length_nil]; norm_num) 0
  refine ⟨rn, pow, h, v, h1, ?_⟩
  have e : lpNorm (2 ^ 1) [(3 : ℚ), -4] = 5 := by
    unfold lpNorm
    rw [show ((([(3 : ℚ), -4].map (fun x => |x| ^ 2 ^ 1)).sum : ℚ) : ℝ) = 5 ^ 2 by norm_num [abs_of_nonneg],
      show (1 / ((2 ^ 1 : Nat) : ℝ)) = (1 / 2 : ℝ) by norm_num, ← Real.sqrt_eq_rpow]
    exact Real.sqrt_sq (by norm_num)
  rw [e] at h2
  refine h2.trans ?_
  simp only [unit, List.length_cons, List.length_nil]
  norm_num

/-- Double precision: `norm_lp((3, 4, -5), 3)`, the cube root of 216, is 6 up to the roundings; the sum of the cubes
lies between `1 / 256` and 256. -/
example : ∃ rn pow, NearestX 53 rn ∧
    ∃ v, Ops.normLp ⟨false, true, false⟩ (rounded rn pow id).toScalar (lit [3, 4, -5]) () 3 0 = .ok v ∧
      |(v : ℝ) - 6| ≤ ((1 + unit 53 : ℚ) ^ 4 * (256 : ℝ) ^ (((unit 53 : ℚ) : ℝ) / (3 : Nat)) - 1) * 6 := by
  obtain ⟨rn, h⟩ := exists_nearestX (p := 53) (by norm_num)
  obtain ⟨pow, hw, hr⟩ := exists_accurateRoot 53
  obtain ⟨v, h1, h2⟩ := C102_norm_lp_any (sqrt := id) (by norm_num) h hw hr ⟨false, true, false⟩
    (Shaped.elems (lit_shaped () [(3 : ℚ), 4, -5])) (by simp) (q := 3) (by norm_num) (by norm_num) (L := 256)
    (by norm_num) (by simp only [unit, List.length_cons, List.length_nil]; norm_num [abs_of_nonneg])
    (by simp only [unit, List.length_cons, List.length_nil]; norm_num [abs_of_nonneg]) 0
  refine ⟨rn, pow, h, v, h1, ?_⟩
  have e : lpNorm 3 [(3 : ℚ), 4, -5] = 6 := by
    unfold lpNorm
    rw [show ((([(3 : ℚ), 4, -5].map (fun x => |x| ^ 3)).sum : ℚ) : ℝ) = 6 ^ 3 by norm_num [abs_of_nonneg],
      ← Real.rpow_natCast, ← Real.rpow_mul (by norm_num)]
    norm_num
  rw [e] at h2
  simpa using h2

/-- The number `2^300` in double precision. -/
example : ∃ rn pow, NearestX 53 rn ∧
    ∃ v, Ops.normLp ⟨true, true, false⟩ (rounded rn pow id).toScalar (lit [2 ^ 300]) () 3 0 = .ok v ∧
      v < 2 ^ 300 * (1 - 99 * unit 53) := by
  obtain ⟨rn, h⟩ := exists_nearestX (p := 53) (by norm_num)
  obtain ⟨pow, hw, hr⟩ := exists_accurateRoot 53
  obtain ⟨v, h1, h2⟩ := C102_norm_lp_cube (sqrt := id) h hw hr ⟨true, true, false⟩
    (Shaped.elems (lit_shaped () [(2 : ℚ) ^ 300])) 0
  exact ⟨rn, pow, h, v, h1, h2⟩

end Spp.Props
