import Verif.Model.FloatLit
import Verif.Spec.FloatLit
import Verif.Lemmas.Float
import Verif.Lemmas.FloatIO

namespace Spp.Lemmas
open Spp.Spec Spp.IO

variable {p q : Nat} {emin eminq : Int} {rl rt : ℚ → ℚ}

theorem rep_widen (hpq : p ≤ q) (he : eminq ≤ emin) {x : ℚ} (h : Rep p emin x) : Rep q eminq x := by
  obtain ⟨m, e, h1, h2, h3⟩ := h
  exact ⟨m, e, lt_of_lt_of_le h1 (pow_le_pow_right₀ (by norm_num) hpq), le_trans he h2, h3⟩

theorem twice_rep (hpq : p ≤ q) (he : eminq ≤ emin) (hl : Nearest q eminq rl) (ht : Nearest p emin rt)
    {x : ℚ} (hx : Rep p emin x) : rt (rl x) = x := by
  rw [rn_rep hl (rep_widen hpq he hx), rn_rep ht hx]

theorem twice_faithful (hpq : p ≤ q) (he : eminq ≤ emin) (hl : Nearest q eminq rl)
    (ht : Nearest p emin rt) (x : ℚ) : Neighbour p emin x (rt (rl x)) := by
  refine ⟨ht.rep _, fun y hy => ⟨fun ⟨h1, h2⟩ => ?_, fun ⟨h1, h2⟩ => ?_⟩⟩
  · exact absurd (rn_le ht hy (rn_le hl (rep_widen hpq he hy) h1.le)) (not_le.2 h2)
  · exact absurd (le_rn ht hy (le_rn hl (rep_widen hpq he hy) h2.le)) (not_le.2 h1)

/-- The relative error of one rounding of a number that is not too small. -/
theorem rel_err_normal (hp : 1 ≤ p) {rn : ℚ → ℚ} (h : Nearest p emin rn) {x : ℚ}
    (hx : 2 ^ p * 2 ^ emin ≤ 2 * |x|) : |x - rn x| ≤ unit p * |x| := by
  obtain ⟨e, h1, h2, h3⟩ := binade p emin x
  have h3' : 2 ^ p * 2 ^ e ≤ 2 * |x| := by
    rcases h3 with h3 | h3
    · exact h3
    · rw [h3]; exact hx
  have hu : unit p * 2 ^ p = 1 := inv_mul_cancel₀ (by positivity)
  have hup : 0 < unit p := inv_pos.2 (by positivity)
  have hne : |x - rn x| ≤ 2 ^ e / 2 := by
    obtain ⟨n1, -, -⟩ := near_point hp h2
    have hr : Rep p emin _ := rep_of_mult hp ⟨_, rfl⟩ h1 n1
    refine (h.near x _ hr).trans ?_
    have hpe := two_zpow_pos e
    have e1 : x - (round (x / 2 ^ e) : ℚ) * 2 ^ e = (x / 2 ^ e - round (x / 2 ^ e)) * 2 ^ e := by
      field_simp
    rw [e1, abs_mul, abs_of_pos hpe]
    have := mul_le_mul_of_nonneg_right (abs_sub_round (x / 2 ^ e)) hpe.le
    linarith
  have h4 : unit p * (2 ^ p * 2 ^ e) ≤ unit p * (2 * |x|) := mul_le_mul_of_nonneg_left h3' hup.le
  rw [← mul_assoc, hu, one_mul] at h4
  linarith

theorem twice_close (hq : 1 ≤ q) (hl : Nearest q eminq rl) (ht : Nearest p emin rt) {x : ℚ}
    (hx : 2 ^ q * 2 ^ eminq ≤ 2 * |x|) {z : ℚ} (hz : Rep p emin z) :
    |rt (rl x) - x| ≤ |z - x| + 2 * unit q * |x| := by
  have h1 := rel_err_normal hq hl hx
  have h2 := ht.near (rl x) z hz
  have h3 : |rt (rl x) - x| ≤ |rl x - rt (rl x)| + |x - rl x| := by
    have := abs_sub_le (rt (rl x)) (rl x) x
    rwa [abs_sub_comm (rt (rl x)) (rl x), abs_sub_comm (rl x) x] at this
  have h4 : |rl x - z| ≤ |x - rl x| + |z - x| := by
    have := abs_sub_le (rl x) x z
    rwa [abs_sub_comm (rl x) x, abs_sub_comm x z] at this
  linarith

/-- Two multiples of a unit that differ by less are equal. -/
theorem mult_close {g : Int} {x y : ℚ} (hx : Mult g x) (hy : Mult g y) (h : |x - y| < 2 ^ g) : x = y := by
  obtain ⟨k, hk⟩ := hx.sub hy
  rw [hk, abs_mul, abs_of_pos (two_zpow_pos g)] at h
  have h1 : |(k : ℚ)| < 1 := by
    by_contra hc
    have := mul_le_mul_of_nonneg_right (not_lt.1 hc) (two_zpow_pos g).le
    linarith
  have h2 : |k| < 1 := by exact_mod_cast h1
  have h3 : k = 0 := Int.abs_lt_one_iff.1 h2
  rw [h3] at hk
  simp at hk
  linarith

/-- Numbers of the format from 1 on are multiples of `2^(1-p)`. -/
theorem mult_one_le {x : ℚ} (h : Rep p emin x) (hx : 1 ≤ x) : Mult (1 - p) x := by
  refine mult_binade h (Or.inl ?_)
  rw [zpow_sub₀ (by norm_num), zpow_natCast, abs_of_nonneg (by linarith)]
  field_simp
  linarith

theorem twice_not_nearest (hp : 1 ≤ p) (hpq : p < q) (he : eminq ≤ emin) (hm : emin ≤ 1 - p)
    (hmq : eminq ≤ 1 - q) (hl : Nearest q eminq rl) (ht : Nearest p emin rt) :
    ∃ x z, Rep p emin z ∧ |z - x| < |rt (rl x) - x| := by
  obtain ⟨n, rfl⟩ : ∃ n, p = n + 1 := ⟨p - 1, by omega⟩
  obtain ⟨k, rfl⟩ : ∃ k, q = n + 1 + (k + 1) := ⟨q - (n + 2), by omega⟩
  -- `u` is half the distance of numbers above 1, `d` a quarter of that distance in the wide format
  have hu : (0 : ℚ) < 2 ^ (-(n + 1 : Int)) := two_zpow_pos _
  have e1 : (2 : ℚ) ^ (1 - ((n + 1 : Nat) : Int)) = 2 * 2 ^ (-(n + 1 : Int)) := by
    rw [← zpow_succ']; exact congrArg _ (by push_cast; ring)
  obtain ⟨d, hd⟩ : ∃ d : ℚ, d = 2 ^ (-(n + k + 3 : Int)) := ⟨_, rfl⟩
  have hd0 : 0 < d := hd ▸ two_zpow_pos _
  have e2 : (2 : ℚ) ^ (1 - ((n + 1 + (k + 1) : Nat) : Int)) = 4 * d := by
    have h1 : (4 : ℚ) * d = 2 * (2 * d) := by ring
    rw [h1, hd, ← zpow_succ', ← zpow_succ']; congr 1; push_cast; ring
  have hdu : 2 * d ≤ 2 ^ (-(n + 1 : Int)) := by
    rw [hd, ← zpow_succ']; exact zpow_mono (by omega)
  generalize hug : (2 : ℚ) ^ (-(n + 1 : Int)) = u at *
  have hu1 : u ≤ 1 := by
    rw [← hug]; calc (2 : ℚ) ^ (-(n + 1 : Int)) ≤ 2 ^ (0 : Int) := zpow_mono (by omega)
      _ = 1 := by simp
  have hu2 : 2 * u ≤ 1 := by
    rw [← hug, ← zpow_succ']; calc (2 : ℚ) ^ (-(n + 1 : Int) + 1) ≤ 2 ^ (0 : Int) := zpow_mono (by omega)
      _ = 1 := by simp
  have m1 : ∀ g : Int, g ≤ 0 → Mult g (1 : ℚ) := fun g hg => Mult.mono ⟨1, by simp⟩ hg
  have r1 : Rep (n + 1) emin 1 := ⟨1, 0, by
      rw [abs_one]; exact one_lt_pow₀ (by norm_num) (by omega), by push_cast at hm; omega, by simp⟩
  -- the number above 1
  have r2 : Rep (n + 1) emin (1 + 2 * u) := by
    refine rep_of_mult hp (g := 1 - ((n + 1 : Nat) : Int)) ((m1 _ (by push_cast; omega)).add ⟨1, by rw [e1]; simp⟩) hm ?_
    rw [e1, abs_of_pos (by linarith)]
    have : (2 : ℚ) ^ (n + 1) * u = 1 := by
      rw [← hug, zpow_neg]
      have : (2 : ℚ) ^ ((n : Int) + 1) = 2 ^ (n + 1) := by exact_mod_cast zpow_natCast (2 : ℚ) (n + 1)
      rw [this]; exact mul_inv_cancel₀ (by positivity)
    nlinarith
  have ma : Mult (1 - ((n + 1 + (k + 1) : Nat) : Int)) (1 + u) := by
    refine (m1 _ (by push_cast; omega)).add (Mult.mono (h := -(n + 1 : Int)) ⟨1, by rw [hug]; simp⟩ (by push_cast; omega))
  have hq1 : (1 : Nat) ≤ n + 1 + (k + 1) := by omega
  have ra : Rep (n + 1 + (k + 1)) eminq (1 + u) := by
    refine rep_of_mult hq1 ma hmq ?_
    rw [zpow_sub₀ (by norm_num), zpow_natCast, abs_of_pos (by linarith)]
    field_simp
    linarith
  -- both sides of `1 + u` are rounded to it
  have key : ∀ s : ℚ, |s| = d → rl (1 + u + s) = 1 + u := by
    intro s hs
    have h1 := hl.near (1 + u + s) (1 + u) ra
    have h2 : |1 + u + s - (1 + u)| = d := by rw [add_sub_cancel_left, hs]
    rw [h2] at h1
    have h3 := abs_le.1 h1
    have h4 := abs_le.1 (le_of_eq hs)
    refine mult_close (mult_one_le (hl.rep _) (by linarith)) ma ?_
    rw [e2, abs_lt]
    constructor <;> linarith
  have hv := ht.rep (1 + u)
  by_cases hle : rt (1 + u) ≤ 1
  · refine ⟨1 + u + d, 1 + 2 * u, r2, ?_⟩
    rw [key d (abs_of_pos hd0), abs_of_nonneg (by linarith), abs_of_neg (by linarith)]
    linarith
  · have hlt : 1 + 2 * u ≤ rt (1 + u) := by
      by_contra hc
      have := mult_close (mult_one_le hv (not_le.1 hle).le) (m1 (1 - ((n + 1 : Nat) : Int)) (by push_cast; omega))
        (by rw [e1, abs_lt]; constructor <;> linarith)
      exact hle this.le
    refine ⟨1 + u + -d, 1, r1, ?_⟩
    rw [key (-d) (by rw [abs_neg, abs_of_pos hd0]), abs_of_neg (by linarith), abs_of_pos (by linarith)]
    linarith

/-! ### Quadruple precision -/

theorem digit_head {c : Char} (h : c.isDigit = true) :
    ((some c : Option Char) == some '-') = false ∧ ((some c : Option Char) == some '+') = false ∧
    ((some c : Option Char) == some '.') = false ∧ ((some c : Option Char) == some 'e') = false ∧
    ((some c : Option Char) == some 'E') = false := by
  refine ⟨?_, ?_, ?_, ?_, ?_⟩
  all_goals
    rw [beq_eq_false_iff_ne]
    rintro ⟨⟩
    revert h; decide

theorem isEmpty_ne {α : Type} {l : List α} (h : l ≠ []) : l.isEmpty = false := by
  cases l with
  | nil => exact absurd rfl h
  | cons => rfl

/-- A character after which a number cannot go on. -/
def Stops (rest : List Char) : Prop :=
  NoDigit rest ∧ (rest.head? == some '.') = false ∧ (rest.head? == some 'e') = false ∧
    (rest.head? == some 'E') = false

theorem scanExponent_text {c : Char} {ds rest t : List Char} {e : Int} (h1 : ds ≠ [])
    (h2 : ∀ d ∈ ds, d.isDigit = true) (hr : NoDigit rest)
    (h : (t = c :: ds ∧ e = digitsValue ds) ∨ (t = c :: '+' :: ds ∧ e = digitsValue ds) ∨
      (t = c :: '-' :: ds ∧ e = -(digitsValue ds : Int))) :
    scanExponent (t.tail ++ rest) = (some e, rest) := by
  obtain ⟨c1, c2⟩ := takeWhile_digits (ds := ds) (rest := rest) h2 hr
  have hes := isEmpty_ne h1
  unfold scanExponent
  rcases h with ⟨rfl, rfl⟩ | ⟨rfl, rfl⟩ | ⟨rfl, rfl⟩
  · cases ds with
    | nil => exact absurd rfl h1
    | cons d ds =>
      obtain ⟨a, b, -⟩ := digit_head (h2 d (by simp))
      simp only [List.tail_cons, List.cons_append, List.head?_cons, a, b, Bool.or_self, Bool.false_eq_true, if_false]
      rw [List.cons_append] at c1 c2
      simp only [c1, c2, hes, Bool.false_eq_true, if_false, decimal_eq]
  · have a : ((some '+' : Option Char) == some '-') = false := by decide
    simp only [List.tail_cons, List.cons_append, List.head?_cons, a, Bool.false_or, beq_self_eq_true, if_true,
      c1, c2, hes, Bool.false_eq_true, if_false, decimal_eq]
  · simp only [List.tail_cons, List.cons_append, List.head?_cons, Bool.true_or, beq_self_eq_true, if_true,
      c1, c2, hes, Bool.false_eq_true, if_false, decimal_eq]

theorem scan_text {rq : ℚ → ℚ} {w rest : List Char} {x : ℚ} (h : DecimalText w x) (hr : Stops rest) :
    (scanFloat rq (w ++ rest)).val = rq x := by
  obtain ⟨ip, fp, t, e, h1, h2, h3, h4, h5, rfl⟩ := h
  -- what follows the digits
  have ht : NoDigit (t ++ rest) ∧ ((t ++ rest).head? == some '.') = false := by
    rcases h4 with ⟨rfl, -⟩ | ⟨c, ds, hc, -, -, h⟩
    · exact ⟨hr.1, hr.2.1⟩
    · obtain ⟨t', rfl⟩ : ∃ t', t = c :: t' := by rcases h with ⟨h, -⟩ | ⟨h, -⟩ | ⟨h, -⟩ <;> exact ⟨_, h⟩
      rcases hc with rfl | rfl <;> exact ⟨noDigit_cons (by decide) _, by rfl⟩
  have hE : ∀ (s : Scan ℚ), s = (if (t ++ rest).head? == some 'e' || (t ++ rest).head? == some 'E' then
      match scanExponent (t ++ rest).tail with
      | (none, rest) => ⟨0, false, rest, rest.isEmpty⟩
      | (some e, rest) => ⟨rq (floatValue false ip fp e), true, rest, rest.isEmpty⟩
      else ⟨rq (floatValue false ip fp 0), true, t ++ rest, (t ++ rest).isEmpty⟩) →
      s.val = rq (digitsValue (ip ++ fp) * (10 : ℚ) ^ (e - fp.length)) := by
    rintro s rfl
    rcases h4 with ⟨rfl, rfl⟩ | ⟨c, ds, hc, hd1, hd2, h⟩
    · rw [List.nil_append, hr.2.2.1, hr.2.2.2]
      simp only [Bool.or_self, Bool.false_eq_true, if_false, floatValue, decimal_eq]
    · have hx := scanExponent_text hd1 hd2 hr.1 h
      obtain ⟨t', rfl⟩ : ∃ t', t = c :: t' := by rcases h with ⟨h, -⟩ | ⟨h, -⟩ | ⟨h, -⟩ <;> exact ⟨_, h⟩
      have hb : ((some c : Option Char) == some 'e' || (some c : Option Char) == some 'E') = true := by
        rcases hc with rfl | rfl <;> decide
      rw [List.tail_cons] at hx
      simp only [List.cons_append, List.head?_cons, hb, if_true, List.tail_cons, hx, floatValue,
        Bool.false_eq_true, if_false, decimal_eq]
  have hne : (ip.isEmpty && fp.isEmpty) = false := by
    cases ip with
    | nil => cases fp with
      | nil => exact absurd rfl h3
      | cons => rfl
    | cons => rfl
  have hun : (scanUnsigned rq false (w ++ rest)).val = rq (digitsValue (ip ++ fp) * (10 : ℚ) ^ (e - fp.length)) := by
    rcases h5 with rfl | ⟨rfl, rfl⟩
    · obtain ⟨a1, a2⟩ := takeWhile_digits (ds := ip) (rest := '.' :: (fp ++ (t ++ rest))) h1
        (noDigit_cons (by decide) _)
      obtain ⟨b1, b2⟩ := takeWhile_digits (ds := fp) (rest := t ++ rest) h2 ht.1
      have e1 : ip ++ '.' :: (fp ++ t) ++ rest = ip ++ '.' :: (fp ++ (t ++ rest)) := by simp
      rw [e1]
      unfold scanUnsigned
      simp only [a1, a2, List.head?_cons, beq_self_eq_true, if_true, List.tail_cons, b1, b2, hne,
        Bool.false_eq_true, if_false]
      exact hE _ rfl
    · obtain ⟨a1, a2⟩ := takeWhile_digits (ds := ip) (rest := t ++ rest) h1 ht.1
      rw [List.append_assoc]
      unfold scanUnsigned
      simp only [a1, a2, ht.2, hne, Bool.false_eq_true, if_false]
      exact hE _ rfl
  have hhead : ((w ++ rest).head? == some '-') = false ∧ ((w ++ rest).head? == some '+') = false := by
    cases ip with
    | nil =>
      rcases h5 with rfl | ⟨rfl, -⟩
      · constructor <;> rfl
      · exact absurd rfl h3
    | cons d ip =>
      obtain ⟨a, b, -⟩ := digit_head (h1 d (by simp))
      rcases h5 with rfl | ⟨rfl, rfl⟩ <;> exact ⟨a, b⟩
  unfold scanFloat
  rw [hhead.1, hhead.2]
  simpa using hun

theorem binaryOrOctal_iff (s : List Char) : Literal.binaryOrOctal s = true ↔ LooksOctal s := by
  unfold Literal.binaryOrOctal LooksOctal
  rcases s with _ | ⟨a, _ | ⟨c, t⟩⟩
  · simp
  · simp
  · have hle : ∀ x y : Char, (x ≤ y ↔ x.toNat ≤ y.toNat) := fun x y => by
      rw [Char.le_def, UInt32.le_iff_toNat_le]; rfl
    simp [hle, or_assoc]

end Spp.Lemmas
