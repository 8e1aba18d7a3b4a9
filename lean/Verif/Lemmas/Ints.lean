import Verif.Spec.Ints

namespace Spp
open Spec

theorem holds_iff_fits (t : IntTy) (v : Int) : t.Holds v ↔ Fits t v := by
  unfold IntTy.Holds IntTy.lo IntTy.hi Fits
  cases t.signed <;> simp <;> omega

theorem two_pow_split (t : IntTy) : (2 : Int) ^ t.bits = 2 * 2 ^ (t.bits - 1) := by
  have h := t.pos
  obtain ⟨k, hk⟩ : ∃ k, t.bits = k + 1 := ⟨t.bits - 1, by omega⟩
  rw [hk, Int.pow_succ]; simp; omega

theorem two_pow_pos (k : Nat) : (0 : Int) < 2 ^ k := Int.pow_pos (by decide)

theorem wrap_fits (t : IntTy) (v : Int) : Fits t (t.wrap v) := by
  unfold Fits IntTy.wrap
  have hp := two_pow_pos (t.bits - 1)
  have hs := two_pow_split t
  have hn : (2 : Int) ^ t.bits = ((2 ^ t.bits : Nat) : Int) := by simp
  constructor <;> intro h <;> simp only [h, if_true, if_false, Bool.false_eq_true]
  · have h1 := Int.le_bmod (x := v) (m := 2 ^ t.bits) (Nat.pow_pos (by decide))
    have h2 := Int.bmod_lt (x := v) (m := 2 ^ t.bits) (Nat.pow_pos (by decide))
    rw [← hn] at h1 h2
    omega
  · exact ⟨Int.emod_nonneg _ (by omega), Int.emod_lt_of_pos _ (by omega)⟩

theorem wrap_same (t : IntTy) (v : Int) : SameMod t (t.wrap v) v := by
  unfold SameMod IntTy.wrap
  have hn : (2 : Int) ^ t.bits = ((2 ^ t.bits : Nat) : Int) := by simp
  split
  · refine ⟨(Int.bmod v (2 ^ t.bits) - v) / 2 ^ t.bits, ?_⟩
    have h := Int.bmod_emod (x := v) (m := 2 ^ t.bits)
    rw [← hn] at h
    have h2 : (2 ^ t.bits : Int) ∣ (Int.bmod v (2 ^ t.bits) - v) := by
      apply Int.dvd_of_emod_eq_zero
      rw [Int.sub_emod, h]; simp
    rw [Int.ediv_mul_cancel h2]; omega
  · refine ⟨-(v / 2 ^ t.bits), ?_⟩
    have := Int.emod_add_mul_ediv v (2 ^ t.bits)
    rw [Int.neg_mul, Int.mul_comm]; omega

/-- `wrap` is the only value of the type in the residue class. -/
theorem fits_unique {t : IntTy} {v w : Int} (hv : Fits t v) (hw : Fits t w)
    (h : SameMod t v w) : v = w := by
  obtain ⟨k, hk⟩ := h
  have hp := two_pow_pos (t.bits - 1)
  have hs := two_pow_split t
  have hk0 : k = 0 := by
    by_cases hk1 : k ≤ -1
    · have : k * 2 ^ t.bits ≤ (-1) * 2 ^ t.bits := Int.mul_le_mul_of_nonneg_right hk1 (by omega)
      cases hsig : t.signed
      · have a := hv.2 hsig; have b := hw.2 hsig; omega
      · have a := hv.1 hsig; have b := hw.1 hsig; omega
    · by_cases hk2 : 1 ≤ k
      · have : 1 * 2 ^ t.bits ≤ k * 2 ^ t.bits := Int.mul_le_mul_of_nonneg_right hk2 (by omega)
        cases hsig : t.signed
        · have a := hv.2 hsig; have b := hw.2 hsig; omega
        · have a := hv.1 hsig; have b := hw.1 hsig; omega
      · omega
  subst hk0; omega

theorem wrap_of_fits {t : IntTy} {v : Int} (h : Fits t v) : t.wrap v = v :=
  fits_unique (wrap_fits t v) h (wrap_same t v)

theorem arith_of_fits {t : IntTy} {v : Int} (h : Fits t v) : t.arith v = .ok v := by
  unfold IntTy.arith
  split
  · rw [if_pos ((holds_iff_fits t v).2 h)]
  · rename_i hs
    have hs' : t.signed = false := by simpa using hs
    have := h.2 hs'
    rw [Int.emod_eq_of_lt this.1 this.2]

theorem arith_ub_iff {t : IntTy} {v : Int} : t.arith v = .ub ↔ t.signed = true ∧ ¬ Fits t v := by
  unfold IntTy.arith
  rw [← holds_iff_fits]
  split <;> simp_all

theorem arith_ok_iff {t : IntTy} {v r : Int} :
    t.arith v = .ok r ↔ (t.signed = true → Fits t v ∧ r = v) ∧
      (t.signed = false → Fits t r ∧ SameMod t r v) := by
  unfold IntTy.arith
  rw [← holds_iff_fits]
  cases hs : t.signed
  · have hw : t.wrap v = v % 2 ^ t.bits := by simp [IntTy.wrap, hs]
    simp only [Bool.false_eq_true, if_false, Res.ok.injEq, false_implies, true_and, forall_const]
    rw [← hw]
    constructor
    · rintro rfl; exact ⟨wrap_fits t v, wrap_same t v⟩
    · rintro ⟨h1, k, hk⟩
      obtain ⟨k', hk'⟩ := wrap_same t v
      refine fits_unique (wrap_fits t v) h1 ⟨k' - k, ?_⟩
      rw [Int.sub_mul]; omega
  · simp only [if_true, forall_const, Bool.true_eq_false, false_implies, and_true]
    split
    · rename_i h; simp only [Res.ok.injEq]; exact ⟨fun e => ⟨h, e.symm⟩, fun e => e.2.symm⟩
    · rename_i h; simp [h]

theorem arith_not_trap {t : IntTy} {v : Int} {k : Kind} : t.arith v ≠ .trap k := by
  unfold IntTy.arith; repeat' split
  all_goals simp

theorem tdiv_truncDiv {x y : Int} (hy : y ≠ 0) : TruncDiv x y (x.tdiv y) (x.tmod y) where
  eq := by have := Int.tmod_add_mul_tdiv x y; rw [Int.mul_comm]; omega
  small := by
    rw [Int.natAbs_tmod]; exact Nat.mod_lt _ (by omega)
  sign_pos := fun h => Int.tmod_nonneg _ h
  sign_neg := fun h => by
    have := Int.tmod_nonneg (a := -x) y (by omega)
    rw [Int.neg_tmod] at this; omega

theorem natAbs_tdiv_le (x y : Int) : (x.tdiv y).natAbs ≤ x.natAbs := by
  rw [Int.natAbs_tdiv]; exact Nat.div_le_self _ _

theorem natAbs_lt_of_tdiv {x y : Int} (hx : x ≠ 0) (hy : 2 ≤ y.natAbs) :
    (x.tdiv y).natAbs < x.natAbs := by
  rw [Int.natAbs_tdiv]; exact Nat.div_lt_self (by omega) (by omega)

/-- The quotient is representable except for MIN / -1. -/
theorem tdiv_fits {t : IntTy} {x y : Int} (hx : Fits t x) (hyf : Fits t y) (hy : y ≠ 0)
    (hm : ¬ MinOverMinusOne t x y) : Fits t (x.tdiv y) := by
  have hp := two_pow_pos (t.bits - 1)
  constructor
  · intro hs
    have h1 := hx.1 hs
    have h2 := natAbs_tdiv_le x y
    by_cases hx0 : x = 0
    · subst hx0; simp; omega
    by_cases hy1 : y = 1
    · subst hy1; simpa using h1
    by_cases hy2 : y = -1
    · subst hy2
      have : x ≠ -(2 ^ (t.bits - 1)) := fun h => hm ⟨hs, h, rfl⟩
      have h3 : x.tdiv (-1) = -x := by simp
      rw [h3]; omega
    · have h4 := natAbs_lt_of_tdiv (x := x) (y := y) hx0 (by omega)
      omega
  · intro hs
    have h1 := hx.2 hs
    have h3 := hyf.2 hs
    have h2 := natAbs_tdiv_le x y
    have h4 := Int.tdiv_nonneg (a := x) (b := y) (by omega) (by omega)
    omega

theorem minOver_not_fits {t : IntTy} {x y : Int} (hm : MinOverMinusOne t x y) :
    ¬ Fits t (x.tdiv y) := by
  obtain ⟨hs, rfl, rfl⟩ := hm
  intro h
  have := h.1 hs
  simp at this

end Spp
