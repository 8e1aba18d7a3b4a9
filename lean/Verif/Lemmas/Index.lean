import Verif.Spec.Index
import Verif.Lemmas.Ints
import Verif.Lemmas.Transparent

namespace Spp
open Spec

theorem fits_long {v : Int} : Fits IntTy.long v ↔ IsIndex v := by
  simp [Fits, IntTy.long, IsIndex]

theorem iadd_ok {x y : Int} (h : IsIndex (x + y)) : iadd x y = .ok (x + y) :=
  arith_of_fits (fits_long.2 h)
theorem isub_ok {x y : Int} (h : IsIndex (x - y)) : isub x y = .ok (x - y) :=
  arith_of_fits (fits_long.2 h)
theorem imul_ok {x y : Int} (h : IsIndex (x * y)) : imul x y = .ok (x * y) :=
  arith_of_fits (fits_long.2 h)

theorem long_signed : IntTy.long.signed = true := rfl

theorem iadd_cases (x y : Int) : (IsIndex (x + y) ∧ iadd x y = .ok (x + y)) ∨
    (¬ IsIndex (x + y) ∧ iadd x y = .ub) := by
  by_cases h : IsIndex (x + y)
  · exact .inl ⟨h, iadd_ok h⟩
  · exact .inr ⟨h, arith_ub_iff.2 ⟨rfl, fun hh => h (fits_long.1 hh)⟩⟩
theorem isub_cases (x y : Int) : (IsIndex (x - y) ∧ isub x y = .ok (x - y)) ∨
    (¬ IsIndex (x - y) ∧ isub x y = .ub) := by
  by_cases h : IsIndex (x - y)
  · exact .inl ⟨h, isub_ok h⟩
  · exact .inr ⟨h, arith_ub_iff.2 ⟨rfl, fun hh => h (fits_long.1 hh)⟩⟩
theorem imul_cases (x y : Int) : (IsIndex (x * y) ∧ imul x y = .ok (x * y)) ∨
    (¬ IsIndex (x * y) ∧ imul x y = .ub) := by
  by_cases h : IsIndex (x * y)
  · exact .inl ⟨h, imul_ok h⟩
  · exact .inr ⟨h, arith_ub_iff.2 ⟨rfl, fun hh => h (fits_long.1 hh)⟩⟩

theorem iadd_eq_ok {x y r : Int} (h : iadd x y = .ok r) : r = x + y := by
  rcases iadd_cases x y with ⟨_, e⟩ | ⟨_, e⟩ <;> rw [e] at h <;> simp_all
theorem isub_eq_ok {x y r : Int} (h : isub x y = .ok r) : r = x - y := by
  rcases isub_cases x y with ⟨_, e⟩ | ⟨_, e⟩ <;> rw [e] at h <;> simp_all
theorem imul_eq_ok {x y r : Int} (h : imul x y = .ok r) : r = x * y := by
  rcases imul_cases x y with ⟨_, e⟩ | ⟨_, e⟩ <;> rw [e] at h <;> simp_all

theorem tdiv_eq_ediv {x y : Int} (hx : 0 ≤ x) : x.tdiv y = x / y :=
  Int.tdiv_eq_ediv_of_nonneg hx
theorem tmod_eq_emod {x y : Int} (hx : 0 ≤ x) : x.tmod y = x % y :=
  Int.tmod_eq_emod_of_nonneg hx

theorem idiv_ok (b : Build) {x y : Int} (hx : 0 ≤ x) (hx' : IsIndex x) (hy : 0 < y) :
    idiv b x y = .ok (x / y) := by
  have hne : (y != 0) = true := by simp; omega
  have h1 : x / y ≤ x := Int.ediv_le_self _ hx
  have h2 : 0 ≤ x / y := Int.ediv_nonneg hx (by omega)
  have hf : Fits IntTy.long (x / y) := fits_long.2 (by unfold IsIndex at *; omega)
  have h0 : y ≠ 0 := by omega
  simp [idiv, SInt.div, hne, SInt.builtinDiv, h0, tdiv_eq_ediv hx, arith_of_fits hf]

theorem irem_ok (b : Build) {x y : Int} (hx : 0 ≤ x) (hx' : IsIndex x) (hy : 0 < y) :
    irem b x y = .ok (x % y) := by
  have hne : (y != 0) = true := by simp; omega
  have h1 : x / y ≤ x := Int.ediv_le_self _ hx
  have h2 : 0 ≤ x / y := Int.ediv_nonneg hx (by omega)
  have hf : Fits IntTy.long (x / y) := fits_long.2 (by unfold IsIndex at *; omega)
  have h0 : y ≠ 0 := by omega
  have hh : IntTy.long.Holds (x / y) := (holds_iff_fits _ _).2 hf
  simp [irem, SInt.rem, hne, SInt.builtinRem, h0, tdiv_eq_ediv hx, tmod_eq_emod hx, hh]

/-- Signed numerators (needed for `seq`). -/
theorem idiv_tdiv (b : Build) {x y : Int} (hx : IsIndex x) (hy : IsIndex y) (h0 : y ≠ 0)
    (hm : x ≠ -(2 ^ 63)) : idiv b x y = .ok (x.tdiv y) := by
  have hne : (y != 0) = true := by simpa using h0
  have hf : Fits IntTy.long (x.tdiv y) :=
    tdiv_fits (fits_long.2 hx) (fits_long.2 hy) h0 (fun h => hm h.2.1)
  simp [idiv, SInt.div, hne, SInt.builtinDiv, h0, arith_of_fits hf]

theorem resolve_ok {n : Int} {p : Pos} (h : NoOverflow n p) : p.resolve n = .ok (target n p) := by
  cases p with
  | «at» i => rfl
  | fromLast k =>
    obtain ⟨h1, h2⟩ := h
    simp only [Pos.resolve, isub_ok h1, Res.ok_bind, isub_ok h2, target]
    congr 1; omega

theorem resolve_eq_ok {n i : Int} {p : Pos} (h : p.resolve n = .ok i) : i = target n p := by
  cases p with
  | «at» i => simpa [Pos.resolve, target] using h.symm
  | fromLast k =>
    simp only [Pos.resolve, Res.bind_eq_ok] at h
    obtain ⟨a, h1, h2⟩ := h
    have := isub_eq_ok h1; have := isub_eq_ok h2
    simp only [target]; omega

theorem resolve_not_trap {n : Int} {p : Pos} {k : Kind} : p.resolve n ≠ .trap k := by
  cases p with
  | «at» i => simp [Pos.resolve]
  | fromLast j =>
    simp only [Pos.resolve]
    rcases isub_cases n j with ⟨_, e⟩ | ⟨_, e⟩ <;> rw [e] <;> simp
    rcases isub_cases (n - j) 1 with ⟨_, e⟩ | ⟨_, e⟩ <;> rw [e] <;> simp

theorem validIndex_iff {n i : Int} : validIndex n i = true ↔ InRange n i := by
  simp [validIndex, InRange]; omega

theorem validIndex_false {n i : Int} : validIndex n i = false ↔ ¬ InRange n i := by
  rw [← validIndex_iff]; simp

theorem rd_ok {l : List α} {i : Int} (h : InRange l.length i) :
    ∃ (hi : i.toNat < l.length), rd l i = .ok l[i.toNat] := by
  have h1 := h.1; have h2 := h.2
  have hi : i.toNat < l.length := by omega
  exact ⟨hi, by simp [rd, h1, hi]⟩

theorem rd_nat {l : List α} {k : Nat} (h : k < l.length) : rd l (k : Int) = .ok l[k] := by
  simp [rd, h]

theorem rd_ub {l : List α} {i : Int} (h : ¬ InRange l.length i) : rd l i = .ub := by
  unfold rd
  split
  · rename_i h1
    have : l.length ≤ i.toNat := by unfold InRange at h; omega
    simp [this]
  · rfl

theorem rd_eq_ok {l : List α} {i : Int} {a : α} (h : rd l i = .ok a) : InRange l.length i := by
  by_cases hh : InRange l.length i
  · exact hh
  · rw [rd_ub hh] at h; simp at h

theorem wr_ok {l : List α} {i : Int} {x : α} (h : InRange l.length i) :
    wr l i x = .ok (l.set i.toNat x) := by
  have h1 := h.1; have h2 := h.2
  simp [wr, h1]; omega

theorem wr_ub {l : List α} {i : Int} {x : α} (h : ¬ InRange l.length i) : wr l i x = .ub := by
  unfold wr
  split
  · rename_i h1; exact absurd ⟨h1.1, by omega⟩ h
  · rfl

end Spp
