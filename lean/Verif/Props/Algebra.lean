import Verif.Lemmas.Algebra
import Verif.Lemmas.Sample
import Verif.Spec.Decide
import Verif.Lemmas.Idioms

/-
Algebraic laws of sums, products and inner products (C114), for every number type whose results, when
there are any, are those of a ring: exact arithmetic, signed integers, and unsigned integers modulo
`2^bits`.  All laws are about the results of calls: whenever the calls on both sides return, the
returned numbers are related as stated.
-/

set_option linter.unusedSectionVars false

namespace Spp.Props
open Spec Algebra Finset

variable {α R : Type} [CommRing R] [Inhabited α] {φ : α → R} {b : Build} {ar : Arith α} {s : Store α} {d : Dim}

/-! ### The number types -/

/-- C114: the laws hold for exact arithmetic, -/
theorem C114_exact (K : Type) [Field K] [LinearOrder K] (pow : K → K → K) (sqrt : K → K) :
    Through (fun x : K => x) (exactS K pow sqrt).toArith where
  zero := rfl
  one := rfl
  add _ _ _ h := by cases h; rfl
  sub _ _ _ h := by cases h; rfl
  mul _ _ _ h := by cases h; rfl
  ofIndex _ _ h := by cases h; rfl

theorem arith_signed {t : IntTy} (ht : t.signed = true) {v z : Int} (h : t.arith v = .ok z) : z = v := by
  unfold IntTy.arith at h
  rw [if_pos ht] at h
  split at h <;> cases h
  rfl

/-- C114: for signed integers of every width (where an overflow is no result), -/
theorem C114_signed (b : Build) {t : IntTy} (ht : t.signed = true) :
    Through (fun x : Int => x) (signedInts b t) where
  zero := rfl
  one := rfl
  add _ _ _ h := arith_signed ht h
  sub _ _ _ h := arith_signed ht h
  mul _ _ _ h := arith_signed ht h
  ofIndex i z h := by
    change (if t.Holds i then Res.ok i else .ub) = .ok z at h
    split at h <;> cases h
    rfl

theorem arith_mod (t : IntTy) {v z : Int} (h : t.arith v = .ok z) :
    ((z : ZMod (2 ^ t.bits)) : ZMod (2 ^ t.bits)) = (v : ZMod (2 ^ t.bits)) := by
  unfold IntTy.arith at h
  split at h
  · split at h <;> cases h
    rfl
  · cases h
    rw [ZMod.intCast_eq_intCast_iff]
    push_cast
    exact Int.mod_modEq _ _

/-- C114: and, modulo `2^bits`, for integers of every type, signed or unsigned. -/
theorem C114_modulo (b : Build) (t : IntTy) :
    Through (fun x : Int => (x : ZMod (2 ^ t.bits))) (signedInts b t) where
  zero := Int.cast_zero
  one := Int.cast_one
  add x y z h := by rw [arith_mod t h, Int.cast_add]
  sub x y z h := by rw [arith_mod t h, Int.cast_sub]
  mul x y z h := by rw [arith_mod t h, Int.cast_mul]
  ofIndex i z h := by
    change (if t.Holds i then Res.ok i else .ub) = .ok z at h
    split at h <;> cases h
    rfl

/-- What an equation modulo `2^bits` says about numbers of an unsigned type. -/
theorem C114_unsigned_reading {t : IntTy} (ht : t.signed = false) {v w : Int} (hv : t.Holds v) :
    ((v : ZMod (2 ^ t.bits)) = (w : ZMod (2 ^ t.bits))) ↔ v = w % 2 ^ t.bits := by
  have r : 0 ≤ v ∧ v < 2 ^ t.bits := by
    simp only [IntTy.Holds, IntTy.lo, IntTy.hi, ht] at hv
    simp at hv
    omega
  rw [ZMod.intCast_eq_intCast_iff]
  push_cast
  unfold Int.ModEq
  rw [Int.emod_eq_of_lt r.1 r.2]

/-! ### Sums of element-wise operations -/

theorem flat_len_eq {t u : Tm α d} (hd : (t.meaning s).dims = (u.meaning s).dims) :
    (t.meaning s).flat.length = (u.meaning s).flat.length := by
  rw [flat_dims, flat_dims, hd]

/-- C114: `sum(A + B) = sum(A) + sum(B)` and `sum(A - B) = sum(A) - sum(B)`. -/
theorem C114_sum_add (hT : Through φ ar) (hs : Store.Ok s) {t u : Tm α d} (ht : Accepted s t)
    (hu : Accepted s u) (hd : (t.meaning s).dims = (u.meaning s).dims) {x y v : α}
    (hx : SumIs b ar s t x) (hy : SumIs b ar s u y) :
    (SumIs b ar s (.binary ar.add t u) v → φ v = φ x + φ y) ∧
    (SumIs b ar s (.binary ar.sub t u) v → φ v = φ x - φ y) := by
  have hx := (sum_tm hT hs ht hx).2
  have hy := (sum_tm hT hs hu hy).2
  have hl := flat_len_eq hd
  constructor
  · intro h
    obtain ⟨h1, h2⟩ := sum_tm hT hs (t := .binary ar.add t u) ⟨⟨ht.1, hu.1⟩, ht.2, hu.2, hd⟩ h
    have e : ((Tm.binary ar.add t u).meaning s).flat = _ := flat_zip ar.add hd
    rw [e] at h1 h2
    rw [h2, hx, hy, S_zip (g := (· + ·)) hT.add hl h1, sum_add_distrib, S_eq, S_eq, hl]
  · intro h
    obtain ⟨h1, h2⟩ := sum_tm hT hs (t := .binary ar.sub t u) ⟨⟨ht.1, hu.1⟩, ht.2, hu.2, hd⟩ h
    have e : ((Tm.binary ar.sub t u).meaning s).flat = _ := flat_zip ar.sub hd
    rw [e] at h1 h2
    rw [h2, hx, hy, S_zip (g := (· - ·)) hT.sub hl h1, sum_sub_distrib, S_eq, S_eq, hl]

/-- C114: `sum(c * A) = c * sum(A) = sum(A * c)`, and `sum(A + c) = sum(A) + size * c`. -/
theorem C114_sum_scalar (hT : Through φ ar) (hs : Store.Ok s) {t : Tm α d} (ht : Accepted s t) {x v : α} (c : α)
    (hx : SumIs b ar s t x) :
    (SumIs b ar s (.scalarL ar.mul c t) v → φ v = φ c * φ x) ∧
    (SumIs b ar s (.scalarR ar.mul t c) v → φ v = φ x * φ c) ∧
    (SumIs b ar s (.scalarL ar.add c t) v → φ v = (t.meaning s).flat.length * φ c + φ x) ∧
    (SumIs b ar s (.scalarR ar.add t c) v → φ v = φ x + (t.meaning s).flat.length * φ c) := by
  have hx := (sum_tm hT hs ht hx).2
  have key : ∀ {f : α → Res α} {g : R → R} {u : Tm α d}, Accepted s u → u.meaning s = (t.meaning s).map f →
      (∀ x z, f x = .ok z → φ z = g (φ x)) → SumIs b ar s u v →
      φ v = ∑ i ∈ range (t.meaning s).flat.length, g (val φ ((t.meaning s).flat.getD i .ub)) := by
    intro f g u hu e hf h
    obtain ⟨h1, h2⟩ := sum_tm hT hs hu h
    rw [e, flat_map] at h1 h2
    rw [h2, S_map hf h1]
  refine ⟨fun h => ?_, fun h => ?_, fun h => ?_, fun h => ?_⟩
  · rw [key (u := .scalarL ar.mul c t) ht rfl (g := fun r => φ c * r) (fun y z h => hT.mul c y z h) h, hx, S_eq,
      mul_sum]
  · rw [key (u := .scalarR ar.mul t c) ht rfl (g := fun r => r * φ c) (fun y z h => hT.mul y c z h) h, hx, S_eq,
      sum_mul]
  · rw [key (u := .scalarL ar.add c t) ht rfl (g := fun r => φ c + r) (fun y z h => hT.add c y z h) h, hx, S_eq,
      sum_add_distrib, sum_const, card_range, nsmul_eq_mul]
  · rw [key (u := .scalarR ar.add t c) ht rfl (g := fun r => r + φ c) (fun y z h => hT.add y c z h) h, hx, S_eq,
      sum_add_distrib, sum_const, card_range, nsmul_eq_mul]

/-! ### Sums of objects put together from parts -/

/-- C114: the sum of `merge(A, B)` is the sum of the sums; likewise for an appended or prepended
element. -/
theorem C114_sum_merge (hT : Through φ ar) (hs : Store.Ok s) {t u : Tm α .one} (c : α) {x y v : α}
    (ht : Accepted s t) (hx : SumIs b ar s t x) :
    (Accepted s (.merge t u) → SumIs b ar s u y → SumIs b ar s (.merge t u) v → φ v = φ x + φ y) ∧
    (Accepted s (.append t c) → SumIs b ar s (.append t c) v → φ v = φ x + φ c) ∧
    (Accepted s (.prepend c t) → SumIs b ar s (.prepend c t) v → φ v = φ c + φ x) := by
  have hx := (sum_tm hT hs ht hx).2
  refine ⟨fun hm hy h => ?_, fun hm h => ?_, fun hm h => ?_⟩
  · have hy := (sum_tm hT hs ⟨hm.1.2.1, hm.2.2⟩ hy).2
    rw [(sum_tm hT hs hm h).2, hx, hy, ← S_append]
    rfl
  · rw [(sum_tm hT hs hm h).2, hx]
    refine (S_append (φ := φ) (t.meaning s) [Res.ok c]).trans ?_
    rw [show S φ [Res.ok c] = φ c by simp [S, Algebra.val]]
    rfl
  · rw [(sum_tm hT hs hm h).2, hx]
    refine (S_append (φ := φ) [Res.ok c] (t.meaning s)).trans ?_
    rw [show S φ [Res.ok c] = φ c by simp [S, Algebra.val]]
    rfl

theorem small_of (hs : Store.Ok s) {t : Tm α .two} (ht : Accepted s t) :
    Mat.m (t.meaning s) = 0 ↔ Mat.n (t.meaning s) = 0 :=
  (t.main ⟨false, true, false⟩ hs ht.1 ht.2).1.2

/-- C114: the sum of two matrices side by side, or one above the other, is the sum of the sums. -/
theorem C114_sum_merge2 (hT : Through φ ar) (hs : Store.Ok s) {t u : Tm α .two} {x y v : α}
    (hx : SumIs b ar s t x) (hy : SumIs b ar s u y) :
    (Accepted s (.mergeH t u) → SumIs b ar s (.mergeH t u) v → φ v = φ x + φ y) ∧
    (Accepted s (.mergeV t u) → SumIs b ar s (.mergeV t u) v → φ v = φ x + φ y) := by
  refine ⟨fun hm h => ?_, fun hm h => ?_⟩
  · have ht : Accepted s t := ⟨hm.1.1, hm.2.1⟩
    have hu : Accepted s u := ⟨hm.1.2.1, hm.2.2.1⟩
    rw [(sum_tm hT hs hm h).2, (sum_tm hT hs ht hx).2, (sum_tm hT hs hu hy).2]
    exact S_beside (M := t.meaning s) (N := u.meaning s) (small_of hs ht) (small_of hs hu) hm.2.2.2
  · have ht : Accepted s t := ⟨hm.1.1, hm.2.1⟩
    have hu : Accepted s u := ⟨hm.1.2.1, hm.2.2.1⟩
    rw [(sum_tm hT hs hm h).2, (sum_tm hT hs ht hx).2, (sum_tm hT hs hu hy).2]
    exact S_above (M := t.meaning s) (N := u.meaning s) (small_of hs ht) (small_of hs hu) hm.2.2.2

/-! ### Rearrangements -/

/-- C114: a transposed matrix, a matrix read as a list and an object laid out as a matrix of another shape
have the same sum as the original. -/
theorem C114_sum_reshaped (hT : Through φ ar) (hs : Store.Ok s) {t : Tm α .two} {u : Tm α d} {m n : Int} {x v : α} :
    (Accepted s t → SumIs b ar s t x → SumIs b ar s (.transpose t) v → φ v = φ x) ∧
    (Accepted s (.view .view1D t) → SumIs b ar s t x → SumIs b ar s (.view .view1D t) v → φ v = φ x) ∧
    (Accepted s (.view (.view2D d m n) u) → SumIs b ar s u x → SumIs b ar s (.view (.view2D d m n) u) v →
      φ v = φ x) := by
  refine ⟨fun ht hx h => ?_, fun ht hx h => ?_, fun ht hx h => ?_⟩
  · rw [(sum_tm hT hs ht hx).2, (sum_tm hT hs (t := .transpose t) ht h).2]
    exact S_transposed (t.meaning s)
  · rw [(sum_tm hT hs ⟨ht.1.1, ht.2.1⟩ hx).2, (sum_tm hT hs ht h).2]
    rfl
  · rw [(sum_tm hT hs ⟨ht.1.1, ht.2.1⟩ hx).2, (sum_tm hT hs ht h).2]
    obtain ⟨h1, h2, h3⟩ := ht.2.2
    refine S_laid (l := (u.meaning s).flat) ?_
    rw [flat_dims]
    obtain ⟨m, rfl⟩ := Int.eq_ofNat_of_zero_le h1
    obtain ⟨n, rfl⟩ := Int.eq_ofNat_of_zero_le h2
    simp only [Int.toNat_natCast]
    exact_mod_cast h3

/-- C114: a slice that selects every element once - reversed, or in the order of a permutation - has the
same sum as the whole. -/
theorem C114_sum_permuted (hT : Through φ ar) (hs : Store.Ok s) {t : Tm α .one} {r : SliceReq} {x v : α}
    (ht : Accepted s (.view (.slice r) t))
    (hr : (selection ((t.meaning s).dims.1 : Nat) r).Perm (upto ((t.meaning s).dims.1 : Nat)))
    (hx : SumIs b ar s t x) (hv : SumIs b ar s (.view (.slice r) t) v) : φ v = φ x := by
  rw [(sum_tm hT hs ⟨ht.1.1, ht.2.1⟩ hx).2, (sum_tm hT hs ht hv).2]
  exact S_perm (S_picks (l := t.meaning s) hr)

/-- C114: two slices that together select every element once have sums that add up to the sum of the
whole. -/
theorem C114_sum_parts (hT : Through φ ar) (hs : Store.Ok s) {t : Tm α .one} {r q : SliceReq} {x y v : α}
    (ht : Accepted s (.view (.slice r) t)) (hu : Accepted s (.view (.slice q) t))
    (hr : (selection ((t.meaning s).dims.1 : Nat) r ++ selection ((t.meaning s).dims.1 : Nat) q).Perm
      (upto ((t.meaning s).dims.1 : Nat)))
    (hx : SumIs b ar s (.view (.slice r) t) x) (hy : SumIs b ar s (.view (.slice q) t) y)
    (hv : SumIs b ar s t v) : φ v = φ x + φ y := by
  rw [(sum_tm hT hs ⟨ht.1.1, ht.2.1⟩ hv).2, (sum_tm hT hs ht hx).2, (sum_tm hT hs hu hy).2]
  have := S_perm (φ := φ) (S_picks (l := t.meaning s) hr)
  rw [List.map_append, S_append] at this
  exact this.symm

/-- C114: that is the case for the even and the odd positions, for the first `k` and the last `size - k`
elements, and for a list of increasing positions and its complement; and the reversed object is a
permutation. -/
theorem C114_complementary (n : Nat) :
    (selection n .reverse).Perm (upto n) ∧
    (selection n .even ++ selection n .odd).Perm (upto n) ∧
    (∀ k : Int, 0 ≤ k → k ≤ n → (selection n (.firstN k) ++ selection n (.lastN (n - k))).Perm (upto n)) ∧
    ∀ idx : List Int, Increasing idx → (∀ i ∈ idx, InRange n i) →
      (selection n (.vec idx) ++ selection n (.complement idx)).Perm (upto n) := by
  refine ⟨List.reverse_perm _, ?_, ?_, ?_⟩
  · show ((upto n).filter _ ++ (upto n).filter _).Perm (upto n)
    have := List.filter_append_perm (fun i : Int => decide (i % 2 = 0)) (upto n)
    refine List.Perm.trans (List.Perm.append_left _ ?_) this
    refine List.Perm.of_eq (List.filter_congr (fun i _ => ?_))
    rw [← decide_not, decide_eq_decide]
    omega
  · intro k h1 h2
    show ((upto n).take k.toNat ++ (upto n).drop ((n : Int) - (n - k)).toNat).Perm (upto n)
    rw [show ((n : Int) - (n - k)).toNat = k.toNat by omega, List.take_append_drop]
  · intro idx hi hr
    show (idx ++ (upto n).filter _).Perm (upto n)
    have := List.filter_append_perm (fun i : Int => decide (i ∈ idx)) (upto n)
    refine List.Perm.trans (List.Perm.append ?_ ?_) this
    · refine (List.perm_ext_iff_of_nodup ?_ ?_).2 ?_
      · exact hi.imp (fun h => ne_of_lt h)
      · refine List.Nodup.filter _ ?_
        unfold upto
        refine List.Nodup.map (fun a b h => by simpa using h) List.nodup_range
      · intro i
        rw [List.mem_filter, decide_eq_true_eq]
        refine ⟨fun h => ⟨?_, h⟩, fun h => h.2⟩
        obtain ⟨r1, r2⟩ := hr i h
        unfold upto
        rw [List.mem_map]
        exact ⟨i.toNat, List.mem_range.2 (by omega), by show ((i.toNat : Nat) : Int) = i; omega⟩
    · refine List.Perm.of_eq (List.filter_congr (fun i _ => ?_))
      rw [← decide_not]

/-! ### Row and column sums -/

/-- C114: the function `sumFn` is `sum`: on any one-dimensional object it returns what `sum` returns. -/
theorem C114_sumFn {σ : Type} {a : Acc σ α} {s : σ} {l : List (Res α)} (h : Den .one a s l) :
    Ops.sum ar a s ar.zero = sumFn ar l := by
  have h1 : LinDen a s l := linDen_of h
  have h2 := listAcc_den l
  unfold sumFn Ops.sum Ops.foldElems
  rw [Acc.empty, Acc.empty, h1.1, h2.1]
  cases l with
  | nil => rfl
  | cons x xs =>
    have e1 : a.un s 0 = x := h1.2 0 (by simp)
    have e2 : (listAcc (x :: xs)).un () 0 = x := h2.2 0 (by simp)
    simp only [Res.ok_bind, pure, e1, e2]
    have hn : (((x :: xs).length : Int)).toNat - 1 = xs.length := by simp
    simp only [hn]
    congr 1
    congr 1
    funext u
    refine foldN_congr _ (fun k acc hk => ?_)
    rw [h1.2 (k + 1) (by simp; omega), h2.2 (k + 1) (by simp; omega)]

/-- C114: the sum of the row sums and the sum of the column sums are both the sum of the matrix:
`sum(row_reduce(A, sum)) = sum(A) = sum(col_reduce(A, sum))`. -/
theorem C114_sum_reduce (hT : Through φ ar) (hs : Store.Ok s) {t : Tm α .two} (ht : Accepted s t) {x v : α}
    (rowwise : Bool) (hx : SumIs b ar s t x) (hv : SumIs b ar s (.reduce rowwise (sumFn ar) t) v) : φ v = φ x := by
  rw [(sum_tm hT hs ht hx).2]
  obtain ⟨h1, h2⟩ := sum_tm hT hs (t := .reduce rowwise (sumFn ar) t) ht hv
  rw [h2]
  cases rowwise with
  | true =>
    refine (S_range _ _).trans (Eq.trans (sum_congr rfl fun i hi => ?_) (S_rows (φ := φ) (t.meaning s)).symm)
    exact (sumFn_val hT (h1 _ (List.mem_map.2 ⟨i, List.mem_range.2 (mem_range.1 hi), rfl⟩))).2
  | false =>
    refine (S_range _ _).trans (Eq.trans (sum_congr rfl fun i hi => ?_) (S_cols (φ := φ) (t.meaning s)).symm)
    exact (sumFn_val hT (h1 _ (List.mem_map.2 ⟨i, List.mem_range.2 (mem_range.1 hi), rfl⟩))).2

/-! ### Inner products -/

/-- C114: `dot_prod(A, B)` is `sum(A * B)`. -/
theorem C114_dot_sum (hs : Store.Ok s) {t u : Tm α d} (ht : Accepted s t) (hu : Accepted s u)
    (hd : (t.meaning s).dims = (u.meaning s).dims) {v : α} :
    DotIs b ar s t u v ↔ SumIs b ar s (.binary ar.mul t u) v := by
  obtain ⟨a1, h1, h2⟩ := den b hs ht
  obtain ⟨a2, h3, h4⟩ := den b hs hu
  obtain ⟨a3, h5, h6⟩ := den b hs (t := .binary ar.mul t u) ⟨⟨ht.1, hu.1⟩, ht.2, hu.2, hd⟩
  have h5' : Tm.mkBinary b d ar.mul a1 a2 s = .ok a3 := by
    simpa only [Tm.build, h1, h3, Res.ok_bind] using h5
  have hsame : Acc.sameSize d a1 a2 s = true := by
    exact (sameSize_iff h2 h4).2 hd
  have hl1 := (linDen_of h2).1
  have hl3 := (linDen_of h6).1
  have hlen : (((Tm.binary ar.mul t u).meaning s).flat).length = (t.meaning s).flat.length := by
    rw [show ((Tm.binary ar.mul t u).meaning s).flat = _ from flat_zip ar.mul hd, List.length_zipWith,
      flat_len_eq hd, Nat.min_self]
  have key : Ops.dotProd b d ar a1 a2 s ar.zero = Ops.sum ar a3 s ar.zero := by
    unfold Ops.dotProd
    rw [hsame, assertDebug_true, Res.ok_bind, Acc.empty, hl1, h5']
    by_cases h0 : (t.meaning s).flat.length = 0
    · unfold Ops.sum Ops.foldElems
      rw [Acc.empty, hl3, hlen, h0]
      rfl
    · have : ((((t.meaning s).flat.length : Nat) : Int) == 0) = false := by
        simp only [beq_eq_false_iff_ne]; omega
      simp only [Res.ok_bind, pure, this, Bool.false_eq_true, if_false]
  constructor
  · rintro ⟨x1, x2, e1, e2, e3⟩
    rw [h1] at e1; cases e1
    rw [h3] at e2; cases e2
    exact ⟨a3, h5, key ▸ e3⟩
  · rintro ⟨x3, e1, e2⟩
    rw [h5] at e1; cases e1
    exact ⟨a1, a2, h1, h3, key ▸ e2⟩

theorem dot_tm (hT : Through φ ar) (hs : Store.Ok s) {t u : Tm α d} (ht : Accepted s t) (hu : Accepted s u)
    (hd : (t.meaning s).dims = (u.meaning s).dims) {v : α} (h : DotIs b ar s t u v) :
    (∀ x ∈ (t.meaning s).flat, Good x) ∧ (∀ x ∈ (u.meaning s).flat, Good x) ∧
    φ v = ∑ i ∈ range (t.meaning s).flat.length,
      Algebra.val φ ((t.meaning s).flat.getD i .ub) * Algebra.val φ ((u.meaning s).flat.getD i .ub) := by
  have h := (C114_dot_sum hs ht hu hd).1 h
  obtain ⟨h1, h2⟩ := sum_tm hT hs (t := .binary ar.mul t u) ⟨⟨ht.1, hu.1⟩, ht.2, hu.2, hd⟩ h
  have e : ((Tm.binary ar.mul t u).meaning s).flat = _ := flat_zip ar.mul hd
  rw [e] at h1 h2
  have hl := flat_len_eq hd
  obtain ⟨g1, g2⟩ := zip_good hl h1
  exact ⟨g1, g2, by rw [h2, S_zip (g := (· * ·)) hT.mul hl h1]⟩

/-- C114: `dot_prod(A, B) = dot_prod(B, A)`. -/
theorem C114_dot_comm (hT : Through φ ar) (hs : Store.Ok s) {t u : Tm α d} (ht : Accepted s t)
    (hu : Accepted s u) (hd : (t.meaning s).dims = (u.meaning s).dims) {v w : α}
    (hv : DotIs b ar s t u v) (hw : DotIs b ar s u t w) : φ v = φ w := by
  rw [(dot_tm hT hs ht hu hd hv).2.2, (dot_tm hT hs hu ht hd.symm hw).2.2, flat_len_eq hd]
  exact sum_congr rfl (fun i _ => mul_comm _ _)

/-- C114: `dot_prod(A + B, C) = dot_prod(A, C) + dot_prod(B, C)` and
`dot_prod(c * A, B) = c * dot_prod(A, B)`. -/
theorem C114_dot_linear (hT : Through φ ar) (hs : Store.Ok s) {t u w : Tm α d} (ht : Accepted s t)
    (hu : Accepted s u) (hw : Accepted s w) (hd : (t.meaning s).dims = (u.meaning s).dims)
    (hd' : (u.meaning s).dims = (w.meaning s).dims) (c : α) {x y v : α} (hy : DotIs b ar s u w y) :
    (DotIs b ar s t w x → DotIs b ar s (.binary ar.add t u) w v → φ v = φ x + φ y) ∧
    (DotIs b ar s (.scalarL ar.mul c u) w v → φ v = φ c * φ y) := by
  have e2 := (dot_tm hT hs hu hw hd' hy).2.2
  constructor
  · intro hx hv
    have e1 := (dot_tm hT hs ht hw (hd.trans hd') hx).2.2
    have hz : (Sem.zip ar.add (t.meaning s) (u.meaning s)).dims = (t.meaning s).dims := zip_dims_left ar.add hd
    obtain ⟨g, _, e3⟩ := dot_tm hT hs (t := .binary ar.add t u) ⟨⟨ht.1, hu.1⟩, ht.2, hu.2, hd⟩ hw
      (hz.trans (hd.trans hd')) hv
    have e : ((Tm.binary ar.add t u).meaning s).flat = _ := flat_zip ar.add hd
    have hl := flat_len_eq hd
    rw [e] at g e3
    rw [e3, e1, e2, List.length_zipWith, ← hl, Nat.min_self, ← sum_add_distrib]
    refine sum_congr rfl (fun i hi => ?_)
    have hi : i < (t.meaning s).flat.length := by simpa using hi
    rw [← add_mul]
    congr 1
    have hi' : i < (u.meaning s).flat.length := by omega
    have gg := good_getD g (i := i) (by simp; omega)
    rw [getD_zipWith hi hi'] at gg ⊢
    rw [val_both (g := (· + ·)) hT.add gg, getD_lt hi, getD_lt hi']
  · intro hv
    have hz : ((u.meaning s).map (fun y => ar.mul c y)).dims = (u.meaning s).dims := map_dims _ _
    obtain ⟨g, _, e3⟩ := dot_tm hT hs (t := .scalarL ar.mul c u) hu hw (hz.trans hd') hv
    have e : ((Tm.scalarL ar.mul c u).meaning s).flat = _ := flat_map (fun y => ar.mul c y) (u.meaning s)
    rw [e] at g e3
    rw [e3, e2, List.length_map, mul_sum]
    refine sum_congr rfl (fun i hi => ?_)
    have hi : i < (u.meaning s).flat.length := by simpa using hi
    rw [← mul_assoc]
    congr 1
    have gg := good_getD g (i := i) (by simpa using hi)
    rw [getD_lt (by simpa using hi), List.getElem_map] at gg ⊢
    rw [getD_lt hi]
    obtain ⟨w', hw'⟩ := gg
    rw [hw']
    rw [Res.bind_eq_ok] at hw'
    obtain ⟨q, h1, h2⟩ := hw'
    rw [h1]
    exact hT.mul _ _ _ h2

/-- C114: a dot product with a unit vector is an element: `dot_prod(e_unit(k, n), x) = x[k]`. -/
theorem C114_dot_unit (hT : Through φ ar) (hs : Store.Ok s) {t : Tm α .one} (ht : Accepted s t) {k : Nat}
    (he : Accepted s (.eUnit ar k ((t.meaning s).dims.1 : Nat) : Tm α .one)) {v w : α}
    (hv : DotIs b ar s (.eUnit ar k ((t.meaning s).dims.1 : Nat)) t v) (hw : ElemIs b s t k w) : φ v = φ w := by
  obtain ⟨hk, e⟩ := elem_tm hs ht hw
  have hlen : List.length ((Tm.eUnit ar k ((t.meaning s).dims.1 : Nat) : Tm α .one).meaning s) =
      List.length (t.meaning s) := by
    show ((List.range _).map _).length = _
    rw [List.length_map, List.length_range, Int.toNat_natCast]
    rfl
  obtain ⟨g, _, e3⟩ := dot_tm hT hs he ht (by rw [Prod.ext_iff]; exact ⟨hlen, rfl⟩) hv
  rw [e3, show ((Tm.eUnit ar k ((t.meaning s).dims.1 : Nat) : Tm α .one).meaning s).flat.length =
    List.length (t.meaning s) from hlen, sum_eq_single k]
  · have e1 : (Sem.flat ((Tm.eUnit ar (k : Int) ((t.meaning s).dims.1 : Nat) : Tm α .one).meaning s)).getD k .ub =
      .ok ar.one := by
      refine (getD_range_map (by rw [Int.toNat_natCast]; exact hk)).trans ?_
      rw [if_pos rfl]
    rw [e1, show (Sem.flat (t.meaning s)).getD k .ub = .ok w from e]
    show φ ar.one * φ w = _
    rw [hT.one, one_mul]
  · intro i hi hne
    have e1 : (Sem.flat ((Tm.eUnit ar (k : Int) ((t.meaning s).dims.1 : Nat) : Tm α .one).meaning s)).getD i .ub =
      .ok ar.zero := by
      refine (getD_range_map (by rw [Int.toNat_natCast]; exact mem_range.1 hi)).trans ?_
      rw [if_neg (by exact_mod_cast hne)]
    rw [e1]
    show φ ar.zero * _ = _
    rw [hT.zero, zero_mul]
  · intro hn
    exact absurd (mem_range.2 hk) hn

/-! ### Matrix-vector products -/

theorem elem_matvec (hT : Through φ ar) (hs : Store.Ok s) {A : Tm α .two} {x : Tm α .one}
    (h : Accepted s (.matvec ar A x)) {k : Nat} {v : α} (hv : ElemIs b s (.matvec ar A x) k v) :
    k < Mat.m (A.meaning s) ∧ (∀ j < Mat.n (A.meaning s), Good (Mat.el (A.meaning s) k j)) ∧
    (∀ y ∈ (x.meaning s).flat, Good y) ∧ φ v = ∑ j ∈ range (Mat.n (A.meaning s)),
      Algebra.val φ (Mat.el (A.meaning s) k j) * Algebra.val φ ((x.meaning s).flat.getD j .ub) := by
  obtain ⟨hk, e⟩ := elem_tm hs h hv
  have hk' : k < Mat.m (A.meaning s) := by
    have : List.length ((Tm.matvec ar A x).meaning s) = Mat.m (A.meaning s) := by
      show ((List.range _).map _).length = _
      simp
    omega
  have e' : inner ar (Mat.row (A.meaning s) k) (x.meaning s) = .ok v := (getD_range_map hk').symm.trans e
  obtain ⟨h1, h2, h3⟩ := matvec_val hT (M := A.meaning s) (x := x.meaning s) h.2.2.2 ⟨v, e'⟩
  exact ⟨hk', h1, h2, (val_good e').symm.trans h3⟩

/-- C114: `matvec_prod(A, x + y)` is `matvec_prod(A, x) + matvec_prod(A, y)`, element by element; likewise
`matvec_prod(A, c * x)` is `c * matvec_prod(A, x)`. -/
theorem C114_matvec_linear (hT : Through φ ar) (hs : Store.Ok s) {A : Tm α .two} {x y : Tm α .one} (c : α)
    (hA : Accepted s (.matvec ar A x)) (hB : Accepted s (.matvec ar A y)) {k : Nat} {p q v : α}
    (hp : ElemIs b s (.matvec ar A x) k p) (hq : ElemIs b s (.matvec ar A y) k q) :
    (ElemIs b s (.matvec ar A (.binary ar.add x y)) k v → φ v = φ p + φ q) ∧
    (ElemIs b s (.matvec ar A (.scalarL ar.mul c x)) k v → φ v = φ c * φ p) := by
  obtain ⟨_, _, _, e1⟩ := elem_matvec hT hs hA hp
  obtain ⟨_, _, _, e2⟩ := elem_matvec hT hs hB hq
  have hx : Mat.n (A.meaning s) = List.length (x.meaning s) := hA.2.2.2
  have hy : Mat.n (A.meaning s) = List.length (y.meaning s) := hB.2.2.2
  have hxy : (x.meaning s).dims = (y.meaning s).dims := Prod.ext_iff.2 ⟨hx.symm.trans hy, rfl⟩
  constructor
  · intro hv
    have hz : (Sem.zip ar.add (x.meaning s) (y.meaning s)).dims = (x.meaning s).dims := zip_dims_left ar.add hxy
    obtain ⟨_, _, g, e3⟩ := elem_matvec hT hs (A := A) (x := .binary ar.add x y)
      ⟨⟨hA.1.1, hA.1.2, hB.1.2⟩, hA.2.1, ⟨hA.2.2.1, hB.2.2.1, hxy⟩,
        hA.2.2.2.trans (congrArg Prod.fst hz).symm⟩ hv
    have e : ((Tm.binary ar.add x y).meaning s).flat = _ := flat_zip ar.add hxy
    rw [e] at g e3
    rw [e3, e1, e2, ← sum_add_distrib]
    refine sum_congr rfl (fun i hi => ?_)
    have hi : i < Mat.n (A.meaning s) := by simpa using hi
    have h1 : i < (x.meaning s).flat.length := by rw [hx] at hi; exact hi
    have h2 : i < (y.meaning s).flat.length := by rw [hy] at hi; exact hi
    rw [← mul_add]
    congr 1
    have gg := good_getD g (i := i) (by simp; omega)
    rw [getD_zipWith h1 h2] at gg ⊢
    rw [val_both (g := (· + ·)) hT.add gg, getD_lt h1, getD_lt h2]
  · intro hv
    have hz : ((x.meaning s).map (fun y => ar.mul c y)).dims = (x.meaning s).dims := map_dims _ _
    obtain ⟨_, _, g, e3⟩ := elem_matvec hT hs (A := A) (x := .scalarL ar.mul c x)
      ⟨hA.1, hA.2.1, hA.2.2.1, hA.2.2.2.trans (congrArg Prod.fst hz).symm⟩ hv
    have e : ((Tm.scalarL ar.mul c x).meaning s).flat = _ := flat_map (fun y => ar.mul c y) (x.meaning s)
    rw [e] at g e3
    rw [e3, e1, mul_sum]
    refine sum_congr rfl (fun i hi => ?_)
    have hi : i < Mat.n (A.meaning s) := by simpa using hi
    have h1 : i < (x.meaning s).flat.length := by rw [hx] at hi; exact hi
    rw [mul_left_comm]
    congr 1
    have gg := good_getD g (i := i) (by simpa using h1)
    rw [getD_lt (by simpa using h1), List.getElem_map] at gg ⊢
    rw [getD_lt h1]
    obtain ⟨w', hw'⟩ := gg
    rw [hw']
    rw [Res.bind_eq_ok] at hw'
    obtain ⟨q, h1, h2⟩ := hw'
    rw [h1]
    exact hT.mul _ _ _ h2

/-- C114: the transposed matrix is the adjoint:
`dot_prod(matvec_prod(A, x), y) = dot_prod(x, matvec_prod(transpose(A), y))`. -/
theorem C114_adjoint (hT : Through φ ar) (hs : Store.Ok s) {A : Tm α .two} {x y : Tm α .one}
    (hA : Accepted s (.matvec ar A x)) (hB : Accepted s (.matvec ar (.transpose A) y)) {v w : α}
    (hv : DotIs b ar s (.matvec ar A x) y v) (hw : DotIs b ar s x (.matvec ar (.transpose A) y) w) :
    φ v = φ w := by
  have hx : Mat.n (A.meaning s) = List.length (x.meaning s) := hA.2.2.2
  have hy : Mat.m (A.meaning s) = List.length (y.meaning s) := hB.2.2.2
  have l1 : List.length ((Tm.matvec ar A x).meaning s) = Mat.m (A.meaning s) := by
    show ((List.range _).map _).length = _
    simp
  have l2 : List.length ((Tm.matvec ar (.transpose A) y).meaning s) = Mat.n (A.meaning s) := by
    show ((List.range _).map _).length = _
    simp only [List.length_map, List.length_range]
    rfl
  obtain ⟨g1, _, e1⟩ := dot_tm hT hs hA ⟨hB.1.2, hB.2.2.1⟩ (Prod.ext_iff.2 ⟨l1.trans hy, rfl⟩) hv
  obtain ⟨_, g2, e2⟩ := dot_tm hT hs ⟨hA.1.2, hA.2.2.1⟩ hB (Prod.ext_iff.2 ⟨hx.symm.trans l2.symm, rfl⟩) hw
  rw [e1, e2]
  have n1 : (Sem.flat ((Tm.matvec ar A x).meaning s)).length = Mat.m (A.meaning s) := l1
  have n2 : (Sem.flat (x.meaning s)).length = Mat.n (A.meaning s) := hx.symm
  rw [n1, n2]
  have r1 : ∀ i ∈ range (Mat.m (A.meaning s)), Algebra.val φ ((Sem.flat ((Tm.matvec ar A x).meaning s)).getD i .ub) =
      ∑ j ∈ range (Mat.n (A.meaning s)),
        Algebra.val φ (Mat.el (A.meaning s) i j) * Algebra.val φ ((x.meaning s).flat.getD j .ub) := by
    intro i hi
    have hi := mem_range.1 hi
    have gg := good_getD g1 (i := i) (by rw [n1]; exact hi)
    have e : (Sem.flat ((Tm.matvec ar A x).meaning s)).getD i .ub = inner ar (Mat.row (A.meaning s) i) (x.meaning s) :=
      getD_range_map hi
    rw [e] at gg ⊢
    exact (matvec_val hT (M := A.meaning s) (x := x.meaning s) hx gg).2.2
  have r2 : ∀ j ∈ range (Mat.n (A.meaning s)),
      Algebra.val φ ((Sem.flat ((Tm.matvec ar (.transpose A) y).meaning s)).getD j .ub) =
      ∑ i ∈ range (Mat.m (A.meaning s)),
        Algebra.val φ (Mat.el (A.meaning s) i j) * Algebra.val φ ((y.meaning s).flat.getD i .ub) := by
    intro j hj
    have hj := mem_range.1 hj
    have gg := good_getD g2 (i := j) (lt_of_lt_of_eq hj l2.symm)
    have e : (Sem.flat ((Tm.matvec ar (.transpose A) y).meaning s)).getD j .ub =
      inner ar (Mat.row (Mat.transposed (A.meaning s)) j) (y.meaning s) := getD_range_map hj
    rw [e] at gg ⊢
    exact (matvec_val hT (M := Mat.transposed (A.meaning s)) (x := y.meaning s) hy gg).2.2
  exact adjoint_sum r1 r2

/-- C114: multiplying by the identity changes nothing. -/
theorem C114_matvec_identity (hT : Through φ ar) (hs : Store.Ok s) {x : Tm α .one} {n : Int}
    (hA : Accepted s (.matvec ar (.identity ar n) x)) {k : Nat} {p v : α}
    (hp : ElemIs b s x k p) (hv : ElemIs b s (.matvec ar (.identity ar n) x) k v) : φ v = φ p := by
  obtain ⟨hk, _, _, e⟩ := elem_matvec hT hs hA hv
  obtain ⟨_, ep⟩ := elem_tm hs ⟨hA.1.2, hA.2.2.1⟩ hp
  have hk : k < n.toNat := hk
  rw [e]
  show ∑ j ∈ range n.toNat, Algebra.val φ (Res.ok (if k = j then ar.one else ar.zero)) * _ = _
  rw [sum_eq_single k]
  · rw [if_pos rfl, show (Sem.flat (x.meaning s)).getD k .ub = .ok p from ep]
    show φ ar.one * φ p = _
    rw [hT.one, one_mul]
  · intro j _ hne
    rw [if_neg (Ne.symm hne)]
    show φ ar.zero * _ = _
    rw [hT.zero, zero_mul]
  · intro hn
    exact absurd (mem_range.2 hk) hn

/-! ### Tensor products, constants, sequences -/

/-- C114: `sum(tensor_prod(x, y)) = sum(x) * sum(y)`. -/
theorem C114_sum_tensor (hT : Through φ ar) (hs : Store.Ok s) {x y : Tm α .one}
    (h : Accepted s (.tensor ar x y)) {p q v : α} (hp : SumIs b ar s x p) (hq : SumIs b ar s y q)
    (hv : SumIs b ar s (.tensor ar x y) v) : φ v = φ p * φ q := by
  rw [(sum_tm hT hs ⟨h.1.1, h.2.1⟩ hp).2, (sum_tm hT hs ⟨h.1.2.1, h.2.2⟩ hq).2]
  obtain ⟨g, e⟩ := sum_tm hT hs h hv
  have g := (flat_good (M := (Tm.tensor ar x y).meaning s)).1 g
  rw [e]
  refine (S_flat _).trans ?_
  rw [S_eq, S_eq, sum_mul_sum]
  refine sum_congr rfl (fun i hi => sum_congr rfl (fun j hj => ?_))
  exact val_both (g := (· * ·)) hT.mul (g i (mem_range.1 hi) j (mem_range.1 hj))

/-- C114: the sum of `n` equal elements is `n` times the element; the sum of an arithmetic sequence is
given by the usual formula; a unit vector sums to one and an identity matrix to its size. -/
theorem C114_sum_special (hT : Through φ ar) (hs : Store.Ok s) {n : Nat} {k : Int} {c incr v : α} :
    (Accepted s (.const1D n c : Tm α .one) → SumIs b ar s (.const1D n c) v → φ v = n * φ c) ∧
    (Accepted s (.sequence ar n c incr : Tm α .one) → SumIs b ar s (.sequence ar n c incr) v →
      2 * φ v = n * (2 * φ c + (n - 1) * φ incr)) ∧
    (Accepted s (.eUnit ar k n : Tm α .one) → SumIs b ar s (.eUnit ar k n) v → φ v = 1) ∧
    (Accepted s (.identity ar n : Tm α .two) → SumIs b ar s (.identity ar n) v → φ v = n) := by
  refine ⟨fun h hv => ?_, fun h hv => ?_, fun h hv => ?_, fun h hv => ?_⟩
  · rw [(sum_tm hT hs h hv).2]
    show S φ (List.replicate ((n : Int)).toNat (Res.ok c)) = _
    simp [S, Algebra.val]
  · obtain ⟨g, e⟩ := sum_tm hT hs h hv
    rw [e]
    show 2 * S φ ((List.range ((n : Int)).toNat).map _) = _
    rw [Int.toNat_natCast, S_range, ← gauss]
    congr 1
    refine sum_congr rfl (fun i hi => ?_)
    obtain ⟨w, hw⟩ := g _ (List.mem_map.2 ⟨i, List.mem_range.2 (by simpa using hi), rfl⟩)
    rw [hw]
    simp only [Res.bind_eq_ok] at hw
    obtain ⟨u, h1, q, h2, h3⟩ := hw
    show φ w = _
    rw [hT.add _ _ _ h3, hT.mul _ _ _ h2, hT.ofIndex _ _ h1, Int.cast_natCast]
  · rw [(sum_tm hT hs h hv).2]
    obtain ⟨h1, h2⟩ := h.2
    obtain ⟨k, rfl⟩ := Int.eq_ofNat_of_zero_le h1
    show S φ ((List.range ((n : Int)).toNat).map _) = _
    rw [Int.toNat_natCast, S_range, sum_eq_single k]
    · rw [if_pos rfl]
      exact hT.one
    · intro j _ hne
      rw [if_neg (by exact_mod_cast hne)]
      exact hT.zero
    · intro hn
      exact absurd (mem_range.2 (by exact_mod_cast h2)) hn
  · rw [(sum_tm hT hs h hv).2]
    refine (S_flat _).trans ?_
    show ∑ i ∈ range ((n : Int)).toNat, ∑ j ∈ range ((n : Int)).toNat,
      Algebra.val φ (Res.ok (if i = j then ar.one else ar.zero)) = _
    rw [Int.toNat_natCast]
    have : ∀ i ∈ range n, ∑ j ∈ range n, Algebra.val φ (Res.ok (if i = j then ar.one else ar.zero)) = 1 := by
      intro i hi
      rw [sum_eq_single i]
      · rw [if_pos rfl]; exact hT.one
      · intro j _ hne
        rw [if_neg (Ne.symm hne)]
        exact hT.zero
      · intro hn
        exact absurd hi hn
    rw [sum_congr rfl this]
    simp

/-! ### Products -/

/-- C114: for objects with elements, `prod(merge(A, B)) = prod(A) * prod(B)`,
`prod(A * B) = prod(A) * prod(B)`, and a slice that selects every element once has the same product. -/
theorem C114_prod (hT : Through φ ar) (hs : Store.Ok s) {t u : Tm α .one} (ht : Accepted s t)
    (hu : Accepted s u) (h1 : (t.meaning s).dims.1 ≠ 0) (h2 : (u.meaning s).dims.1 ≠ 0) {r : SliceReq} {x y v : α}
    (hx : ProdIs b ar s t x) (hy : ProdIs b ar s u y) :
    (Accepted s (.merge t u) → ProdIs b ar s (.merge t u) v → φ v = φ x * φ y) ∧
    ((t.meaning s).dims = (u.meaning s).dims → ProdIs b ar s (.binary ar.mul t u) v → φ v = φ x * φ y) ∧
    (Accepted s (.view (.slice r) t) →
      (selection ((t.meaning s).dims.1 : Nat) r).Perm (upto ((t.meaning s).dims.1 : Nat)) →
      ProdIs b ar s (.view (.slice r) t) v → φ v = φ x) := by
  have n1 : (t.meaning s).flat ≠ [] := fun e => h1 (congrArg List.length e)
  have n2 : (u.meaning s).flat ≠ [] := fun e => h2 (congrArg List.length e)
  have hx := (prod_tm hT hs ht hx).resolve_left (fun h => n1 h.1)
  have hy := (prod_tm hT hs hu hy).resolve_left (fun h => n2 h.1)
  rw [hx.2.2, hy.2.2]
  refine ⟨fun hm h => ?_, fun hd h => ?_, fun hm hr h => ?_⟩
  · have e : ((Tm.merge t u).meaning s).flat = (t.meaning s).flat ++ (u.meaning s).flat := rfl
    have := (prod_tm hT hs hm h).resolve_left (fun h => n1 (List.append_eq_nil_iff.1 (e ▸ h.1)).1)
    rw [this.2.2, ← P_append]
    rfl
  · have e : ((Tm.binary ar.mul t u).meaning s).flat = _ := flat_zip ar.mul hd
    have hl := flat_len_eq hd
    have n3 : ((Tm.binary ar.mul t u).meaning s).flat ≠ [] := by
      intro h0
      rw [e] at h0
      have := congrArg List.length h0
      rw [List.length_zipWith, ← hl, Nat.min_self, List.length_nil] at this
      exact n1 (List.length_eq_zero_iff.1 this)
    obtain ⟨_, g, e3⟩ := (prod_tm hT hs (t := .binary ar.mul t u) ⟨⟨ht.1, hu.1⟩, ht.2, hu.2, hd⟩ h).resolve_left
      (fun h => n3 h.1)
    rw [e] at g e3
    rw [e3]
    exact P_zip hT hl g
  · have hp := S_picks (l := t.meaning s) hr
    have n3 : ((Tm.view (.slice r) t).meaning s).flat ≠ [] := by
      intro h0
      have := hp.length_eq
      rw [show ((selection ((t.meaning s).dims.1 : Nat) r).map (pick (t.meaning s))) = [] from h0] at this
      exact h1 this.symm
    rw [((prod_tm hT hs hm h).resolve_left (fun h => n3 h.1)).2.2]
    exact P_perm hp

/-- C114: without elements the product is zero, not one, so the law for `merge` fails there. -/
theorem C114_prod_empty (hs : Store.Ok s) {t : Tm α d} (ht : Accepted s t) (h : (t.meaning s).flat = []) :
    ProdIs b ar s t ar.zero := by
  obtain ⟨a, h1, h2⟩ := den b hs ht
  refine ⟨a, h1, ?_⟩
  have := (linDen_of h2).1
  unfold Ops.prod Ops.foldElems
  rw [Acc.empty, this, h]
  rfl

/-! ### The hypotheses can be met -/

section
open Spp.Sample

/-- Signed 32-bit integers. -/
def ints32 : Arith Int := signedInts ⟨false, true, false⟩ .int

/-- Unsigned 32-bit integers. -/
def uints32 : Arith Int := signedInts ⟨false, true, false⟩ .uint

example : (6 : Int) + 15 = 21 :=
  ((C114_sum_add (C114_signed ⟨false, true, false⟩ (t := .int) rfl) store_ok (t := x) (u := y)
    ⟨by decide, by decide⟩ ⟨by decide, by decide⟩ (by decide) (b := ⟨false, true, false⟩)
    ⟨_, rfl, rfl⟩ ⟨_, rfl, rfl⟩).1 ⟨_, rfl, rfl⟩).symm

example : SumIs ⟨false, true, false⟩ ints32 store (.binary ints32.add x y) 21 ∧
    SumIs ⟨false, true, false⟩ ints32 store (.merge x y) 21 ∧
    SumIs ⟨false, true, false⟩ ints32 store (.scalarL ints32.mul 3 x) 18 ∧
    SumIs ⟨false, true, false⟩ ints32 store (.transpose A) 21 ∧
    SumIs ⟨false, true, false⟩ ints32 store (.reduce true (sumFn ints32) A) 21 ∧
    SumIs ⟨false, true, false⟩ ints32 store (.reduce false (sumFn ints32) A) 21 ∧
    SumIs ⟨false, true, false⟩ ints32 store (.tensor ints32 x y) 90 ∧
    SumIs ⟨false, true, false⟩ ints32 store (.view (.slice .even) x) 4 ∧
    SumIs ⟨false, true, false⟩ ints32 store (.view (.slice .odd) x) 2 ∧
    SumIs ⟨false, true, false⟩ ints32 store (.sequence ints32 5 2 3) 40 ∧
    DotIs ⟨false, true, false⟩ ints32 store x y 32 ∧ DotIs ⟨false, true, false⟩ ints32 store y x 32 ∧
    ProdIs ⟨false, true, false⟩ ints32 store (.merge x y) 720 :=
  ⟨⟨_, rfl, rfl⟩, ⟨_, rfl, rfl⟩, ⟨_, rfl, rfl⟩, ⟨_, rfl, rfl⟩, ⟨_, rfl, rfl⟩, ⟨_, rfl, rfl⟩, ⟨_, rfl, rfl⟩,
    ⟨_, rfl, rfl⟩, ⟨_, rfl, rfl⟩, ⟨_, rfl, rfl⟩, ⟨_, _, rfl, rfl, rfl⟩, ⟨_, _, rfl, rfl, rfl⟩, ⟨_, rfl, rfl⟩⟩

example : (14 : Int) + 32 * 1 = 46 ∧
    DotIs ⟨false, true, false⟩ ints32 store (.matvec ints32 A x) (.const1D 2 1) 46 ∧
    DotIs ⟨false, true, false⟩ ints32 store x (.matvec ints32 (.transpose A) (.const1D 2 1)) 46 ∧
    Accepted store (.matvec ints32 A x) ∧ Accepted store (.matvec ints32 (.transpose A) (.const1D 2 1)) ∧
    ElemIs ⟨false, true, false⟩ store (.matvec ints32 A x) 1 32 ∧
    ElemIs ⟨false, true, false⟩ store (.matvec ints32 (.identity ints32 3) x) 1 2 :=
  ⟨rfl, ⟨_, _, rfl, rfl, rfl⟩, ⟨_, _, rfl, rfl, rfl⟩, ⟨by decide, by decide⟩, ⟨by decide, by decide⟩,
    ⟨_, rfl, by decide, rfl⟩, ⟨_, rfl, by decide, rfl⟩⟩

-- the product of `merge(x, empty)` is 6, but the product of the empty array is 0
example : ProdIs ⟨false, true, false⟩ ints32 store (.merge x (.const1D 0 1)) 6 ∧
    ProdIs ⟨false, true, false⟩ ints32 store x 6 ∧ ProdIs ⟨false, true, false⟩ ints32 store (.const1D 0 1) 0 :=
  ⟨⟨_, rfl, rfl⟩, ⟨_, rfl, rfl⟩, ⟨_, rfl, rfl⟩⟩

-- the laws with unsigned numbers wrap around: the sum of 2^32 - 1 and 2 is 1
example : SumIs ⟨false, true, false⟩ uints32 store (.append (.const1D 1 4294967295) 2) 1 := ⟨_, rfl, rfl⟩

end

end Spp.Props
