import Verif.Lemmas.Random
import Verif.Spec.RandomAll
import Mathlib.Tactic.Ring
import Mathlib.Tactic.LinearCombination

namespace Spp
open Spec Semi

theorem after_mod8 (p : Int) : after p % 8 = 5 := generated_mod8 p

theorem after_iter_bounds (n : Nat) (p : Int) : 0 ≤ after^[n + 1] p ∧ after^[n + 1] p < 10000000 := by
  rw [Function.iterate_succ_apply']; exact after_bounds _

theorem after_three (p : Int) : after^[3] p % 128 = 53 := by
  have h1 := after_bounds p
  have h2 := after_mod8 p
  show after (after (after p)) % 128 = 53
  have h3 : after (after p) % 64 = 53 := by
    rw [after_next h1.1 h1.2]; unfold nextState; omega
  have h4 := after_bounds (after p)
  rw [after_next h4.1 h4.2]; unfold nextState; omega

theorem after_closed {x : Int} (h0 : 0 ≤ x) (h1 : x < 10000000) (n : Nat) :
    0 ≤ after^[n] x ∧ after^[n] x < 10000000 ∧
    (10000000 : Int) ∣ (7 * after^[n] x + 13) - 8 ^ n * (7 * x + 13) := by
  induction n with
  | zero => exact ⟨h0, h1, by simp⟩
  | succ n ih =>
    obtain ⟨g0, g1, k, hk⟩ := ih
    rw [Function.iterate_succ_apply']
    obtain ⟨j0, j1⟩ := after_bounds (after^[n] x)
    refine ⟨j0, j1, ?_⟩
    rw [after_next g0 g1]
    generalize after^[n] x = y at *
    have e : nextState y = 8 * y + 13 - 10000000 * ((8 * y + 13) / 10000000) := by
      unfold nextState; omega
    generalize (8 * y + 13) / 10000000 = m at *
    rw [e, pow_succ]
    refine ⟨8 * k - 7 * m, ?_⟩
    linear_combination 8 * hk

theorem pow_five : (8 : Int) ^ 62500 % 78125 = 1 := by decide +kernel

theorem cycle_eq (m k : Int) : (1 + 78125 * m) * (7 * (128 * k + 53) + 13) =
    (7 * (128 * k + 53) + 13) + 10000000 * (m * (7 * k + 3)) := by ring

theorem cycle_end {x y q r : Int} (h0 : 0 ≤ x) (h1 : x < 10000000) (g0 : 0 ≤ y) (g1 : y < 10000000)
    (hr : 7 * y + 13 - (7 * x + 13 + 10000000 * q) = 10000000 * r) : y = x := by omega

theorem cycle_arith {x y P : Int} (hp : P % 78125 = 1) (h0 : 0 ≤ x) (h1 : x < 10000000) (h2 : x % 128 = 53)
    (g0 : 0 ≤ y) (g1 : y < 10000000) (g2 : ∃ r, (7 * y + 13) - P * (7 * x + 13) = 10000000 * r) : y = x := by
  have hm : P = 1 + 78125 * (P / 78125) := by omega
  have hk : x = 128 * (x / 128) + 53 := by omega
  obtain ⟨r, hr⟩ := g2
  have e : P * (7 * x + 13) = (7 * x + 13) + 10000000 * (P / 78125 * (7 * (x / 128) + 3)) := by
    have := cycle_eq (P / 78125) (x / 128)
    rwa [← hm, ← hk] at this
  rw [e] at hr
  exact cycle_end h0 h1 g0 g1 hr

theorem after_cycle {N : Nat} (hp : (8 : Int) ^ N % 78125 = 1) {x : Int} (h0 : 0 ≤ x) (h1 : x < 10000000)
    (h2 : x % 128 = 53) : after^[N] x = x := by
  obtain ⟨g0, g1, g2⟩ := after_closed h0 h1 N
  exact cycle_arith hp h0 h1 h2 g0 g1 g2

theorem after_period {x : Int} (h0 : 0 ≤ x) (h1 : x < 10000000) (h2 : x % 128 = 53) : after^[62500] x = x :=
  after_cycle pow_five h0 h1 h2

theorem after_repeats (p : Int) {n : Nat} (hn : 3 ≤ n) : after^[n + 62500] p = after^[n] p := by
  obtain ⟨k, rfl⟩ : ∃ k, n = k + 3 := ⟨n - 3, by omega⟩
  rw [show k + 3 + 62500 = k + (62500 + 3) by omega, Function.iterate_add_apply after k, Function.iterate_add_apply after 62500,
    Function.iterate_add_apply after k]
  obtain ⟨h0, h1⟩ := after_iter_bounds 2 p
  rw [after_period h0 h1 (after_three p)]

theorem draws_one {α : Type} {draw : Int → Res (α × Int)} {b : Build} {f : Int → Res α}
    (h : ∀ p, draw p = (do let q ← generate b p; let v ← f q; pure (v, q))) (k : Nat) {p p' : Int} {l : List α}
    (hd : draws draw k p = .ok (l, p')) :
    l.length = k ∧ ∀ i (hi : i < l.length), f (after^[i + 1] p) = .ok l[i] := by
  induction k generalizing p l with
  | zero => cases hd; exact ⟨rfl, fun i hi => absurd hi (Nat.not_lt_zero _)⟩
  | succ k ih =>
    rw [draws, h, show generate b p = .ok (after p) from generate_ok b p, Res.ok_bind] at hd
    cases hv : f (after p) with
    | trap _ => rw [hv] at hd; cases hd
    | ub => rw [hv] at hd; cases hd
    | ok v =>
      simp only [hv, Res.ok_bind, Res.pure_eq] at hd
      cases hr : draws draw k (after p) with
      | trap _ => rw [hr] at hd; cases hd
      | ub => rw [hr] at hd; cases hd
      | ok r =>
        obtain ⟨l', q⟩ := r
        rw [hr] at hd
        cases hd
        obtain ⟨g1, g2⟩ := ih hr
        refine ⟨by simp [g1], fun i hi => ?_⟩
        cases i with
        | zero => exact hv
        | succ i =>
          have := g2 i (by simpa using hi)
          rwa [Function.iterate_succ_apply]

theorem draws_two {α : Type} {draw : Int → Res (α × Int)} {b : Build} {f : Int → Int → Res α}
    (h : ∀ p, draw p = (do let q ← generate b p; let r ← generate b q; let v ← f q r; pure (v, r))) (k : Nat)
    {p p' : Int} {l : List α} (hd : draws draw k p = .ok (l, p')) :
    l.length = k ∧ ∀ i (hi : i < l.length), f (after^[2 * i + 1] p) (after^[2 * i + 2] p) = .ok l[i] := by
  induction k generalizing p l with
  | zero => cases hd; exact ⟨rfl, fun i hi => absurd hi (Nat.not_lt_zero _)⟩
  | succ k ih =>
    rw [draws, h, show generate b p = .ok (after p) from generate_ok b p, Res.ok_bind,
      show generate b (after p) = .ok (after (after p)) from generate_ok b _, Res.ok_bind] at hd
    cases hv : f (after p) (after (after p)) with
    | trap _ => rw [hv] at hd; cases hd
    | ub => rw [hv] at hd; cases hd
    | ok v =>
      simp only [hv, Res.ok_bind, Res.pure_eq] at hd
      cases hr : draws draw k (after (after p)) with
      | trap _ => rw [hr] at hd; cases hd
      | ub => rw [hr] at hd; cases hd
      | ok r =>
        obtain ⟨l', q⟩ := r
        rw [hr] at hd
        cases hd
        obtain ⟨g1, g2⟩ := ih hr
        refine ⟨by simp [g1], fun i hi => ?_⟩
        cases i with
        | zero => exact hv
        | succ i =>
          have := g2 i (by simpa using hi)
          rw [show 2 * (i + 1) + 1 = 2 * i + 1 + 2 by omega, show 2 * (i + 1) + 2 = 2 * i + 2 + 2 by omega,
            Function.iterate_add_apply after _ 2, Function.iterate_add_apply after (2 * i + 2) 2]
          exact this

/-- Draws that start from states with the same successor are the same. -/
theorem draws_same {α : Type} {draw : Int → Res (α × Int)} {b : Build} (h : Draws b draw) {p q : Int}
    (e : after p = after q) : draw p = draw q := by
  rcases h with ⟨f, h⟩ | ⟨f, h⟩ <;>
    rw [h, h, show generate b p = .ok (after p) from generate_ok b p, show generate b q = .ok (after q) from generate_ok b q, e]

theorem draws_congr {α : Type} {draw : Int → Res (α × Int)} {p q : Int}
    (e : draw p = draw q) (k : Nat) : draws draw (k + 1) p = draws draw (k + 1) q := by
  rw [draws, draws, e]

theorem ints_draw (b : Build) (t : IntTy) (low high : Int) : Draws b (randomInt b t low high) := by
  by_cases h : low = 0 ∧ high = 1
  · refine .inr ⟨fun q r => .ok (if q > r then 0 else 1), fun p => ?_⟩
    simp only [randomInt, h, and_self, if_true, Res.ok_bind]
  · refine .inl ⟨fun q => do
      let d ← SInt.sub t high low
      let n ← SInt.add t d 1
      let k ← SInt.rem b t (SInt.cast t q) n
      SInt.add t low k, fun p => ?_⟩
    simp only [randomInt, if_neg h, bind_assoc]

theorem bools_draw (b : Build) : Draws b (randomBool b) :=
  .inr ⟨fun q r => .ok (if q > r then false else true), fun p => by simp only [randomBool, Res.ok_bind]⟩

theorem floats_draw {K : Type} (b : Build) (sc : Scalar K) (low high : K) : Draws b (randomFloat b sc low high) :=
  .inl ⟨fun r => do
    let x ← sc.ofIndex r
    let m ← sc.ofIndex modulus
    let q ← sc.div x m
    let d ← sc.sub high low
    let y ← sc.mul q d
    sc.add low y, fun p => by simp only [randomFloat, bind_assoc]⟩

theorem seed_first {k k' : Int} (h0 : 0 ≤ k) (h1 : k ≤ 5368) (h0' : 0 ≤ k') (h1' : k' ≤ 5368)
    (h : k % 25 = k' % 25) : after ((k * 100000) % 2 ^ 32) = after ((k' * 100000) % 2 ^ 32) := by
  have e : ∀ j : Int, 0 ≤ j → j ≤ 5368 → after ((j * 100000) % 2 ^ 32) = (800000 * j + 13) % 10000000 := by
    intro j hj hj'
    have e1 : (j * 100000) % 2 ^ 32 = j * 100000 := Int.emod_eq_of_lt (by omega) (by omega)
    have e2 : (8 * (j * 100000) + 13) % 2 ^ 32 = 800000 * j + 13 := by
      rw [Int.emod_eq_of_lt (by omega) (by omega)]; ring
    rw [after, e1, e2]
  rw [e k h0 h1, e k' h0' h1']
  omega

end Spp
