import Verif.Spec.Random
import Verif.Lemmas.Ints
import Mathlib.Logic.Function.Iterate

set_option linter.unusedSectionVars false

namespace Spp.Semi

open Spec

theorem umul (x y : Int) : SInt.mul .uint x y = .ok (x * y % 4294967296) := rfl
theorem uadd (x y : Int) : SInt.add .uint x y = .ok ((x + y) % 4294967296) := rfl

theorem urem (b : Build) {x y : Int} (hx : 0 ≤ x) (hx' : x < 4294967296) (hy : 0 < y) :
    SInt.rem b .uint x y = .ok (x % y) := by
  have h0 : y ≠ 0 := by omega
  have h1 : x.tdiv y = x / y := Int.tdiv_eq_ediv_of_nonneg hx
  have h2 : 0 ≤ x / y := Int.ediv_nonneg hx (by omega)
  have h3 : x / y ≤ x := Int.ediv_le_self _ hx
  have hh : IntTy.uint.Holds (x / y) := by
    show (0 : Int) ≤ x / y ∧ x / y ≤ 2 ^ 32 - 1
    omega
  simp only [SInt.rem, bne_iff_ne, ne_eq, h0, not_false_eq_true, SInt.builtinRem, if_false, h1, hh, if_true,
    Int.tmod_eq_emod_of_nonneg hx]
  have : (y != 0) = true := by simpa using h0
  rw [this, assertDebug_true]
  rfl

theorem seeded_ok (clock seed : Int) : seeded clock seed = .ok (((clock + seed) * 100000) % 2 ^ 32) := by
  simp only [seeded, umul, uadd, Res.ok_bind]
  congr 1
  omega

theorem generate_ok (b : Build) (p : Int) : generate b p = .ok (((8 * p + 13) % 2 ^ 32) % 10000000) := by
  simp only [generate, umul, uadd, Res.ok_bind, multiplier, increment, modulus]
  rw [urem b (by omega) (by omega) (by decide)]
  congr 1
  omega

theorem generate_next (b : Build) {p : Int} (h0 : 0 ≤ p) (h1 : p < 10000000) :
    generate b p = .ok (nextState p) := by
  rw [generate_ok]
  congr 1
  unfold nextState
  omega

theorem nextState_bounds (p : Int) : 0 ≤ nextState p ∧ nextState p < 10000000 := by
  unfold nextState; omega

theorem firstState_bounds (c s : Int) : 0 ≤ firstState c s ∧ firstState c s < 10000000 := by
  unfold firstState; omega

theorem firstState_mod (c s : Int) : firstState c s % 128 = 13 := by
  unfold firstState; omega

theorem stateAfter_succ (c s : Int) (n : Nat) : stateAfter c s (n + 1) = nextState (stateAfter c s n) :=
  Function.iterate_succ_apply' ..

theorem stateAfter_bounds (c s : Int) (n : Nat) : 0 ≤ stateAfter c s n ∧ stateAfter c s n < 10000000 := by
  cases n with
  | zero => exact firstState_bounds c s
  | succ n => rw [stateAfter_succ]; exact nextState_bounds _

/-- The three low bits of the state are always 5. -/
theorem generated_mod8 (p : Int) : ((8 * p + 13) % 2 ^ 32) % 10000000 % 8 = 5 := by omega

/-- The state after the step that starts from `p`. -/
def after (p : Int) : Int := ((8 * p + 13) % 2 ^ 32) % 10000000

theorem after_bounds (p : Int) : 0 ≤ after p ∧ after p < 10000000 := by unfold after; omega

theorem after_next {p : Int} (h0 : 0 ≤ p) (h1 : p < 10000000) : after p = nextState p := by
  unfold after nextState; omega

theorem after_seeded (c s : Int) : after (((c + s) * 100000) % 2 ^ 32) = firstState c s := rfl

theorem fits_mid {t : IntTy} {a v b : Int} (ha : Fits t a) (hb : Fits t b) (h1 : a ≤ v) (h2 : v ≤ b) :
    Fits t v := by
  refine ⟨fun h => ?_, fun h => ?_⟩
  · have := ha.1 h; have := hb.1 h; omega
  · have := ha.2 h; have := hb.2 h; omega

theorem fits_zero (t : IntTy) : Fits t 0 := by
  have h1 := two_pow_pos (t.bits - 1)
  have h2 := two_pow_pos t.bits
  refine ⟨fun h => ?_, fun h => ?_⟩ <;> omega

theorem srem {b : Build} {t : IntTy} {x y : Int} (hx : 0 ≤ x) (hf : Fits t x) (hy : 0 < y) :
    SInt.rem b t x y = .ok (x % y) := by
  have h0 : y ≠ 0 := by omega
  have h1 : x.tdiv y = x / y := Int.tdiv_eq_ediv_of_nonneg hx
  have h2 : 0 ≤ x / y := Int.ediv_nonneg hx (by omega)
  have h3 : x / y ≤ x := Int.ediv_le_self _ hx
  have hh : t.Holds (x / y) := (holds_iff_fits t _).2 (fits_mid (fits_zero t) hf h2 h3)
  have h4 : (y != 0) = true := by simpa using h0
  simp only [SInt.rem, h4, assertDebug_true, Res.ok_bind, SInt.builtinRem, if_neg h0, h1, hh, if_true,
    Int.tmod_eq_emod_of_nonneg hx]

theorem randomInt_ok (b : Build) {t : IntTy} {low high : Int} (h : GoodRange t low high)
    (h01 : ¬ (low = 0 ∧ high = 1)) (p : Int) :
    randomInt b t low high p = .ok (low + after p % (high - low + 1), after p) := by
  have hle := h.le
  have hn : 0 < high - low + 1 := by omega
  obtain ⟨g0, g1⟩ := after_bounds p
  have hm0 := Int.emod_nonneg (after p) (by omega : high - low + 1 ≠ 0)
  have hm1 := Int.emod_lt_of_pos (after p) hn
  have f1 : Fits t (high - low) := fits_mid (fits_zero t) h.count (by omega) (by omega)
  have f2 : Fits t (after p) := fits_mid (fits_zero t) h.wide g0 (by omega)
  have f3 : Fits t (low + after p % (high - low + 1)) := fits_mid h.lo h.hi (by omega) (by omega)
  have e0 : generate b p = .ok (after p) := generate_ok b p
  have e1 : SInt.sub t high low = .ok (high - low) := arith_of_fits f1
  have e2 : SInt.add t (high - low) 1 = .ok (high - low + 1) := arith_of_fits h.count
  have e3 : SInt.cast t (after p) = after p := wrap_of_fits f2
  have e4 : SInt.add t low (after p % (high - low + 1)) = .ok (low + after p % (high - low + 1)) :=
    arith_of_fits f3
  simp only [randomInt, e0, Res.ok_bind, if_neg h01, e1, e2, e3, srem g0 f2 hn, e4, Res.pure_eq]

theorem randomInt_01 (b : Build) (t : IntTy) (p : Int) :
    randomInt b t 0 1 p =
      .ok (if after p > nextState (after p) then 0 else 1, nextState (after p)) := by
  obtain ⟨g0, g1⟩ := after_bounds p
  have e0 : generate b p = .ok (after p) := generate_ok b p
  simp only [randomInt, e0, Res.ok_bind, generate_next b g0 g1, and_self, if_true, Res.pure_eq]

/-- Every draw is in the range, and the state is below the modulus afterwards. -/
theorem randomInt_range (b : Build) {t : IntTy} {low high : Int} (h : GoodRange t low high) (p : Int) :
    ∃ v p', randomInt b t low high p = .ok (v, p') ∧ low ≤ v ∧ v ≤ high ∧ 0 ≤ p' ∧ p' < 10000000 := by
  by_cases h01 : low = 0 ∧ high = 1
  · obtain ⟨rfl, rfl⟩ := h01
    obtain ⟨g0, g1⟩ := nextState_bounds (after p)
    refine ⟨_, _, randomInt_01 b t p, ?_, ?_, g0, g1⟩ <;> split <;> omega
  · obtain ⟨g0, g1⟩ := after_bounds p
    have hle := h.le
    have hm0 := Int.emod_nonneg (after p) (by omega : high - low + 1 ≠ 0)
    have hm1 := Int.emod_lt_of_pos (after p) (by omega : 0 < high - low + 1)
    exact ⟨_, _, randomInt_ok b h h01 p, by omega, by omega, g0, g1⟩

theorem draws_ok {α G : Type} {draw : G → Res (α × G)} {P : α → Prop}
    (h : ∀ p, ∃ v p', draw p = .ok (v, p') ∧ P v) (k : Nat) (p : G) :
    ∃ l p', draws draw k p = .ok (l, p') ∧ l.length = k ∧ ∀ v ∈ l, P v := by
  induction k generalizing p with
  | zero => exact ⟨[], p, rfl, rfl, by simp⟩
  | succ k ih =>
    obtain ⟨v, p', h1, h2⟩ := h p
    obtain ⟨l, p'', h3, h4, h5⟩ := ih p'
    refine ⟨v :: l, p'', ?_, by simp [h4], ?_⟩
    · simp only [draws, h1, Res.ok_bind, h3, Res.pure_eq]
    · intro w hw
      rcases List.mem_cons.1 hw with rfl | hw
      · exact h2
      · exact h5 w hw

/-- The draws of the plain branch, from a state below the modulus. -/
theorem draws_values (b : Build) {t : IntTy} {low high : Int} (h : GoodRange t low high)
    (h01 : ¬ (low = 0 ∧ high = 1)) (k : Nat) {p : Int} (h0 : 0 ≤ p) (h1 : p < 10000000) :
    draws (randomInt b t low high) k p =
      .ok ((List.range k).map (fun i => low + nextState^[i + 1] p % (high - low + 1)), nextState^[k] p) := by
  induction k generalizing p with
  | zero => rfl
  | succ k ih =>
    obtain ⟨g0, g1⟩ := nextState_bounds p
    simp only [draws, randomInt_ok b h h01, after_next h0 h1, Res.ok_bind, ih g0 g1, Res.pure_eq]
    rw [List.range_succ_eq_map, List.map_cons, List.map_map]
    rfl

theorem untilNot0_returns {α G : Type} {draw : G → Res (α × G)} {z : α → Bool} {P : α → Prop}
    (h : ∀ p v p', draw p = .ok (v, p') → P v) {fuel : Nat} {p : G} {v : α} {p' : G}
    (he : untilNot0 draw z fuel p = .ok (some (v, p'))) : z v = false ∧ P v := by
  induction fuel generalizing p with
  | zero => cases he
  | succ fuel ih =>
    rw [untilNot0] at he
    cases hd : draw p with
    | trap k => rw [hd] at he; cases he
    | ub => rw [hd] at he; cases he
    | ok r =>
      obtain ⟨x, q⟩ := r
      rw [hd] at he
      simp only [Res.ok_bind] at he
      cases hz : z x with
      | true =>
        rw [hz, if_pos rfl] at he
        exact ih he
      | false =>
        rw [hz, if_neg (by simp)] at he
        cases he
        exact ⟨hz, h _ _ _ hd⟩

theorem untilNot0_never {α G : Type} {draw : G → Res (α × G)} {z : α → Bool} {I : G → Prop}
    (h : ∀ p, I p → ∃ v p', draw p = .ok (v, p') ∧ z v = true ∧ I p') (fuel : Nat) {p : G} (hp : I p) :
    untilNot0 draw z fuel p = .ok none := by
  induction fuel generalizing p with
  | zero => rfl
  | succ fuel ih =>
    obtain ⟨v, p', h1, h2, h3⟩ := h p hp
    simp only [untilNot0, h1, Res.ok_bind, h2, if_true]
    exact ih h3

/-! The default range {0, 1}: a search over all reachable first states. -/

/-- Does the loop over {0, 1} end within the given number of rounds when its first number is `x`? -/
def stops : Nat → Nat → Bool
  | 0, _ => false
  | f + 1, x =>
    bif Nat.ble x ((8 * x + 13) % 10000000) then true
    else stops f ((8 * ((8 * x + 13) % 10000000) + 13) % 10000000)

/-- It ends for the first numbers `128 * k + 13` with `base ≤ k < base + 2^n`, `k < 78125`. -/
def stopsFrom : Nat → Nat → Bool
  | 0, base => stops 17 (128 * base + 13)
  | n + 1, base => stopsFrom n base && (Nat.ble 78125 (base + 2 ^ n) || stopsFrom n (base + 2 ^ n))

theorem stopsFrom_spec (n base k : Nat) (h : stopsFrom n base = true) (h1 : base ≤ k) (h2 : k < base + 2 ^ n)
    (h3 : k < 78125) : stops 17 (128 * k + 13) = true := by
  induction n generalizing base with
  | zero =>
    have : k = base := by omega
    subst this
    exact h
  | succ n ih =>
    simp only [stopsFrom, Bool.and_eq_true, Bool.or_eq_true, Nat.ble_eq] at h
    rw [Nat.pow_succ] at h2
    by_cases hk : k < base + 2 ^ n
    · exact ih base h.1 h1 hk
    · rcases h.2 with h' | h'
      · omega
      · exact ih (base + 2 ^ n) h' (by omega) (by omega)

theorem stopsFrom_all : stopsFrom 17 0 = true := by decide +kernel

theorem nextState_nat (x : Nat) : nextState (x : Int) = ((8 * x + 13) % 10000000 : Nat) := by
  unfold nextState; omega

theorem stops_sound (b : Build) (t : IntTy) (f x : Nat) (hx : x < 10000000) (h : stops f x = true) (p : Int)
    (hp : after p = x) :
    ∃ p', untilNot0 (randomInt b t 0 1) (fun x => decide (x = 0)) f p = .ok (some (1, p')) := by
  induction f generalizing x p with
  | zero => cases h
  | succ f ih =>
    rw [stops] at h
    rw [untilNot0, randomInt_01, hp, nextState_nat]
    simp only [Res.ok_bind]
    cases hb : Nat.ble x ((8 * x + 13) % 10000000) with
    | true =>
      have := Nat.le_of_ble_eq_true hb
      have hc : ¬ ((x : Int) > ((8 * x + 13) % 10000000 : Nat)) := by omega
      simp only [if_neg hc]
      exact ⟨_, rfl⟩
    | false =>
      rw [hb] at h
      have hlt : ¬ x ≤ (8 * x + 13) % 10000000 := fun hc => by
        rw [Nat.ble_eq_true_of_le hc] at hb; cases hb
      have hc : (x : Int) > ((8 * x + 13) % 10000000 : Nat) := by omega
      simp only [if_pos hc]
      refine ih ((8 * ((8 * x + 13) % 10000000) + 13) % 10000000) (Nat.mod_lt _ (by decide)) h _ ?_
      rw [after_next (by omega) (by omega), nextState_nat]

end Spp.Semi
