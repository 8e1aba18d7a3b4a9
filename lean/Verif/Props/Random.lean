import Verif.Lemmas.RandomFloat
import Verif.Props.Select
import Verif.Lemmas.Alias
import Verif.Lemmas.Sample
import Verif.Spec.Ops

/-
C68, C69, C74: the semi-random generator.
-/

set_option linter.unusedSectionVars false

namespace Spp.Props

open Spec Semi

/-! ### C68 -/

/-- C68: in every build, for every seed, `semi_rands(low, high, seed)` returns a number in `[low, high]`,
provided the number of values in the range is representable in the type. -/
theorem C68_range (b : Build) {t : IntTy} {low high : Int} (h : GoodRange t low high) (clock seed : Int) :
    ∃ v, semiRands b t clock low high seed = .ok v ∧ low ≤ v ∧ v ≤ high := by
  obtain ⟨v, p', h1, h2, h3, -⟩ := randomInt_range b h (((clock + seed) * 100000) % 2 ^ 32)
  refine ⟨v, ?_, h2, h3⟩
  simp only [semiRands, decide_eq_true h.le, assertDebug_true, Res.ok_bind, seeded_ok, h1, Res.pure_eq]

/-- C68: so do any number of consecutive draws, from any state of the generator, whose state stays below
the modulus. -/
theorem C68_draws (b : Build) {t : IntTy} {low high : Int} (h : GoodRange t low high) (k : Nat) (p : Int) :
    ∃ l p', draws (randomInt b t low high) k p = .ok (l, p') ∧ l.length = k ∧
      (∀ v ∈ l, low ≤ v ∧ v ≤ high) ∧ (0 < k → 0 ≤ p' ∧ p' < 10000000) := by
  induction k generalizing p with
  | zero => exact ⟨[], p, rfl, rfl, by simp, by simp⟩
  | succ k ih =>
    obtain ⟨v, q, h1, h2, h3, h4, h5⟩ := randomInt_range b h p
    obtain ⟨l, p', g1, g2, g3, g4⟩ := ih q
    refine ⟨v :: l, p', ?_, by simp [g2], ?_, fun _ => ?_⟩
    · simp only [draws, h1, Res.ok_bind, g1, Res.pure_eq]
    · intro w hw
      rcases List.mem_cons.1 hw with rfl | hw
      · exact ⟨h2, h3⟩
      · exact g3 w hw
    · rcases Nat.eq_zero_or_pos k with rfl | hk
      · cases g1; exact ⟨h4, h5⟩
      · exact g4 hk

/-- C68: the draws are a function of the seed (and of the digit of the clock that the compiler inserts): the
`i`-th one is `low + s_i % (high - low + 1)`, where `s_0`, `s_1`, ... are the states, every one computed from
the one before as `(8 s + 13) % 10000000` without any wrap-around. -/
theorem C68_sequence (b : Build) {t : IntTy} {low high : Int} (h : GoodRange t low high)
    (h01 : ¬ (low = 0 ∧ high = 1)) (clock seed : Int) (k : Nat) :
    (do let p ← seeded clock seed; draws (randomInt b t low high) (k + 1) p) =
      .ok ((List.range (k + 1)).map (fun i => low + stateAfter clock seed i % (high - low + 1)),
        stateAfter clock seed k) ∧
    ∀ i, 0 ≤ 8 * stateAfter clock seed i + 13 ∧ 8 * stateAfter clock seed i + 13 < 2 ^ 32 ∧
      stateAfter clock seed (i + 1) = (8 * stateAfter clock seed i + 13) % 10000000 := by
  refine ⟨?_, fun i => ?_⟩
  · obtain ⟨g0, g1⟩ := firstState_bounds clock seed
    rw [seeded_ok, Res.ok_bind, draws, randomInt_ok b h h01, after_seeded, Res.ok_bind]
    simp only
    rw [draws_values b h h01 k g0 g1, Res.ok_bind, List.range_succ_eq_map, List.map_cons, List.map_map]
    rfl
  · obtain ⟨g0, g1⟩ := stateAfter_bounds clock seed i
    refine ⟨by omega, by omega, ?_⟩
    rw [stateAfter_succ]
    rfl

/-- C68: on the range {0, 1} a draw compares two consecutive states; so do boolean draws. -/
theorem C68_bits (b : Build) (t : IntTy) (clock seed : Int) :
    semiRands b t clock 0 1 seed =
      .ok (if stateAfter clock seed 0 > stateAfter clock seed 1 then 0 else 1) ∧
    semiRandsBool b clock seed = .ok (decide (stateAfter clock seed 0 ≤ stateAfter clock seed 1)) := by
  obtain ⟨g0, g1⟩ := firstState_bounds clock seed
  constructor
  · simp only [semiRands, show decide ((0 : Int) ≤ 1) = true from rfl, assertDebug_true, Res.ok_bind, seeded_ok,
      randomInt_01, after_seeded, Res.pure_eq]
    rfl
  · have e0 : generate b (((clock + seed) * 100000) % 2 ^ 32) = .ok (firstState clock seed) := generate_ok b _
    simp only [semiRandsBool, randomBool, Res.ok_bind, seeded_ok, e0, generate_next b g0 g1, Res.pure_eq]
    show Res.ok (if firstState clock seed > nextState (firstState clock seed) then false else true) = _
    congr 1
    show _ = decide (firstState clock seed ≤ nextState (firstState clock seed))
    by_cases hc : firstState clock seed > nextState (firstState clock seed)
    · rw [if_pos hc, decide_eq_false (by omega)]
    · rw [if_neg hc, decide_eq_true (by omega)]

/-- C68: the provision is needed.  When the number of values in the range is not representable - for
example over all values of a type - a signed type overflows in every build; for an unsigned type it wraps
to zero, which traps in checked builds and divides by zero otherwise. -/
theorem C68_too_wide (b : Build) {t : IntTy} {low high : Int} (hle : low ≤ high) (hlo : Fits t low)
    (hhi : Fits t high) (hw : Fits t 10000000) (h : ¬ Fits t (high - low + 1)) (clock seed : Int) :
    (t.signed = true → semiRands b t clock low high seed = .ub) ∧
    (t.signed = false → b.Checked → semiRands b t clock low high seed = .trap b.kind) ∧
    (t.signed = false → b.Release → semiRands b t clock low high seed = .ub) := by
  have h01 : ¬ (low = 0 ∧ high = 1) := by
    rintro ⟨rfl, rfl⟩
    exact h (fits_mid (fits_zero t) hw (by omega) (by omega))
  have start : semiRands b t clock low high seed = (do
      let d ← SInt.sub t high low
      let n ← SInt.add t d 1
      let k ← SInt.rem b t (SInt.cast t (firstState clock seed)) n
      let v ← SInt.add t low k
      pure v) := by
    have e0 : generate b (((clock + seed) * 100000) % 2 ^ 32) = .ok (firstState clock seed) := generate_ok b _
    simp only [semiRands, randomInt, decide_eq_true hle, assertDebug_true, Res.ok_bind, seeded_ok, e0, if_neg h01,
      Res.pure_eq]
    cases SInt.sub t high low with
    | trap k => rfl
    | ub => rfl
    | ok d =>
      simp only [Res.ok_bind]
      cases SInt.add t d 1 with
      | trap k => rfl
      | ub => rfl
      | ok n =>
        simp only [Res.ok_bind]
        cases SInt.rem b t (SInt.cast t (firstState clock seed)) n with
        | trap k => rfl
        | ub => rfl
        | ok k =>
          simp only [Res.ok_bind]
          cases SInt.add t low k <;> rfl
  have wrapped : t.signed = false → semiRands b t clock low high seed = (do
      let k ← SInt.rem b t (SInt.cast t (firstState clock seed)) 0
      let v ← SInt.add t low k
      pure v) := by
    intro hs
    have h1 := hlo.2 hs
    have h2 := hhi.2 hs
    have hd : Fits t (high - low) := ⟨fun h' => absurd (hs.symm.trans h') (by decide), fun _ => by omega⟩
    have hn : high - low + 1 = 2 ^ t.bits := by
      by_contra hne
      exact h ⟨fun h' => absurd (hs.symm.trans h') (by decide), fun _ => by omega⟩
    have e1 : SInt.sub t high low = .ok (high - low) := arith_of_fits hd
    have e2 : SInt.add t (high - low) 1 = .ok 0 := by
      simp [SInt.add, IntTy.arith, hs, hn]
    rw [start, e1, Res.ok_bind, e2, Res.ok_bind]
  refine ⟨fun hs => ?_, fun hs hb => ?_, fun hs hb => ?_⟩
  · rw [start]
    by_cases hd : Fits t (high - low)
    · have e1 : SInt.sub t high low = .ok (high - low) := arith_of_fits hd
      have e2 : SInt.add t (high - low) 1 = .ub := by
        have : ¬ t.Holds (high - low + 1) := fun hh => h ((holds_iff_fits _ _).1 hh)
        simp [SInt.add, IntTy.arith, hs, this]
      rw [e1, Res.ok_bind, e2]
      rfl
    · have e1 : SInt.sub t high low = .ub := by
        have : ¬ t.Holds (high - low) := fun hh => hd ((holds_iff_fits _ _).1 hh)
        simp [SInt.sub, IntTy.arith, hs, this]
      rw [e1]
      rfl
  · rw [wrapped hs, SInt.rem, show ((0 : Int) != 0) = false from rfl, assertDebug_false hb]
    rfl
  · rw [wrapped hs, SInt.rem, assertDebug_release hb]
    simp only [Res.ok_bind, SInt.builtinRem, if_true]
    rfl

/-- C68: a range whose lower bound exceeds its upper bound traps in checked builds, for scalars, arrays
(which are not changed) and expressions. -/
theorem C68_rejected {b : Build} (hb : b.Checked) (t : IntTy) {low high : Int} (h : high < low)
    (clock seed n : Int) (fuel : Nat) (dst : Acc (Store Int) Loc) (s : Store Int) :
    semiRands b t clock low high seed = .trap b.kind ∧
    exprState b clock low high n seed = .trap b.kind ∧
    semiRandom b t clock dst low high seed s = (.trap b.kind, s) ∧
    semiRandsNot0 b t clock low high seed fuel = .trap b.kind ∧
    semiRandomNot0 b t clock dst low high seed fuel s = (.trap b.kind, s) := by
  have hd : decide (low ≤ high) = false := decide_eq_false (by omega)
  refine ⟨?_, ?_, ?_, ?_, ?_⟩
  · rw [semiRands, hd, assertDebug_false hb]; rfl
  · rw [exprState, hd, assertDebug_false hb]; rfl
  · rw [semiRandom, hd, assertDebug_false hb]; rfl
  · rw [semiRandsNot0, hd, assertDebug_false hb]; rfl
  · rw [semiRandomNot0, hd, assertDebug_false hb]; rfl

variable {d : Dim}

/-- Filling the elements one after the other. -/
theorem fillFrom_effect {α G : Type} {l : Lv d} {t : Store α} {cs : List Loc} (hp : Places l t cs)
    {dst : Acc (Store α) Loc} (hd : ∀ s, SameSizes t s → Den d dst s (l.cells s))
    {draw : G → Res (α × G)} (k i : Nat) {p p' : G} {u : Store α} {ws : List (Loc × α)} {vs : List α}
    (hk : i + k = cs.length) (hu : Effect t u ws) (hdr : draws draw k p = .ok (vs, p')) :
    ∃ u', fillFrom dst draw i k p u = (.ok (), u') ∧ Effect t u' (ws ++ (cs.drop i).zip vs) := by
  induction k generalizing i p u ws vs with
  | zero =>
    cases hdr
    exact ⟨u, rfl, by simpa using hu⟩
  | succ k ih =>
    rw [draws] at hdr
    cases hx : draw p with
    | trap k => rw [hx] at hdr; cases hdr
    | ub => rw [hx] at hdr; cases hdr
    | ok r =>
      obtain ⟨x, q⟩ := r
      rw [hx] at hdr
      simp only [Res.ok_bind] at hdr
      cases hy : draws draw k q with
      | trap k => rw [hy] at hdr; cases hdr
      | ub => rw [hy] at hdr; cases hdr
      | ok r =>
        obtain ⟨l', q'⟩ := r
        rw [hy] at hdr
        cases hdr
        have hi : i < cs.length := by omega
        obtain ⟨u1, g1, g2⟩ := Effect.put hu (hp.2 _ (List.getElem_mem hi)) x
        obtain ⟨u2, g3, g4⟩ := ih (i + 1) (by omega) g2 hy
        refine ⟨u2, ?_, ?_⟩
        · simp only [fillFrom, Op.get_bind, dst_un hp hd hu.1 hi, Op.lift_ok_bind, hx]
          rw [Op.bind_run, g1]
          exact g3
        · rw [List.drop_eq_getElem_cons hi, List.zip_cons_cons]
          simpa using g4

/-- The state in which an array of `n` elements is filled. -/
theorem array_seed (clock seed : Int) (n : Nat) :
    (do let sd ← SInt.add .uint seed (SInt.cast .uint (n : Int)); seeded clock sd) =
      (.ok (((clock + (seed + n)) * 100000) % 2 ^ 32) : Res Int) := by
  have e : SInt.cast .uint (n : Int) = (n : Int) % 4294967296 := rfl
  rw [e, uadd, Res.ok_bind, seeded_ok]
  congr 1
  omega

/-- C68: `semi_random(A, low, high, seed)` assigns a number in `[low, high]` to every element of `A` and
changes nothing else; the numbers are those of the seed plus the number of elements. -/
theorem C68_array (b : Build) {t : IntTy} {low high : Int} (h : GoodRange t low high) (clock seed : Int)
    {s : Store Int} (hs : Store.Ok s) {l : Lv d} (hS : l.Sound s) (hV : l.Valid s) {cs : List Loc}
    (hp : Places l s cs) :
    ∃ (a : Acc (Store Int) Loc) (vs : List Int) (p' : Int), l.build b s = .ok a ∧
      (do let p ← seeded clock (seed + cs.length); draws (randomInt b t low high) cs.length p) = .ok (vs, p') ∧
      vs.length = cs.length ∧ (∀ v ∈ vs, low ≤ v ∧ v ≤ high) ∧
      Writes cs (vs.map Res.ok) s (semiRandom b t clock a low high seed s) := by
  obtain ⟨_, a, h1, h2⟩ := l.main b hs hS hV
  obtain ⟨vs, p', g1, g2, g3, -⟩ := C68_draws b h cs.length (((clock + (seed + cs.length)) * 100000) % 2 ^ 32)
  refine ⟨a, vs, p', h1, ?_, g2, g3, ?_⟩
  · rw [seeded_ok, Res.ok_bind, g1]
  · have hsz : a.size s = .ok (cs.length : Int) := by
      rw [(linDen_of (h2 s (SameSizes.refl s))).1, hp.1, List.length_map]
    obtain ⟨u, e1, e2⟩ := fillFrom_effect hp h2 cs.length 0 (by omega) (Effect.refl s) g1
    have hseed := array_seed clock seed cs.length
    have hrun : semiRandom b t clock a low high seed s = (.ok (), u) := by
      have es : ∃ x, SInt.add .uint seed (SInt.cast .uint (cs.length : Int)) = .ok x := ⟨_, rfl⟩
      obtain ⟨x, es⟩ := es
      rw [es, Res.ok_bind] at hseed
      simp only [semiRandom, decide_eq_true h.le, assertDebug_true, Op.lift_ok_bind, Op.get_bind, hsz, es, hseed,
        Int.toNat_natCast]
      exact e1
    rw [hrun]
    refine ⟨vs, ?_, Or.inl ⟨rfl, rfl⟩⟩
    simpa using e2

/-- C68: an element of the expression `semi_random<T>(n, low, high, seed)` is in the range however often it
has been accessed before. -/
theorem C68_expression (b : Build) {t : IntTy} {low high : Int} (h : GoodRange t low high) (clock seed : Int)
    (n k : Nat) :
    ∃ (p p' : Int) (vs : List Int), exprState b clock low high n seed = .ok p ∧
      draws (randomInt b t low high) k p = .ok (vs, p') ∧ vs.length = k ∧ ∀ v ∈ vs, low ≤ v ∧ v ≤ high := by
  obtain ⟨vs, p', g1, g2, g3, -⟩ := C68_draws b h k (((clock + (seed + n)) * 100000) % 2 ^ 32)
  refine ⟨_, p', vs, ?_, g1, g2, g3⟩
  rw [exprState, decide_eq_true h.le, assertDebug_true, Res.ok_bind, array_seed]

/-! ### C69 -/

/-- C69: a number `semi_rands_not0(low, high, seed)` returns is not zero and lies in the range. -/
theorem C69_returns (b : Build) {t : IntTy} {low high : Int} (h : GoodRange t low high) (clock seed : Int)
    {fuel : Nat} {v : Int} (hr : semiRandsNot0 b t clock low high seed fuel = .ok (some v)) :
    v ≠ 0 ∧ low ≤ v ∧ v ≤ high := by
  rw [semiRandsNot0, decide_eq_true h.le, assertDebug_true, Res.ok_bind] at hr
  cases hz : assertDebug b (!(decide (low = 0) && decide (high = 0))) with
  | trap k => rw [hz] at hr; cases hr
  | ub => rw [hz] at hr; cases hr
  | ok _ =>
    rw [hz, Res.ok_bind, seeded_ok, Res.ok_bind] at hr
    cases hu : untilNot0 (randomInt b t low high) (fun x => decide (x = 0)) fuel
        (((clock + seed) * 100000) % 2 ^ 32) with
    | trap k => rw [hu] at hr; cases hr
    | ub => rw [hu] at hr; cases hr
    | ok r =>
      rw [hu] at hr
      cases r with
      | none => cases hr
      | some r =>
        obtain ⟨x, q⟩ := r
        cases hr
        obtain ⟨k1, k2⟩ := untilNot0_returns (P := fun v => low ≤ v ∧ v ≤ high) (by
          intro p v p' hv
          obtain ⟨w, q, e1, e2, e3, -⟩ := randomInt_range b h p
          rw [e1] at hv
          cases hv
          exact ⟨e2, e3⟩) hu
        exact ⟨by simpa using k1, k2⟩

/-- What the loop of `semi_rands_not0` starts from. -/
theorem not0_eq (b : Build) (t : IntTy) {low high : Int} (hle : low ≤ high) (h0 : ¬ (low = 0 ∧ high = 0))
    (clock seed : Int) (fuel : Nat) :
    semiRandsNot0 b t clock low high seed fuel = (do
      let r ← untilNot0 (randomInt b t low high) (fun x => decide (x = 0)) fuel
        (((clock + seed) * 100000) % 2 ^ 32)
      pure (r.map Prod.fst)) := by
  have hz : (!(decide (low = 0) && decide (high = 0))) = true := by
    by_cases h1 : low = 0
    · have : high ≠ 0 := fun h2 => h0 ⟨h1, h2⟩
      simp [this]
    · simp [h1]
  simp only [semiRandsNot0, decide_eq_true hle, assertDebug_true, Res.ok_bind, hz, seeded_ok]

/-- A first draw that is not zero ends the loop. -/
theorem first_draw (b : Build) {t : IntTy} {low high : Int} (h : GoodRange t low high)
    (h01 : ¬ (low = 0 ∧ high = 1)) (h00 : ¬ (low = 0 ∧ high = 0)) (clock seed : Int) (fuel : Nat)
    (hne : low + firstState clock seed % (high - low + 1) ≠ 0) :
    semiRandsNot0 b t clock low high seed (fuel + 1) =
      .ok (some (low + firstState clock seed % (high - low + 1))) := by
  rw [not0_eq b t h.le h00, untilNot0, randomInt_ok b h h01, after_seeded]
  simp only [Res.ok_bind, decide_eq_false hne, Bool.false_eq_true, if_false, Res.pure_eq, Option.map_some]

/-- C69: it returns the first draw when zero is not in the range ... -/
theorem C69_without_zero (b : Build) {t : IntTy} {low high : Int} (h : GoodRange t low high)
    (h0 : 0 < low ∨ high < 0) (clock seed : Int) (fuel : Nat) :
    semiRandsNot0 b t clock low high seed (fuel + 1) =
      .ok (some (low + stateAfter clock seed 0 % (high - low + 1))) := by
  refine first_draw b h (by omega) (by omega) clock seed fuel ?_
  have hle := h.le
  have h1 := Int.emod_nonneg (firstState clock seed) (show high - low + 1 ≠ 0 by omega)
  have h2 := Int.emod_lt_of_pos (firstState clock seed) (show 0 < high - low + 1 by omega)
  omega

/-- C69: ... and when the number of values in the range is a multiple of 2, 4 or 8 and zero is not where
the generator, all of whose states are 5 modulo 8, falls. -/
theorem C69_even_size (b : Build) {t : IntTy} {low high : Int} (h : GoodRange t low high)
    (h01 : ¬ (low = 0 ∧ high = 1)) {m : Int} (hm : m = 2 ∨ m = 4 ∨ m = 8) (hd : m ∣ high - low + 1)
    (hr : (low + 5) % m ≠ 0) (clock seed : Int) (fuel : Nat) :
    semiRandsNot0 b t clock low high seed (fuel + 1) =
      .ok (some (low + stateAfter clock seed 0 % (high - low + 1))) := by
  have hle := h.le
  refine first_draw b h h01 ?_ clock seed fuel ?_
  · rintro ⟨rfl, rfl⟩
    rcases hm with rfl | rfl | rfl <;> omega
  · intro hz
    have h8 := firstState_mod clock seed
    have hmm : (firstState clock seed % (high - low + 1)) % m = firstState clock seed % m :=
      Int.emod_emod_of_dvd _ hd
    rcases hm with rfl | rfl | rfl <;> omega

/-- C69: over {0, 1}, the default range, it returns 1 for every seed, after at most 17 rounds. -/
theorem C69_default (b : Build) (t : IntTy) (clock seed : Int) :
    semiRandsNot0 b t clock 0 1 seed 17 = .ok (some 1) := by
  obtain ⟨g0, g1⟩ := firstState_bounds clock seed
  have gm := firstState_mod clock seed
  obtain ⟨k, hk⟩ : ∃ k : Nat, firstState clock seed = ((128 * k + 13 : Nat) : Int) :=
    ⟨((firstState clock seed - 13) / 128).toNat, by omega⟩
  have hs := stopsFrom_spec 17 0 k stopsFrom_all (by omega) (by omega) (by omega)
  obtain ⟨p', hp'⟩ := stops_sound b t 17 (128 * k + 13) (by omega) hs (((clock + seed) * 100000) % 2 ^ 32)
    (by rw [after_seeded, hk])
  rw [not0_eq b t (by omega) (by omega), hp']
  rfl

/-- C69, found false of the code: whatever the seed, it never returns when the range has 1, 2, 4 or 8
values (other than {0, 1}) and zero is where the generator falls: for example [-1, 0], [-1, 2], [-5, 2]. -/
theorem C69_never (b : Build) {t : IntTy} {low high : Int} (h : GoodRange t low high)
    (h01 : ¬ (low = 0 ∧ high = 1)) (h00 : ¬ (low = 0 ∧ high = 0)) (hd : high - low + 1 ∣ 8)
    (hr : low + 5 % (high - low + 1) = 0) (clock seed : Int) (fuel : Nat) :
    semiRandsNot0 b t clock low high seed fuel = .ok none := by
  rw [not0_eq b t h.le h00, untilNot0_never (I := fun _ => True) _ fuel trivial]
  · rfl
  · intro p _
    refine ⟨_, _, randomInt_ok b h h01 p, decide_eq_true ?_, trivial⟩
    have h8 : after p % 8 = 5 := generated_mod8 p
    have : after p % (high - low + 1) = 5 % (high - low + 1) := by
      rw [← Int.emod_emod_of_dvd (after p) hd, h8]
    rw [this]
    exact hr

/-- C69, found false of the code: on other ranges the loop fails to end for some seeds: over [-1, 3] for
about one seed in five. -/
theorem C69_five (b : Build) {t : IntTy} (h : GoodRange t (-1) 3) {clock seed : Int}
    (hs : stateAfter clock seed 0 % 5 = 1) (fuel : Nat) :
    semiRandsNot0 b t clock (-1) 3 seed fuel = .ok none := by
  have h1 := h.le
  rw [not0_eq b t (by omega) (by omega),
    untilNot0_never (I := fun p => after p % 5 = 1) _ fuel (by rw [after_seeded]; exact hs)]
  · rfl
  · intro p hp
    obtain ⟨k1, k2⟩ := after_bounds p
    refine ⟨_, _, randomInt_ok b h (by omega) p, decide_eq_true ?_, ?_⟩
    · show -1 + after p % 5 = 0
      omega
    · rw [after_next k1 k2]
      unfold nextState
      omega

/-- C69, found false of the code: so does filling an array, even over {0, 1}, where the loop ends for a
single number: with this seed the first element is set and the second never is. -/
theorem C69_array_never (b : Build) (t : IntTy) (clock seed : Int) {s : Store Int} (hs : Store.Ok s) {l : Lv d}
    (hS : l.Sound s) (hV : l.Valid s) {cs : List Loc} (hp : Places l s cs) (h2 : 2 ≤ cs.length)
    (hseed : clock + seed + cs.length = 7687993) :
    ∃ a : Acc (Store Int) Loc, l.build b s = .ok a ∧
      ∀ fuel, ∃ s', semiRandomNot0 b t clock a 0 1 seed fuel s = (.ok none, s') := by
  obtain ⟨_, a, h1, hd⟩ := l.main b hs hS hV
  refine ⟨a, h1, fun fuel => ?_⟩
  have hsz : a.size s = .ok (cs.length : Int) := by
    rw [(linDen_of (hd s (SameSizes.refl s))).1, hp.1, List.length_map]
  obtain ⟨k, hk⟩ : ∃ k, cs.length = k + 2 := ⟨cs.length - 2, by omega⟩
  have hst := array_seed clock seed cs.length
  obtain ⟨x, es⟩ : ∃ x, SInt.add .uint seed (SInt.cast .uint (cs.length : Int)) = .ok x := ⟨_, rfl⟩
  rw [es, Res.ok_bind] at hst
  have ha : after (((clock + (seed + cs.length)) * 100000) % 2 ^ 32) = 1232141 := by
    rw [show clock + (seed + (cs.length : Int)) = 7687993 by omega]; rfl
  have hrun : semiRandomNot0 b t clock a 0 1 seed fuel s =
      fillNot0From a (randomInt b t 0 1) (fun x => decide (x = 0)) fuel 0 (k + 2)
        (((clock + (seed + cs.length)) * 100000) % 2 ^ 32) s := by
    rw [semiRandomNot0, show decide ((0 : Int) ≤ 1) = true from rfl, assertDebug_true, Op.lift_ok_bind,
      show (!(decide ((0 : Int) = 0) && decide ((1 : Int) = 0))) = true from rfl, assertDebug_true, Op.lift_ok_bind]
    simp only [Op.get_bind, hsz, es, hst, Int.toNat_natCast, Op.lift_ok_bind]
    rw [hk]
  rw [hrun]
  cases fuel with
  | zero =>
    refine ⟨s, ?_⟩
    simp only [fillNot0From, Op.get_bind, dst_un hp hd (SameSizes.refl s) (show 0 < cs.length by omega),
      Op.lift_ok_bind, untilNot0]
    rfl
  | succ fuel =>
    have hf : untilNot0 (randomInt b t 0 1) (fun x => decide (x = 0)) (fuel + 1)
        (((clock + (seed + cs.length)) * 100000) % 2 ^ 32) = .ok (some (1, 9857141)) := by
      rw [untilNot0, randomInt_01, ha]
      rfl
    have hn : untilNot0 (randomInt b t 0 1) (fun x => decide (x = 0)) (fuel + 1) 9857141 = .ok none := by
      refine untilNot0_never (I := fun p => p = 9857141 ∨ p = 857141 ∨ p = 4857141) ?_ _ (Or.inl rfl)
      intro p hp
      rw [randomInt_01]
      rcases hp with rfl | rfl | rfl
      · exact ⟨_, _, rfl, by decide, by decide⟩
      · exact ⟨_, _, rfl, by decide, by decide⟩
      · exact ⟨_, _, rfl, by decide, by decide⟩
    obtain ⟨u, e1, e2⟩ := Effect.put (Effect.refl s) (hp.2 _ (List.getElem_mem (show 0 < cs.length by omega))) (1 : Int)
    refine ⟨u, ?_⟩
    simp only [fillNot0From, Op.get_bind, dst_un hp hd (SameSizes.refl s) (show 0 < cs.length by omega),
      Op.lift_ok_bind, hf]
    rw [Op.bind_run, e1]
    simp only [Op.get_bind, dst_un hp hd e2.1 (show 1 < cs.length by omega), Op.lift_ok_bind, hn]
    rfl

/-- C69: the range {0} traps in checked builds. -/
theorem C69_only_zero {b : Build} (hb : b.Checked) (t : IntTy) (clock seed : Int) (fuel : Nat)
    (dst : Acc (Store Int) Loc) (s : Store Int) :
    semiRandsNot0 b t clock 0 0 seed fuel = .trap b.kind ∧
    semiRandomNot0 b t clock dst 0 0 seed fuel s = (.trap b.kind, s) := by
  constructor
  · rw [semiRandsNot0, show decide ((0 : Int) ≤ 0) = true from rfl, assertDebug_true, Res.ok_bind,
      show (!(decide ((0 : Int) = 0) && decide ((0 : Int) = 0))) = false from rfl, assertDebug_false hb]
    rfl
  · rw [semiRandomNot0, show decide ((0 : Int) ≤ 0) = true from rfl, assertDebug_true, Op.lift_ok_bind,
      show (!(decide ((0 : Int) = 0) && decide ((0 : Int) = 0))) = false from rfl, assertDebug_false hb]
    rfl

/-- The quality of the numbers: over a range of 1, 2, 4 or 8 values other than {0, 1} every draw is the
same number, whatever the seed. -/
theorem C68_constant (b : Build) {t : IntTy} {low high : Int} (h : GoodRange t low high)
    (h01 : ¬ (low = 0 ∧ high = 1)) (hd : high - low + 1 ∣ 8) (k : Nat) (p : Int) :
    ∃ p', draws (randomInt b t low high) k p = .ok (List.replicate k (low + 5 % (high - low + 1)), p') := by
  induction k generalizing p with
  | zero => exact ⟨p, rfl⟩
  | succ k ih =>
    obtain ⟨p', hp'⟩ := ih (after p)
    have h8 : after p % 8 = 5 := generated_mod8 p
    have e : after p % (high - low + 1) = 5 % (high - low + 1) := by
      rw [← Int.emod_emod_of_dvd (after p) hd, h8]
    refine ⟨p', ?_⟩
    rw [draws, randomInt_ok b h h01 p, Res.ok_bind]
    simp only [hp', Res.ok_bind, e, Res.pure_eq, List.replicate_succ]

/-! ### C74 -/

/-- C74: a semi-random floating-point number lies in `[low, high]`, for every seed and every rounding rule,
in `float`, `double` and `long double`, although all four operations round. -/
theorem C74_range (b : Build) {p : Nat} {emin : Int} {rn : ℚ → ℚ} (hp : 24 ≤ p) (he : emin ≤ -p)
    (hn : Nearest p emin rn) (pow : ℚ → ℚ → ℚ) (sqrt : ℚ → ℚ) {low high : ℚ} (hl : Rep p emin low)
    (hh : Rep p emin high) (hle : low ≤ high) (clock seed : Int) :
    ∃ v, semiRandsFloat b (rounded rn pow sqrt).toScalar clock low high seed = .ok v ∧ low ≤ v ∧ v ≤ high := by
  obtain ⟨g0, g1⟩ := firstState_bounds clock seed
  have e0 : generate b (((clock + seed) * 100000) % 2 ^ 32) = .ok (firstState clock seed) := generate_ok b _
  have r1 : rn ((firstState clock seed : Int) : ℚ) = (firstState clock seed : Int) :=
    Lemmas.rn_rep hn (rep_int hp he g0 (by omega))
  have r2 : rn ((modulus : Int) : ℚ) = (modulus : Int) :=
    Lemmas.rn_rep hn (rep_int hp he (by decide) (by decide))
  have hm : ((modulus : Int) : ℚ) = 10000000 := by norm_num [modulus]
  rw [hm] at r2
  have hq0 : (0 : ℚ) ≤ (firstState clock seed : Int) / 10000000 :=
    div_nonneg (by exact_mod_cast g0) (by norm_num)
  have hq1 : ((firstState clock seed : Int) : ℚ) / 10000000 ≤ 9999999 / 10000000 := by
    have : firstState clock seed ≤ 9999999 := by omega
    have : ((firstState clock seed : Int) : ℚ) ≤ 9999999 := by exact_mod_cast this
    exact div_le_div_of_nonneg_right this (by norm_num)
  obtain ⟨s1, s2⟩ := scaled_le (by omega) hn hl hh hle
    (Lemmas.le_rn hn Lemmas.rep_zero hq0) (quotient_le hp he hn hq0 hq1)
  refine ⟨_, ?_, Lemmas.le_rn hn hl (by linarith), Lemmas.rn_le hn hh
    (show low + rn (rn (((firstState clock seed : Int) : ℚ) / 10000000) * rn (high - low)) ≤ high by linarith)⟩
  simp only [semiRandsFloat, rounded, decide_eq_true hle, assertDebug_true, Res.ok_bind, seeded_ok, randomFloat, e0, r1, r2, hm,
    Res.pure_eq]

/-- C74: and in exact arithmetic it is `low + s / 10000000 * (high - low)`, where `s` is the first state. -/
theorem C74_value {K : Type} [Field K] [LinearOrder K] [IsStrictOrderedRing K] (b : Build)
    (pow : K → K → K) (sqrt : K → K) {low high : K} (hle : low ≤ high) (clock seed : Int) :
    semiRandsFloat b (exactS K pow sqrt) clock low high seed =
      .ok (low + (stateAfter clock seed 0 : Int) / (10000000 : Int) * (high - low)) := by
  have e0 : generate b (((clock + seed) * 100000) % 2 ^ 32) = .ok (firstState clock seed) := generate_ok b _
  simp only [semiRandsFloat, exactS, decide_eq_true hle, assertDebug_true, Res.ok_bind, seeded_ok, randomFloat, e0,
    Res.pure_eq]
  rfl

/-- C74: a range whose lower bound exceeds its upper bound traps in checked builds. -/
theorem C74_rejected {b : Build} (hb : b.Checked) {K : Type} (sc : Scalar K) {low high : K}
    (h : sc.le low high = false) (clock seed : Int) :
    semiRandsFloat b sc clock low high seed = .trap b.kind := by
  rw [semiRandsFloat, h, assertDebug_false hb]; rfl

/-! ### Examples -/

section
open Spp.Sample

theorem fits_int {v : Int} (h1 : -2147483648 ≤ v) (h2 : v ≤ 2147483647) : Fits .int v := by
  constructor <;> simp [IntTy.int]
  omega

theorem goodInt {low high : Int} (h : low ≤ high) (h1 : -1000 ≤ low) (h2 : high ≤ 1000) :
    GoodRange .int low high :=
  ⟨h, fits_int (by omega) (by omega), fits_int (by omega) (by omega), fits_int (by omega) (by omega),
    fits_int (by omega) (by omega)⟩

theorem die : GoodRange .int 1 6 := goodInt (by decide) (by decide) (by decide)

example : ∃ v, semiRands ⟨false, true, false⟩ .int 48 1 6 42 = .ok v ∧ 1 ≤ v ∧ v ≤ 6 := C68_range _ die 48 42

example : ∃ l p', draws (randomInt ⟨true, false, true⟩ .int 1 6) 1000 7 = .ok (l, p') ∧ l.length = 1000 ∧
    (∀ v ∈ l, 1 ≤ v ∧ v ≤ 6) ∧ (0 < 1000 → 0 ≤ p' ∧ p' < 10000000) := C68_draws _ die 1000 7

example : (do let p ← seeded 48 1; draws (randomInt ⟨false, true, false⟩ .int 1 6) 3 p) =
    .ok ([4, 4, 6], 8800949) := by
  rw [(C68_sequence ⟨false, true, false⟩ die (by decide) 48 1 2).1]; decide +kernel

example : semiRands ⟨false, true, false⟩ .int 48 0 1 42 = .ok 1 := by
  rw [(C68_bits _ .int 48 42).1]; decide +kernel

example : semiRands ⟨false, true, false⟩ .int 48 (-2147483648) 2147483647 42 = .ub :=
  (C68_too_wide _ (by decide) (fits_int (by decide) (by decide)) (fits_int (by decide) (by decide))
    (fits_int (by decide) (by decide)) (by simp [Fits, IntTy.int]) 48 42).1 rfl

example : semiRands ⟨false, true, false⟩ .uint 48 0 4294967295 42 = .trap .exception :=
  (C68_too_wide (t := .uint) (low := 0) (high := 4294967295) ⟨false, true, false⟩ (by decide)
    (by simp [Fits, IntTy.uint]) (by simp [Fits, IntTy.uint]) (by simp [Fits, IntTy.uint])
    (by simp [Fits, IntTy.uint]) 48 42).2.1 rfl (by decide)

example : semiRands ⟨false, true, false⟩ .int 48 6 1 42 = .trap .exception :=
  (C68_rejected (b := ⟨false, true, false⟩) (by decide) .int (low := 6) (high := 1) (by decide) 48 42 3 1
    ⟨fun _ => 0, fun _ => 0, fun _ => .ub, fun _ _ => .ub, fun _ _ _ => .ub⟩ store).1

example : ∃ (a : Acc (Store Int) Loc) (vs : List Int),
    (Lv.view (.slice .reverse) (.arr1 0)).build ⟨false, true, false⟩ store = .ok a ∧
      vs.length = 3 ∧ (∀ v ∈ vs, 1 ≤ v ∧ v ≤ 6) ∧
      Writes [.one 0 2, .one 0 1, .one 0 0] (vs.map Res.ok) store
        (semiRandom ⟨false, true, false⟩ .int 48 a 1 6 42 store) := by
  obtain ⟨a, vs, _, h1, -, h2, h3, h4⟩ := C68_array ⟨false, true, false⟩ die 48 42 store_ok
    (l := .view (.slice .reverse) (.arr1 0)) (cs := [.one 0 2, .one 0 1, .one 0 0]) (by decide) (by decide)
    ⟨rfl, by decide⟩
  exact ⟨a, vs, h1, h2, h3, h4⟩

example : semiRandsNot0 ⟨false, true, false⟩ .int 48 1 6 42 1 = .ok (some 4) := by
  rw [C69_without_zero _ die (by decide) 48 42 0]; decide +kernel

example : semiRandsNot0 ⟨false, true, false⟩ .int 48 (-2) 3 42 1 = .ok (some 1) := by
  rw [C69_even_size (t := .int) _ (goodInt (by decide) (by decide) (by decide)) (by decide) (m := 2) (by decide)
    (by decide) (by decide) 48 42 0]; decide +kernel

example (clock seed : Int) (fuel : Nat) :
    semiRandsNot0 ⟨false, true, false⟩ .int clock (-1) 0 seed fuel = .ok none ∧
    semiRandsNot0 ⟨false, true, false⟩ .int clock (-1) 2 seed fuel = .ok none ∧
    semiRandsNot0 ⟨false, true, false⟩ .int clock (-5) 2 seed fuel = .ok none :=
  ⟨C69_never _ (goodInt (by decide) (by decide) (by decide)) (by decide) (by decide) (by decide) (by decide) _ _ _,
    C69_never _ (goodInt (by decide) (by decide) (by decide)) (by decide) (by decide) (by decide) (by decide) _ _ _,
    C69_never _ (goodInt (by decide) (by decide) (by decide)) (by decide) (by decide) (by decide) (by decide) _ _ _⟩

example (fuel : Nat) : semiRandsNot0 ⟨false, true, false⟩ .int 48 (-1) 3 10690 fuel = .ok none :=
  C69_five _ (goodInt (by decide) (by decide) (by decide)) (by decide) fuel

example : ∃ a : Acc (Store Int) Loc, (Lv.arr1 0).build ⟨false, true, false⟩ store = .ok a ∧
    ∀ fuel, ∃ s', semiRandomNot0 ⟨false, true, false⟩ .int 48 a 0 1 7687942 fuel store = (.ok none, s') :=
  C69_array_never _ .int 48 7687942 store_ok (l := .arr1 0) (cs := [.one 0 0, .one 0 1, .one 0 2]) (by decide)
    (by decide) ⟨rfl, by decide⟩ (by decide) (by decide)

example : ∃ p', draws (randomInt ⟨false, true, false⟩ .int 1 4) 5 7 = .ok ([2, 2, 2, 2, 2], p') :=
  C68_constant _ (goodInt (by decide) (by decide) (by decide)) (by decide) (by decide) 5 7

example : ∃ rn, Nearest 24 (-149) rn ∧ ∀ clock seed, ∃ v,
    semiRandsFloat ⟨false, true, false⟩ (rounded rn (fun x _ => x) id).toScalar clock (-1) 2 seed = .ok v ∧
      -1 ≤ v ∧ v ≤ 2 := by
  obtain ⟨rn, h⟩ := Lemmas.exists_nearest (p := 24) (by norm_num) (-149)
  exact ⟨rn, h, fun clock seed => C74_range _ (by norm_num) (by norm_num) h _ _ ⟨-1, 0, by norm_num, by norm_num, by norm_num⟩
    ⟨2, 0, by norm_num, by norm_num, by norm_num⟩ (by norm_num) clock seed⟩

example : semiRandsFloat ⟨false, true, false⟩ (exactS ℚ (fun x _ => x) id) 48 0 10 42 =
    .ok (0 + ((stateAfter 48 42 0 : Int) : ℚ) / (10000000 : Int) * (10 - 0)) :=
  C74_value _ _ _ (by norm_num) 48 42

end

end Spp.Props
