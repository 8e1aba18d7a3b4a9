import Verif.Lemmas.RandomAll
import Verif.Props.StdRandom
import Verif.Props.Idioms

/- C113: repetitions in semi-random numbers; several arrays in one call. -/

namespace Spp.Props
open Spec Semi StdRandom

variable {α : Type} {d : Dim}

/-- C113: the semi-random integers of every type and range, booleans and floating-point numbers are drawn in this
way. -/
theorem C113_draws (b : Build) (t : IntTy) (l h : Int) {K : Type} (sc : Scalar K) (lo hi : K) :
    Draws b (randomInt b t l h) ∧ Draws b (randomBool b) ∧ Draws b (randomFloat b sc lo hi) :=
  ⟨ints_draw b t l h, bools_draw b, floats_draw b sc lo hi⟩

theorem repeats_one {b : Build} {draw : Int → Res (α × Int)} {f : Int → Res α}
    (h : ∀ p, draw p = (do let q ← Semi.generate b p; let v ← f q; pure (v, q))) {k : Nat} {p p' : Int} {l : List α}
    (hd : draws draw k p = .ok (l, p')) : Repeats 2 62500 l := by
  obtain ⟨-, hv⟩ := draws_one h k hd
  intro i hi hl
  have e1 := hv (i + 62500) hl
  have e2 := hv i (by omega)
  rw [show i + 62500 + 1 = i + 1 + 62500 by omega, after_repeats p (by omega), e2] at e1
  rw [List.getElem?_eq_getElem hl, List.getElem?_eq_getElem (by omega)]
  exact congrArg some (Res.ok.inj e1.symm)

theorem repeats_two {b : Build} {draw : Int → Res (α × Int)} {f : Int → Int → Res α}
    (h : ∀ p, draw p = (do let q ← Semi.generate b p; let r ← Semi.generate b q; let v ← f q r; pure (v, r))) {k : Nat}
    {p p' : Int} {l : List α} (hd : draws draw k p = .ok (l, p')) : Repeats 1 31250 l := by
  obtain ⟨-, hv⟩ := draws_two h k hd
  intro i hi hl
  have e1 := hv (i + 31250) hl
  have e2 := hv i (by omega)
  rw [show 2 * (i + 31250) + 1 = 2 * i + 1 + 62500 by omega, show 2 * (i + 31250) + 2 = 2 * i + 2 + 62500 by omega,
    after_repeats p (by omega), after_repeats p (by omega), e2] at e1
  rw [List.getElem?_eq_getElem hl, List.getElem?_eq_getElem (by omega)]
  exact congrArg some (Res.ok.inj e1.symm)

theorem repeats_double {a a' n m : Nat} (hm : n + n = m) (ha : a ≤ a') {l : List α} (h : Repeats a n l) :
    Repeats a' m l := by
  subst hm
  intro i hi hl
  rw [← Nat.add_assoc, h (i + n) (by omega) (by omega), h i (by omega) (by omega)]

/-- C113: whatever the type, the range and the state of the generator, semi-random numbers repeat after 62500
draws, from the third number on. -/
theorem C113_repeats {b : Build} {draw : Int → Res (α × Int)} (h : Draws b draw) {k : Nat} {p p' : Int} {l : List α}
    (hd : draws draw k p = .ok (l, p')) : Repeats 2 62500 l := by
  rcases h with ⟨f, h⟩ | ⟨f, h⟩
  · exact repeats_one h hd
  · exact repeats_double (n := 31250) rfl (by omega) (repeats_two h hd)

/-- C113: booleans, and integers over {0, 1}, already after 31250 draws. -/
theorem C113_bits (b : Build) (t : IntTy) {k : Nat} {p : Int} :
    (∀ l p', draws (randomBool b) k p = .ok (l, p') → Repeats 1 31250 l) ∧
    (∀ l p', draws (randomInt b t 0 1) k p = .ok (l, p') → Repeats 1 31250 l) :=
  ⟨fun _ _ hd => repeats_two (b := b) (f := fun q r => .ok (if q > r then false else true))
      (fun p => by simp only [randomBool, Res.ok_bind]) hd,
   fun _ _ hd => repeats_two (b := b) (f := fun q r => .ok (if q > r then 0 else 1))
      (fun p => by simp only [randomInt, and_self, if_true, Res.ok_bind]) hd⟩

/-- C113: seeds that differ by a multiple of 25 give the same numbers, as long as the sum of the seed and the
character of the clock is at most 5368. -/
theorem C113_seeds (b : Build) {clock seed seed' : Int} (h0 : 0 ≤ clock + seed) (h1 : clock + seed ≤ 5368)
    (h0' : 0 ≤ clock + seed') (h1' : clock + seed' ≤ 5368) (h : (clock + seed) % 25 = (clock + seed') % 25) :
    (∀ t low high, semiRands b t clock low high seed = semiRands b t clock low high seed') ∧
    semiRandsBool b clock seed = semiRandsBool b clock seed' ∧
    (∀ {K : Type} (sc : Scalar K) (low high : K),
      semiRandsFloat b sc clock low high seed = semiRandsFloat b sc clock low high seed') ∧
    (∀ t low high fuel, semiRandsNot0 b t clock low high seed fuel = semiRandsNot0 b t clock low high seed' fuel) ∧
    ∀ (α : Type) (draw : Int → Res (α × Int)), Draws b draw → ∀ k,
      (do let p ← seeded clock seed; draws draw (k + 1) p) = (do let p ← seeded clock seed'; draws draw (k + 1) p) := by
  have e := seed_first h0 h1 h0' h1' h
  refine ⟨fun t low high => ?_, ?_, fun sc low high => ?_, fun t low high fuel => ?_, fun α draw hd k => ?_⟩
  · simp only [semiRands, seeded_ok, Res.ok_bind, draws_same (ints_draw b t low high) e]
  · simp only [semiRandsBool, seeded_ok, Res.ok_bind, draws_same (bools_draw b) e]
  · simp only [semiRandsFloat, seeded_ok, Res.ok_bind, draws_same (floats_draw b sc low high) e]
  · cases fuel with
    | zero => simp only [semiRandsNot0, seeded_ok, Res.ok_bind, untilNot0]
    | succ fuel =>
      simp only [semiRandsNot0, seeded_ok, Res.ok_bind, untilNot0, draws_same (ints_draw b t low high) e]
  · simp only [seeded_ok, Res.ok_bind]
    exact draws_congr (draws_same hd e) k

theorem draws_length {b : Build} {draw : Int → Res (α × Int)} (h : Draws b draw) {k : Nat} {p p' : Int} {l : List α}
    (hd : draws draw k p = .ok (l, p')) : l.length = k := by
  rcases h with ⟨f, h⟩ | ⟨f, h⟩
  · exact (draws_one h k hd).1
  · exact (draws_two h k hd).1

/-- The numbers of an array with `n` elements, or as many as can be drawn. -/
theorem semiFill_effect {b : Build} {draw : Int → Res (α × Int)} {clock seed : Int} {l : Lv d} {t : Store α}
    {cs : List Loc} (hp : Places l t cs) {a : Acc (Store α) Loc}
    (hd : ∀ s, SameSizes t s → Den d a s (l.cells s)) {u : Store α} {ws : List (Loc × α)} (hu : Effect t u ws)
    {vs : List α} {p' : Int}
    (hv : (do let p ← seeded clock (seed + cs.length); draws draw cs.length p) = .ok (vs, p')) :
    ∃ u', semiFill b true draw clock seed a u = (.ok (), u') ∧ Effect t u' (ws ++ cs.zip vs) := by
  have hsz : a.size u = .ok (cs.length : Int) := by
    rw [(linDen_of (hd u hu.1)).1, l.cells_same hu.1, hp.1, List.length_map]
  rw [seeded_ok, Res.ok_bind] at hv
  obtain ⟨u', e1, e2⟩ := fillFrom_effect hp hd cs.length 0 (by omega) hu hv
  refine ⟨u', ?_, by simpa using e2⟩
  have hsd := array_seed clock seed cs.length
  rw [uadd, Res.ok_bind] at hsd
  simp only [semiFill, assertDebug_true, Op.lift_ok_bind, Op.get_bind, hsz, Int.toNat_natCast, uadd, hsd]
  exact e1

/-- C113: `semi_random(A, low, high, seed)` assigns to the elements of `A` the numbers of the seed plus the number of
elements, for every element type, and changes nothing else; in an array with more than 62502 elements they
repeat. -/
theorem C113_array {b : Build} {draw : Int → Res (α × Int)} (h : Draws b draw) {clock seed : Int}
    {s : Store α} (hs : Store.Ok s) {l : Lv d} (hS : l.Sound s) (hV : l.Valid s) {cs : List Loc}
    (hp : Places l s cs) {vs : List α} {p' : Int}
    (hv : (do let p ← seeded clock (seed + cs.length); draws draw cs.length p) = .ok (vs, p')) :
    ∃ (a : Acc (Store α) Loc) (s' : Store α), l.build b s = .ok a ∧
      semiFill b true draw clock seed a s = (.ok (), s') ∧ Effect s s' (cs.zip vs) ∧ Repeats 2 62500 vs ∧
      (cs.Nodup → ∀ i, 2 ≤ i → ∀ (hi : i + 62500 < cs.length), s'.read cs[i + 62500] = s'.read cs[i]) := by
  obtain ⟨_, a, h1, h2⟩ := l.main b hs hS hV
  obtain ⟨s', e1, e2⟩ := semiFill_effect (b := b) hp h2 (Effect.refl s) hv
  rw [List.nil_append] at e2
  rw [seeded_ok, Res.ok_bind] at hv
  have hr := C113_repeats h hv
  have hlen := draws_length h hv
  refine ⟨a, s', h1, e1, e2, hr, fun hn i h2i hi => ?_⟩
  have rd : ∀ k (hk : k < cs.length), s'.read cs[k] = .ok (vs[k]'(by omega)) := by
    intro k hk
    rw [e2.2, lastWrite_zip hn hlen.symm hk]
  rw [rd _ hi, rd i (by omega)]
  have := hr i h2i (by omega)
  rw [List.getElem?_eq_getElem (by omega), List.getElem?_eq_getElem (by omega)] at this
  exact congrArg Res.ok (Option.some.inj this)

/-- For integers this is the function of C68. -/
theorem semiRandom_fill (b : Build) (t : IntTy) (clock : Int) (dst : Acc (Store Int) Loc) (low high seed : Int) :
    semiRandom b t clock dst low high seed =
      semiFill b (decide (low ≤ high)) (randomInt b t low high) clock seed dst := rfl

theorem draws_prefix {draw : Int → Res (α × Int)} {m n : Nat} (hmn : m ≤ n) {p q q' : Int} {l l' : List α}
    (h1 : draws draw m p = .ok (l, q)) (h2 : draws draw n p = .ok (l', q')) : l = l'.take m := by
  induction m generalizing n p l l' with
  | zero => cases h1; simp
  | succ m ih =>
    obtain ⟨n, rfl⟩ : ∃ k, n = k + 1 := ⟨n - 1, by omega⟩
    rw [draws] at h1 h2
    cases hv : draw p with
    | trap _ => rw [hv] at h1; cases h1
    | ub => rw [hv] at h1; cases h1
    | ok v =>
      obtain ⟨x, r⟩ := v
      rw [hv, Res.ok_bind] at h1 h2
      cases g1 : draws draw m r with
      | trap _ => simp only [g1] at h1; cases h1
      | ub => simp only [g1] at h1; cases h1
      | ok v1 =>
        cases g2 : draws draw n r with
        | trap _ => simp only [g2] at h2; cases h2
        | ub => simp only [g2] at h2; cases h2
        | ok v2 =>
          simp only [g1] at h1
          simp only [g2] at h2
          cases h1; cases h2
          rw [List.take_succ_cons, ih (by omega) g1 g2]

/-- C113: with seeds and sizes whose sums differ by a multiple of 25 (and are small), the shorter array receives the
first numbers of the longer one: for example arrays of sizes 10 and 35 with the same seed. -/
theorem C113_sizes {b : Build} {draw : Int → Res (α × Int)} (h : Draws b draw) {clock seed seed' : Int} {m n : Nat}
    (hmn : m ≤ n) (h0 : 0 ≤ clock + (seed + m)) (h1 : clock + (seed + m) ≤ 5368) (h0' : 0 ≤ clock + (seed' + n))
    (h1' : clock + (seed' + n) ≤ 5368) (hk : (clock + (seed + m)) % 25 = (clock + (seed' + n)) % 25)
    {vs vs' : List α} {p p' : Int}
    (hv : (do let p ← seeded clock (seed + m); draws draw m p) = .ok (vs, p))
    (hv' : (do let p ← seeded clock (seed' + n); draws draw n p) = .ok (vs', p')) : vs = vs'.take m := by
  have e := seed_first h0 h1 h0' h1' hk
  simp only [seeded_ok, Res.ok_bind] at hv hv'
  cases m with
  | zero => cases hv; simp
  | succ m =>
    obtain ⟨n, rfl⟩ : ∃ k, n = k + 1 := ⟨n - 1, by omega⟩
    rw [draws_congr (draws_same h e) m] at hv
    exact draws_prefix hmn hv hv'

/-- The arrays of one call: accessors and the places they refer to. -/
structure Arrays (s : Store α) (ts : List (Acc (Store α) Loc)) (cs : List (List Loc)) : Prop where
  same : List.Forall₂ (fun t c => ∃ (d : Dim) (l : Lv d), Places l s c ∧
    ∀ u, SameSizes s u → Den d t u (l.cells u)) ts cs

/-- C113: `semi_random(A, B, ...)` fills the arrays one after the other, and the numbers depend on nothing but the size
of the array: arrays of the same size receive the same numbers. -/
theorem C113_arrays (b : Build) {draw : Int → Res (α × Int)} {clock : Int} {vals : Nat → List α}
    (hv : ∀ n : Nat, ∃ p', (do let p ← seeded clock (1 + n); draws draw n p) = .ok (vals n, p'))
    {s : Store α} {ts : List (Acc (Store α) Loc)} {cs : List (List Loc)} (ht : Arrays s ts cs) :
    ∃ s', semiRandomAll b draw clock ts s = (.ok (), s') ∧ Effect s s' (bySize vals cs) := by
  have key : ∀ ts cs, Arrays s ts cs → ∀ u ws, Effect s u ws →
      ∃ s', semiRandomAll b draw clock ts u = (.ok (), s') ∧ Effect s s' (ws ++ bySize vals cs) := by
    intro ts cs ht
    obtain ⟨ht⟩ := ht
    induction ht with
    | nil => intro u ws hu; exact ⟨u, rfl, by simpa [bySize] using hu⟩
    | @cons t c ts cs h1 _ ih =>
      intro u ws hu
      obtain ⟨d, l, hp, hd⟩ := h1
      obtain ⟨p', hv'⟩ := hv c.length
      obtain ⟨u', e1, e2⟩ := semiFill_effect (b := b) hp hd hu hv'
      obtain ⟨s', e3, e4⟩ := ih u' _ e2
      refine ⟨s', ?_, by simpa [bySize] using e4⟩
      rw [semiRandomAll, Op.bind_run, e1]
      exact e3
  obtain ⟨s', e1, e2⟩ := key ts cs ht s [] (Effect.refl s)
  exact ⟨s', e1, by simpa using e2⟩

/-- C113: in particular `semi_random(A, B)` makes `A` and `B` equal when they have the same size. -/
theorem C113_twins (b : Build) {draw : Int → Res (α × Int)} (h : Draws b draw) {clock : Int} {vals : Nat → List α}
    (hv : ∀ n : Nat, ∃ p', (do let p ← seeded clock (1 + n); draws draw n p) = .ok (vals n, p'))
    {s : Store α} {A B : Acc (Store α) Loc} {cA cB : List Loc} (ht : Arrays s [A, B] [cA, cB])
    (hn : (cA ++ cB).Nodup) (hl : cA.length = cB.length) :
    ∃ s', semiRandomAll b draw clock [A, B] s = (.ok (), s') ∧
      ∀ i (hi : i < cA.length), s'.read cA[i] = s'.read (cB[i]'(by omega)) := by
  obtain ⟨s', e1, e2⟩ := C113_arrays b hv ht
  refine ⟨s', e1, fun i hi => ?_⟩
  obtain ⟨p', hp'⟩ := hv cA.length
  rw [seeded_ok, Res.ok_bind] at hp'
  have hlen := draws_length h hp'
  have hz : bySize vals [cA, cB] = (cA ++ cB).zip (vals cA.length ++ vals cA.length) := by
    rw [List.zip_append (by omega)]
    simp [bySize, hl]
  rw [hz] at e2
  have r1 := e2.2 cA[i]
  have r2 := e2.2 (cB[i]'(by omega))
  have q1 := lastWrite_zip hn (ys := vals cA.length ++ vals cA.length) (by simp; omega) (i := i) (by simp; omega)
  have q2 := lastWrite_zip hn (ys := vals cA.length ++ vals cA.length) (by simp; omega) (i := cA.length + i)
    (by simp; omega)
  rw [List.getElem_append_left hi, List.getElem_append_left (by omega)] at q1
  rw [List.getElem_append_right (by omega), List.getElem_append_right (by omega)] at q2
  simp only [Nat.add_sub_cancel_left] at q2
  rw [q1] at r1
  rw [q2] at r2
  rw [r1, r2]
  simp [hlen]

/-! ### Several arrays without zeros -/

variable {G : Type} [LinearOrder α]

/-- C83: when `random_not0(A, B, ..., low, high)` returns, all elements of all the arrays have been assigned numbers in
the range that are not zero, one array after the other, and nothing else has changed. -/
theorem C83_arrays_not0 (b : Build) (zero : α) {gen : Gen α G} {low high : α} {f : G → α × G} {P : α → Prop}
    (hle : low ≤ high) (h0 : ¬ (low = zero ∧ high = zero)) (h : Serves gen low high f P) (fuel : Nat) {s s' : Store α}
    {ts : List (Acc (Store α) Loc × G)} {cs : List (List Loc × G)} (ht : Targets s ts cs)
    (hr : randomNot0All b zero gen (.val low) (.val high) fuel ts s = (.ok (some ()), s')) :
    ∃ vs : List α, vs.length = (cs.map Prod.fst).flatten.length ∧ (∀ v ∈ vs, v ≠ zero ∧ P v) ∧
      Effect s s' ((cs.map Prod.fst).flatten.zip vs) := by
  have e0 : (!(decide (low = zero) && decide (high = zero))) = true := by
    rw [← Bool.decide_and, Bool.not_eq_true', decide_eq_false_iff_not]; exact h0
  have key : ∀ ts cs, Targets s ts cs → ∀ u ws, Effect s u ws →
      randomNot0All b zero gen (.val low) (.val high) fuel ts u = (.ok (some ()), s') →
      ∃ vs : List α, vs.length = (cs.map Prod.fst).flatten.length ∧ (∀ v ∈ vs, v ≠ zero ∧ P v) ∧
        Effect s s' (ws ++ (cs.map Prod.fst).flatten.zip vs) := by
    intro ts cs ht
    obtain ⟨ht⟩ := ht
    induction ht with
    | nil => intro u ws hu hr; cases hr; exact ⟨[], rfl, by simp, by simpa using hu⟩
    | @cons t c ts cs h1 _ ih =>
      intro u ws hu hr
      obtain ⟨a, g⟩ := t
      obtain ⟨cl, g'⟩ := c
      obtain ⟨rfl, d, l, hp, hd⟩ := h1
      simp only [randomNot0All, Op.get_bind, Bound.get, Op.lift_ok_bind] at hr
      rw [Op.bind_run] at hr
      have hsz : a.size u = .ok (cl.length : Int) := by
        rw [(linDen_of (hd u hu.1)).1, l.cells_same hu.1, hp.1, List.length_map]
      have hfill : randomNot0 b zero gen a low high g fuel u =
          fillNot0From a (gen.random low high) (fun x => decide (x = zero)) fuel 0 cl.length g u := by
        simp only [randomNot0, decide_eq_true hle, e0, assertDebug_true, Op.lift_ok_bind, h.makes, Op.get_bind, hsz,
          Int.toNat_natCast]
      rw [hfill] at hr
      cases hf : fillNot0From a (gen.random low high) (fun x => decide (x = zero)) fuel 0 cl.length g u with
      | mk r u' =>
        rw [hf] at hr
        cases r with
        | trap _ => cases hr
        | ub => cases hr
        | ok o =>
          cases o with
          | none => cases hr
          | some _ =>
            obtain ⟨vs, k1, k2, k3⟩ := fillNot0From_effect h zero hp hd fuel cl.length 0 (Nat.zero_add _) hu hf
            obtain ⟨vs', j1, j2, j3⟩ := ih u' _ k3 hr
            refine ⟨vs ++ vs', by simp [k1, j1], fun v hv => ?_, ?_⟩
            · rcases List.mem_append.1 hv with hv | hv
              · exact k2 v hv
              · exact j2 v hv
            · rw [List.map_cons, List.flatten_cons, List.zip_append (by simp [k1])]
              simpa using j3
  obtain ⟨vs, h1, h2, h3⟩ := key ts cs ht s [] (Effect.refl s) hr
  exact ⟨vs, h1, h2, by simpa using h3⟩

/-! ### Examples -/

section
open Spp.Sample

example : ∃ l p', draws (randomInt ⟨false, true, false⟩ .int 1 6) 100000 5 = .ok (l, p') ∧ l.length = 100000 ∧
    Repeats 2 62500 l := by
  obtain ⟨l, p', h1, h2, -⟩ := C68_draws ⟨false, true, false⟩ die 100000 5
  exact ⟨l, p', h1, h2, C113_repeats (ints_draw _ _ _ _) h1⟩

/-- The first numbers and a number that is not repeated one draw later. -/
example : draws (randomInt ⟨false, true, false⟩ .int 1 6) 4 4900000 = .ok ([4, 4, 6, 2], 407605) ∧
    semiRands ⟨false, true, false⟩ .int 48 1 6 1 = semiRands ⟨false, true, false⟩ .int 48 1 6 26 :=
  ⟨by decide +kernel, (C113_seeds _ (by decide) (by decide) (by decide) (by decide) (by decide)).1 _ _ _⟩

example : ∃ l p', draws (randomBool ⟨false, true, false⟩) 40000 5 = .ok (l, p') ∧ Repeats 1 31250 l := by
  have hk : ∀ p, ∃ v p', randomBool ⟨false, true, false⟩ p = .ok (v, p') ∧ True := fun p =>
    ⟨_, _, by
      simp only [randomBool, show ∀ p, Semi.generate ⟨false, true, false⟩ p = .ok (after p) from generate_ok _, Res.ok_bind]
      rfl, trivial⟩
  obtain ⟨l, p', h1, -⟩ := draws_ok hk 40000 5
  exact ⟨l, p', h1, (C113_bits ⟨false, true, false⟩ .int).1 l p' h1⟩

/-- Arrays with 3 and 28 elements. -/
example : ∃ v v' p p', (do let p ← seeded 48 (1 + (3 : Nat)); draws (randomInt ⟨false, true, false⟩ .int 1 6) 3 p) = .ok (v, p) ∧
    (do let p ← seeded 48 (1 + (28 : Nat)); draws (randomInt ⟨false, true, false⟩ .int 1 6) 28 p) = .ok (v', p') ∧
    v = v'.take 3 := by
  obtain ⟨v, p, h1, -⟩ := C68_draws ⟨false, true, false⟩ die 3 (((48 + (1 + (3 : Nat))) * 100000) % 2 ^ 32)
  obtain ⟨v', p', h2, -⟩ := C68_draws ⟨false, true, false⟩ die 28 (((48 + (1 + (28 : Nat))) * 100000) % 2 ^ 32)
  refine ⟨v, v', p, p', by rw [seeded_ok, Res.ok_bind]; exact h1, by rw [seeded_ok, Res.ok_bind]; exact h2, ?_⟩
  exact C113_sizes (m := 3) (n := 28) (ints_draw ⟨false, true, false⟩ .int 1 6) (clock := 48) (seed := 1) (seed' := 1) (by omega) (by decide)
    (by decide) (by decide) (by decide) (by decide) (by rw [seeded_ok, Res.ok_bind]; exact h1) (by rw [seeded_ok, Res.ok_bind]; exact h2)

/-- An array of 70000 zeros. -/
def zeros : Store Int where
  a1 := fun id => if id = 0 then List.replicate 70000 0 else []
  a2 := fun _ => ⟨0, 0, []⟩

theorem zeros_ok : Store.Ok zeros := by
  constructor
  · intro id
    simp only [zeros]
    by_cases h0 : id = 0
    · rw [if_pos h0, List.length_replicate]; decide
    · rw [if_neg h0]; decide
  · intro id; exact store_ok.2 1

/-- `semi_random(A, 1, 6, Seed{1})`: element 62503 equals element 3. -/
example : ∃ (a : Acc (Store Int) Loc) (s' : Store Int), (Lv.arr1 0).build ⟨false, true, false⟩ zeros = .ok a ∧
    semiFill ⟨false, true, false⟩ true (randomInt ⟨false, true, false⟩ .int 1 6) 48 1 a zeros = (.ok (), s') ∧
    s'.read (.one 0 62503) = s'.read (.one 0 3) := by
  have hp := arr1_places zeros 0
  have hl : (zeros.a1 0).length = 70000 := List.length_replicate
  rw [hl] at hp
  have hc : ((List.range 70000).map (Loc.one 0)).length = 70000 := by simp
  obtain ⟨v, p, h1, -⟩ := C68_draws ⟨false, true, false⟩ die 70000
    (((48 + (1 + (((List.range 70000).map (Loc.one 0)).length : Int))) * 100000) % 2 ^ 32)
  obtain ⟨a, s', e1, e2, -, -, e3⟩ := C113_array (ints_draw ⟨false, true, false⟩ .int 1 6) (clock := 48) (seed := 1) zeros_ok
    (l := .arr1 0) trivial trivial hp (vs := v) (p' := p) (by rw [seeded_ok, Res.ok_bind, hc]; rw [hc] at h1; exact h1)
  refine ⟨a, s', e1, e2, ?_⟩
  have := e3 (nodup_arr1 hp) 3 (by omega) (by rw [hc]; omega)
  simpa using this

/-- The lists of numbers that exist by C68. -/
theorem numbers : ∃ vals : Nat → List Int, ∀ n : Nat, ∃ p',
    (do let p ← seeded 48 (1 + n); draws (randomInt ⟨false, true, false⟩ .int 0 1) n p) = .ok (vals n, p') := by
  have : ∀ n : Nat, ∃ l p',
      (do let p ← seeded 48 (1 + n); draws (randomInt ⟨false, true, false⟩ .int 0 1) n p) = .ok (l, p') := by
    intro n
    obtain ⟨l, p', h, -⟩ := C68_draws ⟨false, true, false⟩ (t := .int) (low := 0) (high := 1)
      (goodInt (by decide) (by decide) (by decide)) n (((48 + (1 + n)) * 100000) % 2 ^ 32)
    exact ⟨l, p', by rw [seeded_ok, Res.ok_bind]; exact h⟩
  exact ⟨fun n => (this n).choose, fun n => (this n).choose_spec⟩

/-- `semi_random(x, y)` with arrays of three elements. -/
example : ∃ (a a' : Acc (Store Int) Loc) (s' : Store Int),
    semiRandomAll ⟨false, true, false⟩ (randomInt ⟨false, true, false⟩ .int 0 1) 48 [a, a'] store = (.ok (), s') ∧
    s'.read (.one 0 1) = s'.read (.one 1 1) := by
  obtain ⟨_, a, -, h2⟩ := (Lv.arr1 0).main ⟨false, true, false⟩ store_ok (by decide) (by decide)
  obtain ⟨_, a', -, h2'⟩ := (Lv.arr1 1).main ⟨false, true, false⟩ store_ok (by decide) (by decide)
  obtain ⟨vals, hv⟩ := numbers
  obtain ⟨s', e1, e2⟩ := C113_twins ⟨false, true, false⟩ (ints_draw _ _ _ _) hv (A := a) (B := a')
    (cA := [.one 0 0, .one 0 1, .one 0 2]) (cB := [.one 1 0, .one 1 1, .one 1 2])
    ⟨.cons ⟨.one, .arr1 0, ⟨rfl, by decide⟩, h2⟩ (.cons ⟨.one, .arr1 1, ⟨rfl, by decide⟩, h2'⟩ .nil)⟩ (by decide) rfl
  exact ⟨a, a', s', e1, e2 1 (by decide)⟩

/-- `random_not0(x, 0, 1)`. -/
example : ∃ (a : Acc (Store Int) Loc) (s' : Store Int),
    randomNot0All ⟨false, true, false⟩ 0 (plain counting) (.val 0) (.val 1) 2 [(a, 4)] store = (.ok (some ()), s') ∧
    ∃ vs : List Int, vs.length = 3 ∧ (∀ v ∈ vs, v ≠ 0 ∧ 0 ≤ v ∧ v ≤ 1) ∧
      Effect store s' ([.one 0 0, .one 0 1, .one 0 2].zip vs) := by
  have hs := C83_generator counting_contract (low := 0) (high := 1) rfl
  obtain ⟨a, s', h1, h2⟩ := C83_array_not0_returns ⟨false, true, false⟩ 0 (by decide) (by decide) hs 4 counting_bits store_ok
    (l := .arr1 0) (cs := [.one 0 0, .one 0 1, .one 0 2]) (by decide) (by decide) ⟨rfl, by decide⟩
  obtain ⟨_, a', h3, h4⟩ := (Lv.arr1 0).main ⟨false, true, false⟩ store_ok (by decide) (by decide)
  rw [h1] at h3; cases h3
  have hr : randomNot0All ⟨false, true, false⟩ 0 (plain counting) (.val 0) (.val 1) 2 [(a, 4)] store =
      (.ok (some ()), s') := by
    simp only [randomNot0All, Op.get_bind, Bound.get, Op.lift_ok_bind]
    rw [Op.bind_run, h2]
    rfl
  refine ⟨a, s', hr, ?_⟩
  exact C83_arrays_not0 ⟨false, true, false⟩ 0 (by decide) (by decide) hs 2
    (cs := [([.one 0 0, .one 0 1, .one 0 2], 4)])
    ⟨.cons ⟨rfl, .one, .arr1 0, ⟨rfl, by decide⟩, h4⟩ .nil⟩ hr

end

end Spp.Props
