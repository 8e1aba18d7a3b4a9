import Verif.Props.ErrorFree
import Verif.Lemmas.Ops
import Verif.Props.Poly

/-
Lemmas for compensated summation.
-/

set_option linter.unusedSectionVars false

namespace Spp.Lemmas

open Spp.Spec

variable {σ : Type} {G : ℚ → Prop} {u : ℚ} {rn : ℚ → ℚ} {pow : ℚ → ℚ → ℚ} {sqrt : ℚ → ℚ}

/-- What the proofs about compensated algorithms use of a floating-point format `G` with unit
roundoff `u`; it holds with and without a least exponent. -/
structure Fl (G : ℚ → Prop) (u : ℚ) (rn : ℚ → ℚ) : Prop where
  pos : 0 < u
  zero : G 0
  good : ∀ v, G (rn v)
  fix : ∀ v, G v → rn v = v
  neg : ∀ v, G v → G (-v)
  err : ∀ a b, G a → G b → G (a + b - rn (a + b))
  rel : ∀ a b, G a → G b → |a + b - rn (a + b)| ≤ u * |a + b|
  fast : ∀ a b, G a → G b → |b| ≤ |a| → G (rn (a + b) - a)
  two : ∀ a b, G a → G b →
    rn (rn (a - rn (rn (a + b) - rn (rn (a + b) - a))) + rn (b - rn (rn (a + b) - a))) =
      a + b - rn (a + b)

theorem fl_nearest {p : Nat} {emin : Int} (hp : 2 ≤ p) (h : Nearest p emin rn) :
    Fl (Rep p emin) (unit p) rn where
  pos := inv_pos.2 (by positivity)
  zero := rep_zero
  good := h.rep
  fix _ hv := rn_rep h hv
  neg _ hv := rep_neg hv
  err _ _ ha hb := rep_err (by omega) h ha hb
  rel _ _ ha hb := rel_err (by omega) h ((rep_mult ha).add (rep_mult hb))
  fast _ _ ha hb hab := rep_fast (by omega) h ha hb hab
  two a b ha hb := by
    obtain ⟨r, s, e1, e2, e3, -⟩ := Props.C11_two_sum (pow := fun x _ => x) (sqrt := id) hp h ha hb
    have : (r, s) = (rn (a + b), rn (rn (a - rn (rn (a + b) - rn (rn (a + b) - a))) +
        rn (b - rn (rn (a + b) - a)))) := by
      have := e1.symm
      injection this
    rw [Prod.mk.injEq] at this
    rw [← this.2, ← e2, ← e3]; ring

theorem fl_nearestX {p : Nat} (hp : 2 ≤ p) (h : NearestX p rn) : Fl (RepX p) (unit p) rn where
  pos := inv_pos.2 (by positivity)
  zero := ⟨0, 0, by simp, by simp⟩
  good := h.rep
  fix v hv := by
    have := h.near v v hv
    rw [sub_self, abs_zero] at this
    linarith [abs_nonpos_iff.1 this]
  neg v hv := by
    obtain ⟨m, e, h1, rfl⟩ := hv
    exact ⟨-m, e, by rwa [abs_neg], by push_cast; ring⟩
  err a b ha hb := by
    obtain ⟨e, -, he⟩ := repX_common (l := [a, b]) (p := p) (by simp [ha, hb]) 0
    obtain ⟨r', h1, h2⟩ := transfer (by omega) h e
    have ma := he a (by simp)
    have mb := he b (by simp)
    rw [← h2 _ (ma.add mb)]
    exact repX_of_rep (rep_err (by omega) h1 (rep_of_repX ha ma) (rep_of_repX hb mb))
  rel a b _ _ := rel_errX (by omega) h (a + b)
  fast a b ha hb hab := by
    obtain ⟨e, -, he⟩ := repX_common (l := [a, b]) (p := p) (by simp [ha, hb]) 0
    obtain ⟨r', h1, h2⟩ := transfer (by omega) h e
    have ma := he a (by simp)
    have mb := he b (by simp)
    rw [← h2 _ (ma.add mb)]
    exact repX_of_rep (rep_fast (by omega) h1 (rep_of_repX ha ma) (rep_of_repX hb mb) hab)
  two a b ha hb := by
    obtain ⟨e, -, he⟩ := repX_common (l := [a, b]) (p := p) (by simp [ha, hb]) 0
    obtain ⟨r', h1, h2⟩ := transfer (by omega) h e
    have ma := he a (by simp)
    have mb := he b (by simp)
    have key := (fl_nearest hp h1).two a b (rep_of_repX ha ma) (rep_of_repX hb mb)
    have mr : ∀ v, Mult e v → Mult e (r' v) := fun v _ => rep_mult (h1.rep v)
    have m1 : Mult e (a + b) := ma.add mb
    have m2 := mr _ m1
    have m3 := m2.sub ma
    have m4 := mr _ m3
    have m5 := m2.sub m4
    have m6 := ma.sub (mr _ m5)
    have m7 := mb.sub m4
    have m8 := (mr _ m6).add (mr _ m7)
    rw [h2 _ m8, h2 _ m6, h2 _ m7, h2 _ m5, h2 _ m3, h2 _ m1] at key
    exact key

theorem abss_rounded (x : ℚ) : (rounded rn pow sqrt).abss x = .ok |x| := by
  unfold Scalar.abss
  show (if decide ((0 : ℚ) < x) = true then Res.ok x else Res.ok (-x)) = _
  by_cases h : 0 < x
  · rw [if_pos (decide_eq_true h), abs_of_pos h]
  · rw [if_neg (by simpa using h), abs_of_nonpos (not_lt.1 h)]

/-- The compensation term of one step of `stable_sum` is the exact rounding error of the addition. -/
theorem sumStep_rounded (h : Fl G u rn) {x : ℚ} {sc : ℚ × ℚ}
    (hx : G x) (hs : G sc.1) :
    Stable.sumStep (rounded rn pow sqrt) x sc =
      .ok (rn (sc.1 + x), rn (sc.2 + (sc.1 + x - rn (sc.1 + x)))) := by
  unfold Stable.sumStep
  have herr := h.err _ _ hs hx
  show (do
    let as ← (rounded rn pow sqrt).abss sc.1
    let ax ← (rounded rn pow sqrt).abss x
    if decide (ax ≤ as) = true then
      (Res.ok (rn (sc.1 + x), rn (sc.2 + rn (rn (sc.1 - rn (sc.1 + x)) + x))) : Res (ℚ × ℚ))
    else Res.ok (rn (sc.1 + x), rn (sc.2 + rn (rn (x - rn (sc.1 + x)) + sc.1)))) = _
  rw [abss_rounded, abss_rounded, Res.ok_bind, Res.ok_bind]
  by_cases hle : |x| ≤ |sc.1|
  · rw [if_pos (decide_eq_true hle)]
    have h1 := h.neg _ (h.fast _ _ hs hx hle)
    rw [neg_sub] at h1
    rw [h.fix _ h1, show sc.1 - rn (sc.1 + x) + x = sc.1 + x - rn (sc.1 + x) by ring, h.fix _ herr]
  · rw [if_neg (by simpa using hle)]
    have h1 := h.neg _ (h.fast _ _ hx hs (not_le.1 hle).le)
    rw [neg_sub, add_comm x] at h1
    rw [h.fix _ h1, show x - rn (sc.1 + x) + sc.1 = sc.1 + x - rn (sc.1 + x) by ring, h.fix _ herr]

theorem sumStep_fold (h : Fl G u rn) {l : List ℚ}
    (hl : ∀ x ∈ l, G x) {a c : ℚ} (ha : G a) :
    l.foldlM (fun sc x => Stable.sumStep (rounded rn pow sqrt) x sc) (a, c) =
      .ok (runningSum rn a l, runningSum rn c (sumErrors rn a l)) := by
  induction l generalizing a c with
  | nil => rfl
  | cons x l ih =>
    rw [List.foldlM_cons, sumStep_rounded h (hl x (List.mem_cons_self ..)) ha, Res.ok_bind,
      ih (fun y hy => hl y (List.mem_cons_of_mem _ hy)) (h.good _)]
    rfl

/-- The loop of `stable_sum` on elements read without side effects. -/
theorem sumLoop_list {α : Type} (fs : FScalar α) {l : List α} {n : Nat} {q : Nat → Res α}
    (hn : n = l.length) (hq : ∀ i (h : i < l.length), q i = .ok l[i]) :
    Stable.sumLoop fs n (fun i (u : Unit) => do let x ← q i; pure (x, u)) () = (do
      let r ← l.foldlM (fun sc x => Stable.sumStep fs x sc) (fs.zero, fs.zero)
      fs.add r.1 r.2) := by
  unfold Stable.sumLoop
  subst hn
  have e : foldN l.length (fun i (r : (α × α) × Unit) => do
        let x ← (do let x ← q i; pure (x, r.2))
        let sc ← Stable.sumStep fs x.1 r.1
        pure (sc, x.2)) ((fs.zero, fs.zero), ()) =
      l.foldlM (fun (r : (α × α) × Unit) x => do
        let sc ← Stable.sumStep fs x r.1
        pure (sc, r.2)) ((fs.zero, fs.zero), ()) := by
    rw [← foldN_list (p := q) hq]
    refine foldN_congr _ fun i r hi => ?_
    rw [hq i hi]; rfl
  rw [e]
  have key : ∀ (l : List α) (a : α × α),
      (l.foldlM (fun (r : (α × α) × Unit) x => do
        let sc ← Stable.sumStep fs x r.1
        pure (sc, r.2)) (a, ())) = (do
        let r ← l.foldlM (fun sc x => Stable.sumStep fs x sc) a
        pure (r, ())) := by
    intro l
    induction l with
    | nil => intro a; rfl
    | cons x l ih =>
      intro a
      rw [List.foldlM_cons, List.foldlM_cons]
      show ((Stable.sumStep fs x a >>= fun sc => pure (sc, ())) >>= _) = _
      cases hx : Stable.sumStep fs x a with
      | ok v => exact ih v
      | trap k => rfl
      | ub => rfl
  rw [key]
  cases l.foldlM (fun sc x => Stable.sumStep fs x sc) (fs.zero, fs.zero) with
  | ok v => rfl
  | trap k => rfl
  | ub => rfl

theorem stableSum_eq {α : Type} {d : Dim} (fs : FScalar α) {a : Acc σ α} {s : σ} {l : List α}
    (h : Elems d a s l) (hne : l ≠ []) (dflt : α) :
    Stable.sum fs a s dflt = (do
      let r ← l.foldlM (fun sc x => Stable.sumStep fs x sc) (fs.zero, fs.zero)
      fs.add r.1 r.2) := by
  have hne' : l.isEmpty = false := by simpa using hne
  unfold Stable.sum
  rw [Elems.empty h, hne', Elems.size h]
  exact sumLoop_list fs (q := fun i => a.un s i) (by simp) (fun i hi => Elems.un h hi)

/-! ### Exact and rounded running sums -/

/-- The running sum and the rounding errors add up to the exact sum. -/
theorem errors_total (rn : ℚ → ℚ) (a : ℚ) (l : List ℚ) :
    runningSum rn a l + (sumErrors rn a l).sum = a + l.sum := by
  induction l generalizing a with
  | nil => simp [runningSum, sumErrors]
  | cons x l ih =>
    have := ih (rn (a + x))
    simp only [runningSum, sumErrors, List.sum_cons]
    linarith

theorem errors_rep (h : Fl G u rn) {l : List ℚ} (hl : ∀ x ∈ l, G x)
    {a : ℚ} (ha : G a) : ∀ e ∈ sumErrors rn a l, G e := by
  induction l generalizing a with
  | nil => simp [sumErrors]
  | cons x l ih =>
    intro e he
    rw [sumErrors, List.mem_cons] at he
    rcases he with rfl | he
    · exact h.err _ _ ha (hl x (List.mem_cons_self ..))
    · exact ih (fun y hy => hl y (List.mem_cons_of_mem _ hy)) (h.good _) e he

theorem runningSum_rep (h : Fl G u rn) {a : ℚ} (ha : G a) (l : List ℚ) :
    G (runningSum rn a l) := by
  induction l generalizing a with
  | nil => exact ha
  | cons x l ih => exact ih (h.good _)

theorem errors_length (rn : ℚ → ℚ) (a : ℚ) (l : List ℚ) : (sumErrors rn a l).length = l.length := by
  induction l generalizing a with
  | nil => rfl
  | cons x l ih => simp [sumErrors, ih]

theorem growth_nonneg (hu : 0 < u) (n : Nat) : 0 ≤ (1 + u) ^ n - 1 := by
  have : (1 : ℚ) ≤ (1 + u) ^ n := one_le_pow₀ (by linarith)
  linarith

theorem growth_mono (hu : 0 < u) {m n : Nat} (h : m ≤ n) :
    (1 + u) ^ m - 1 ≤ (1 + u) ^ n - 1 := by
  have : (1 + u) ^ m ≤ (1 + u) ^ n := pow_le_pow_right₀ (by linarith) h
  linarith

theorem abs_sum_le (l : List ℚ) : |l.sum| ≤ (l.map abs).sum := by
  induction l with
  | nil => simp
  | cons x l ih =>
    rw [List.sum_cons, List.map_cons, List.sum_cons]
    exact (abs_add_le _ _).trans (by linarith)

theorem sum_abs_nonneg (l : List ℚ) : 0 ≤ (l.map abs).sum := (abs_nonneg _).trans (abs_sum_le l)

theorem abs_le_of_rel {x y : ℚ} (h1 : |x - y| ≤ u * |x|) : |y| ≤ (1 + u) * |x| := by
  have h2 : |y| ≤ |x| + |x - y| := by
    have e : y = x - (x - y) := by ring
    calc |y| = |x - (x - y)| := by rw [← e]
      _ ≤ _ := abs_sub _ _
  linarith

/-- All rounding errors of a running sum together. -/
theorem errors_bound (h : Fl G u rn) {l : List ℚ} (hl : ∀ x ∈ l, G x)
    {a : ℚ} (ha : G a) :
    ((sumErrors rn a l).map abs).sum ≤ ((1 + u) ^ l.length - 1) * (|a| + (l.map abs).sum) := by
  induction l generalizing a with
  | nil => simp [sumErrors]
  | cons x l ih =>
    have hx := hl x (List.mem_cons_self ..)
    have ih' := ih (fun y hy => hl y (List.mem_cons_of_mem _ hy)) (h.good (a + x))
    have h1 := h.rel a x ha hx
    have h2 := abs_le_of_rel h1
    have h3 := abs_add_le a x
    have hu := h.pos
    have hg := growth_nonneg h.pos l.length
    have hs := sum_abs_nonneg l
    simp only [sumErrors, List.map_cons, List.sum_cons, List.length_cons]
    have h4 : u * |a + x| ≤ u * (|a| + |x|) := mul_le_mul_of_nonneg_left h3 hu.le
    have h5 : |rn (a + x)| ≤ (1 + u) * (|a| + |x|) :=
      h2.trans (mul_le_mul_of_nonneg_left h3 (by linarith))
    have h6 := mul_le_mul_of_nonneg_left h5 hg
    have h7 : 0 ≤ u * (1 + u) ^ l.length * (l.map abs).sum := by positivity
    rw [pow_succ]
    nlinarith

/-- The forward error of a running sum. -/
theorem runningSum_err (h : Fl G u rn) {l : List ℚ}
    (hl : ∀ x ∈ l, G x) {a : ℚ} (ha : G a) :
    |runningSum rn a l - (a + l.sum)| ≤
      ((1 + u) ^ l.length - 1) * (|a| + (l.map abs).sum) := by
  have e : runningSum rn a l - (a + l.sum) = -(sumErrors rn a l).sum := by
    rw [← errors_total rn a l]; ring
  rw [e, abs_neg]
  exact (abs_sum_le _).trans (errors_bound h hl ha)

/-- The same, counting one addition less when the sum starts from zero. -/
theorem runningSum_zero_err (h : Fl G u rn) {l : List ℚ}
    (hl : ∀ x ∈ l, G x) :
    |runningSum rn 0 l - l.sum| ≤ ((1 + u) ^ (l.length - 1) - 1) * (l.map abs).sum := by
  cases l with
  | nil => simp [runningSum]
  | cons x l =>
    have hx := hl x (List.mem_cons_self ..)
    have := runningSum_err h (fun y hy => hl y (List.mem_cons_of_mem _ hy)) hx
    simpa [runningSum, h.fix _ hx] using this

theorem errors_zero_bound (h : Fl G u rn) {l : List ℚ}
    (hl : ∀ x ∈ l, G x) :
    ((sumErrors rn 0 l).map abs).sum ≤ ((1 + u) ^ (l.length - 1) - 1) * (l.map abs).sum := by
  cases l with
  | nil => simp [sumErrors]
  | cons x l =>
    have hx := hl x (List.mem_cons_self ..)
    have := errors_bound h (fun y hy => hl y (List.mem_cons_of_mem _ hy)) hx
    simpa [sumErrors, h.fix _ hx] using this

/-- The error of a compensated sum, on lists. -/
theorem compensated_err (h : Fl G u rn) {l : List ℚ}
    (hl : ∀ x ∈ l, G x) :
    |rn (runningSum rn 0 l + runningSum rn 0 (sumErrors rn 0 l)) - l.sum| ≤
      u * |l.sum| +
        (1 + u) * ((1 + u) ^ (l.length - 1) - 1) ^ 2 * (l.map abs).sum := by
  have hE := errors_rep h hl h.zero
  have hc := runningSum_zero_err h hE
  rw [errors_length] at hc
  have hB := errors_zero_bound h hl
  have ht := errors_total rn 0 l
  rw [zero_add] at ht
  generalize hS : runningSum rn 0 l = S at *
  generalize hC : runningSum rn 0 (sumErrors rn 0 l) = C at *
  have hr := h.rel S C (by rw [← hS]; exact runningSum_rep h h.zero l)
    (by rw [← hC]; exact runningSum_rep h h.zero _)
  have hu := h.pos
  have hg := growth_nonneg h.pos (l.length - 1)
  have hd : |S + C - l.sum| ≤ ((1 + u) ^ (l.length - 1) - 1) ^ 2 * (l.map abs).sum := by
    have e : S + C - l.sum = C - (sumErrors rn 0 l).sum := by linarith
    rw [e, sq, mul_assoc]
    exact hc.trans (mul_le_mul_of_nonneg_left hB hg)
  have h1 : |S + C| ≤ |l.sum| + |S + C - l.sum| := by
    have e : S + C = l.sum + (S + C - l.sum) := by ring
    calc |S + C| = |l.sum + (S + C - l.sum)| := by rw [← e]
      _ ≤ _ := abs_add_le _ _
  have h2 : |rn (S + C) - l.sum| ≤ |S + C - rn (S + C)| + |S + C - l.sum| := by
    have e : rn (S + C) - l.sum = (S + C - l.sum) - (S + C - rn (S + C)) := by ring
    rw [e]; exact (abs_sub (S + C - l.sum) (S + C - rn (S + C))).trans (le_of_eq (add_comm _ _))
  have h3 := mul_le_mul_of_nonneg_left h1 hu.le
  have h4 := mul_le_mul_of_nonneg_left hd hu.le
  linarith

/-! ### Exact arithmetic -/

section exact

variable {K : Type} [Field K] [LinearOrder K] [IsStrictOrderedRing K] {powK : K → K → K}
  {sqrtK : K → K}

theorem abss_exactF (x : K) : (exactF K powK sqrtK).abss x = .ok |x| := Props.abss_exact x

theorem sumStep_exact (x : K) (sc : K × K) :
    Stable.sumStep (exactF K powK sqrtK) x sc = .ok (sc.1 + x, sc.2) := by
  unfold Stable.sumStep
  show (do
    let as ← (exactF K powK sqrtK).abss sc.1
    let ax ← (exactF K powK sqrtK).abss x
    if decide (ax ≤ as) = true then
      (Res.ok (sc.1 + x, sc.2 + (sc.1 - (sc.1 + x) + x)) : Res (K × K))
    else Res.ok (sc.1 + x, sc.2 + (x - (sc.1 + x) + sc.1))) = _
  rw [abss_exactF, abss_exactF, Res.ok_bind, Res.ok_bind]
  have e1 : sc.2 + (sc.1 - (sc.1 + x) + x) = sc.2 := by ring
  have e2 : sc.2 + (x - (sc.1 + x) + sc.1) = sc.2 := by ring
  rw [e1, e2]
  split <;> rfl

theorem sumStep_fold_exact (l : List K) (sc : K × K) :
    l.foldlM (fun sc x => Stable.sumStep (exactF K powK sqrtK) x sc) sc = .ok (sc.1 + l.sum, sc.2) := by
  induction l generalizing sc with
  | nil => simp
  | cons x l ih =>
    rw [List.foldlM_cons, sumStep_exact, Res.ok_bind, ih, List.sum_cons, add_assoc]

theorem stableSum_exact {d : Dim} {a : Acc σ K} {s : σ} {l : List K} (h : Elems d a s l)
    (hne : l ≠ []) (dflt : K) : Stable.sum (exactF K powK sqrtK) a s dflt = .ok l.sum := by
  rw [stableSum_eq _ h hne, sumStep_fold_exact, Res.ok_bind]
  show Res.ok ((0 : K) + l.sum + 0) = _
  rw [zero_add, add_zero]

end exact

end Spp.Lemmas
