import Verif.Props.Fused2

/-
C141: contraction and square roots.
-/

namespace Spp.Props

open Spec Lemmas FVal

variable {τ : Type} {d : Dim} {t : τ} {p : Nat} {emin : Int} {F : Fmt}

/-- Positive, `+0` or `+inf`. -/
def Plus (x : FVal) : Prop := x = inf false ∨ ∃ m, 0 ≤ m ∧ x = fin false m

theorem plus_round (hF : IsFmt p emin F) {m : ℚ} (h : 0 ≤ m) : Plus (FVal.round F false m) := by
  unfold FVal.round
  split
  · exact .inl rfl
  · exact .inr ⟨_, rn_nonneg hF h, rfl⟩

theorem Plus.add (hF : IsFmt p emin F) {x y : FVal} (hx : Plus x) (hy : Plus y) : Plus (FVal.add F x y) := by
  rcases hx with rfl | ⟨m, hm, rfl⟩ <;> rcases hy with rfl | ⟨n, hn, rfl⟩
  · exact .inl rfl
  · exact .inl rfl
  · exact .inl rfl
  · simp only [FVal.add]
    split
    · exact .inr ⟨0, le_rfl, rfl⟩
    · have : ¬ val (fin false m) + val (fin false n) < 0 := not_lt.2 (add_nonneg hm hn)
      rw [decide_eq_false this]
      exact plus_round hF (abs_nonneg _)

/-- The exact square of anything but NaN. -/
theorem plus_square {x : FVal} (h : x ≠ nan) : Plus (exactMul x x) := by
  rcases x with _ | s | ⟨s, m⟩
  · exact absurd rfl h
  · cases s <;> exact .inl rfl
  · refine .inr ⟨m * m, mul_self_nonneg m, ?_⟩
    cases s <;> rfl

theorem plus_mul (hF : IsFmt p emin F) {x : FVal} (h : x ≠ nan) : Plus (FVal.mul F x x) := by
  unfold FVal.mul
  rcases plus_square h with e | ⟨m, hm, e⟩ <;> rw [e]
  · exact .inl rfl
  · exact plus_round hF hm

/-- A running sum of squares, however it is computed. -/
theorem squares_plus (hF : IsFmt p emin F) (xs : List FVal) (hxs : ∀ x ∈ xs, x ≠ nan) (t0 : Formula)
    (h0 : (∀ v, t0.Computes F v → Plus v) ∧ (∀ x y, t0.Product F x y → Plus (exactMul x y))) :
    ∀ w, (xs.foldl (fun a x => Formula.add a (times x x)) t0).Computes F w → Plus w := by
  induction xs generalizing t0 with
  | nil => exact h0.1
  | cons x xs ih =>
    have x1 := hxs x List.mem_cons_self
    refine ih (fun y hy => hxs y (List.mem_cons_of_mem _ hy)) _ ⟨?_, fun _ _ h => h.elim⟩
    intro v hv
    simp only [times, Formula.Computes, Formula.Product] at hv
    rcases hv with ⟨a, b, ha, ⟨_, _, rfl, rfl, rfl⟩, rfl⟩ | ⟨a, b, z, hab, ⟨_, _, rfl, rfl, rfl⟩, rfl⟩ |
      ⟨_, _, z, ⟨rfl, rfl⟩, hz, rfl⟩
    · exact (h0.1 a ha).add hF (plus_mul hF x1)
    · exact (h0.2 a b hab).add hF (plus_mul hF x1)
    · exact (plus_square x1).add hF (h0.1 z hz)

/-- C141: `norm2`.  Whichever products are fused into the sum of the squares, for elements that are not NaN it is not
NaN and not negative, so that the norm, its square root, is not NaN either. -/
theorem C141_norm2 (hF : IsFmt p emin F) (b : Build) {sh : Nat × Nat} {l : List FVal} {f : Acc τ Formula}
    (h : Shaped d f t sh (l.map .elem)) (hl : nan ∉ l) (hne : l ≠ []) (dflt : Formula) :
    ∃ φ, Ops.dotProd b d Formula.arith f f t dflt = .ok φ ∧
      ∀ w, φ.Computes F w → w ≠ nan ∧ lt w (fin false 0) = false ∧ FVal.sqrt F w ≠ nan := by
  have hl' : ∀ x ∈ l, x ≠ nan := fun x hx e => hl (e ▸ hx)
  cases l with
  | nil => exact absurd rfl hne
  | cons x xs =>
    have x1 := hl' x List.mem_cons_self
    have e : List.zipWith Formula.mul ((x :: xs).map Formula.elem) ((x :: xs).map Formula.elem) =
        times x x :: xs.map (fun y => times y y) := by
      rw [List.zipWith_self, List.map_map]
      rfl
    refine ⟨xs.foldl (fun a x => Formula.add a (times x x)) (times x x), ?_, fun w hw => ?_⟩
    · rw [(C52_dot b h h Formula.arith (mul := Formula.mul) (fun _ _ => rfl) dflt).2 _ _ e]
      refine (foldlM_pure (g := Formula.add) _ _ fun _ _ _ => rfl).trans ?_
      rw [List.foldl_map]
    · have hu := squares_plus hF xs (fun y hy => hl' y (List.mem_cons_of_mem _ hy)) (times x x)
        ⟨fun v hv => by
          simp only [times, Formula.Computes] at hv
          obtain ⟨_, _, rfl, rfl, rfl⟩ := hv
          exact plus_mul hF x1, fun a b hab => by
          simp only [times, Formula.Product, Formula.Computes] at hab
          obtain ⟨rfl, rfl⟩ := hab
          exact plus_square x1⟩ w hw
      rcases hu with rfl | ⟨m, hm, rfl⟩
      · exact ⟨by simp, rfl, by simp [FVal.sqrt]⟩
      · refine ⟨by simp, decide_eq_false (not_lt.2 hm), ?_⟩
        simp only [FVal.sqrt]
        split
        · simp
        · unfold FVal.round
          simp only [Bool.false_eq_true, if_false]
          split <;> simp

/-- C141: differences of squares are not safe.  There is a format and a number `x` for which `x * x - x * x` is zero, and
its square root zero, without contraction, while a compiler that fuses may compute a negative number, whose square root
is NaN. -/
theorem C141_root : ∃ F, IsFmt 2 (-4) F ∧ ∃ x, Held 2 (-4) F x ∧ x.isFinite = true ∧
    FVal.sqrt F (FVal.sub F (FVal.mul F x x) (FVal.mul F x x)) = fin false 0 ∧
    ∃ w, (Formula.sub (times x x) (times x x)).Computes F w ∧ lt w (fin false 0) = true ∧ FVal.sqrt F w = nan := by
  obtain ⟨rn0, h0⟩ := exists_nearest (p := 2) (by norm_num) (-4)
  obtain ⟨rn, h, ho⟩ := exists_odd h0
  let F : Fmt := ⟨rn, 12, id, fun x _ => x⟩
  have hF : IsFmt 2 (-4) F := ⟨h, ho, ⟨3, 2, by norm_num, by norm_num, by norm_num [F]⟩, by norm_num [F]⟩
  have r1 : |9 / 4 - rn (9 / 4)| ≤ 1 / 4 := by
    refine (h.near (9 / 4) 2 ⟨1, 1, by norm_num, by norm_num, by norm_num⟩).trans ?_
    norm_num
  have r2 : rn (9 / 4) ≠ 9 / 4 := fun he => not_rep_nine (he ▸ h.rep (9 / 4))
  obtain ⟨r3, r4⟩ := abs_le.1 r1
  have d1 : Mult (-4) |9 / 4 - rn (9 / 4)| := by
    have : Mult (-4) (9 / 4 - rn (9 / 4)) := Mult.sub ⟨36, by norm_num⟩ (rep_mult (h.rep _))
    rcases abs_choice (9 / 4 - rn (9 / 4)) with e | e <;> rw [e]
    · exact this
    · obtain ⟨k, hk⟩ := this
      exact ⟨-k, by rw [hk]; push_cast; ring⟩
  have hd : (0 : ℚ) < |9 / 4 - rn (9 / 4)| := abs_pos.2 (sub_ne_zero.2 (Ne.symm r2))
  have d2 := rel_err (p := 2) (by norm_num) h d1
  rw [abs_abs, show unit 2 = 1 / 4 by norm_num [unit]] at d2
  obtain ⟨d3, d4⟩ := abs_le.1 d2
  let x : FVal := fin false (3 / 2)
  have hxx : FVal.mul F x x = fin false (rn (9 / 4)) := by
    show FVal.round F false (3 / 2 * (3 / 2)) = _
    unfold FVal.round
    rw [show (3 / 2 * (3 / 2) : ℚ) = 9 / 4 by norm_num]
    exact if_neg (not_lt.2 (by show rn (9 / 4) ≤ 12; linarith))
  have key : ∀ (y z : FVal) (v : ℚ), v < 0 → |v| = |9 / 4 - rn (9 / 4)| → (∃ s m s' m', y = fin s m ∧ z = fin s' m' ∧
      val y + val z = v) → FVal.add F y z = fin true (rn |9 / 4 - rn (9 / 4)|) := by
    rintro _ _ v hv he ⟨s, m, s', m', rfl, rfl, e⟩
    simp only [FVal.add]
    rw [e, if_neg hv.ne, decide_eq_true hv, he]
    unfold FVal.round
    exact if_neg (not_lt.2 (by show rn |9 / 4 - rn (9 / 4)| ≤ 12; linarith))
  have hpos : 0 < rn |9 / 4 - rn (9 / 4)| := by linarith
  refine ⟨F, hF, x, ⟨by norm_num, by norm_num [F], 3, -1, by norm_num, by norm_num, by norm_num⟩, rfl, ?_,
    fin true (rn |9 / 4 - rn (9 / 4)|), ?_, ?_, ?_⟩
  · rw [hxx]
    simp [FVal.sub, FVal.neg, FVal.add, FVal.sqrt, val]
  · simp only [times, Formula.Computes, Formula.Product]
    rcases lt_or_gt_of_ne r2 with hlt | hgt
    · refine .inr (.inr ⟨x, x, FVal.mul F x x, ⟨rfl, rfl⟩, ⟨x, x, rfl, rfl, rfl⟩, ?_⟩)
      rw [hxx]
      refine (key _ _ (rn (9 / 4) - 9 / 4) (by linarith) (abs_sub_comm _ _) ⟨_, _, _, _, rfl, rfl, ?_⟩).symm
      show -(3 / 2 * (3 / 2)) + rn (9 / 4) = _
      ring
    · refine .inr (.inl ⟨x, x, FVal.mul F x x, ⟨rfl, rfl⟩, ⟨x, x, rfl, rfl, rfl⟩, ?_⟩)
      rw [hxx]
      refine (key _ _ (9 / 4 - rn (9 / 4)) (by linarith) rfl ⟨_, _, _, _, rfl, rfl, ?_⟩).symm
      show (3 / 2 * (3 / 2)) + -rn (9 / 4) = _
      ring
  · refine decide_eq_true ?_
    show -rn |9 / 4 - rn (9 / 4)| < 0
    linarith
  · simp [FVal.sqrt, hpos.ne']

/-! ### Cases that meet the hypotheses -/

/-- Infinities are allowed. -/
example (hF : IsFmt p emin F) : ∃ φ, Ops.dotProd ⟨false, true, false⟩ .one Formula.arith
    (Sample.lit [Formula.elem (fin true 3), Formula.elem (inf true)]) (Sample.lit [Formula.elem (fin true 3), Formula.elem (inf true)])
    () (Formula.num 0) = .ok φ ∧
    φ.Computes F (FVal.fma F (fin true 3) (fin true 3) (FVal.mul F (inf true) (inf true))) ∧
    ∀ w, φ.Computes F w → w ≠ nan ∧ lt w (fin false 0) = false ∧ FVal.sqrt F w ≠ nan := by
  obtain ⟨φ, h1, h2⟩ := C141_norm2 hF ⟨false, true, false⟩ (l := [fin true 3, inf true])
    (Sample.lit_shaped () [Formula.elem (fin true 3), Formula.elem (inf true)]) (by simp) (by simp) (Formula.num 0)
  refine ⟨φ, h1, ?_, h2⟩
  cases h1
  simp only [Formula.Computes, Formula.Product]
  exact .inr (.inl ⟨_, _, _, ⟨rfl, rfl⟩, ⟨_, _, rfl, rfl, rfl⟩, rfl⟩)

end Spp.Props
