import Verif.Props.IeeeOps

/-
C93: when a sum, product or inner product is finite, no intermediate result was infinite or NaN, and the result is the
one of the same operations without a largest number; so the bounds on rounding errors hold for it.
-/

set_option linter.unusedSectionVars false

namespace Spp.Props

open Spp.Spec Spp.Lemmas FVal

variable {σ τ : Type} {s : σ} {t : τ} {d d' : Dim} {F : Fmt} {p : Nat} {emin : Int} {pow : ℚ → ℚ → ℚ} {sqrt : ℚ → ℚ}

/-- The loop of `stable_sum` and its last addition. -/
def sumV (F : Fmt) (l : List FVal) : FVal :=
  add F (l.foldl (fun sc x => stepV F x sc) (fin false 0, fin false 0)).1
    (l.foldl (fun sc x => stepV F x sc) (fin false 0, fin false 0)).2

theorem sumV_finite (hF : IsFmt p emin F) {l : List FVal} (h : (sumV F l).isFinite = true) :
    (∀ x ∈ l, x.isFinite = true) ∧
    ((l.map val).foldlM (fun sc x => Stable.sumStep (rounded F.rn pow sqrt) x sc) ((0 : ℚ), (0 : ℚ)) >>=
      fun r => (rounded F.rn pow sqrt).add r.1 r.2) = .ok (sumV F l).val := by
  have h' := h
  unfold sumV at h'
  obtain ⟨h1, h2⟩ := add_finite h'
  obtain ⟨k1, -, -, k2⟩ := sumFold_finite (pow := pow) (sqrt := sqrt) hF h1 h2
  refine ⟨k1, ?_⟩
  have e : vals (fin false 0, fin false 0) = ((0 : ℚ), (0 : ℚ)) := rfl
  rw [e] at k2
  rw [k2, Res.ok_bind]
  unfold sumV
  rw [val_add hF h']
  rfl

theorem foldl_add_total (l : List FVal) (acc : FVal) : l.foldl (add F) acc = total F acc l := total_foldl acc l

theorem blocks_map (k : Nat) (l : List FVal) : blocks k (l.map val) = (blocks k l).map (List.map val) := by
  unfold blocks
  rw [List.map_map, List.length_map]
  refine List.map_congr_left fun i _ => ?_
  simp [List.map_take, List.map_drop]

theorem afterBlocks_map (k : Nat) (l : List FVal) : afterBlocks k (l.map val) = (afterBlocks k l).map val := by
  unfold afterBlocks
  rw [List.length_map, List.map_drop]

theorem semiSum_ieee (b : Build) {a : Acc σ FVal} {l : List FVal} (h : Elems d a s l) (hne : l ≠ [])
    (hl : l.length < 2 ^ 63) (dflt : FVal) :
    Stable.semiSum b F.scalar a s dflt = .ok
      (if l.length < 64 then total F (fin false 0) l.reverse
       else add F (sumV F ((blocks 64 l).map fun B => total F (fin false 0) B))
         (total F (fin false 0) (afterBlocks 64 l).reverse)) := by
  rw [semiSum_eq b F.scalar (g := add F) (fun _ _ => rfl) h hne hl]
  show (if _ then Res.ok (l.reverse.foldl (add F) (fin false 0)) else _) = _
  rw [total_foldl]
  split
  · rfl
  · show (((blocks 64 l).map fun B => B.foldl (add F) (fin false 0)).foldlM
      (fun sc x => Stable.sumStep F.scalar x sc) (fin false 0, fin false 0) >>= _) = _
    rw [sumFold_ieee, Res.ok_bind]
    have e : (fun B : List FVal => B.foldl (add F) (fin false 0)) = fun B => total F (fin false 0) B :=
      funext fun B => total_foldl _ B
    rw [e, total_foldl]
    rfl

theorem semi_finite (hF : IsFmt p emin F) (b : Build) {a : Acc σ FVal} {a' : Acc τ ℚ} {l : List FVal}
    (h : Elems d a s l) (h' : Elems d' a' t (l.map val)) (hne : l ≠ []) (hl : l.length < 2 ^ 63) (dflt : FVal)
    (dflt' : ℚ) : IfFinite (Stable.semiSum b F.scalar a s dflt) l
      (Stable.semiSum b (rounded F.rn pow sqrt) a' t dflt') := by
  refine ⟨_, semiSum_ieee b h hne hl dflt, fun hf => ?_⟩
  rw [semiSum_eq b (rounded F.rn pow sqrt) (g := fun x y => F.rn (x + y)) (fun _ _ => rfl) h' (by simpa using hne)
    (by simpa using hl), List.length_map]
  split
  · rename_i h64
    rw [if_pos h64] at hf
    have k := (total_finite hf).2
    refine ⟨fun x hx => k x (by simpa using hx), ?_⟩
    rw [total_val hF hf, List.map_reverse]
    rfl
  · rename_i h64
    rw [if_neg h64] at hf
    obtain ⟨f1, f2⟩ := add_finite hf
    obtain ⟨k1, k2⟩ := sumV_finite (pow := pow) (sqrt := sqrt) hF f1
    have kb : ∀ B ∈ blocks 64 l, (total F (fin false 0) B).isFinite = true := fun B hB =>
      k1 _ (List.mem_map.2 ⟨B, hB, rfl⟩)
    refine ⟨fun x hx => ?_, ?_⟩
    · rw [← blocks_flatten (k := 64) l, List.mem_append] at hx
      rcases hx with hx | hx
      · obtain ⟨B, hB, hx⟩ := List.mem_flatten.1 hx
        exact (total_finite (kb B hB)).2 x hx
      · exact (total_finite f2).2 x (by simpa using hx)
    · have e : ((blocks 64 (l.map val)).map fun B => B.foldl (fun x y => F.rn (x + y)) (rounded F.rn pow sqrt).zero) =
          ((blocks 64 l).map fun B => total F (fin false 0) B).map val := by
        rw [blocks_map, List.map_map, List.map_map]
        refine List.map_congr_left fun B hB => ?_
        exact (total_val hF (kb B hB)).symm
      have e2 : ((rounded F.rn pow sqrt).zero, (rounded F.rn pow sqrt).zero) = ((0 : ℚ), (0 : ℚ)) := rfl
      rw [e, e2]
      have k3 : ∀ g : ℚ → Res ℚ, ((((blocks 64 l).map fun B => total F (fin false 0) B).map val).foldlM
          (fun sc x => Stable.sumStep (rounded F.rn pow sqrt) x sc) ((0 : ℚ), (0 : ℚ)) >>= fun r =>
          (rounded F.rn pow sqrt).add r.1 r.2 >>= g) =
          g (sumV F ((blocks 64 l).map fun B => total F (fin false 0) B)).val := by
        intro g
        have k4 : ∀ (m : Res (ℚ × ℚ)) (u : ℚ × ℚ → Res ℚ), (m >>= fun r => u r >>= g) = (m >>= u) >>= g := by
          intro m u; cases m <;> rfl
        rw [k4, k2, Res.ok_bind]
      rw [k3, val_add hF hf, afterBlocks_map, total_val hF f2, List.map_reverse]
      rfl

/-! ### Compensated products -/

theorem stableProd_ieee {a : Acc σ FVal} {x : FVal} {l : List FVal} (h : Elems d a s (x :: l))
    (hl : l.length + 1 < 2 ^ 63) (dflt : FVal) :
    Stable.prod F.scalar a s dflt = .ok (add F (l.foldl (mul F) x)
      (if l = [] then fin false 0 else sumV F (offG (mul F) (fin false 1)
        (List.zip (errsG (mul F) (fun u v => (twoProdsV F (u, v)).2) x l).reverse l.reverse)))) := by
  rw [stableProd_eq F.scalar (g := mul F) (e := fun u v => (twoProdsV F (u, v)).2) (fun _ _ => rfl)
    (fun _ _ => rfl) h hl]
  split
  · rfl
  · show ((offG (mul F) (fin false 1) _).foldlM (fun sc x => Stable.sumStep F.scalar x sc)
      (fin false 0, fin false 0) >>= _) >>= _ = _
    rw [sumFold_ieee]
    rfl

theorem off_finite (hF : IsFmt p emin F) {qs : List (FVal × FVal)} {w : FVal}
    (h : ∀ x ∈ offG (mul F) w qs, x.isFinite = true) :
    (∀ q ∈ qs, q.1.isFinite = true) ∧
    (offG (mul F) w qs).map val = offG (fun x y => F.rn (x * y)) w.val (qs.map vals) := by
  induction qs generalizing w with
  | nil => exact ⟨fun _ hq => absurd hq (by simp), rfl⟩
  | cons q qs ih =>
    rw [offG] at h
    obtain ⟨i1, i2⟩ := ih (fun x hx => h x (List.mem_cons_of_mem _ hx))
    have h0 := h _ (List.mem_cons_self ..)
    obtain ⟨h1, h2⟩ := mul_finite h0
    refine ⟨fun r hr => ?_, ?_⟩
    · rcases List.mem_cons.1 hr with rfl | hr
      · exact h2
      · exact i1 r hr
    · rw [offG, List.map_cons, List.map_cons, offG, val_mul hF h0, i2]
      congr 1
      cases qs with
      | nil => rfl
      | cons q' qs =>
        have h3 := h (mul F (mul F w q.2) q'.1) (by rw [offG]; simp)
        rw [val_mul hF (mul_finite h3).1]
        rfl

theorem errs_finite (hF : IsFmt p emin F) {l : List FVal} {acc : FVal}
    (h : ∀ x ∈ errsG (mul F) (fun u v => (twoProdsV F (u, v)).2) acc l, x.isFinite = true) :
    (errsG (mul F) (fun u v => (twoProdsV F (u, v)).2) acc l).map val =
      errsG (fun x y => F.rn (x * y)) (fun x y => F.rn (x * y + -F.rn (x * y))) acc.val (l.map val) := by
  induction l generalizing acc with
  | nil => rfl
  | cons x l ih =>
    rw [errsG] at h
    have h0 := h _ (List.mem_cons_self ..)
    obtain ⟨-, -, h3, h4⟩ := twoProdsV_finite (pow := fun x _ => x) (sqrt := id) hF h0
    rw [errsG, List.map_cons, List.map_cons, errsG, ih (fun y hy => h y (List.mem_cons_of_mem _ hy))]
    have e : (rounded F.rn (fun x _ => x) id).twoProds acc.val x.val =
      .ok (F.rn (acc.val * x.val), F.rn (acc.val * x.val + -F.rn (acc.val * x.val))) := rfl
    rw [e] at h4
    have h5 := Res.ok.inj h4
    have h6 : F.rn (acc.val * x.val) = (mul F acc x).val := congrArg Prod.fst h5
    have h7 : F.rn (acc.val * x.val + -F.rn (acc.val * x.val)) = (twoProdsV F (acc, x)).2.val := congrArg Prod.snd h5
    rw [h7, h6]

theorem zip_vals (l1 l2 : List FVal) : (List.zip l1 l2).map vals = List.zip (l1.map val) (l2.map val) := by
  rw [List.zip_map]
  rfl

theorem prod_finite (hF : IsFmt p emin F) {a : Acc σ FVal} {a' : Acc τ ℚ} {l : List FVal} (h : Elems d a s l)
    (h' : Elems d' a' t (l.map val)) (hne : l ≠ []) (hl : l.length < 2 ^ 63) (dflt : FVal) (dflt' : ℚ) :
    IfFinite (Stable.prod F.scalar a s dflt) l (Stable.prod (rounded F.rn pow sqrt) a' t dflt') := by
  cases l with
  | nil => exact absurd rfl hne
  | cons x l =>
    rw [List.length_cons] at hl
    refine ⟨_, stableProd_ieee h hl dflt, fun hf => ?_⟩
    obtain ⟨f1, f2⟩ := add_finite hf
    obtain ⟨m1, m2, m3⟩ := foldl_mul_finite hF f1
    refine ⟨fun y hy => ?_, ?_⟩
    · rcases List.mem_cons.1 hy with rfl | hy
      · exact m1
      · exact m2 y hy
    rw [List.map_cons] at h'
    rw [stableProd_eq (rounded F.rn pow sqrt) (g := fun x y => F.rn (x * y))
      (e := fun x y => F.rn (x * y + -F.rn (x * y))) (fun _ _ => rfl) (fun _ _ => rfl) h' (by simpa using hl)]
    rw [val_add hF hf, m3]
    by_cases hl0 : l = []
    · subst hl0
      rw [if_pos rfl]
      rfl
    · rw [if_neg hl0] at f2
      obtain ⟨k1, k2⟩ := sumV_finite (pow := pow) (sqrt := sqrt) hF f2
      obtain ⟨o1, o2⟩ := off_finite hF k1
      have hlen : (errsG (mul F) (fun u v => (twoProdsV F (u, v)).2) x l).length = l.length := errsG_length _ _ _ _
      have er : ∀ y ∈ errsG (mul F) (fun u v => (twoProdsV F (u, v)).2) x l, y.isFinite = true := by
        intro y hy
        obtain ⟨i, hi, rfl⟩ := List.mem_iff_getElem.1 (List.mem_reverse.2 hy)
        have hz : i < (List.zip (errsG (mul F) (fun u v => (twoProdsV F (u, v)).2) x l).reverse l.reverse).length := by
          rw [List.length_zip, List.length_reverse, List.length_reverse, hlen]
          rw [List.length_reverse, hlen] at hi
          omega
        have := o1 _ (List.getElem_mem hz)
        rw [List.getElem_zip] at this
        exact this
      rw [o2, zip_vals, List.map_reverse, List.map_reverse, errs_finite hF er] at k2
      rw [if_neg (by simpa using hl0), if_neg hl0]
      have e1 : (rounded F.rn pow sqrt).one = (fin false 1).val := rfl
      have e2 : ((rounded F.rn pow sqrt).zero, (rounded F.rn pow sqrt).zero) = ((0 : ℚ), (0 : ℚ)) := rfl
      rw [e1, e2, k2]
      rfl

/-- C93: `sum`, `prod`, `stable_sum`, `semi_stable_sum` and `stable_prod`. -/
theorem C93_if_finite (hF : IsFmt p emin F) (b : Build) {a : Acc σ FVal} {a' : Acc τ ℚ} {l : List FVal}
    (h : Elems d a s l) (h' : Elems d' a' t (l.map val)) (hne : l ≠ []) (dflt : FVal) (dflt' : ℚ) :
    IfFinite (Ops.sum F.scalar.toArith a s dflt) l (Ops.sum (rounded F.rn pow sqrt).toArith a' t dflt') ∧
    IfFinite (Ops.prod F.scalar.toArith a s dflt) l (Ops.prod (rounded F.rn pow sqrt).toArith a' t dflt') ∧
    IfFinite (Stable.sum F.scalar a s dflt) l (Stable.sum (rounded F.rn pow sqrt) a' t dflt') ∧
    (l.length < 2 ^ 63 →
      IfFinite (Stable.semiSum b F.scalar a s dflt) l (Stable.semiSum b (rounded F.rn pow sqrt) a' t dflt') ∧
      IfFinite (Stable.prod F.scalar a s dflt) l (Stable.prod (rounded F.rn pow sqrt) a' t dflt')) := by
  refine ⟨?_, ?_, ?_, fun hl => ⟨semi_finite hF b h h' hne hl dflt dflt', prod_finite hF h h' hne hl dflt dflt'⟩⟩
  · cases l with
    | nil => exact absurd rfl hne
    | cons x xs =>
      refine ⟨_, sum_ieee h dflt, fun hf => ?_⟩
      obtain ⟨k1, k2⟩ := total_finite hf
      refine ⟨fun y hy => ?_, ?_⟩
      · rcases List.mem_cons.1 hy with rfl | hy
        · exact k1
        · exact k2 y hy
      · rw [List.map_cons] at h'
        rw [((C52_left_to_right h' (rounded F.rn pow sqrt).toArith dflt').2 _ _ rfl).1, total_val hF hf]
        exact foldlM_pure _ _ fun _ _ _ => rfl
  · cases l with
    | nil => exact absurd rfl hne
    | cons x xs =>
      refine ⟨_, prod_ieee h dflt, fun hf => ?_⟩
      obtain ⟨k1, k2, k3⟩ := foldl_mul_finite hF hf
      refine ⟨fun y hy => ?_, ?_⟩
      · rcases List.mem_cons.1 hy with rfl | hy
        · exact k1
        · exact k2 y hy
      · rw [List.map_cons] at h'
        rw [((C52_left_to_right h' (rounded F.rn pow sqrt).toArith dflt').2 _ _ rfl).2, k3]
        exact foldlM_pure _ _ fun _ _ _ => rfl
  · refine ⟨sumV F l, stableSum_ieee h hne dflt, fun hf => ?_⟩
    obtain ⟨k1, k2⟩ := sumV_finite (pow := pow) (sqrt := sqrt) hF hf
    refine ⟨k1, ?_⟩
    rw [stableSum_eq _ h' (by simpa using hne)]
    exact k2

/-- C93: `dot_prod` and `stable_dot_prod`. -/
theorem C93_if_finite_dot (hF : IsFmt p emin F) (b : Build) {a1 a2 : Acc σ FVal} {a1' a2' : Acc τ ℚ}
    {sh sh' : Nat × Nat} {l1 l2 : List FVal} (h1 : Shaped d a1 s sh l1) (h2 : Shaped d a2 s sh l2)
    (h1' : Shaped d' a1' t sh' (l1.map val)) (h2' : Shaped d' a2' t sh' (l2.map val)) (hne : l1 ≠ [])
    (dflt : FVal) (dflt' : ℚ) :
    IfFinite (Ops.dotProd b d F.scalar.toArith a1 a2 s dflt) (l1 ++ l2)
      (Ops.dotProd b d' (rounded F.rn pow sqrt).toArith a1' a2' t dflt') ∧
    IfFinite (Stable.dotProd b d F.scalar a1 a2 s dflt) (l1 ++ l2)
      (Stable.dotProd b d' (rounded F.rn pow sqrt) a1' a2' t dflt') := by
  have hl : l1.length = l2.length := (Shaped.len h1).trans (Shaped.len h2).symm
  cases l1 with
  | nil => exact absurd rfl hne
  | cons x xs => cases l2 with
    | nil => simp at hl
    | cons y ys =>
      have hl' : xs.length = ys.length := by simpa using hl
      have fin_all : (∀ q ∈ List.zip xs ys, q.1.isFinite = true ∧ q.2.isFinite = true) → x.isFinite = true →
          y.isFinite = true → ∀ z ∈ (x :: xs) ++ (y :: ys), z.isFinite = true := by
        intro hq hx hy z hz
        rw [List.mem_append, List.mem_cons, List.mem_cons] at hz
        rcases hz with (rfl | hz) | (rfl | hz)
        · exact hx
        · obtain ⟨i, hi, rfl⟩ := List.mem_iff_getElem.1 hz
          have hi' : i < (List.zip xs ys).length := by rw [List.length_zip]; omega
          have := (hq _ (List.getElem_mem hi')).1
          rw [List.getElem_zip] at this
          exact this
        · exact hy
        · obtain ⟨i, hi, rfl⟩ := List.mem_iff_getElem.1 hz
          have hi' : i < (List.zip xs ys).length := by rw [List.length_zip]; omega
          have := (hq _ (List.getElem_mem hi')).2
          rw [List.getElem_zip] at this
          exact this
      rw [List.map_cons] at h1' h2'
      constructor
      · refine ⟨_, dot_ieee b h1 h2 dflt, fun hf => ?_⟩
        obtain ⟨k1, k2⟩ := total_finite hf
        have k2' : ∀ q ∈ List.zip xs ys, (mul F q.1 q.2).isFinite = true := fun q hq =>
          k2 _ (List.mem_map.2 ⟨q, hq, rfl⟩)
        refine ⟨fin_all (fun q hq => mul_finite (k2' q hq)) (mul_finite k1).1 (mul_finite k1).2, ?_⟩
        rw [(C52_dot b h1' h2' (rounded F.rn pow sqrt).toArith (mul := fun x y => F.rn (x * y)) (fun _ _ => rfl)
          dflt').2 _ _ List.zipWith_cons_cons, total_val hF hf, val_mul hF k1, zipWith_map, ← zip_vals,
          List.map_map, List.map_map]
        have e : (List.zip xs ys).map (val ∘ fun q => mul F q.1 q.2) =
            (List.zip xs ys).map ((fun q => F.rn (q.1 * q.2)) ∘ vals) :=
          List.map_congr_left fun q hq => val_mul hF (k2' q hq)
        rw [e]
        exact foldlM_pure _ _ fun _ _ _ => rfl
      · refine ⟨_, stableDot_ieee b h1 h2 dflt, fun hf => ?_⟩
        obtain ⟨f1, f2⟩ := add_finite hf
        obtain ⟨k1, k2, k3, k4⟩ := dotFold_finite (pow := pow) (sqrt := sqrt) hF f1 f2
        obtain ⟨m1, m2, m3, m4⟩ := twoProdsV_finite (pow := pow) (sqrt := sqrt) hF k3
        refine ⟨fin_all k1 m1 m2, ?_⟩
        rw [stableDot_eq b _ h1' h2', m4, Res.ok_bind, ← zip_vals, k4, Res.ok_bind, val_add hF hf]
        rfl


/-! ### Rounding errors -/

theorem held_rep {l : List FVal} (hh : ∀ x ∈ l, Held p emin F x) : ∀ y ∈ l.map val, Rep p emin y := by
  have rneg : ∀ {x : ℚ}, Rep p emin x → Rep p emin (-x) := by
    rintro x ⟨m, e, h1, h2, rfl⟩
    exact ⟨-m, e, by rwa [abs_neg], h2, by push_cast; ring⟩
  have r0 : Rep p emin 0 := ⟨0, emin, by simp, le_rfl, by simp⟩
  intro y hy
  obtain ⟨x, hx, rfl⟩ := List.mem_map.1 hy
  have := hh x hx
  rcases x with _ | s | ⟨s, m⟩
  · exact r0
  · exact r0
  · cases s
    · exact this.2.2
    · exact rneg this.2.2

/-- C93: the bounds on rounding errors of C73, C59 and C60 hold for `sum`, `stable_sum` and `semi_stable_sum` whenever
their results are finite. -/
theorem C93_sum_bounds (hp : 2 ≤ p) (hF : IsFmt p emin F) (b : Build) {a : Acc σ FVal} {l : List FVal}
    (h : Elems d a s l) (hh : ∀ x ∈ l, Held p emin F x) (hne : l ≠ []) (dflt : FVal) :
    (∃ v, Ops.sum F.scalar.toArith a s dflt = .ok v ∧ (v.isFinite = true →
      |v.val - (l.map val).sum| ≤ ((1 + unit p) ^ (l.length - 1) - 1) * ((l.map val).map abs).sum)) ∧
    (∃ v, Stable.sum F.scalar a s dflt = .ok v ∧ (v.isFinite = true →
      |v.val - (l.map val).sum| ≤ unit p * |(l.map val).sum| +
        (1 + unit p) * ((1 + unit p) ^ (l.length - 1) - 1) ^ 2 * ((l.map val).map abs).sum)) ∧
    (l.length < 2 ^ 63 → ∃ v, Stable.semiSum b F.scalar a s dflt = .ok v ∧ (v.isFinite = true →
      |v.val - (l.map val).sum| ≤ ((1 + unit p) ^ 65 * (1 + ((1 + unit p) ^ (l.length / 64 - 1) - 1) ^ 2) - 1) *
        ((l.map val).map abs).sum)) := by
  have hs := Shaped.elems (Sample.lit_shaped () (l.map val))
  have hr := held_rep hh
  have hne' : l.map val ≠ [] := by simpa using hne
  obtain ⟨⟨v1, e1, k1⟩, -, ⟨v2, e2, k2⟩, k3⟩ := C93_if_finite (pow := fun x _ => x) (sqrt := id) hF b h hs hne dflt 0
  refine ⟨⟨v1, e1, fun hf => ?_⟩, ⟨v2, e2, fun hf => ?_⟩, fun hl => ?_⟩
  · obtain ⟨v, g1, g2⟩ := C73_sum (pow := fun x _ => x) (sqrt := id) hp hF.near hs hr hne' 0
    rw [show Ops.sum (rounded F.rn (fun x _ => x) id).toScalar.toArith _ _ _ = _ from (k1 hf).2] at g1
    cases g1
    rwa [List.length_map] at g2
  · obtain ⟨v, g1, g2⟩ := C59_bound (pow := fun x _ => x) (sqrt := id) hp hF.near hs hr hne' 0
    rw [(k2 hf).2] at g1
    cases g1
    rwa [List.length_map] at g2
  · obtain ⟨v3, e3, k3⟩ := (k3 hl).1
    refine ⟨v3, e3, fun hf => ?_⟩
    obtain ⟨v, g1, g2⟩ := C60_bound (pow := fun x _ => x) (sqrt := id) hp hF.near b hs hr hne' (by simpa using hl) 0
    rw [(k3 hf).2] at g1
    cases g1
    rwa [List.length_map] at g2

/-- C93: the bounds on rounding errors of C73 and C61 hold for `dot_prod` and `stable_dot_prod` whenever the result is
finite and no product is too small. -/
theorem C93_dot_bounds (hp : 2 ≤ p) (hF : IsFmt p emin F) (b : Build) {a1 a2 : Acc σ FVal} {sh : Nat × Nat}
    {l1 l2 : List FVal} (h1 : Shaped d a1 s sh l1) (h2 : Shaped d a2 s sh l2)
    (hh1 : ∀ x ∈ l1, Held p emin F x) (hh2 : ∀ x ∈ l2, Held p emin F x) (hne : l1 ≠ [])
    (hu : ∀ v : ℚ, v ∈ List.zipWith (· * ·) (l1.map val) (l2.map val) → ∃ k : Int, v = k * 2 ^ emin) (dflt : FVal) :
    (∃ v, Ops.dotProd b d F.scalar.toArith a1 a2 s dflt = .ok v ∧ (v.isFinite = true →
      |v.val - (List.zipWith (· * ·) (l1.map val) (l2.map val)).sum| ≤ ((1 + unit p) ^ l1.length - 1) *
        ((List.zipWith (· * ·) (l1.map val) (l2.map val)).map abs).sum)) ∧
    (∃ v, Stable.dotProd b d F.scalar a1 a2 s dflt = .ok v ∧ (v.isFinite = true →
      |v.val - (List.zipWith (· * ·) (l1.map val) (l2.map val)).sum| ≤
        unit p * |(List.zipWith (· * ·) (l1.map val) (l2.map val)).sum| +
        (1 + unit p) * (((1 + unit p) ^ l1.length - 1) ^ 2 *
          ((List.zipWith (· * ·) (l1.map val) (l2.map val)).map abs).sum))) := by
  have hl : l2.length = l1.length := (Shaped.len h2).trans (Shaped.len h1).symm
  have s1 := Sample.lit_shaped () (l1.map val)
  have s2 := Sample.lit_shaped () (l2.map val)
  rw [List.length_map] at s1 s2
  rw [hl] at s2
  have hne' : l1.map val ≠ [] := by simpa using hne
  obtain ⟨⟨v1, e1, k1⟩, ⟨v2, e2, k2⟩⟩ := C93_if_finite_dot (pow := fun x _ => x) (sqrt := id) hF b h1 h2 s1 s2 hne dflt 0
  refine ⟨⟨v1, e1, fun hf => ?_⟩, ⟨v2, e2, fun hf => ?_⟩⟩
  · obtain ⟨v, g1, g2⟩ := C73_dot (pow := fun x _ => x) (sqrt := id) hp hF.near b s1 s2 hne' hu 0
    rw [show Ops.dotProd b _ (rounded F.rn (fun x _ => x) id).toScalar.toArith _ _ _ _ = _ from (k1 hf).2] at g1
    cases g1
    rwa [List.length_map] at g2
  · obtain ⟨v, g1, g2⟩ := C61_dot_bound (pow := fun x _ => x) (sqrt := id) hp hF.near b s1 s2 (held_rep hh1)
      (held_rep hh2) hne' hu 0
    rw [(k2 hf).2] at g1
    cases g1
    rwa [List.length_map] at g2

/-! ### NaN in blocked sums and compensated products -/

/-- C92: NaN among the elements makes `semi_stable_sum` and `stable_prod` NaN. -/
theorem C92_nan_blocks (b : Build) {a : Acc σ FVal} {l : List FVal} (h : Elems d a s l) (hn : nan ∈ l)
    (hl : l.length < 2 ^ 63) (dflt : FVal) :
    Stable.semiSum b F.scalar a s dflt = .ok nan ∧ Stable.prod F.scalar a s dflt = .ok nan := by
  have hne : l ≠ [] := by rintro rfl; simp at hn
  constructor
  · rw [semiSum_ieee b h hne hl]
    congr 1
    split
    · exact total_nan (by simpa using hn) _
    · have hx := hn
      rw [← blocks_flatten (k := 64) l, List.mem_append] at hx
      rcases hx with hx | hx
      · obtain ⟨B, hB, hx⟩ := List.mem_flatten.1 hx
        have : sumV F ((blocks 64 l).map fun B => total F (fin false 0) B) = nan := by
          unfold sumV
          have hf : (total F (fin false 0) ((blocks 64 l).map fun B => total F (fin false 0) B)).isFinite = false :=
            total_not_finite ⟨_, List.mem_map.2 ⟨B, hB, rfl⟩, by rw [total_nan hx]; rfl⟩ _
          rcases fold_spoilt (F := F) ((blocks 64 l).map fun B => total F (fin false 0) B)
            (sc := (fin false 0, fin false 0)) (Or.inl rfl) with hs | hs
          · rw [fold_first, hf] at hs; exact absurd hs (by decide)
          · exact hs
        rw [this, add_nan_left]
      · rw [total_nan (l := (afterBlocks 64 l).reverse) (by simpa using hx), add_nan_right]
  · cases l with
    | nil => exact absurd rfl hne
    | cons x l =>
      rw [stableProd_ieee h (by simpa using hl), foldl_mul_nan, add_nan_left]
      rcases List.mem_cons.1 hn with hn | hn
      · exact Or.inl hn.symm
      · exact Or.inr hn

/-! ### Cases that meet the hypotheses -/

open Sample

-- NaN in the middle
example : Stable.mean tiny.scalar (lit [fin false 1, nan, fin false 2]) () (fin false 0) = .ok nan :=
  (C92_nan (F := tiny) (Shaped.elems (lit_shaped () [fin false 1, nan, fin false 2])) (by simp) _).2.2.2.2.2.2.1

example : Ops.dotProd ⟨false, true, false⟩ .one tiny.scalar.toArith (lit [fin false 1, fin true 2])
    (lit [fin false 0, nan]) () (fin false 0) = .ok nan :=
  ((C92_nan_dot (F := tiny) ⟨false, true, false⟩ (lit_shaped () [fin false 1, fin true 2])
    (lit_shaped () [fin false 0, nan]) _).1 (Or.inr (by simp))).1

-- the largest absolute value of 3, NaN and -5 is 5, and that of NaN, 3 and -5 is NaN
example : (∃ v, Ops.normInf tiny.scalar.toScalar (lit [fin false 3, nan, fin true 5]) () (fin false 0) = .ok v ∧
      v ≠ nan) ∧
    Ops.normInf tiny.scalar.toScalar (lit [nan, fin false 3, fin true 5]) () (fin false 0) = .ok nan := by
  obtain ⟨v, h1, h2, _⟩ := (C92_norm_inf (F := tiny) (Shaped.elems (lit_shaped () [fin false 3, nan, fin true 5]))
    (fin false 0)).2 (by simp)
  exact ⟨⟨v, h1, h2⟩, (C92_norm_inf (F := tiny) (Shaped.elems (lit_shaped () [nan, fin false 3, fin true 5]))
    (fin false 0)).1 rfl⟩

-- an error of NaN at the second place does not show
example : ∃ v, ErrorTools.maxAbsError ⟨false, true, false⟩ .one tiny.scalar.toScalar (lit [fin false 3, nan])
    (lit [fin false 1, fin false 1]) () (fin false 0) = .ok v ∧ v ≠ nan := by
  obtain ⟨v, h1, h2⟩ := C92_max_abs_error (F := tiny) ⟨false, true, false⟩ (lit_shaped () [fin false 3, nan])
    (lit_shaped () [fin false 1, fin false 1]) (fin false 0)
  exact ⟨v, h1, fun h => absurd (h2.1 h) (by decide +kernel)⟩

example : Stable.sum tiny.scalar (lit [fin false 3, inf true]) () (fin false 0) = .ok nan :=
  (C92_infinite (F := tiny) ⟨false, true, false⟩ (lit_shaped () [fin false 3, inf true]) ⟨inf true, by simp, rfl⟩ _).1

example : Ops.hasSuch isNan (lit [fin false 3, nan]) () false = .ok true := by
  rw [(C92_tests (F := tiny) (lit_shaped () [fin false 3, nan]) (by simp) false).1]; simp

-- NaN between 1 and 2: nothing is promised about sorting
example : ¬ StrictWeak lt [fin false 2, nan, fin false 1] := by
  intro h
  rcases (C92_sort_order _).1.1 h with h | h
  · simp at h
  · exact absurd (h (fin false 1) (by simp) (fin false 2) (by simp)) (by decide +kernel)

/-- There are such formats: `p` digits, exponents from `emin` on and the largest number 2. -/
theorem exists_fmt (hp : 1 ≤ p) (he : emin ≤ 1) : ∃ F : Fmt, IsFmt p emin F ∧ F.top = 2 := by
  obtain ⟨rn, h1⟩ := exists_nearest (p := p) hp emin
  obtain ⟨rn', h2, h3⟩ := exists_odd h1
  refine ⟨⟨rn', 2, id, fun x _ => x⟩, ⟨h2, h3, ⟨1, 1, ?_, he, by norm_num⟩, by norm_num⟩, rfl⟩
  have : (2 : Int) ^ 1 ≤ 2 ^ p := pow_le_pow_right₀ (by norm_num) hp
  simp only [abs_one]
  have : (2 : Int) ≤ 2 ^ p := by simpa using this
  omega

theorem one_held (hF : IsFmt p emin F) (hp : 1 ≤ p) (he : emin ≤ 0) (s : Bool) : Held p emin F (fin s 1) := by
  refine ⟨by norm_num, hF.one, 1, 0, ?_, he, by norm_num⟩
  have : (2 : Int) ^ 1 ≤ 2 ^ p := pow_le_pow_right₀ (by norm_num) hp
  simp only [abs_one]
  have : (2 : Int) ≤ 2 ^ p := by simpa using this
  omega

-- with 24 digits: the sums of 1, -1, 1 obey the bounds, and 1 + inf differs
example : ∃ F, IsFmt 24 (-149) F ∧
    (∃ v, Stable.sum F.scalar (lit [fin false 1, fin true 1, fin false 1]) () (fin false 0) = .ok v ∧
      (v.isFinite = true → |v.val - 1| ≤ unit 24 * 1 + (1 + unit 24) * ((1 + unit 24) ^ 2 - 1) ^ 2 * 3)) ∧
    Ops.sum F.scalar.toArith (lit [fin false 1, inf false]) () (fin false 0) = .ok (inf false) ∧
    Stable.sum F.scalar (lit [fin false 1, inf false]) () (fin false 0) = .ok nan := by
  obtain ⟨F, hF, -⟩ := exists_fmt (p := 24) (emin := -149) (by norm_num) (by norm_num)
  refine ⟨F, hF, ?_, ?_⟩
  · obtain ⟨-, ⟨v, h1, h2⟩, -⟩ := C93_sum_bounds (by norm_num) hF ⟨false, true, false⟩
      (Shaped.elems (lit_shaped () [fin false 1, fin true 1, fin false 1]))
      (by simp [one_held hF]) (by simp) (fin false 0)
    refine ⟨v, h1, fun hf => ?_⟩
    have := h2 hf
    norm_num [val] at this ⊢
    exact this
  · exact C92_sums_differ hF (Shaped.elems (lit_shaped () [fin false 1, inf false]))
      (by simp [lt, val]; decide +kernel) (by simp) (fin false 0)

-- overflow: with the largest number 2 the sum of three ones is infinite and the compensated sum NaN
example : ∃ F, IsFmt 24 (-149) F ∧
    Ops.sum F.scalar.toArith (lit [fin false 1, fin false 1, fin false 1]) () (fin false 0) = .ok (inf false) ∧
    Stable.sum F.scalar (lit [fin false 1, fin false 1, fin false 1]) () (fin false 0) = .ok nan := by
  obtain ⟨F, hF, ht⟩ := exists_fmt (p := 24) (emin := -149) (by norm_num) (by norm_num)
  have r2 : F.rn 2 = 2 := rn_rep hF.near ⟨2, 0, by norm_num, by norm_num, by norm_num⟩
  have r3 : F.rn 3 = 3 := rn_rep hF.near ⟨3, 0, by norm_num, by norm_num, by norm_num⟩
  have hv : Ops.sum F.scalar.toArith (lit [fin false 1, fin false 1, fin false 1]) () (fin false 0) =
      .ok (inf false) := by
    rw [sum_ieee (Shaped.elems (lit_shaped () [fin false 1, fin false 1, fin false 1]))]
    norm_num [total, FVal.add, FVal.round, val, r2, r3, ht]
  refine ⟨F, hF, hv, ?_⟩
  exact (C92_overflow hF ⟨false, true, false⟩ (lit_shaped () [fin false 1, fin false 1, fin false 1]) (by simp)
    (by simp [one_held hF]) (fin false 0)).1 _ hv rfl

/-- A store with one array of three floating-point numbers. -/
def fstore : Store FVal where
  a1 := fun id => if id = 0 then [fin false 2, inf true, fin true 1] else []
  a2 := fun _ => ⟨0, 0, []⟩

theorem fstore_ok : Store.Ok fstore := by
  constructor
  · intro id
    simp only [fstore]
    by_cases h0 : id = 0
    · simp [h0]
    · simp [h0]
  · intro id
    exact ⟨⟨by simp [fstore], by simp [fstore], by simp [fstore], by simp [fstore]⟩, by simp [fstore]⟩

-- sorting 2, -inf, -1
example : ∃ (a : Acc (Store FVal) Loc) (ys : List FVal) (t' : Store FVal),
    (Lv.arr1 0).build ⟨false, true, false⟩ fstore = .ok a ∧
    Ops.sortIncreasing (fun f l => l.mergeSort (fun x y => !f y x)) tiny.scalar.toScalar a fstore = (.ok (), t') ∧
    [Loc.one 0 0, Loc.one 0 1, Loc.one 0 2].map t'.read = ys.map Res.ok ∧
    ys.Perm [fin false 2, inf true, fin true 1] ∧ ys.Pairwise (fun x y => lt y x = false) :=
  (C92_sort (F := tiny) ⟨false, true, false⟩ stdSort_mergeSort fstore_ok (l := .arr1 0) (by decide) (by decide)
    ⟨rfl, by decide⟩ (by decide) rfl (by simp)).1

-- the smallest of 2, NaN and -1 is a number not above any other
example : ∃ v, Ops.min tiny.scalar.toScalar (lit [fin false 2, nan, fin true 1]) () (fin false 0) = .ok v ∧
    lt (fin true 1) v = false := by
  obtain ⟨v, h1, -, -, h2⟩ := ((C92_extrema (F := tiny) (Shaped.elems (lit_shaped () [fin false 2, nan, fin true 1]))
    (fin false 0)).2 (by simp)).1
  exact ⟨v, h1, h2 _ (by simp)⟩

example : Stable.prod tiny.scalar (lit [fin false 2, nan, fin true 1]) () (fin false 0) = .ok nan :=
  (C92_nan_blocks (F := tiny) ⟨false, true, false⟩ (Shaped.elems (lit_shaped () [fin false 2, nan, fin true 1]))
    (by simp) (by decide) _).2

-- inner products of (1, -1) with itself
example : ∃ F, IsFmt 24 (-149) F ∧
    ∃ v, Stable.dotProd ⟨false, true, false⟩ .one F.scalar (lit [fin false 1, fin true 1]) (lit [fin false 1, fin true 1])
      () (fin false 0) = .ok v ∧ (v.isFinite = true →
      |v.val - 2| ≤ unit 24 * 2 + (1 + unit 24) * (((1 + unit 24) ^ 2 - 1) ^ 2 * 2)) := by
  obtain ⟨F, hF, -⟩ := exists_fmt (p := 24) (emin := -149) (by norm_num) (by norm_num)
  refine ⟨F, hF, ?_⟩
  obtain ⟨-, v, h1, h2⟩ := C93_dot_bounds (by norm_num) hF ⟨false, true, false⟩
    (lit_shaped () [fin false 1, fin true 1]) (lit_shaped () [fin false 1, fin true 1])
    (by simp [one_held hF]) (by simp [one_held hF]) (by simp) (by
      intro v hv
      have : v = 1 := by simpa [val] using hv
      exact ⟨2 ^ 149, by rw [this]; norm_num⟩) (fin false 0)
  refine ⟨v, h1, fun hf => ?_⟩
  have := h2 hf
  norm_num [val] at this ⊢
  exact this

end Spp.Props
