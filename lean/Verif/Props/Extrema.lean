import Verif.Props.Ops

/-
Properties of minima and maxima and their positions (C53).
-/

set_option linter.unusedSectionVars false

namespace Spp.Props
open Spec

variable {σ α : Type} {d : Dim} {s : σ}

/-- The first best element with respect to a strict order `r` ("better than"). -/
def FirstBest (r : α → α → Prop) (l : List α) (k : Nat) (v : α) : Prop :=
  l[k]? = some v ∧ (∀ x ∈ l, ¬ r x v) ∧ ∀ j < k, ∀ x, l[j]? = some x → r v x

theorem firstBest_singleton {r : α → α → Prop} (hi : ∀ x, ¬ r x x) (x : α) : FirstBest r [x] 0 x :=
  ⟨rfl, by simpa using hi x, fun j hj => by omega⟩

theorem firstBest_step {r : α → α → Prop} [DecidableRel r]
    (hn : ∀ x y z, r x y → ¬ r z y → r x z) (hc : ∀ x y, r x y → ¬ r y x)
    {l : List α} {k : Nat} {v : α} (h : FirstBest r l k v) (y : α) :
    FirstBest r (l ++ [y]) (if r y v then l.length else k) (if r y v then y else v) := by
  obtain ⟨h1, h2, h3⟩ := h
  have hk : k < l.length := by
    by_contra hge
    rw [List.getElem?_eq_none (by omega)] at h1; cases h1
  by_cases hy : r y v
  · rw [if_pos hy, if_pos hy]
    refine ⟨by simp, ?_, ?_⟩
    · intro x hx
      rw [List.mem_append, List.mem_singleton] at hx
      rcases hx with hx | rfl
      · exact fun hr => hc _ _ hr (hn y v x hy (h2 x hx))
      · exact fun hr => hc _ _ hr hr
    · intro j hj x hx
      rw [List.getElem?_append_left hj] at hx
      exact hn y v x hy (h2 x (List.mem_of_getElem? hx))
  · rw [if_neg hy, if_neg hy]
    refine ⟨by rw [List.getElem?_append_left hk]; exact h1, ?_, ?_⟩
    · intro x hx
      rw [List.mem_append, List.mem_singleton] at hx
      rcases hx with hx | rfl
      · exact h2 x hx
      · exact hy
    · intro j hj x hx
      rw [List.getElem?_append_left (by omega)] at hx
      exact h3 j hj x hx

section

variable [LinearOrder α]

theorem firstBest_lt {l : List α} {k : Nat} {v : α} (h : FirstBest (· < ·) l k v) : FirstLeast l k v :=
  ⟨h.1, fun x hx => not_lt.1 (h.2.1 x hx), h.2.2⟩

theorem firstBest_gt {l : List α} {k : Nat} {v : α} (h : FirstBest (fun x y => y < x) l k v) :
    FirstGreatest l k v :=
  ⟨h.1, fun x hx => not_lt.1 (h.2.1 x hx), h.2.2⟩

end

theorem extIndex1_best {r : α → α → Prop} [DecidableRel r] (hi : ∀ x, ¬ r x x)
    (hn : ∀ x y z, r x y → ¬ r z y → r x z) (hc : ∀ x y, r x y → ¬ r y x)
    {better : α → α → Bool} (hb : ∀ x y, better x y = decide (r x y)) {a : Acc σ α} {l : List α}
    (h : Elems .one a s l) (hne : l ≠ []) (dflt : Int × α) :
    ∃ (k : Nat) (v : α), Ops.extIndex1 better a s dflt = .ok ((k : Int), v) ∧ FirstBest r l k v := by
  cases l with
  | nil => exact absurd rfl hne
  | cons x xs =>
    unfold Ops.extIndex1
    have e0 : a.un s 0 = .ok x := Elems.un h (i := 0) (by simp)
    rw [Elems.empty h, Elems.size h, e0]
    have el : ((((x :: xs).length : Nat) : Int)).toNat - 1 = xs.length := by simp
    simp only [Res.ok_bind, List.isEmpty_cons, Bool.false_eq_true, if_false, el]
    obtain ⟨best, h1, k, h2, h3⟩ := foldN_inv (init := ((0 : Int), x))
      (f := fun k (best : Int × α) => do
        let y ← a.un s ((k + 1 : Nat) : Int)
        pure (if better y best.2 then (((k + 1 : Nat) : Int), y) else best))
      (fun p best => ∃ k : Nat, best.1 = k ∧ FirstBest r ((x :: xs).take (p + 1)) k best.2) xs.length
      ⟨0, rfl, by simpa using firstBest_singleton hi x⟩
      (fun p best hp => by
        rintro ⟨k, hk, hB⟩
        have hl : p + 1 < (x :: xs).length := by simpa using hp
        refine ⟨_, by rw [Elems.un h hl]; rfl, ?_⟩
        have hs := firstBest_step hn hc hB (x :: xs)[p + 1]
        rw [← List.take_succ_eq_append_getElem hl] at hs
        have elen : ((x :: xs).take (p + 1)).length = p + 1 := by
          rw [List.length_take]; omega
        rw [elen] at hs
        rw [hb]
        by_cases hr : r (x :: xs)[p + 1] best.2
        · rw [if_pos hr, if_pos hr] at hs
          rw [if_pos (decide_eq_true hr)]
          exact ⟨p + 1, rfl, hs⟩
        · rw [if_neg hr, if_neg hr] at hs
          rw [if_neg (by rw [decide_eq_false hr]; simp)]
          exact ⟨k, hk, hs⟩)
    refine ⟨k, best.2, ?_, ?_⟩
    · rw [h1, ← h2]
    · rwa [List.take_of_length_le (by simp)] at h3

theorem foldl_best {f : α → α → α} {r : α → α → Prop} [DecidableRel r]
    (hf : ∀ acc y, f acc y = if r y acc then y else acc) (hi : ∀ x, ¬ r x x)
    (hn : ∀ x y z, r x y → ¬ r z y → r x z) (hc : ∀ x y, r x y → ¬ r y x) (x : α) (xs : List α) :
    ∃ k, FirstBest r (x :: xs) k (xs.foldl f x) := by
  have key : ∀ (ys pre : List α) (k : Nat) (v : α), FirstBest r pre k v →
      ∃ k, FirstBest r (pre ++ ys) k (ys.foldl f v) := by
    intro ys
    induction ys with
    | nil => intro pre k v h; exact ⟨k, by simpa using h⟩
    | cons y ys ih =>
      intro pre k v h
      have := firstBest_step hn hc h y
      rw [List.foldl_cons, hf]
      obtain ⟨k', h'⟩ := ih (pre ++ [y]) _ _ this
      exact ⟨k', by simpa using h'⟩
  exact key xs [x] 0 x (firstBest_singleton hi x)

section ordered

variable [LinearOrder α] {sc : Scalar α}

theorem lt_neg {x y z : α} (h1 : x < y) (h2 : ¬ z < y) : x < z := lt_of_lt_of_le h1 (not_lt.1 h2)
theorem gt_neg {x y z : α} (h1 : y < x) (h2 : ¬ y < z) : z < x := lt_of_le_of_lt (not_lt.1 h2) h1

/-- C53: `min` and `max` return an element that bounds all others; without elements the default. -/
theorem C53_extrema (ho : Ordered sc) {a : Acc σ α} {l : List α} (h : Elems d a s l) (dflt : α) :
    (l = [] → Ops.min sc a s dflt = .ok dflt ∧ Ops.max sc a s dflt = .ok dflt) ∧
    (l ≠ [] → (∃ v, Ops.min sc a s dflt = .ok v ∧ v ∈ l ∧ ∀ x ∈ l, v ≤ x) ∧
      ∃ v, Ops.max sc a s dflt = .ok v ∧ v ∈ l ∧ ∀ x ∈ l, x ≤ v) := by
  refine ⟨fun e => ?_, fun hne => ?_⟩
  · subst e; exact ⟨foldElems_eq h _ _, foldElems_eq h _ _⟩
  · cases l with
    | nil => exact absurd rfl hne
    | cons x xs =>
      constructor
      · obtain ⟨k, hk⟩ := foldl_best (f := fun acc y => sc.mins y acc) (r := fun x y : α => x < y)
          (fun acc y => by
            unfold Scalar.mins
            by_cases hy : y < acc
            · rw [if_pos hy, if_pos ((ho.lt _ _).2 hy)]
            · rw [if_neg hy, if_neg (fun e => hy ((ho.lt _ _).1 e))])
          (fun x => lt_irrefl x) (fun _ _ _ => lt_neg) (fun _ _ => lt_asymm) x xs
        refine ⟨_, ?_, List.mem_of_getElem? hk.1, (firstBest_lt hk).2.1⟩
        unfold Ops.min
        rw [foldElems_eq h]
        exact foldlM_pure xs x fun _ _ _ => rfl
      · obtain ⟨k, hk⟩ := foldl_best (f := fun acc y => sc.maxs y acc) (r := fun x y : α => y < x)
          (fun acc y => by
            unfold Scalar.maxs
            by_cases hy : acc < y
            · rw [if_pos hy, if_pos ((ho.lt _ _).2 hy)]
            · rw [if_neg hy, if_neg (fun e => hy ((ho.lt _ _).1 e))])
          (fun x => lt_irrefl x) (fun _ _ _ => gt_neg) (fun _ _ => lt_asymm) x xs
        refine ⟨_, ?_, List.mem_of_getElem? hk.1, (firstBest_gt hk).2.1⟩
        unfold Ops.max
        rw [foldElems_eq h]
        exact foldlM_pure xs x fun _ _ _ => rfl

/-- C53: `min_index` and `max_index` of a one-dimensional object return the extremum and the first
index where it occurs. -/
theorem C53_index_1D (ho : Ordered sc) {a : Acc σ α} {l : List α} (h : Elems .one a s l)
    (dflt : Int × α) :
    (l = [] → Ops.minIndex1 sc a s dflt = .ok dflt ∧ Ops.maxIndex1 sc a s dflt = .ok dflt) ∧
    (l ≠ [] → (∃ k : Nat, ∃ v, Ops.minIndex1 sc a s dflt = .ok ((k : Int), v) ∧ FirstLeast l k v) ∧
      ∃ k : Nat, ∃ v, Ops.maxIndex1 sc a s dflt = .ok ((k : Int), v) ∧ FirstGreatest l k v) := by
  refine ⟨fun e => ?_, fun hne => ⟨?_, ?_⟩⟩
  · unfold Ops.minIndex1 Ops.maxIndex1 Ops.extIndex1
    rw [Elems.empty h, e]; exact ⟨rfl, rfl⟩
  · obtain ⟨k, v, h1, h2⟩ := extIndex1_best (r := fun x y : α => x < y) (fun x => lt_irrefl x)
      (fun _ _ _ => lt_neg) (fun _ _ => lt_asymm) (better := fun x y => sc.lt x y)
      (fun x y => by rw [Bool.eq_iff_iff, ho.lt, decide_eq_true_iff]) h hne dflt
    exact ⟨k, v, h1, firstBest_lt h2⟩
  · obtain ⟨k, v, h1, h2⟩ := extIndex1_best (r := fun x y : α => y < x) (fun x => lt_irrefl x)
      (fun _ _ _ => gt_neg) (fun _ _ => lt_asymm) (better := fun x y => sc.lt y x)
      (fun x y => by rw [Bool.eq_iff_iff, ho.lt, decide_eq_true_iff]) h hne dflt
    exact ⟨k, v, h1, firstBest_gt h2⟩

end ordered

theorem extIndex2_best {r : α → α → Prop} [DecidableRel r] (hi : ∀ x, ¬ r x x)
    (hn : ∀ x y z, r x y → ¬ r z y → r x z) (hc : ∀ x y, r x y → ¬ r y x)
    {better : α → α → Bool} (hb : ∀ x y, better x y = decide (r x y)) {a : Acc σ α} {m n : Nat}
    {l : List α} (h : Shaped .two a s (m, n) l) (hne : l ≠ []) (dflt : Int × Int × α) :
    ∃ (i j : Nat) (v : α), i < m ∧ j < n ∧
      Ops.extIndex2 better a s dflt = .ok ((i : Int), (j : Int), v) ∧ FirstBest r l (i * n + j) v := by
  have hlen : l.length = m * n := Shaped.len h
  have hl0 : 0 < l.length := List.length_pos_iff.2 hne
  have hempty := Elems.empty (Shaped.elems h)
  obtain ⟨X, hD, hd, hX⟩ := h
  change Mat (Res α) at X
  have hm : X.m = m := congrArg Prod.fst hd
  have hn' : X.n = n := congrArg Prod.snd hd
  obtain ⟨d1, d2, d3, d4⟩ := hD
  rw [hm] at d1
  rw [hn'] at d2
  rw [hm, hn'] at d4
  have hmp : 0 < m := by by_contra hz; rw [show m = 0 by omega, Nat.zero_mul] at hlen; omega
  have hnp : 0 < n := by by_contra hz; rw [show n = 0 by omega, Nat.mul_zero] at hlen; omega
  -- element (i, j) is element i * n + j of the list
  have hel : ∀ i j (hi : i < m) (hj : j < n),
      a.un2 s i j = .ok (l[i * n + j]'(by rw [hlen]; exact flat_lt hi hj)) := by
    intro i j hi hj
    rw [(d4 i j hi hj).1]
    have e := flat_getD (M := X) (d := Res.ub) (i := i) (j := j) (by omega) (by omega)
    rw [hn'] at e
    rw [← e]
    have hX' : Mat.flat X = l.map Res.ok := hX
    rw [hX', List.getD_eq_getElem?_getD, List.getElem?_map,
      List.getElem?_eq_getElem (by rw [hlen]; exact flat_lt hi hj)]
    rfl
  unfold Ops.extIndex2
  have e0 : a.un2 s 0 0 = .ok l[0] := by
    have := hel 0 0 hmp hnp
    simpa using this
  have hne' : l.isEmpty = false := by simpa using hne
  rw [hempty, hne', e0, d1, d2]
  simp only [Res.ok_bind, Bool.false_eq_true, if_false, Int.toNat_natCast]
  -- the best of the first `p` elements (of the first one if `p = 0`)
  let I : Nat → Int × Int × α → Prop := fun p best => ∃ i j : Nat, i < m ∧ j < n ∧
    best.1 = i ∧ best.2.1 = j ∧ FirstBest r (l.take (Max.max p 1)) (i * n + j) best.2.2
  have hstep : ∀ i j best, i < m → j < n → I (i * n + j) best →
      ∃ best', (do
        let y ← a.un2 s i j
        pure (if better y best.2.2 then ((i : Int), (j : Int), y) else best) : Res _) = .ok best' ∧
        I (i * n + j + 1) best' := by
    intro i j best hi' hj' ⟨i0, j0, hi0, hj0, e1, e2, hB⟩
    refine ⟨_, by rw [hel i j hi' hj']; rfl, ?_⟩
    have hp : i * n + j < l.length := by rw [hlen]; exact flat_lt hi' hj'
    rw [hb]
    by_cases hp0 : i * n + j = 0
    · -- comparing the first element with itself
      simp only [hp0, Nat.zero_max, Nat.zero_add] at hB ⊢
      have hk : i0 * n + j0 = 0 ∧ best.2.2 = l[0] := by
        have h1 := hB.1
        have hk : i0 * n + j0 < 1 := by
          by_contra hge
          rw [List.getElem?_eq_none (by rw [List.length_take]; omega)] at h1; cases h1
        have hk : i0 * n + j0 = 0 := by omega
        rw [hk, List.getElem?_take_of_lt (by omega), List.getElem?_eq_getElem hl0] at h1
        exact ⟨hk, (Option.some.inj h1).symm⟩
      rw [if_neg (by rw [hk.2]; simpa using hi l[0])]
      exact ⟨i0, j0, hi0, hj0, e1, e2, by simpa using hB⟩
    · have hs := firstBest_step hn hc hB l[i * n + j]
      have em : Max.max (i * n + j) 1 = i * n + j := by omega
      rw [em, ← List.take_succ_eq_append_getElem hp, List.length_take, Nat.min_eq_left (by omega)] at hs
      have em' : Max.max (i * n + j + 1) 1 = i * n + j + 1 := by omega
      by_cases hr : r l[i * n + j] best.2.2
      · rw [if_pos hr, if_pos hr] at hs
        rw [if_pos (decide_eq_true hr)]
        exact ⟨i, j, hi', hj', rfl, rfl, by rw [em']; exact hs⟩
      · rw [if_neg hr, if_neg hr] at hs
        rw [if_neg (by rw [decide_eq_false hr]; simp)]
        exact ⟨i0, j0, hi0, hj0, e1, e2, by rw [em']; exact hs⟩
  have hinit : I 0 (0, 0, l[0]) := by
    refine ⟨0, 0, hmp, hnp, rfl, rfl, ?_⟩
    have : l.take (Max.max 0 1) = [l[0]] := by
      cases l with
      | nil => exact absurd rfl hne
      | cons x xs => rfl
    rw [this, Nat.zero_mul]
    exact firstBest_singleton hi _
  obtain ⟨best, h1, i, j, hi', hj', e1, e2, hB⟩ := foldN_inv (init := ((0 : Int), (0 : Int), l[0]))
    (f := fun i best => foldN n (fun j (best : Int × Int × α) => do
      let y ← a.un2 s i j
      pure (if better y best.2.2 then ((i : Int), (j : Int), y) else best)) best)
    (fun i best => I (i * n) best) m (by rw [Nat.zero_mul]; exact hinit)
    (fun i best hi' hI => by
      obtain ⟨best', h1, h2⟩ := foldN_inv (init := best)
        (f := fun j (best : Int × Int × α) => do
          let y ← a.un2 s i j
          pure (if better y best.2.2 then ((i : Int), (j : Int), y) else best))
        (fun j best => I (i * n + j) best) n hI (fun j best hj' hI => hstep i j best hi' hj' hI)
      exact ⟨best', h1, by rw [Nat.add_mul, Nat.one_mul]; exact h2⟩)
  refine ⟨i, j, best.2.2, hi', hj', by rw [h1, ← e1, ← e2], ?_⟩
  rwa [List.take_of_length_le (by rw [hlen]; omega)] at hB

/-- C53: in two dimensions the position is the first in row-major order. -/
theorem C53_index_2D [LinearOrder α] {sc : Scalar α} (ho : Ordered sc) {a : Acc σ α} {m n : Nat}
    {l : List α} (h : Shaped .two a s (m, n) l) (dflt : Int × Int × α) :
    (l = [] → Ops.minIndex2 sc a s dflt = .ok dflt ∧ Ops.maxIndex2 sc a s dflt = .ok dflt) ∧
    (l ≠ [] →
      (∃ i j : Nat, ∃ v, Ops.minIndex2 sc a s dflt = .ok ((i : Int), (j : Int), v) ∧ i < m ∧ j < n ∧
        FirstLeast l (i * n + j) v) ∧
      ∃ i j : Nat, ∃ v, Ops.maxIndex2 sc a s dflt = .ok ((i : Int), (j : Int), v) ∧ i < m ∧ j < n ∧
        FirstGreatest l (i * n + j) v) := by
  refine ⟨fun e => ?_, fun hne => ⟨?_, ?_⟩⟩
  · unfold Ops.minIndex2 Ops.maxIndex2 Ops.extIndex2
    rw [Elems.empty (Shaped.elems h), e]; exact ⟨rfl, rfl⟩
  · obtain ⟨i, j, v, hi, hj, h1, h2⟩ := extIndex2_best (r := fun x y : α => x < y) (fun x => lt_irrefl x)
      (fun _ _ _ => lt_neg) (fun _ _ => lt_asymm) (better := fun x y => sc.lt x y)
      (fun x y => by rw [Bool.eq_iff_iff, ho.lt, decide_eq_true_iff]) h hne dflt
    exact ⟨i, j, v, h1, hi, hj, firstBest_lt h2⟩
  · obtain ⟨i, j, v, hi, hj, h1, h2⟩ := extIndex2_best (r := fun x y : α => y < x) (fun x => lt_irrefl x)
      (fun _ _ _ => gt_neg) (fun _ _ => lt_asymm) (better := fun x y => sc.lt y x)
      (fun x y => by rw [Bool.eq_iff_iff, ho.lt, decide_eq_true_iff]) h hne dflt
    exact ⟨i, j, v, h1, hi, hj, firstBest_gt h2⟩

/-- C53: whatever the comparison does (NaN), `min` and `max` return one of the elements. -/
theorem C53_always_an_element {sc : Scalar α} {a : Acc σ α} {l : List α} (h : Elems d a s l)
    (hne : l ≠ []) (dflt : α) :
    (∃ v ∈ l, Ops.min sc a s dflt = .ok v) ∧ ∃ v ∈ l, Ops.max sc a s dflt = .ok v := by
  have key : ∀ (f : α → α → α), (∀ x y, f x y = x ∨ f x y = y) → ∀ (xs : List α) (x : α),
      xs.foldl f x ∈ x :: xs := by
    intro f hf xs
    induction xs with
    | nil => intro x; simp
    | cons y ys ih =>
      intro x
      rw [List.foldl_cons]
      rcases List.mem_cons.1 (ih (f x y)) with e | e
      · rw [e]
        rcases hf x y with q | q <;> rw [q] <;> simp
      · simp [e]
  cases l with
  | nil => exact absurd rfl hne
  | cons x xs =>
    refine ⟨⟨_, key (fun acc y => sc.mins y acc) (fun u v => ?_) xs x, ?_⟩,
      ⟨_, key (fun acc y => sc.maxs y acc) (fun u v => ?_) xs x, ?_⟩⟩
    · unfold Scalar.mins; split <;> simp
    · unfold Ops.min; rw [foldElems_eq h]; exact foldlM_pure xs x fun _ _ _ => rfl
    · unfold Scalar.maxs; split <;> simp
    · unfold Ops.max; rw [foldElems_eq h]; exact foldlM_pure xs x fun _ _ _ => rfl

/-- C53: with NaN the result depends on the order of the elements: a NaN in front is returned, a NaN
behind is passed over. -/
theorem C53_nan {sc : Scalar α} {nan x : α} (h1 : sc.lt nan x = false) (h2 : sc.lt x nan = false)
    {a1 a2 : Acc σ α} (e1 : Elems d a1 s [nan, x]) (e2 : Elems d a2 s [x, nan]) (dflt : α) :
    Ops.min sc a1 s dflt = .ok nan ∧ Ops.min sc a2 s dflt = .ok x ∧
    Ops.max sc a1 s dflt = .ok nan ∧ Ops.max sc a2 s dflt = .ok x := by
  unfold Ops.min Ops.max
  rw [foldElems_eq e1, foldElems_eq e1, foldElems_eq e2, foldElems_eq e2]
  simp only [List.foldlM_cons, List.foldlM_nil, Scalar.mins, Scalar.maxs, h1, h2]
  exact ⟨rfl, rfl, rfl, rfl⟩

section
open Sample

theorem rats_ordered : Ordered (exactS ℚ (fun x _ => x) id) where
  lt _ _ := decide_eq_true_iff
  le _ _ := decide_eq_true_iff
  eq _ _ := decide_eq_true_iff

/-- The least element of `[1/2, -3/4, 2]`. -/
example : ∃ a, (Tm.lv (.arr1 0)).build ⟨false, true, false⟩ rats = .ok a ∧
    ∃ k : Nat, ∃ v, Ops.minIndex1 (exactS ℚ (fun x _ => x) id) a rats (-1, 0) = .ok ((k : Int), v) ∧
      FirstLeast [1 / 2, -3 / 4, 2] k v := by
  obtain ⟨a, h1, h2⟩ := rats_x
  exact ⟨a, h1, ((C53_index_1D rats_ordered (Shaped.elems h2) (-1, 0)).2 (by simp)).1⟩

example : ∃ a, (Tm.lv (.arr1 0)).build ⟨false, true, false⟩ rats = .ok a ∧
    (∃ v, Ops.max (exactS ℚ (fun x _ => x) id) a rats 0 = .ok v ∧ v = 2) := by
  obtain ⟨a, h1, h2⟩ := rats_x
  obtain ⟨v, h3, h4, h5⟩ := ((C53_extrema rats_ordered (Shaped.elems h2) 0).2 (by simp)).2
  refine ⟨a, h1, v, h3, ?_⟩
  have := h5 2 (by simp)
  simp only [List.mem_cons, List.not_mem_nil, or_false] at h4
  rcases h4 with h4 | h4 | h4 <;> rw [h4] at this ⊢ <;> norm_num at this

/-- A scalar type of integers with order. -/
def intScalar : Scalar Int where
  toArith := ints
  neg x := .ok (-x)
  lt x y := decide (x < y)
  le x y := decide (x ≤ y)
  eq x y := decide (x = y)
  pow x _ := .ok x
  sqrt x := .ok x

/-- The largest element of a transposed matrix is in the last row and column. -/
example : ∃ a, (Tm.transpose A).build ⟨false, true, false⟩ store = .ok a ∧
    ∃ i j : Nat, ∃ v, Ops.maxIndex2 intScalar a store (-1, -1, 0) = .ok ((i : Int), (j : Int), v) ∧
      i < 3 ∧ j < 2 ∧ FirstGreatest [1, 4, 2, 5, 3, 6] (i * 2 + j) v := by
  obtain ⟨a, h1, h2⟩ := transposed
  exact ⟨a, h1, ((C53_index_2D (sc := intScalar)
    ⟨fun _ _ => decide_eq_true_iff, fun _ _ => decide_eq_true_iff, fun _ _ => decide_eq_true_iff⟩
    h2 (-1, -1, 0)).2 (by simp)).2⟩

/-- Integers with a value (`none`) that is not comparable to any other. -/
def withNan : Scalar (Option Int) where
  zero := some 0
  one := some 1
  add _ _ := .ok none
  sub _ _ := .ok none
  mul _ _ := .ok none
  div _ _ := .ok none
  ofIndex i := .ok (some i)
  neg x := .ok (x.map (- ·))
  lt x y := match x, y with | some x, some y => decide (x < y) | _, _ => false
  le x y := match x, y with | some x, some y => decide (x ≤ y) | _, _ => false
  eq x y := match x, y with | some x, some y => decide (x = y) | _, _ => false
  pow x _ := .ok x
  sqrt x := .ok x

example : Ops.min withNan (lit [none, some 3]) () none = .ok none ∧
    Ops.min withNan (lit [some 3, none]) () none = .ok (some 3) := by
  have h := C53_nan (sc := withNan) (nan := none) (x := some 3) rfl rfl
    (Shaped.elems (lit_shaped () [none, some 3])) (Shaped.elems (lit_shaped () [some 3, none])) none
  exact ⟨h.1, h.2.1⟩

example : ∃ v ∈ [some 1, none, some 3], Ops.max withNan (lit [some 1, none, some 3]) () none = .ok v :=
  (C53_always_an_element (Shaped.elems (lit_shaped () [some 1, none, some 3])) (by simp) none).2

end

end Spp.Props
