import Verif.Spec.Assign
import Verif.Lemmas.Expr
import Verif.Props.History2D

/-
Lemmas on assignment.
-/

set_option linter.unusedSectionVars false

namespace Spp
open Spec

variable {α : Type}

/-! ### Loops -/

namespace Op
variable {σ : Type}

theorem forN_congr {n : Nat} {f g : Nat → Op σ Unit} (h : ∀ i, i < n → f i = g i) :
    forN n f = forN n g := by
  induction n with
  | zero => rfl
  | succ n ih =>
    have e := ih (fun i hi => h i (by omega))
    funext s
    rw [forN_succ, forN_succ, e, h n (by omega)]

theorem forN_split (m n : Nat) (f : Nat → Op σ Unit) (s : σ) :
    forN (m + n) f s = match forN m f s with
      | (.ok _, s') => forN n (fun i => f (m + i)) s'
      | (.trap k, s') => (.trap k, s')
      | (.ub, s') => (.ub, s') := by
  induction n with
  | zero => rcases h : forN m f s with ⟨_ | _ | _, _⟩ <;> simp [h]
  | succ n ih =>
    rw [← Nat.add_assoc, forN_succ, ih]
    rcases forN m f s with ⟨_ | _ | _, s'⟩
    · simp only [forN_succ]
    · rfl
    · rfl

/-- Two nested loops are one loop. -/
theorem forN_nest (m n : Nat) (f : Nat → Nat → Op σ Unit) :
    forN m (fun i => forN n (fun j => f i j)) = forN (m * n) (fun k => f (k / n) (k % n)) := by
  induction m with
  | zero => rw [Nat.zero_mul]; rfl
  | succ m ih =>
    funext s
    rw [forN_succ, ih, Nat.succ_mul, forN_split]
    have : forN n (fun i => f ((m * n + i) / n) ((m * n + i) % n)) = forN n (fun j => f m j) := by
      apply forN_congr
      intro i hi
      rw [flat_div hi, flat_mod hi]
    rw [this]
    rcases forN (m * n) (fun k => f (k / n) (k % n)) s with ⟨_ | _ | _, s'⟩ <;> rfl

end Op

theorem evalAll_snoc (l : List (Res α)) (r : Res α) :
    evalAll (l ++ [r]) = (do
      let xs ← evalAll l
      let x ← r
      pure (xs ++ [x])) := by
  induction l with
  | nil => cases r <;> rfl
  | cons q l ih =>
    simp only [List.cons_append, evalAll, ih]
    cases q with
    | ok y =>
      simp only [Res.ok_bind]
      cases evalAll l with
      | ok xs => cases r <;> rfl
      | trap k => rfl
      | ub => rfl
    | trap k => rfl
    | ub => rfl

theorem evalAll_eq_ok {l : List (Res α)} {xs : List α} :
    evalAll l = .ok xs ↔ l = xs.map Res.ok := by
  induction l generalizing xs with
  | nil =>
    constructor
    · intro h; cases h; rfl
    · intro h
      cases xs with
      | nil => rfl
      | cons x xs => simp at h
  | cons r rs ih =>
    simp only [evalAll, Res.bind_eq_ok]
    constructor
    · rintro ⟨x, rfl, ys, h2, h3⟩
      cases h3
      rw [ih.1 h2]; rfl
    · intro h
      cases xs with
      | nil => simp at h
      | cons x xs =>
        simp only [List.map_cons, List.cons.injEq] at h
        exact ⟨x, h.1, xs, ih.2 h.2, rfl⟩

/-- A loop that handles the values `l` one after the other: it stops at the first failure. -/
theorem forN_eval {σ : Type} {body : Nat → Op σ Unit} {s0 : σ} (l : List (Res α))
    (I : List α → σ → Prop) (h0 : I [] s0)
    (hs : ∀ (xs : List α) (t : σ) (hlt : xs.length < l.length), I xs t →
      (∀ i (hi : i < xs.length), l[i]'(by omega) = .ok xs[i]) →
      match l[xs.length] with
      | .ok x => ∃ t', body xs.length t = (.ok (), t') ∧ I (xs ++ [x]) t'
      | .trap k => body xs.length t = (.trap k, t)
      | .ub => body xs.length t = (.ub, t)) :
    match evalAll l with
    | .ok xs => ∃ t, Op.forN l.length body s0 = (.ok (), t) ∧ I xs t
    | .trap k => ∃ (xs : List α) (t : σ) (hlt : xs.length < l.length), l.take xs.length = xs.map Res.ok ∧
        l[xs.length] = .trap k ∧ Op.forN l.length body s0 = (.trap k, t) ∧ I xs t
    | .ub => ∃ (xs : List α) (t : σ) (hlt : xs.length < l.length), l.take xs.length = xs.map Res.ok ∧
        l[xs.length] = .ub ∧ Op.forN l.length body s0 = (.ub, t) ∧ I xs t := by
  have key : ∀ k, k ≤ l.length → match evalAll (l.take k) with
      | .ok xs => ∃ t, Op.forN k body s0 = (.ok (), t) ∧ I xs t
      | .trap kd => ∃ (xs : List α) (t : σ) (hlt : xs.length < l.length),
          l.take xs.length = xs.map Res.ok ∧
          l[xs.length] = .trap kd ∧ Op.forN k body s0 = (.trap kd, t) ∧ I xs t
      | .ub => ∃ (xs : List α) (t : σ) (hlt : xs.length < l.length),
          l.take xs.length = xs.map Res.ok ∧
          l[xs.length] = .ub ∧ Op.forN k body s0 = (.ub, t) ∧ I xs t := by
    intro k
    induction k with
    | zero => intro _; exact ⟨s0, rfl, h0⟩
    | succ k ih =>
      intro hk
      have ih := ih (by omega)
      have e : l.take (k + 1) = l.take k ++ [l[k]] := by
        rw [List.take_succ_eq_append_getElem (by omega)]
      rw [e, evalAll_snoc]
      cases hl : evalAll (l.take k) with
      | ok xs =>
        rw [hl] at ih
        obtain ⟨t, h1, h2⟩ := ih
        have hxs := evalAll_eq_ok.1 hl
        have hlen : xs.length = k := by
          have := congrArg List.length hxs
          simp at this; omega
        subst hlen
        have hpre : ∀ i (hi : i < xs.length), l[i]'(by omega) = .ok xs[i] := by
          intro i hi
          have : (l.take xs.length)[i]? = (xs.map Res.ok)[i]? := by rw [hxs]
          simp [List.getElem?_take, hi, show i < l.length by omega] at this
          exact this
        have step := hs xs t hk h2 hpre
        rw [Res.ok_bind]
        cases hx : l[xs.length] with
        | ok x =>
          rw [hx] at step
          obtain ⟨t', h3, h4⟩ := step
          exact ⟨t', by rw [Op.forN_succ, h1]; exact h3, h4⟩
        | trap kd =>
          rw [hx] at step
          exact ⟨xs, t, by omega, hxs, hx, by rw [Op.forN_succ, h1]; exact step, h2⟩
        | ub =>
          rw [hx] at step
          exact ⟨xs, t, by omega, hxs, hx, by rw [Op.forN_succ, h1]; exact step, h2⟩
      | trap kd =>
        rw [hl] at ih
        obtain ⟨xs, t, h1, h2, h3, h4, h5⟩ := ih
        exact ⟨xs, t, h1, h2, h3, by rw [Op.forN_succ, h4], h5⟩
      | ub =>
        rw [hl] at ih
        obtain ⟨xs, t, h1, h2, h3, h4, h5⟩ := ih
        exact ⟨xs, t, h1, h2, h3, by rw [Op.forN_succ, h4], h5⟩
  have := key l.length (Nat.le_refl _)
  rw [List.take_length] at this
  exact this

/-! ### Writes -/

theorem Loc.Valid.same {s s' : Store α} (h : SameSizes s s') {l : Loc} (hl : l.Valid s) :
    l.Valid s' := by
  cases l with
  | one id k => simp only [Loc.Valid] at hl ⊢; rw [← h.1 id]; exact hl
  | two id k => simp only [Loc.Valid] at hl ⊢; rw [← (h.2 id).2.2]; exact hl

theorem read_valid {s : Store α} {c : Loc} (h : c.Valid s) : ∃ x, s.read c = .ok x := by
  cases c with
  | one id k => exact ⟨_, rd_nat h⟩
  | two id k => exact ⟨_, rd_nat h⟩

theorem write_ok {s : Store α} {l : Loc} (hl : l.Valid s) (x : α) :
    ∃ s', s.write l x = .ok s' ∧ SameSizes s s' ∧
      ∀ l', s'.read l' = if l = l' then .ok x else s.read l' := by
  cases l with
  | one id k =>
    simp only [Loc.Valid] at hl
    refine ⟨_, by simp only [Store.write]; rw [wr_ok ⟨by omega, by omega⟩]; rfl, ?_, ?_⟩
    · refine ⟨fun i => ?_, fun i => ⟨rfl, rfl, rfl⟩⟩
      by_cases h : i = id
      · subst h; simp
      · simp [h]
    · intro l'
      cases l' with
      | one id' k' =>
        simp only [Store.read, Loc.one.injEq]
        by_cases h : id' = id
        · subst h
          by_cases hk : k = k'
          · subst hk; simp [rd, hl]
          · simp [rd, hk]
        · have h' : ¬ id = id' := fun e => h e.symm
          simp [h, h']
      | two id' k' => simp [Store.read]
  | two id k =>
    simp only [Loc.Valid] at hl
    refine ⟨_, by simp only [Store.write]; rw [wr_ok ⟨by omega, by omega⟩]; rfl, ?_, ?_⟩
    · refine ⟨fun i => rfl, fun i => ?_⟩
      by_cases h : i = id
      · subst h; simp
      · simp [h]
    · intro l'
      cases l' with
      | one id' k' => simp [Store.read]
      | two id' k' =>
        simp only [Store.read, Loc.two.injEq]
        by_cases h : id' = id
        · subst h
          by_cases hk : k = k'
          · subst hk; simp [rd, hl]
          · simp [rd, hk]
        · have h' : ¬ id = id' := fun e => h e.symm
          simp [h, h']

theorem lastWrite_snoc (ws : List (Loc × α)) (k : Loc) (x : α) (l : Loc) :
    lastWrite (ws ++ [(k, x)]) l = if k = l then some x else lastWrite ws l := by
  induction ws with
  | nil => simp [lastWrite]
  | cons w ws ih =>
    obtain ⟨k', x'⟩ := w
    simp only [List.cons_append, lastWrite, ih]
    by_cases h : k = l
    · simp [h]
    · simp [h]

theorem Effect.refl (s : Store α) : Effect s s [] := ⟨SameSizes.refl s, fun _ => rfl⟩

theorem Effect.put {s t : Store α} {ws : List (Loc × α)} (h : Effect s t ws) {k : Loc}
    (hk : k.Valid s) (x : α) :
    ∃ t', Spp.put k x t = (.ok (), t') ∧ Effect s t' (ws ++ [(k, x)]) := by
  obtain ⟨t', h1, h2, h3⟩ := write_ok (hk.same h.1) x
  refine ⟨t', by simp only [Spp.put, Op.get_bind, h1, Op.lift_ok_bind, Op.set_run], SameSizes.trans h.1 h2, ?_⟩
  intro l
  rw [h3, lastWrite_snoc]
  by_cases hl : k = l
  · simp [hl]
  · simp only [hl, if_false]; exact h.2 l

theorem lastWrite_none {ws : List (Loc × α)} {l : Loc} (h : ∀ w ∈ ws, w.1 ≠ l) :
    lastWrite ws l = none := by
  induction ws with
  | nil => rfl
  | cons w ws ih =>
    simp only [lastWrite, ih (fun w hw => h w (by simp [hw]))]
    rw [if_neg (h w (by simp))]

theorem Effect.frame {s t : Store α} {ws : List (Loc × α)} (h : Effect s t ws) {l : Loc}
    (hl : ∀ w ∈ ws, w.1 ≠ l) : t.read l = s.read l := by
  rw [h.2 l, lastWrite_none hl]

/-! ### Places -/

/-- A property of all elements of a list or matrix. -/
def Sem.All {β : Type} (P : Res β → Prop) : {d : Dim} → Sem β d → Prop
  | .one, l => ∀ r, List.Mem r l → P r
  | .two, M => ∀ i j, i < Mat.m M → j < Mat.n M → P (Mat.el M i j)

theorem all_flat {β : Type} {P : Res β → Prop} {d : Dim} {x : Sem β d} (h : Sem.All P x) :
    ∀ r ∈ x.flat, P r := by
  cases d with
  | one => exact h
  | two =>
    intro r hr
    change Mat (Res β) at x
    change r ∈ Mat.flat x at hr
    rw [flat_eq, List.mem_map] at hr
    obtain ⟨k, hk, rfl⟩ := hr
    rw [List.mem_range] at hk
    obtain ⟨u, v⟩ := unflat_lt hk
    exact h _ _ u v

theorem flat_dims {β : Type} {d : Dim} (x : Sem β d) : x.flat.length = x.dims.1 * x.dims.2 := by
  cases d with
  | one => exact (Nat.mul_one _).symm
  | two => exact flat_length _

theorem getD_mem {β : Type} {l : List β} {i : Nat} {d : β} (h : i < l.length) : l.getD i d ∈ l := by
  rw [getD_lt h]; exact List.getElem_mem h

theorem pick_all {β : Type} {P : Res β → Prop} {l : List (Res β)} (h : ∀ r ∈ l, P r) {i : Int}
    (hi : InRange l.length i) : P (pick l i) := by
  obtain ⟨k, rfl, hk⟩ := inRange_nat hi
  simp only [pick, Int.natCast_nonneg, if_true, Int.toNat_natCast]
  exact h _ (getD_mem hk)

theorem selection_inRange {n : Nat} {r : SliceReq} (hn : (n : Int) < 2 ^ 63 - 1) (ha : r.Args)
    (hv : r.Valid n) : ∀ x ∈ selection n r, InRange n x := by
  obtain ⟨_, _, _, h⟩ := mkSlice_valid ⟨false, true, false⟩ (Int.natCast_nonneg n) hn ha hv
  exact h

theorem upto_inRange {n : Nat} : ∀ x ∈ upto n, InRange n x :=
  selection_inRange' n
where
  selection_inRange' (n : Nat) : ∀ x ∈ upto n, InRange n x := by
    intro x hx
    simp [upto] at hx
    obtain ⟨a, h1, h2⟩ := hx
    unfold InRange; omega

theorem cross_all {β : Type} {P : Res β → Prop} {M : Mat (Res β)}
    (h : ∀ i j, i < M.m → j < M.n → P (M.el i j)) {rs cs : List Int}
    (hr : ∀ x ∈ rs, InRange M.m x) (hc : ∀ x ∈ cs, InRange M.n x) :
    Sem.All (d := .two) P (M.cross rs cs) := by
  intro i j hi hj
  unfold Mat.cross at hi hj ⊢
  by_cases h0 : rs = [] ∨ cs = []
  · rw [if_pos h0] at hi
    exact absurd hi (Nat.not_lt_zero _)
  · rw [if_neg h0] at hi hj ⊢
    obtain ⟨a, ea, la⟩ := inRange_nat (hr _ (getD_mem (d := 0) hi))
    obtain ⟨c, ec, lc⟩ := inRange_nat (hc _ (getD_mem (d := 0) hj))
    show P (M.pick (rs.getD i 0) (cs.getD j 0))
    rw [ea, ec, Mat.pick, if_pos (by omega)]
    exact h _ _ (by omega) (by omega)

theorem View.sel_all {β : Type} {P : Res β → Prop} {d d' : Dim} (v : View d d') {x : Sem β d}
    (ha : v.Args) (hv : v.Valid x.dims.1 x.dims.2) (hs : Small x) (h : Sem.All P x) :
    Sem.All P (v.sel x) := by
  cases v with
  | slice r =>
    intro q hq
    change q ∈ (selection (List.length x) r).map (pick x) at hq
    rw [List.mem_map] at hq
    obtain ⟨i, hi, rfl⟩ := hq
    exact pick_all h (selection_inRange hs ha hv i hi)
  | slice2 r1 r2 =>
    obtain ⟨b1, b2⟩ := two_of_m hs
    exact cross_all h (selection_inRange b1 ha.1 hv.1) (selection_inRange b2 ha.2 hv.2)
  | rows r =>
    obtain ⟨b1, b2⟩ := two_of_m hs
    exact cross_all h (selection_inRange b1 ha hv) upto_inRange
  | cols r =>
    obtain ⟨b1, b2⟩ := two_of_m hs
    exact cross_all h upto_inRange (selection_inRange b2 ha hv)
  | row p =>
    intro q hq
    change q ∈ Mat.row x _ at hq
    simp only [Mat.row, List.mem_map, List.mem_range] at hq
    obtain ⟨j, hj, rfl⟩ := hq
    have hv' : InRange (Mat.m x) (target (Mat.m x) p) := hv
    exact h _ _ (by have := hv'.1; have := hv'.2; omega) hj
  | col p =>
    intro q hq
    change q ∈ Mat.col x _ at hq
    simp only [Mat.col, List.mem_map, List.mem_range] at hq
    obtain ⟨i, hi, rfl⟩ := hq
    have hv' : InRange (Mat.n x) (target (Mat.n x) p) := hv
    exact h _ _ hi (by have := hv'.1; have := hv'.2; omega)
  | diag =>
    intro q hq
    change q ∈ Mat.diagonal x 0 at hq
    simp only [Mat.diagonal, Int.le_refl, if_true, List.mem_map, List.mem_range] at hq
    obtain ⟨i, hi, rfl⟩ := hq
    exact h _ _ (by omega) (by simp at hi ⊢; omega)
  | diagK k =>
    intro q hq
    change q ∈ Mat.diagonal x k at hq
    unfold Mat.diagonal at hq
    split at hq
    · simp only [List.mem_map, List.mem_range] at hq
      obtain ⟨i, hi, rfl⟩ := hq
      exact h _ _ (by omega) (by omega)
    · simp only [List.mem_map, List.mem_range] at hq
      obtain ⟨i, hi, rfl⟩ := hq
      exact h _ _ (by omega) (by omega)
  | block i1 j1 i2 j2 =>
    intro i j hi hj
    obtain ⟨v1, v2, v3, v4, v5, v6⟩ := hv
    change InRange (Mat.m x) (target (Mat.m x) i1) at v1
    change InRange (Mat.n x) (target (Mat.n x) j1) at v2
    change InRange (Mat.m x) (target (Mat.m x) i2) at v3
    change InRange (Mat.n x) (target (Mat.n x) j2) at v4
    unfold InRange at v1 v2 v3 v4
    change i < (Mat.sub x (target (Mat.m x) i1).toNat (target (Mat.n x) j1).toNat
      (target (Mat.m x) i2 - target (Mat.m x) i1 + 1).toNat
      (target (Mat.n x) j2 - target (Mat.n x) j1 + 1).toNat).m at hi
    change j < (Mat.sub x (target (Mat.m x) i1).toNat (target (Mat.n x) j1).toNat
      (target (Mat.m x) i2 - target (Mat.m x) i1 + 1).toNat
      (target (Mat.n x) j2 - target (Mat.n x) j1 + 1).toNat).n at hj
    change P ((Mat.sub x (target (Mat.m x) i1).toNat (target (Mat.n x) j1).toNat
      (target (Mat.m x) i2 - target (Mat.m x) i1 + 1).toNat
      (target (Mat.n x) j2 - target (Mat.n x) j1 + 1).toNat).el i j)
    unfold Mat.sub at hi hj ⊢
    split at hi
    · exact absurd hi (Nat.not_lt_zero _)
    · rename_i hz
      rw [if_neg hz] at hj ⊢
      have hi' : i < (target (Mat.m x) i2 - target (Mat.m x) i1 + 1).toNat := hi
      have hj' : j < (target (Mat.n x) j2 - target (Mat.n x) j1 + 1).toNat := hj
      exact h _ _ (by omega) (by omega)
  | blockN i1 j1 p q =>
    intro i j hi hj
    obtain ⟨_, _, v1, v2, v3, v4, v5, v6⟩ := hv
    change 0 ≤ target (Mat.m x) i1 at v1
    change 0 ≤ target (Mat.n x) j1 at v2
    change p ≠ 0 → target (Mat.m x) i1 + p ≤ Mat.m x at v5
    change q ≠ 0 → target (Mat.n x) j1 + q ≤ Mat.n x at v6
    change i < (Mat.sub x (target (Mat.m x) i1).toNat (target (Mat.n x) j1).toNat p.toNat q.toNat).m at hi
    change j < (Mat.sub x (target (Mat.m x) i1).toNat (target (Mat.n x) j1).toNat p.toNat q.toNat).n at hj
    change P ((Mat.sub x (target (Mat.m x) i1).toNat (target (Mat.n x) j1).toNat p.toNat q.toNat).el i j)
    unfold Mat.sub at hi hj ⊢
    split at hi
    · exact absurd hi (Nat.not_lt_zero _)
    · rename_i hz
      rw [if_neg hz] at hj ⊢
      have hi' : i < p.toNat := hi
      have hj' : j < q.toNat := hj
      have := v5 (by omega)
      have := v6 (by omega)
      exact h _ _ (by omega) (by omega)
  | view1D => exact all_flat h
  | view2D _ p q =>
    intro i j hi hj
    obtain ⟨v1, v2, v3⟩ := hv
    change i < (Mat.laid x.flat p.toNat q.toNat).m at hi
    change j < (Mat.laid x.flat p.toNat q.toNat).n at hj
    change P ((Mat.laid x.flat p.toNat q.toNat).el i j)
    unfold Mat.laid at hi hj ⊢
    split at hi
    · exact absurd hi (Nat.not_lt_zero _)
    · rename_i hz
      rw [if_neg hz] at hj ⊢
      have hi' : i < p.toNat := hi
      have hj' : j < q.toNat := hj
      show P (x.flat.getD (i * q.toNat + j) .ub)
      apply all_flat h
      apply getD_mem
      have hl := flat_lt hi' hj'
      have e : p.toNat * q.toNat = x.dims.1 * x.dims.2 := by
        obtain ⟨p', rfl⟩ := Int.eq_ofNat_of_zero_le v1
        obtain ⟨q', rfl⟩ := Int.eq_ofNat_of_zero_le v2
        simp only [Int.toNat_natCast]
        exact_mod_cast v3
      rw [e] at hl
      rw [flat_dims]; exact hl

theorem Lv.cells_same {s s' : Store α} (h : SameSizes s s') {d : Dim} (l : Lv d) :
    l.cells s' = l.cells s := by
  induction l with
  | arr1 id => simp only [Lv.cells, h.1 id]; rfl
  | arr2 id => simp only [Lv.cells, (h.2 id).1, (h.2 id).2.1]; rfl
  | view v l ih => simp only [Lv.cells, ih]

theorem Lv.cells_all {s : Store α} (hs : Store.Ok s) {d : Dim} (l : Lv d) :
    l.Sound s → l.Valid s →
      Sem.All (fun r => ∃ c : Loc, r = .ok c ∧ c.Valid s ∧ c.array = l.array) (l.cells s) := by
  induction l with
  | arr1 id =>
    intro _ _ r hr
    change r ∈ (List.range (s.a1 id).length).map (fun k => Res.ok (Loc.one id k)) at hr
    rw [List.mem_map] at hr
    obtain ⟨k, hk, rfl⟩ := hr
    exact ⟨_, rfl, List.mem_range.1 hk, rfl⟩
  | arr2 id =>
    intro _ _ i j hi hj
    refine ⟨_, rfl, ?_, rfl⟩
    obtain ⟨sh, _⟩ := hs.2 id
    have hr := sh.rows; have hc := sh.cols; have hz := sh.size
    have hi' : i < (s.a2 id).rows.toNat := hi
    have hj' : j < (s.a2 id).cols.toNat := hj
    have hl := flat_lt hi' hj'
    have e : (s.a2 id).data.length = (s.a2 id).rows.toNat * (s.a2 id).cols.toNat := by
      obtain ⟨p, hp⟩ := Int.eq_ofNat_of_zero_le hr
      obtain ⟨q, hq⟩ := Int.eq_ofNat_of_zero_le hc
      rw [hp, hq] at hz ⊢
      simp only [Int.toNat_natCast]
      exact_mod_cast hz
    show _ < (s.a2 id).data.length
    rw [e]; exact hl
  | view v l ih =>
    intro hS hV
    obtain ⟨hsm, _⟩ := l.main ⟨false, true, false⟩ hs hS.1 hV.1
    exact v.sel_all hS.2.1 hV.2 hsm (ih hS.1 hV.1)

theorem list_of_ok {β : Type} {P : β → Prop} {l : List (Res β)}
    (h : ∀ r ∈ l, ∃ c, r = .ok c ∧ P c) : ∃ cs : List β, l = cs.map Res.ok ∧ ∀ c ∈ cs, P c := by
  induction l with
  | nil => exact ⟨[], rfl, by simp⟩
  | cons r l ih =>
    obtain ⟨c, rfl, hc⟩ := h r (by simp)
    obtain ⟨cs, rfl, hcs⟩ := ih (fun r hr => h r (by simp [hr]))
    exact ⟨c :: cs, rfl, by simpa using ⟨hc, hcs⟩⟩

/-- An assignable object that was accepted refers to existing places of its array. -/
theorem Lv.places {s : Store α} (hs : Store.Ok s) {d : Dim} (l : Lv d) (hS : l.Sound s)
    (hV : l.Valid s) : ∃ cs, Places l s cs ∧ ∀ c ∈ cs, c.array = l.array := by
  obtain ⟨cs, h1, h2⟩ := list_of_ok (P := fun c : Loc => c.Valid s ∧ c.array = l.array)
    (all_flat (l.cells_all hs hS hV))
  exact ⟨cs, ⟨h1, fun c hc => (h2 c hc).1⟩, fun c hc => (h2 c hc).2⟩

theorem Places.array {s : Store α} (hs : Store.Ok s) {d : Dim} {l : Lv d} (hS : l.Sound s)
    (hV : l.Valid s) {cs : List Loc} (h : Places l s cs) : ∀ c ∈ cs, c.array = l.array := by
  obtain ⟨cs', h1, h2⟩ := l.places hs hS hV
  have : cs = cs' := by
    have e : cs.map (Res.ok : Loc → Res Loc) = cs'.map Res.ok := h.1.symm.trans h1.1
    exact List.map_inj_right (fun _ _ h => Res.ok.inj h) |>.1 e
  rw [this]; exact h2

theorem Places.length {s : Store α} {d : Dim} {l : Lv d} {cs : List Loc} (h : Places l s cs) :
    cs.length = (l.cells s).dims.1 * (l.cells s).dims.2 := by
  have := congrArg List.length h.1
  rw [flat_dims, List.length_map] at this
  exact this.symm

/-! ### The loops of assignment -/

theorem zip_snoc {β : Type} {cs : List Loc} {xs : List β} {x : β} (h : xs.length < cs.length) :
    cs.zip (xs ++ [x]) = cs.zip xs ++ [(cs[xs.length], x)] := by
  induction cs generalizing xs with
  | nil => simp at h
  | cons c cs ih =>
    cases xs with
    | nil => simp
    | cons y ys =>
      simp only [List.cons_append, List.zip_cons_cons, List.length_cons, List.getElem_cons_succ]
      rw [ih (by simpa using h)]

theorem writes_loop {s0 : Store α} {cs : List Loc} (hc : ∀ c ∈ cs, c.Valid s0) {l : List (Res α)}
    (hl : l.length = cs.length) {n : Nat} (hn : n = l.length) {body : Nat → Op (Store α) Unit}
    (hb : ∀ (xs : List α) (t : Store α) (h : xs.length < l.length), Effect s0 t (cs.zip xs) →
      (∀ i (hi : i < xs.length), l[i]'(by omega) = .ok xs[i]) →
      body xs.length t = match l[xs.length] with
        | .ok x => Spp.put (cs[xs.length]'(by omega)) x t
        | .trap k => (.trap k, t)
        | .ub => (.ub, t)) :
    Writes cs l s0 (Op.forN n body s0) := by
  subst hn
  have key := forN_eval (body := body) (s0 := s0) l (fun xs t => Effect s0 t (cs.zip xs))
    (by rw [List.zip_nil_right]; exact Effect.refl s0) (by
      intro xs t hlt hI hpre
      have h := hb xs t hlt hI hpre
      cases hx : l[xs.length] with
      | ok x =>
        rw [hx] at h
        obtain ⟨t', h1, h2⟩ := Effect.put hI (hc _ (List.getElem_mem (show xs.length < cs.length by omega))) x
        exact ⟨t', by rw [h]; exact h1, by rw [zip_snoc (by omega)]; exact h2⟩
      | trap k => rw [hx] at h; exact h
      | ub => rw [hx] at h; exact h)
  cases he : evalAll l with
  | ok xs =>
    rw [he] at key
    obtain ⟨t, h1, h2⟩ := key
    rw [h1]
    exact ⟨xs, h2, .inl ⟨evalAll_eq_ok.1 he, rfl⟩⟩
  | trap k =>
    rw [he] at key
    obtain ⟨xs, t, hlt, h1, h2, h3, h4⟩ := key
    rw [h3]
    refine ⟨xs, h4, .inr ⟨.trap k, l.drop (xs.length + 1), ?_, by simp, rfl⟩⟩
    rw [← h1, ← h2, List.getElem_cons_drop, List.take_append_drop]
  | ub =>
    rw [he] at key
    obtain ⟨xs, t, hlt, h1, h2, h3, h4⟩ := key
    rw [h3]
    refine ⟨xs, h4, .inr ⟨.ub, l.drop (xs.length + 1), ?_, by simp, rfl⟩⟩
    rw [← h1, ← h2, List.getElem_cons_drop, List.take_append_drop]

/-- States that occur while writing `cs` differ from the original only where something has been
written. -/
theorem Effect.frame_take {s0 t : Store α} {cs : List Loc} {xs : List α} (hx : xs.length ≤ cs.length)
    (h : Effect s0 t (cs.zip xs)) : ∀ c, c ∉ cs.take xs.length → t.read c = s0.read c := by
  intro c hc
  refine Effect.frame h ?_
  intro w hw e
  apply hc
  have e2 : cs.zip xs = (cs.take xs.length).zip xs := by
    clear h hw hc
    induction cs generalizing xs with
    | nil => simp
    | cons c cs ih =>
      cases xs with
      | nil => simp
      | cons x xs => simp only [List.zip_cons_cons, List.length_cons, List.take_succ_cons]
                     rw [← ih (by simpa using hx)]
  rw [e2] at hw
  rw [← e]
  exact (List.of_mem_zip (a := w.1) (b := w.2) hw).1

theorem den_un {d : Dim} {β : Type} {a : Acc (Store α) β} {s : Store α} {x : Sem β d}
    (h : Den d a s x) {k : Nat} (hk : k < x.flat.length) : a.un s k = x.flat[k] := by
  rw [(linDen_of h).2 k hk, getD_lt hk]

theorem den_un2 {β : Type} {a : Acc (Store α) β} {s : Store α} {M : Mat (Res β)}
    (h : Den .two a s M) {k : Nat} (hk : k < M.flat.length) :
    a.un2 s ((k / M.n : Nat) : Int) ((k % M.n : Nat) : Int) = M.flat[k] := by
  have hk' : k < M.m * M.n := by rwa [flat_length] at hk
  obtain ⟨u, v⟩ := unflat_lt hk'
  rw [(h.2.2.2 _ _ u v).1, ← flat_getD (d := Res.ub) u v, unflat, getD_lt hk]

section stmts

variable {s0 : Store α} {d : Dim} {l : Lv d} {cs : List Loc} {dst : Acc (Store α) Loc}

theorem dst_un (hp : Places l s0 cs) (hd : ∀ s, SameSizes s0 s → Den d dst s (l.cells s))
    {s : Store α} (hs : SameSizes s0 s) {k : Nat} (hk : k < cs.length) :
    dst.un s k = .ok cs[k] := by
  have h1 := hd s hs
  rw [l.cells_same hs] at h1
  have hk' : k < (l.cells s0).flat.length := by rw [hp.1, List.length_map]; exact hk
  rw [den_un h1 hk']
  simp only [hp.1, List.getElem_map]

theorem dst_un2 {l : Lv .two} (hp : Places l s0 cs)
    (hd : ∀ s, SameSizes s0 s → Den .two dst s (l.cells s)) {s : Store α} (hs : SameSizes s0 s)
    {k : Nat} (hk : k < cs.length) {n : Nat} (hn : (l.cells s0).dims.2 = n) :
    dst.un2 s ((k / n : Nat) : Int) ((k % n : Nat) : Int) = .ok cs[k] := by
  have h1 := hd s hs
  rw [l.cells_same hs] at h1
  have hk' : k < (l.cells s0).flat.length := by rw [hp.1, List.length_map]; exact hk
  have := den_un2 h1 (k := k) hk'
  subst hn
  refine Eq.trans this ?_
  have e : (l.cells s0).flat[k]'hk' = .ok cs[k] := by simp only [hp.1, List.getElem_map]
  exact e

theorem fillTo_writes (hp : Places l s0 cs)
    (hd : ∀ s, SameSizes s0 s → Den d dst s (l.cells s)) (x : α) :
    Writes cs (cs.map (fun _ => Res.ok x)) s0 (fillTo dst x s0) := by
  have hsz : dst.size s0 = .ok (cs.length : Int) := by
    rw [(linDen_of (hd s0 (SameSizes.refl s0))).1, hp.1, List.length_map]
  simp only [fillTo, Op.get_bind, hsz, Op.lift_ok_bind, Int.toNat_natCast]
  refine writes_loop hp.2 (by simp) (by simp) ?_
  intro xs t h he _
  rw [List.length_map] at h
  simp only [List.getElem_map, Op.get_bind, dst_un hp hd he.1 h, Op.lift_ok_bind]

theorem copyList_writes (hp : Places l s0 cs)
    (hd : ∀ s, SameSizes s0 s → Den d dst s (l.cells s)) {xs : List α} (hx : xs.length = cs.length) :
    Writes cs (xs.map Res.ok) s0 (copyList dst xs s0) := by
  unfold copyList
  refine writes_loop hp.2 (by simpa using hx) (by simp) ?_
  intro ys t h he _
  rw [List.length_map] at h
  simp only [List.getElem_map, Op.get_bind, dst_un hp hd he.1 (show ys.length < cs.length by omega),
    Op.lift_ok_bind, rd_nat h]

theorem copyLin_writes (hp : Places l s0 cs)
    (hd : ∀ s, SameSizes s0 s → Den d dst s (l.cells s)) {t : Tm α d} {src : Acc (Store α) α}
    (ht : ∀ s, SameSizes s0 s → Den d src s (t.meaning s)) (hlen : (t.meaning s0).flat.length = cs.length)
    (hc : NoClobber t s0 cs) : Writes cs (t.meaning s0).flat s0 (copyLin dst src s0) := by
  have hsz : src.size s0 = .ok ((t.meaning s0).flat.length : Int) :=
    (linDen_of (ht s0 (SameSizes.refl s0))).1
  simp only [copyLin, Op.get_bind, hsz, Op.lift_ok_bind, Int.toNat_natCast]
  refine writes_loop hp.2 hlen rfl ?_
  intro xs u h he _
  have hk : xs.length < cs.length := by omega
  have hcl := hc xs.length u hk he.1 (Effect.frame_take (by omega) he)
  have hk2 : xs.length < (t.meaning u).flat.length := by
    rw [flat_dims, t.meaning_dims he.1, ← flat_dims]; exact h
  have hval : (t.meaning u).flat[xs.length] = (t.meaning s0).flat[xs.length] := by
    rw [List.getElem?_eq_getElem hk2, List.getElem?_eq_getElem h] at hcl
    exact Option.some.inj hcl
  simp only [Op.get_bind, den_un (ht u he.1) hk2, hval]
  cases (t.meaning s0).flat[xs.length] with
  | ok x => simp only [Op.lift_ok_bind, dst_un hp hd he.1 hk]
  | trap k => rfl
  | ub => rfl

theorem copyTwo_writes {l : Lv .two} (hp : Places l s0 cs)
    (hd : ∀ s, SameSizes s0 s → Den .two dst s (l.cells s)) {t : Tm α .two} {src : Acc (Store α) α}
    (ht : ∀ s, SameSizes s0 s → Den .two src s (t.meaning s))
    (hdim : (l.cells s0).dims = (t.meaning s0).dims)
    (hc : NoClobber t s0 cs) : Writes cs (t.meaning s0).flat s0 (copyTwo dst src s0) := by
  have h0 := ht s0 (SameSizes.refl s0)
  have hlen : (t.meaning s0).flat.length = cs.length := by rw [flat_dims, ← hdim, ← Places.length hp]
  have hr : src.rows s0 = (((t.meaning s0).dims.1 : Nat) : Int) := h0.1
  have hcl : src.cols s0 = (((t.meaning s0).dims.2 : Nat) : Int) := h0.2.1
  simp only [copyTwo, Op.get_bind, hr, hcl, Int.toNat_natCast]
  rw [Op.forN_nest, ← flat_dims]
  refine writes_loop hp.2 hlen rfl ?_
  intro xs u h he _
  have hk : xs.length < cs.length := by omega
  have hcb := hc xs.length u hk he.1 (Effect.frame_take (by omega) he)
  have hk2 : xs.length < (t.meaning u).flat.length := by
    rw [flat_dims, t.meaning_dims he.1, ← flat_dims]; exact h
  have hval : (t.meaning u).flat[xs.length] = (t.meaning s0).flat[xs.length] := by
    rw [List.getElem?_eq_getElem hk2, List.getElem?_eq_getElem h] at hcb
    exact Option.some.inj hcb
  have hn : (t.meaning s0).dims.2 = (t.meaning u).dims.2 := by rw [t.meaning_dims he.1]
  have hu : src.un2 u ((xs.length / (t.meaning s0).dims.2 : Nat) : Int)
      ((xs.length % (t.meaning s0).dims.2 : Nat) : Int) = (t.meaning s0).flat[xs.length] := by
    rw [hn, ← hval]
    exact den_un2 (ht u he.1) hk2
  simp only [Op.get_bind, hu]
  cases (t.meaning s0).flat[xs.length] with
  | ok x =>
    simp only [Op.lift_ok_bind, dst_un2 hp hd he.1 hk (n := (t.meaning s0).dims.2) (by rw [hdim])]
  | trap k => rfl
  | ub => rfl

/-- Updating every element in place, each place once. -/
theorem updateAll_writes (hp : Places l s0 cs) (hnd : cs.Nodup)
    (hd : ∀ s, SameSizes s0 s → Den d dst s (l.cells s)) {g : Store α → Nat → α → Res α}
    {vals : List (Res α)} (hlen : vals.length = cs.length)
    (hg : ∀ (k : Nat) (u : Store α) (hk : k < cs.length), SameSizes s0 u →
      (∀ c, c ∉ cs.take k → u.read c = s0.read c) →
      (do let x ← u.read cs[k]; g u k x) = vals[k]) :
    Writes cs vals s0 (updateAll dst g s0) := by
  have hsz : dst.size s0 = .ok (cs.length : Int) := by
    rw [(linDen_of (hd s0 (SameSizes.refl s0))).1, hp.1, List.length_map]
  simp only [updateAll, Op.get_bind, hsz, Op.lift_ok_bind, Int.toNat_natCast]
  refine writes_loop hp.2 hlen hlen.symm ?_
  intro xs u h he _
  have hk : xs.length < cs.length := by omega
  have hv := hg xs.length u hk he.1 (Effect.frame_take (by omega) he)
  simp only [Op.get_bind, dst_un hp hd he.1 hk, Op.lift_ok_bind, hv]
  cases vals[xs.length] with
  | ok x => simp only [Op.lift_ok_bind]
  | trap k => rfl
  | ub => rfl

end stmts

end Spp
