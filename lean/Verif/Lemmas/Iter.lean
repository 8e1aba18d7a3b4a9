import Verif.Spec.Iter
import Verif.Lemmas.Index
import Verif.Lemmas.Ops

set_option linter.unusedSectionVars false

namespace Spp

open Spec

theorem Op.forN_front {σ : Type} (n : Nat) (body : Nat → Op σ Unit) (s : σ) :
    Op.forN (n + 1) body s = match body 0 s with
      | (.ok _, s') => Op.forN n (fun i => body (i + 1)) s'
      | (.trap k, s') => (.trap k, s')
      | (.ub, s') => (.ub, s') := by
  induction n with
  | zero =>
    rw [Op.forN_succ, Op.forN_zero]
    show body 0 s = _
    rcases body 0 s with ⟨_ | _ | _, _⟩ <;> rfl
  | succ n ih =>
    rw [Op.forN_succ, ih]
    rcases body 0 s with ⟨_ | _ | _, s'⟩
    · simp only [Op.forN_succ]
    · rfl
    · rfl

theorem rangeFor_steps {ι σ ρ : Type} {ne : ι → ι → Res Bool} {inc : ι → Res ι}
    {deref : ι → σ → Res ρ} {body : ρ → Op σ Unit} {e : ι} {I : σ → Prop}
    (hb : ∀ x t, I t → I (body x t).2) (n : Nat) :
    ∀ (p : Nat → ι) (get : Nat → σ → Res ρ) (fuel : Nat) (s : σ), n < fuel → I s →
      (∀ k, k ≤ n → ne (p k) e = .ok (decide (k ≠ n))) →
      (∀ k, k < n → inc (p k) = .ok (p (k + 1))) →
      (∀ k t, k < n → I t → deref (p k) t = get k t) →
      Completes (rangeFor ne inc deref body fuel (p 0) e s)
        (Op.forN n (fun k => do
          let t : σ ← Op.get
          let x ← Op.lift (get k t)
          body x) s) := by
  induction n with
  | zero =>
    intro p get fuel s hf _ hn _ _
    obtain ⟨f, rfl⟩ : ∃ f, fuel = f + 1 := ⟨fuel - 1, by omega⟩
    unfold Completes
    simp [rangeFor, hn 0 (Nat.le_refl 0)]
  | succ n ih =>
    intro p get fuel s hf hI hn hi hd
    obtain ⟨f, rfl⟩ : ∃ f, fuel = f + 1 := ⟨fuel - 1, by omega⟩
    unfold Completes
    rw [Op.forN_front]
    simp only [rangeFor, hn 0 (Nat.zero_le _), Op.lift_ok_bind, Op.get_bind]
    rw [if_pos (by simp), Op.get_bind, hd 0 s (by omega) hI]
    cases hg : get 0 s with
    | trap k => rfl
    | ub => rfl
    | ok x =>
      simp only [Op.lift_ok_bind]
      have hI' := hb x s hI
      rw [Op.bind_run]
      generalize body x s = r at hI'
      rcases r with ⟨_ | _ | _, s'⟩
      · simp only [hi 0 (by omega), Op.lift_ok_bind]
        refine ih (fun k => p (k + 1)) (fun k => get (k + 1)) f s' (by omega) hI' ?_ ?_ ?_
        · intro k hk
          rw [hn (k + 1) (by omega)]
          congr 1
          simp
        · intro k hk; exact hi (k + 1) (by omega)
        · intro k t hk ht; exact hd (k + 1) t (by omega) ht
      · rfl
      · rfl

theorem isIndex_of_le {p n : Int} (h0 : 0 ≤ p) (h1 : p ≤ n) (hn : n < 2 ^ 63) : IsIndex p := by
  unfold IsIndex; omega

namespace It

variable {σ ρ : Type}

@[simp] theorem points_some (a : Nat) (p : Int) : (It.mk (some a) p).points = true := rfl
@[simp] theorem points_none (p : Int) : (It.mk none p).points = false := rfl

theorem inc_ok (b : Build) (a : Nat) {p : Int} (h : IsIndex (p + 1)) :
    inc b ⟨some a, p⟩ = .ok ⟨some a, p + 1⟩ := by
  simp [inc, iadd_ok h]
theorem dec_ok (b : Build) (a : Nat) {p : Int} (h : IsIndex (p - 1)) :
    dec b ⟨some a, p⟩ = .ok ⟨some a, p - 1⟩ := by
  simp [dec, isub_ok h]
theorem addAssign_ok (b : Build) (a : Nat) {p n : Int} (h : IsIndex (p + n)) :
    addAssign b ⟨some a, p⟩ n = .ok ⟨some a, p + n⟩ := by
  simp [addAssign, iadd_ok h]
theorem subAssign_ok (b : Build) (a : Nat) {p n : Int} (h : IsIndex (p - n)) :
    subAssign b ⟨some a, p⟩ n = .ok ⟨some a, p - n⟩ := by
  simp [subAssign, isub_ok h]
theorem plus_ok (b : Build) (a : Nat) {p n : Int} (h : IsIndex (p + n)) :
    plus b ⟨some a, p⟩ n = .ok ⟨some a, p + n⟩ := by
  simp [plus, addAssign_ok b a h]
theorem minus_ok (b : Build) (a : Nat) {p n : Int} (h : IsIndex (p - n)) :
    minus b ⟨some a, p⟩ n = .ok ⟨some a, p - n⟩ := by
  simp [minus, subAssign_ok b a h]
theorem diff_ok (b : Build) (a : Nat) {p q : Int} (h : IsIndex (p - q)) :
    diff b ⟨some a, p⟩ ⟨some a, q⟩ = .ok (p - q) := by
  simp [diff, isub_ok h]
theorem compare_ok (b : Build) (r : Int → Int → Bool) (a : Nat) (p q : Int) :
    compare b r ⟨some a, p⟩ ⟨some a, q⟩ = .ok (r p q) := by
  simp [compare]

theorem inRange_ok {mem : Nat → Flag σ ρ} {a : Nat} {s : σ} {n : Nat} (q p : Int)
    (hn : (mem a).size s = .ok (n : Int)) :
    inRange mem ⟨some a, q⟩ s (.ok p) = .ok (decide (0 ≤ p ∧ p < n)) := by
  unfold inRange
  simp only [Res.ok_bind, hn]
  have e : decide (p > -1) = decide (0 ≤ p) := decide_eq_decide.mpr (by omega)
  rw [e, Bool.decide_and]
  rfl

theorem deref_ok (b : Build) {mem : Nat → Flag σ ρ} {a : Nat} {s : σ} {n : Nat} {p : Int}
    (hn : (mem a).size s = .ok (n : Int)) (h : 0 ≤ p ∧ p < n) :
    deref b mem ⟨some a, p⟩ s = (mem a).get s p := by
  simp [deref, inRange_ok p p hn, h, apply]

theorem deref_out {b : Build} (hb : b.Checked) {mem : Nat → Flag σ ρ} {a : Nat} {s : σ} {n : Nat} {p : Int}
    (hn : (mem a).size s = .ok (n : Int)) (h : ¬ (0 ≤ p ∧ p < n)) :
    deref b mem ⟨some a, p⟩ s = .trap b.kind := by
  simp only [deref, points_some, assertDebug_true, Res.ok_bind, inRange_ok p p hn, h, decide_false,
    assertDebugM_ok, assertDebug_false hb, Res.trap_bind]

theorem at_ok (b : Build) {mem : Nat → Flag σ ρ} {a : Nat} {s : σ} {n : Nat} {p k : Int}
    (hi : IsIndex (p + k)) (hn : (mem a).size s = .ok (n : Int)) (h : 0 ≤ p + k ∧ p + k < n) :
    at' b mem ⟨some a, p⟩ k s = (mem a).get s (p + k) := by
  simp [at', iadd_ok hi, inRange_ok p (p + k) hn, h, apply]

theorem at_out {b : Build} (hb : b.Checked) {mem : Nat → Flag σ ρ} {a : Nat} {s : σ} {n : Nat} {p k : Int}
    (hi : IsIndex (p + k)) (hn : (mem a).size s = .ok (n : Int)) (h : ¬ (0 ≤ p + k ∧ p + k < n)) :
    at' b mem ⟨some a, p⟩ k s = .trap b.kind := by
  simp only [at', points_some, assertDebug_true, Res.ok_bind, iadd_ok hi, inRange_ok p (p + k) hn, h,
    decide_false, assertDebugM_ok, assertDebug_false hb, Res.trap_bind]

end It

theorem each_loop (b : Build) {σ ρ : Type} {mem : Nat → Flag σ ρ} {a n : Nat} {I : σ → Prop}
    {body : ρ → Op σ Unit} (hn : (n : Int) < 2 ^ 63) (hz : ∀ t, I t → (mem a).size t = .ok (n : Int))
    (hb : ∀ x t, I t → I (body x t).2) {s : σ} (hs : I s) {fuel : Nat} (hf : n < fuel) :
    Completes (It.each b mem a body fuel s) (indexLoop n (mem a).get body s) := by
  have key := rangeFor_steps (ne := It.ne b) (inc := It.inc b) (deref := It.deref b mem) (body := body)
    (e := It.mk (some a) n) (I := I) hb n (fun k => It.mk (some a) (k : Int))
    (fun k t => (mem a).get t k) fuel s hf hs
    (by
      intro k hk
      simp only [It.ne, It.compare_ok]
      congr 1
      simp only [decide_eq_decide, ne_eq]
      omega)
    (by
      intro k hk
      exact It.inc_ok b a (isIndex_of_le (n := n) (by omega) (by omega) hn))
    (by
      intro k t hk ht
      exact It.deref_ok b (hz t ht) (by omega))
  have e : It.each b mem a body fuel s =
      rangeFor (It.ne b) (It.inc b) (It.deref b mem) body fuel (It.mk (some a) 0) ⟨some a, n⟩ s := by
    simp [It.each, It.end, hz s hs, It.begin, It.mk']
  rw [e]
  exact key

theorem reach_loop (b : Build) {σ ρ : Type} {mem : Nat → Flag σ ρ} {a n : Nat} {I : σ → Prop}
    {body : ρ → Op σ Unit} (hn : (n : Int) < 2 ^ 63) (hz : ∀ t, I t → (mem a).size t = .ok (n : Int))
    (hb : ∀ x t, I t → I (body x t).2) {s : σ} (hs : I s) {fuel : Nat} (hf : n < fuel) :
    Completes (RIt.each b mem a body fuel s) (indexLoopDown n (mem a).get body s) := by
  have key := rangeFor_steps (ne := RIt.ne b) (inc := RIt.inc b) (deref := RIt.deref b mem) (body := body)
    (e := RIt.mk ⟨some a, 0⟩) (I := I) hb n (fun k => RIt.mk ⟨some a, (n : Int) - k⟩)
    (fun k t => (mem a).get t ((n - 1 - k : Nat) : Int)) fuel s hf hs
    (by
      intro k hk
      simp only [RIt.ne, It.ne, It.compare_ok]
      congr 1
      simp only [decide_eq_decide, ne_eq]
      omega)
    (by
      intro k hk
      simp only [RIt.inc]
      rw [It.dec_ok b a (isIndex_of_le (n := n) (by omega) (by omega) hn)]
      simp only [Res.ok_bind, Res.pure_eq]
      congr 3
      omega)
    (by
      intro k t hk ht
      simp only [RIt.deref]
      rw [It.dec_ok b a (isIndex_of_le (n := n) (by omega) (by omega) hn), Res.ok_bind,
        It.deref_ok b (hz t ht) (by omega)]
      congr 1
      omega)
  have e : RIt.each b mem a body fuel s =
      rangeFor (RIt.ne b) (RIt.inc b) (RIt.deref b mem) body fuel (RIt.mk ⟨some a, (n : Int) - (0 : Nat)⟩)
        (RIt.mk ⟨some a, 0⟩) s := by
    simp [RIt.each, RIt.rbegin, RIt.rend, It.end, hz s hs, It.begin, It.mk']
  rw [e]
  exact key

/-- Recording what the index loop sees. -/
theorem record_loop {σ ρ : Type} {F : Flag σ ρ} {n : Nat} {s : σ} {f : Nat → Int} (v : Nat → ρ)
    (h : ∀ k, k < n → F.get s (f k) = .ok (v k)) :
    Op.forN n (fun i => do
      let t : σ × List ρ ← Op.get
      let x ← Op.lift ((watched F).get t (f i))
      record x) (s, []) = (.ok (), s, (List.range n).map v) := by
  induction n with
  | zero => rfl
  | succ n ih =>
    rw [Op.forN_succ, ih (fun k hk => h k (by omega))]
    simp only [Op.get_bind, watched, h n (by omega), Op.lift_ok_bind]
    simp [record, List.range_succ]

theorem eachOf_append {σ ρ : Type} (body : ρ → Op σ Unit) (l m : List ρ) (s : σ) :
    eachOf body (l ++ m) s = match eachOf body l s with
      | (.ok _, s') => eachOf body m s'
      | (.trap k, s') => (.trap k, s')
      | (.ub, s') => (.ub, s') := by
  induction l generalizing s with
  | nil => rfl
  | cons x l ih =>
    simp only [List.cons_append, eachOf, Op.bind_run]
    rcases body x s with ⟨_ | _ | _, s'⟩
    · exact ih s'
    · rfl
    · rfl

theorem eachOf_forN {σ ρ : Type} (body : ρ → Op σ Unit) (n : Nat) (f : Nat → ρ) (s : σ) :
    Op.forN n (fun k => body (f k)) s = eachOf body ((List.range n).map f) s := by
  induction n with
  | zero => rfl
  | succ n ih =>
    rw [Op.forN_succ, ih, List.range_succ, List.map_append, eachOf_append]
    rcases eachOf body ((List.range n).map f) s with ⟨_ | _ | _, s'⟩
    · simp only [List.map_cons, List.map_nil, eachOf, Op.bind_run]
      rcases body (f n) s' with ⟨_ | _ | _, _⟩ <;> rfl
    · rfl
    · rfl

theorem rowMajor_range (m n : Nat) :
    rowMajor m n = (List.range (m * n)).map (fun k : Nat => (((k / n : Nat) : Int), ((k % n : Nat) : Int))) := by
  induction m with
  | zero => simp [rowMajor]
  | succ m ih =>
    have e : rowMajor (m + 1) n =
        rowMajor m n ++ (List.range n).map (fun j : Nat => ((m : Int), (j : Int))) := by
      simp [rowMajor, List.range_succ]
    rw [e, ih, Nat.add_mul, Nat.one_mul, List.range_add, List.map_append, List.map_map]
    congr 1
    refine List.map_congr_left fun j hj => ?_
    have hj := List.mem_range.1 hj
    have h0 : 0 < n := by omega
    simp only [Function.comp]
    rw [Nat.mul_comm m n, Nat.mul_add_div h0, Nat.mul_add_mod, Nat.div_eq_of_lt hj, Nat.mod_eq_of_lt hj,
      Nat.add_zero]

/-- The position reached after `k` steps. -/
def planeAt (m n k : Nat) : PlaneIt :=
  if k = m * n then ⟨m, n, m, n⟩ else ⟨(k / n : Nat), (k % n : Nat), m, n⟩

theorem plane_loop (b : Build) {σ : Type} {m n : Nat} (h : m = 0 ↔ n = 0) (hm : (m : Int) < 2 ^ 63)
    (hn : (n : Int) < 2 ^ 63) (body : Int × Int → Op σ Unit) (s : σ) {fuel : Nat} (hf : m * n < fuel) :
    Completes (IndexRange2D.each b m n body fuel s) (eachOf body (rowMajor m n) s) := by
  have key := rangeFor_steps (ne := PlaneIt.ne b) (inc := PlaneIt.inc b)
    (deref := fun x (_ : σ) => PlaneIt.deref b x) (body := body)
    (e := ⟨m, n, m, n⟩) (I := fun _ => True) (fun _ _ _ => trivial) (m * n) (planeAt m n)
    (fun k _ => .ok (((k / n : Nat) : Int), ((k % n : Nat) : Int))) fuel s hf trivial
    (by
      intro k hk
      by_cases hk' : k = m * n
      · simp [planeAt, hk', PlaneIt.ne, PlaneIt.eq]
      · have h0 : 0 < n := by
          rcases Nat.eq_zero_or_pos n with h | h
          · subst h; simp at hk; omega
          · exact h
        have hl := Nat.mod_lt k h0
        have hd : (k / n : Nat) < m := by
          rw [Nat.div_lt_iff_lt_mul h0]; omega
        simp only [planeAt, if_neg hk', PlaneIt.ne, PlaneIt.eq, decide_true, assertDebug_true, Res.ok_bind,
          Res.pure_eq]
        rw [decide_eq_false (by omega), decide_eq_true hk']
        rfl)
    (by
      intro k hk
      have h0 : 0 < n := by
        rcases Nat.eq_zero_or_pos n with h | h
        · subst h; simp at hk
        · exact h
      have hl := Nat.mod_lt k h0
      have hd : (k / n : Nat) < m := by
        rw [Nat.div_lt_iff_lt_mul h0]; omega
      have hdm := Nat.div_add_mod k n
      simp only [planeAt, if_neg (show ¬ k = m * n by omega)]
      generalize hq : k / n = q at *
      generalize hr : k % n = r at *
      have hle : n * q + n ≤ m * n := by
        rw [Nat.mul_comm m n]; exact Nat.mul_le_mul_left n hd
      have i1 : isub (m : Int) 1 = .ok (m - 1 : Int) := isub_ok (isIndex_of_le (n := m) (by omega) (by omega) hm)
      have i2 : isub (n : Int) 1 = .ok (n - 1 : Int) := isub_ok (isIndex_of_le (n := n) (by omega) (by omega) hn)
      have i3 : iadd (q : Int) 1 = .ok (q + 1 : Int) := iadd_ok (isIndex_of_le (n := m) (by omega) (by omega) hm)
      have i4 : iadd (r : Int) 1 = .ok (r + 1 : Int) := iadd_ok (isIndex_of_le (n := n) (by omega) (by omega) hn)
      have i5 : iadd (q : Int) 0 = .ok (q + 0 : Int) := iadd_ok (isIndex_of_le (n := m) (by omega) (by omega) hm)
      have i6 : irem b (r + 1 : Int) n = .ok ((r + 1 : Int) % n) :=
        irem_ok b (by omega) (isIndex_of_le (n := n) (by omega) (by omega) hn) (by omega)
      simp only [PlaneIt.inc, i1, i2, Res.ok_bind]
      rw [decide_eq_true (by omega), decide_eq_true (by omega), assertDebug_true, Res.ok_bind, Res.ok_bind]
      by_cases hlast : k + 1 = m * n
      · have hq' : q + 1 = m := by
          have h1 : n * q + r + 1 = n * m := by rw [Nat.mul_comm n m]; omega
          have h2 : n * m ≤ n * (q + 1) := by rw [Nat.mul_add]; omega
          have := Nat.le_of_mul_le_mul_left h2 h0
          omega
        have hr' : r + 1 = n := by
          subst hq'
          rw [Nat.add_mul, Nat.mul_comm q n] at hlast
          omega
        rw [if_pos (by omega), if_pos hlast]
        have c1 : (q : Int) + 1 = m := by omega
        have c2 : (r : Int) + 1 = n := by omega
        simp only [i3, i4, Res.ok_bind, Res.pure_eq]
        rw [c1, c2]
      · rw [if_neg (by
          rintro ⟨h1, h2⟩
          apply hlast
          have h1' : q + 1 = m := by omega
          have h2' : r + 1 = n := by omega
          rw [← h1', Nat.add_mul, Nat.mul_comm q n]
          omega), if_neg hlast]
        simp only [i4, Res.ok_bind, i6]
        by_cases hc : r + 1 = n
        · rw [if_pos (by omega), i3, Res.ok_bind, Res.pure_eq]
          have e1 : (k + 1) / n = q + 1 := by
            rw [← hdm, Nat.add_assoc, hc, ← Nat.mul_succ, Nat.mul_div_cancel_left _ h0]
          have e2 : (k + 1) % n = 0 := by
            rw [← hdm, Nat.add_assoc, hc, ← Nat.mul_succ, Nat.mul_mod_right]
          rw [e1, e2, show (r : Int) + 1 = n by omega, Int.emod_self]
          simp
        · rw [if_neg (by omega), i5, Res.ok_bind, Res.pure_eq]
          have hlt : r + 1 < n := by omega
          have e1 : (k + 1) / n = q := by
            rw [← hdm, Nat.add_assoc, Nat.mul_add_div h0, Nat.div_eq_of_lt hlt, Nat.add_zero]
          have e2 : (k + 1) % n = r + 1 := by
            rw [← hdm, Nat.add_assoc, Nat.mul_add_mod, Nat.mod_eq_of_lt hlt]
          rw [e1, e2, Int.emod_eq_of_lt (by omega) (by omega)]
          simp)
    (by
      intro k t hk _
      have h0 : 0 < n := by
        rcases Nat.eq_zero_or_pos n with h | h
        · subst h; simp at hk
        · exact h
      have hl := Nat.mod_lt k h0
      have hd : (k / n : Nat) < m := by
        rw [Nat.div_lt_iff_lt_mul h0]; omega
      simp only [planeAt, if_neg (show ¬ k = m * n by omega), PlaneIt.deref]
      rw [decide_eq_true (by omega), decide_eq_true (by omega)]
      simp)
  have hsv : semiValid (m : Int) (n : Int) = true := semiValid_iff.2 (by omega)
  have hp0 : planeAt m n 0 = ⟨0, 0, m, n⟩ := by
    unfold planeAt
    split
    · rename_i h1
      have : m = 0 ∧ n = 0 := by
        rcases Nat.mul_eq_zero.1 h1.symm with h2 | h2
        · exact ⟨h2, h.1 h2⟩
        · exact ⟨h.2 h2, h2⟩
      simp [this]
    · simp
  have e : IndexRange2D.each b m n body fuel s =
      rangeFor (PlaneIt.ne b) (PlaneIt.inc b) (fun x (_ : σ) => PlaneIt.deref b x) body fuel
        (planeAt m n 0) ⟨m, n, m, n⟩ s := by
    rw [hp0]
    simp only [IndexRange2D.each, IndexRange2D.mk', IndexRange2D.begin, IndexRange2D.end, PlaneIt.mk', hsv]
    rw [decide_eq_true (show (m : Int) > -1 by omega), decide_eq_true (show (n : Int) > -1 by omega)]
    simp
  rw [e, rowMajor_range, ← eachOf_forN]
  exact key

end Spp
