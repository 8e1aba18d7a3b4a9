import Verif.Model.Attach
import Verif.Props.View
import Verif.Props.Assign

/- C82: views of memory owned by the caller. -/

set_option linter.unusedSectionVars false

namespace Spp.Props
open Spec

variable {α : Type}

/-- The first `k` places of memory `id`. -/
def firstPlaces (id k : Nat) : List (Res Loc) := (List.range k).map (fun i => .ok (Loc.one id i))

theorem attachPtr1_den {s : Store α} {id n : Nat} (h : n ≤ (s.a1 id).length) :
    Den .one (attachPtr1 α id n) s (firstPlaces id n) := by
  refine ⟨by simp [attachPtr1, Acc.oneD, firstPlaces], by simp [attachPtr1, Acc.oneD, firstPlaces], ?_⟩
  intro i hi
  have hi' : i < n := by simpa [firstPlaces] using hi
  show ptrAt s id i = _
  rw [ptrAt, if_pos (by unfold len; omega), firstPlaces, getD_range_map hi']
  rfl

/-- `attach1D(data, n)` over at least `n` elements: an object of size `n` whose element `i` *is*
`data[i]` (so it is read and written through the view, and nothing else is) - the same object as the
first-`n` slice of an array with that memory. -/
theorem C82_attach1D (b : Build) {s : Store α} {id n : Nat} (h : n ≤ (s.a1 id).length)
    (hs : ((s.a1 id).length : Int) < 2 ^ 63 - 1) :
    ∃ a, attach1D α b id n = .ok a ∧ Den .one a s (firstPlaces id n) ∧
      View.mk b (Lv.acc1 α id) s (.slice (.seqN 0 n 1)) = .ok a := by
  have hn : IsIndex (n : Int) := by unfold IsIndex; omega
  have hin : (n : Int) ≠ 0 → InRange n 0 ∧ InRange n (0 + 1 * ((n : Int) - 1)) := by
    intro _; unfold InRange; omega
  have v1 : (Slice.seqN 0 n 1).valid n = .ok true := seqNValid_of_inRange hn (by omega) hn hin
  have rd' : Reads (.seqN 0 n 1) (upto (n : Int)) := by
    have := reads_seqN hn (Int.natCast_nonneg n) hin
    rwa [← upto_eq_progression] at this
  refine ⟨(attachPtr1 α id n).slice (.seqN 0 n 1), ?_, ?_, ?_⟩
  · simp only [attach1D, mkSeqN_ok b 1 (show (0 : Int) ≤ 0 by omega) (Int.natCast_nonneg n),
      Res.ok_bind, v1, assertDebugM_ok, assertDebug_true, Res.pure_eq]
  · have := den_slice (linDen_of (attachPtr1_den h)) rd'
      (fun x hx => by
        have := mem_upto.1 hx
        show InRange ((firstPlaces id n).length : Int) x
        simpa [firstPlaces] using this)
    have e : (upto (n : Int)).map (pick (firstPlaces id n)) = firstPlaces id n := by
      apply List.ext_getElem
      · simp [firstPlaces]
      · intro i h1 h2
        have h3 : i < n := by simpa [firstPlaces] using h2
        simp [firstPlaces, pick, h3]
    have this' : Den .one ((attachPtr1 α id n).slice (.seqN 0 n 1)) s
      ((upto (n : Int)).map (pick (firstPlaces id n))) := this
    rw [e] at this'; exact this'
  · have hl : IsIndex (len (s.a1 id)) := by unfold IsIndex len; omega
    have v2 : (Slice.seqN 0 n 1).valid (len (s.a1 id)) = .ok true :=
      seqNValid_of_inRange hl (by omega) hn (fun _ => by unfold InRange len; omega)
    have v3 : seqNValid (len (s.a1 id)) 0 n 1 = .ok true := v2
    have d1 : decide ((0 : Int) > -1) = true := by decide
    have d2 : decide ((n : Int) > -1) = true := by simp; omega
    show (Spp.mkSlice b (len (s.a1 id)) (len (s.a1 id) == 0) (.seqN 0 n 1) >>= _) = _
    simp only [mkSlice, SliceReq.construct, SliceReq.get, d1, d2, assertDebug_true, Res.ok_bind, v3,
      assertDebugM_ok, v2, Res.pure_eq]
    rfl

theorem attach2D_eq_view2D (b : Build) {s : Store α} {id : Nat} {m n : Int} (h : IsIndex (m * n)) :
    View.mkView2D b (attachPtr1 α id (m * n)) s m n = attach2D α b id m n := by
  have e : (attachPtr1 α id (m * n)).size s = .ok (m * n) := rfl
  simp only [View.mkView2D, imul_ok h, e, Res.ok_bind, beq_self_eq_true, assertAlways_true]
  rfl

/-- `attach2D(data, m, n)` over at least `m*n` elements: element `(i, j)` is `data[i*n + j]`; without
elements it is a 0x0 object. -/
theorem C82_attach2D (b : Build) {s : Store α} {id m n : Nat} (h : m * n ≤ (s.a1 id).length)
    (hs : ((s.a1 id).length : Int) < 2 ^ 63 - 1) (hm : IsIndex m) (hn : IsIndex n) :
    ∃ a, attach2D α b id m n = .ok a ∧ Den .two a s (Mat.laid (firstPlaces id (m * n)) m n) := by
  have hd := attachPtr1_den (s := s) (id := id) h
  obtain ⟨a, h1, h2⟩ := mkView2D_ok b (a := attachPtr1 α id (m * n : Nat)) (s0 := s) (k := m * n)
    rfl (by omega) rfl hm hn
  rw [show ((m * n : Nat) : Int) = (m : Int) * n by push_cast; rfl,
    attach2D_eq_view2D b (by rw [← Int.natCast_mul]; unfold IsIndex; omega)] at h1
  exact ⟨a, h1, h2 s _ (by simp [firstPlaces]) (linDen_of hd)⟩

/-- Writing `x` through element `i` of an attached vector changes exactly `data[i]`: the rest of that
memory and all other arrays keep their contents. -/
theorem C82_write (b : Build) {s : Store α} {id n i : Nat} (h : n ≤ (s.a1 id).length)
    (hs : ((s.a1 id).length : Int) < 2 ^ 63 - 1) (hi : i < n) (x : α) :
    ∃ a l t, attach1D α b id n = .ok a ∧ a.un s i = .ok l ∧ put l x s = (.ok (), t) ∧
      t.a1 id = (s.a1 id).set i x ∧ (∀ k, k ≠ id → t.a1 k = s.a1 k) ∧ t.a2 = s.a2 := by
  obtain ⟨a, h1, h2, _⟩ := C82_attach1D b h hs
  refine ⟨a, .one id i, { s with a1 := fun k => if k = id then (s.a1 id).set i x else s.a1 k }, h1,
    ?_, ?_, ?_, ?_, rfl⟩
  · rw [h2.2.2 i (by simpa [firstPlaces] using hi), firstPlaces, getD_range_map hi]
  · simp only [put, Op.get_bind, Store.write]
    rw [wr_ok ⟨by omega, by omega⟩]
    simp
  · simp
  · intro k hk; simp [hk]

/-- `A = x` on an attached vector sets `data[0], ..., data[n-1]` and nothing else. -/
theorem C82_fill (b : Build) {s : Store α} {id n : Nat} (h : n ≤ (s.a1 id).length)
    (hs : ((s.a1 id).length : Int) < 2 ^ 63 - 1) (x : α) :
    ∃ a t, attach1D α b id n = .ok a ∧ fillTo a x s = (.ok (), t) ∧
      t.a1 id = List.replicate n x ++ (s.a1 id).drop n ∧
      (∀ k, k ≠ id → t.a1 k = s.a1 k) ∧ t.a2 = s.a2 := by
  obtain ⟨a, h1, h2, _⟩ := C82_attach1D b h hs
  have key : ∀ m, m ≤ n → Op.forN m (fun i => do
      let s : Store α ← Op.get
      let l ← Op.lift (a.un s i)
      put l x) s = (.ok (), Store.mk (fun k =>
        if k = id then List.replicate m x ++ (s.a1 id).drop m else s.a1 k) s.a2) := by
    intro m
    induction m with
    | zero =>
      intro _
      rw [Op.forN_zero]
      congr 1
      cases s
      simp only [List.replicate_zero, List.nil_append, List.drop_zero, Store.mk.injEq, and_true]
      funext k; split
      · rename_i hk; rw [hk]
      · rfl
    | succ m ih =>
      intro hm
      rw [Op.forN_succ, ih (by omega)]
      have hlen : (List.replicate m x ++ (s.a1 id).drop m).length = (s.a1 id).length := by
        simp; omega
      obtain ⟨t, ht⟩ : ∃ t : Store α, t = Store.mk (fun k =>
          if k = id then List.replicate m x ++ (s.a1 id).drop m else s.a1 k) s.a2 := ⟨_, rfl⟩
      rw [← ht]
      have hta : t.a1 id = List.replicate m x ++ (s.a1 id).drop m := by simp [ht]
      obtain ⟨a', g1, g2, _⟩ := C82_attach1D b (s := t) (id := id) (n := n)
        (by rw [hta, hlen]; exact h) (by rw [hta, hlen]; exact hs)
      rw [h1] at g1; cases g1
      have e1 : a.un t m = .ok (.one id m) := by
        rw [g2.2.2 m (by simp [firstPlaces]; omega), firstPlaces, getD_range_map (by omega)]
      simp only [Op.get_bind, e1, Op.lift_ok_bind, put, Store.write]
      rw [hta, wr_ok ⟨by omega, by rw [hlen]; omega⟩]
      simp only [Int.toNat_natCast, Res.ok_bind, Res.pure_eq, Op.lift_ok_bind, Op.set_run]
      congr 1
      rw [ht]
      simp only [Store.mk.injEq, and_true]
      funext k
      split
      · apply List.ext_getElem?
        intro j
        by_cases hj : j = m
        · subst hj
          rw [List.getElem?_set]
          simp only [if_true]
          rw [if_pos (by rw [hlen]; omega), List.getElem?_append_left (by simp)]
          simp
        · rw [List.getElem?_set_ne (fun e => hj e.symm)]
          by_cases hlt : j < m
          · rw [List.getElem?_append_left (by simpa using hlt),
              List.getElem?_append_left (by simp; omega)]
            simp [hlt, Nat.lt_succ_of_lt hlt]
          · rw [List.getElem?_append_right (by simp; omega),
              List.getElem?_append_right (by simp; omega)]
            simp only [List.length_replicate, List.getElem?_drop]
            congr 1; omega
      · rfl
  refine ⟨a, Store.mk (fun k =>
    if k = id then List.replicate n x ++ (s.a1 id).drop n else s.a1 k) s.a2, h1, ?_, ?_, ?_, rfl⟩
  · simp only [fillTo, Op.get_bind, h2.2.1, Op.lift_ok_bind]
    have : (firstPlaces id n).length = n := by simp [firstPlaces]
    rw [this]
    exact key n (Nat.le_refl _)
  all_goals simp
  intro k hk hk'; exact absurd hk' hk

/-- Negative sizes are rejected in checked builds. -/
theorem C82_negative_rejected {b : Build} (hb : b.Checked) (id : Nat) (m n : Int) :
    (n < 0 → attach1D α b id n = .trap b.kind) ∧
    (m < 0 ∨ n < 0 → attach2D α b id m n = .trap b.kind) := by
  have neg : ∀ k : Int, k < 0 → mkSeqN b 0 k 1 = .trap b.kind := by
    intro k hk
    have d1 : decide ((0 : Int) > -1) = true := by decide
    have d2 : decide (k > -1) = false := by simp; omega
    simp only [mkSeqN, d1, d2, assertDebug_true, assertDebug_false hb, Res.ok_bind, Res.trap_bind]
  refine ⟨fun h => ?_, fun h => ?_⟩
  · simp only [attach1D, neg n h, Res.trap_bind]
  · by_cases hm : m < 0
    · simp only [attach2D, neg m hm, Res.trap_bind]
    · have hn : n < 0 := by omega
      simp only [attach2D, mkSeqN_ok b 1 (show (0 : Int) ≤ 0 by omega) (show 0 ≤ m by omega), neg n hn,
        Res.ok_bind, Res.trap_bind]

/-- The size of the memory is not known to the library: attaching more elements than there are
succeeds, and every access beyond the memory is undefined behaviour, in every build. -/
theorem C82_too_long (b : Build) {s : Store α} {id n i : Nat} (hn : IsIndex (n : Int))
    (h1 : (s.a1 id).length ≤ i) (h2 : i < n) :
    ∃ a, attach1D α b id n = .ok a ∧ a.rows s = n ∧ a.un s i = .ub := by
  have hin : (n : Int) ≠ 0 → InRange n 0 ∧ InRange n (0 + 1 * ((n : Int) - 1)) := by
    intro _; unfold InRange; omega
  have v1 : (Slice.seqN 0 n 1).valid n = .ok true := seqNValid_of_inRange hn (by omega) hn hin
  refine ⟨(attachPtr1 α id n).slice (.seqN 0 n 1), ?_, rfl, ?_⟩
  · simp only [attach1D, mkSeqN_ok b 1 (show (0 : Int) ≤ 0 by omega) (Int.natCast_nonneg n),
      Res.ok_bind, v1, assertDebugM_ok, assertDebug_true, Res.pure_eq]
  · show ((Slice.seqN 0 n 1).map i >>= fun j => (attachPtr1 α id n).un s j) = _
    have e1 : imul (i : Int) 1 = .ok (i : Int) := by
      rw [imul_ok (by unfold IsIndex at *; omega), Int.mul_one]
    have e2 : iadd 0 (i : Int) = .ok (i : Int) := by
      rw [iadd_ok (by unfold IsIndex at *; omega), Int.zero_add]
    simp only [Slice.map, e1, e2, Res.ok_bind]
    show ptrAt s id i = _
    rw [ptrAt, if_neg (by unfold len; omega)]

/-- Without the checks a negative size gives an object without elements: assigning to it does
nothing. -/
theorem C82_release_negative {b : Build} (hb : b.Release) {s : Store α} {id : Nat} {n : Int}
    (hn : n < 0) (x : α) :
    ∃ a, attach1D α b id n = .ok a ∧ a.rows s = n ∧ fillTo a x s = (.ok (), s) := by
  refine ⟨(attachPtr1 α id n).slice (.seqN 0 n 1), ?_, rfl, ?_⟩
  · have e : ∀ c, assertDebug b c = .ok () := fun c => if_pos hb
    have e' : ∀ c, assertDebugM b c = .ok () := fun c => if_pos hb
    simp only [attach1D, mkSeqN, e, e', Res.ok_bind, Res.pure_eq]
  · simp only [fillTo, Op.get_bind, Acc.slice, Acc.oneD, Slice.size, Op.lift_ok_bind]
    rw [show n.toNat = 0 by omega, Op.forN_zero]

example : ∃ a t, attach1D Int ⟨false, true, false⟩ 0 2 = .ok a ∧
    fillTo a 7 ⟨fun _ => [1, 2, 3], fun _ => ⟨0, 0, []⟩⟩ = (.ok (), t) ∧ t.a1 0 = [7, 7, 3] := by
  obtain ⟨a, t, h1, h2, h3, _⟩ := C82_fill ⟨false, true, false⟩
    (s := ⟨fun _ => [(1 : Int), 2, 3], fun _ => ⟨0, 0, []⟩⟩) (id := 0) (n := 2) (by simp) (by simp) 7
  exact ⟨a, t, h1, h2, h3⟩

example : ∃ a, attach2D Int ⟨false, true, false⟩ 0 2 2 = .ok a ∧
    a.un2 ⟨fun _ => [1, 2, 3, 4, 5], fun _ => ⟨0, 0, []⟩⟩ 1 0 = .ok (.one 0 2) := by
  obtain ⟨a, h1, h2⟩ := C82_attach2D ⟨false, true, false⟩
    (s := ⟨fun _ => [(1 : Int), 2, 3, 4, 5], fun _ => ⟨0, 0, []⟩⟩) (id := 0) (m := 2) (n := 2)
    (by simp) (by simp) (by decide) (by decide)
  exact ⟨a, h1, (h2.2.2.2 1 0 (by decide) (by decide)).1⟩

end Spp.Props
