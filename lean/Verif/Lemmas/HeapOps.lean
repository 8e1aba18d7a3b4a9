import Verif.Lemmas.HeapSteps
import Verif.Model.HeapOps
import Verif.Spec.Memory
import Verif.Model.History1D

/- The statements on the heap and the statements on lists. -/

set_option linter.unusedSectionVars false

namespace Spp
open Spec

variable {α : Type} [Inhabited α]

/-! ### Requests for memory -/

/-- The operation makes no request. -/
def NoReq (x : Op (Heap α) β) : Prop := ∀ h, (x h).2.requests = h.requests

theorem NoReq.bind {x : Op (Heap α) β} {f : β → Op (Heap α) γ} (hx : NoReq x) (hf : ∀ a, NoReq (f a)) :
    NoReq (x >>= f) := by
  intro h
  rw [Op.bind_run]
  have := hx h
  rcases hh : x h with ⟨_ | _ | _, h'⟩ <;> rw [hh] at this <;> simp only at this ⊢
  · rw [hf, this]
  · exact this
  · exact this

theorem noReq_lift (r : Res β) : NoReq (Op.lift r : Op (Heap α) β) := fun _ => rfl

theorem noReq_free (af : AlignmentFlag) (p : Option Nat) : NoReq (Heap.free af p : Op (Heap α) Unit) := by
  intro h
  unfold Heap.free
  repeat' split
  all_goals rfl

theorem noReq_contents (o : Obj) : NoReq (Heap.contents o : Op (Heap α) (List α)) := by
  intro h
  unfold Heap.contents
  repeat' split
  all_goals rfl

theorem noReq_store (o : Obj) (l : List α) : NoReq (Heap.store o l) := by
  intro h
  unfold Heap.store
  repeat' split
  all_goals rfl

theorem noReq_obj (i : Nat) : NoReq (Heap.obj i : Op (Heap α) Obj) := by
  intro h
  unfold Heap.obj
  repeat' split
  all_goals rfl

theorem noReq_setObj (i : Nat) (o : Option Obj) : NoReq (Heap.setObj i o : Op (Heap α) Unit) := fun _ => rfl

theorem noReq_modify (i : Nat) (g : List α → Res Unit × List α) : NoReq (Heap.modify i g) :=
  (noReq_obj i).bind fun _ => (noReq_contents _).bind fun _ => (noReq_store _ _).bind fun _ => noReq_lift _

theorem noReq_clear (i : Nat) : NoReq (Heap.clear i : Op (Heap α) Unit) :=
  (noReq_obj i).bind fun _ => (noReq_setObj _ _).bind fun _ => noReq_free _ _

theorem noReq_swap (i j : Nat) : NoReq (Heap.swap i j : Op (Heap α) Unit) :=
  (noReq_obj i).bind fun _ => (noReq_obj j).bind fun _ => (noReq_setObj _ _).bind fun _ => noReq_setObj _ _

theorem noReq_onTrap {x : Op (Heap α) β} {y : Op (Heap α) Unit} (hx : NoReq x) (hy : NoReq y) :
    NoReq (Heap.onTrap x y) := by
  intro h
  unfold Heap.onTrap
  have := hx h
  rcases hh : x h with ⟨_ | _ | _, h'⟩ <;> rw [hh] at this <;> simp only at this ⊢
  · exact this
  · have h2 := hy h'
    rcases hh2 : y h' with ⟨_ | _ | _, h''⟩ <;> rw [hh2] at h2 <;> simp only at h2 ⊢ <;> rw [h2, this]
  · exact this

theorem ctor_requests (b : Build) (af : AlignmentFlag) (n : Int) (h : Heap α) :
    (Heap.ctor b af n h).2.requests = h.requests + (decide (0 < n)).toNat := by
  unfold Heap.ctor
  by_cases hn : 0 < n
  · have h1 : decide (n > -1) = true := by simp; omega
    have h0 : n ≠ 0 := by omega
    have h2 : ¬ n < 0 := by omega
    simp only [h1, assertDebug_true, Op.lift_ok_bind, h0, h2, hn, if_false, Op.bind_run, Heap.alloc]
    by_cases hm : h.mem.fails h.requests = true <;> simp [hm]
  · simp only [hn, decide_false, Bool.toNat_false, Nat.add_zero]
    rcases ha : assertDebug b (decide (n > -1)) with _ | _ | _
    · simp only [Op.lift_ok_bind]
      repeat' split
      all_goals first | rfl | omega
    · rfl
    · rfl

theorem ctorFill_requests (b : Build) (af : AlignmentFlag) (n : Int) (g : List α → Res (List α)) (h : Heap α) :
    (Heap.ctorFill b af n g h).2.requests = h.requests + (decide (0 < n)).toNat := by
  unfold Heap.ctorFill
  rw [Op.bind_run]
  have := ctor_requests b af n h
  rcases hh : Heap.ctor b af n h with ⟨o | _ | _, h'⟩ <;> rw [hh] at this <;> simp only at this ⊢
  · rw [noReq_onTrap ((noReq_contents o).bind fun _ => (noReq_lift _).bind fun _ => (noReq_store _ _).bind fun _ =>
      fun _ => rfl) (noReq_free _ _), this]
  · exact this
  · exact this

theorem rebuild_requests (b : Build) {h : Heap α} (hi : Inv h none) {i : Nat} (hl : h.objs i ≠ none) (n : Int)
    (g : List α → List α → Res (List α)) :
    (Heap.rebuild b i n g h).2.requests = h.requests + (decide (0 < n)).toNat := by
  obtain ⟨o, ho⟩ := live_obj hl
  obtain ⟨old, v1, v2, v3⟩ := view_of hi ho
  unfold Heap.rebuild
  rw [Op.bind_run, obj_run ho]
  simp only
  rw [Op.bind_run, v2]
  simp only
  rw [Op.bind_run]
  have := ctorFill_requests b o.af n (g old) h
  rcases hh : Heap.ctorFill b o.af n (g old) h with ⟨t | _ | _, h'⟩ <;> rw [hh] at this <;> simp only at this ⊢
  · rw [(noReq_obj i).bind fun _ => (noReq_setObj _ _).bind fun _ => noReq_free _ _, this]
  · exact this
  · exact this

/-! ### A statement on the heap and what it does to the contents -/

theorem view_none_iff {h : Heap α} (hi : Inv h none) (k : Nat) : view h k = none ↔ h.objs k = none := by
  constructor
  · intro h1
    cases hh : h.objs k with
    | none => rfl
    | some o =>
      obtain ⟨l, v1, _⟩ := view_of hi hh
      rw [v1] at h1; cases h1
  · intro h1; simp [view, h1]

/-- The summary of a statement: `q` says whether it asks for memory, `r` its outcome and `eff` the contents after it, if
the request is not refused. -/
structure MemOk (h : Heap α) (res : Res Unit × Heap α) (q : Bool) (r : Res Unit) (eff : Nat → Option (List α)) :
    Prop where
  inv : Inv res.2 none
  mem : res.2.mem = h.mem
  types : ∀ k o o', h.objs k = some o → res.2.objs k = some o' → o'.af = o.af
  live : ∀ k, res.2.objs k = none ↔ h.objs k = none
  reqs : res.2.requests = h.requests + q.toNat
  refused : q = true → OutOfMemory h → res.1 = .trap .exception ∧ ∀ k, view res.2 k = view h k
  done : ¬ (q = true ∧ OutOfMemory h) → res.1 = r ∧ ∀ k, view res.2 k = eff k

/-- The contents after a change of array `i`. -/
def put1 (h : Heap α) (i : Nat) (l : List α) : Nat → Option (List α) := fun k => if k = i then some l else view h k

theorem put1_same {h : Heap α} {i : Nat} {l : List α} (hv : view h i = some l) : put1 h i l = view h := by
  funext k
  unfold put1
  by_cases hk : k = i
  · subst hk; rw [if_pos rfl, hv]
  · rw [if_neg hk]

theorem live_of_views {h h' : Heap α} (hi : Inv h none) (hi' : Inv h' none)
    (hv : ∀ k, view h' k = none ↔ view h k = none) (k : Nat) : h'.objs k = none ↔ h.objs k = none := by
  rw [← view_none_iff hi, ← view_none_iff hi', hv]

/-- A statement that is rejected before it does anything. -/
theorem MemOk.stop {h : Heap α} (hi : Inv h none) {r : Res Unit} : MemOk h (r, h) false r (view h) :=
  ⟨hi, rfl, types_eq rfl, fun _ => Iff.rfl, rfl, by simp, fun _ => ⟨rfl, fun _ => rfl⟩⟩

/-- The result of filling a temporary with `n` elements: fails only by undefined behaviour, and keeps the size. -/
def Filled (n : Nat) : Res (List α) → Prop
  | .ok l => l.length = n
  | .trap _ => False
  | .ub => True

theorem Filled.bind {n m : Nat} {x : Res (List α)} {f : List α → Res (List α)} (hx : Filled n x)
    (hf : ∀ l, l.length = n → Filled m (f l)) : Filled m (x >>= f) := by
  cases x with
  | ok l => exact hf l hx
  | trap k => exact absurd hx id
  | ub => trivial

/-- The model of `rebuild`, on lists. -/
def remade (b : Build) (n : Int) (old : List α) (g : List α → List α → Res (List α)) : Res Unit × List α :=
  match Arr1.make b n >>= g old with
  | .ok l => (.ok (), l)
  | .trap k => (.trap k, old)
  | .ub => (.ub, old)

theorem rebuild_memT (b : Build) {h : Heap α} (hi : Inv h none) {i : Nat} {n : Int} {old : List α}
    (hv : view h i = some old) {g : List α → List α → Res (List α)}
    (hg : 0 ≤ n → ∀ l', g old (List.replicate n.toNat default) = .ok l' → l'.length = n.toNat)
    (hub : (remade b n old g).1 ≠ .ub) :
    MemOk h (Heap.rebuild b i n g h) (decide (0 < n)) (remade b n old g).1 (put1 h i (remade b n old g).2) := by
  have hl : h.objs i ≠ none := by rw [ne_eq, ← view_none_iff hi, hv]; simp
  have hreq := rebuild_requests b hi hl n g
  by_cases h0 : 0 ≤ n
  · have hmk : Arr1.make b n = .ok (List.replicate n.toNat (default : α)) := Arr1.make_ok b h0
    have hnub : g old (List.replicate n.toNat default) ≠ .ub := by
      intro hh; simp [remade, hmk, hh] at hub
    obtain ⟨old', v1, st, st1, st2, st3⟩ := rebuild_step0 b hi (i := i) (n := n) (g := g) hl (by
      intro old1 h1 _
      rw [hv] at h1; cases h1
      exact ⟨hnub, hg h0⟩)
    rw [hv] at v1; cases v1
    have hrefused : decide (0 < n) = true → OutOfMemory h →
        (Heap.rebuild b i n g h).1 = .trap .exception ∧ ∀ k, view (Heap.rebuild b i n g h).2 k = view h k := by
      intro h1 h2
      have hne : (Heap.rebuild b i n g h).1 ≠ .ok () := by
        intro h3
        rcases (st2 h3).2.1 with h4 | h4
        · simp [h4] at h1
        · exact h4 h2
      refine ⟨?_, st1 hne⟩
      rcases st3 hne with h4 | ⟨_, _, h4⟩ | ⟨k, h4, _, h5⟩
      · omega
      · exact h4
      · rcases h5 with h5 | h5
        · simp [h5] at h1
        · exact absurd h2 h5
    cases hgl : g old (List.replicate n.toNat default) with
    | ub => exact absurd hgl hnub
    | trap k =>
      have hr : remade b n old g = (.trap k, old) := by simp [remade, hmk, hgl]
      have hne : (Heap.rebuild b i n g h).1 ≠ .ok () := by
        intro h3
        obtain ⟨l, h4⟩ := (st2 h3).2.2
        rw [hgl] at h4; cases h4
      rw [hr, put1_same hv]
      refine ⟨st.inv, st.mem, st.types, live_of_views hi st.inv fun k => by rw [st1 hne k], hreq, hrefused, fun h1 => ?_⟩
      refine ⟨?_, st1 hne⟩
      rcases st3 hne with h4 | ⟨h4, h5, _⟩ | ⟨k', h4, h5, _⟩
      · omega
      · exact absurd ⟨by simp; omega, h5⟩ h1
      · rw [hgl] at h4; cases h4; exact h5
    | ok l' =>
      have hr : remade b n old g = (.ok (), l') := by simp [remade, hmk, hgl]
      rw [hr]
      have hok : (Heap.rebuild b i n g h).1 = .ok () → ∀ k, view (Heap.rebuild b i n g h).2 k = put1 h i l' k := by
        intro h1 k
        rw [st.views h1 k, hgl]
        rfl
      refine ⟨st.inv, st.mem, st.types, live_of_views hi st.inv fun k => ?_, hreq, hrefused, fun h1 => ?_⟩
      · by_cases hk : (Heap.rebuild b i n g h).1 = .ok ()
        · rw [hok hk k]
          unfold put1
          by_cases hki : k = i
          · subst hki; simp [hv]
          · simp [hki]
        · rw [st1 hk k]
      · have hk : (Heap.rebuild b i n g h).1 = .ok () := by
          refine Classical.byContradiction fun hne => ?_
          rcases st3 hne with h4 | ⟨h4, h5, _⟩ | ⟨k, h4, _⟩
          · omega
          · exact h1 ⟨by simp; omega, h5⟩
          · rw [hgl] at h4; cases h4
        exact ⟨hk, hok hk⟩
  · obtain ⟨o, ho⟩ := live_obj hl
    obtain ⟨old', v1, v2, v3⟩ := view_of hi ho
    have hn : decide (0 < n) = false := by simp; omega
    have hn1 : decide (n > -1) = false := by simp; omega
    have h3 : n ≠ 0 := by omega
    have h4 : n < 0 := by omega
    obtain ⟨k, hk⟩ : ∃ k, (Arr1.make b n : Res (List α)) = .trap k := by
      simp only [Arr1.make, hn1, h4, if_true]
      rcases b with ⟨_ | _, _ | _, _ | _⟩ <;> simp [assertDebug, assertAlways]
    have hc : Heap.ctor b o.af n h = (.trap k, h) := by
      simp only [Arr1.make, hn1, h4, if_true] at hk
      simp only [Heap.ctor, hn1, h3, h4, if_true, if_false]
      rcases ha : assertDebug b false with _ | _ | _ <;> rw [ha] at hk
      · simp at hk; simp [hk]
      · simp at hk; simp [hk]
      · simp at hk
    have hrb : Heap.rebuild b i n g h = (.trap k, h) := by
      unfold Heap.rebuild
      rw [Op.bind_run, obj_run ho]
      simp only
      rw [Op.bind_run, v2]
      simp only [Op.bind_run, Heap.ctorFill, hc]
    have hr : remade b n old g = (.trap k, old) := by simp [remade, hk]
    rw [hrb, hr, hn, put1_same hv]
    exact MemOk.stop hi

theorem rebuild_mem (b : Build) {h : Heap α} (hi : Inv h none) {i : Nat} {n : Int} {old : List α}
    (hv : view h i = some old) {g : List α → List α → Res (List α)}
    (hg : 0 ≤ n → Filled n.toNat (g old (List.replicate n.toNat default)))
    (hub : (remade b n old g).1 ≠ .ub) :
    MemOk h (Heap.rebuild b i n g h) (decide (0 < n)) (remade b n old g).1 (put1 h i (remade b n old g).2) :=
  rebuild_memT b hi hv (fun h0 l' h1 => by have := hg h0; rw [h1] at this; exact this) hub

/-! ### Statements that give an array new storage -/

/-- The heap operation `op` does to array `i`, which has elements `l`, what the list operation with result `r` does. -/
def Remakes (h : Heap α) (i : Nat) (res : Res Unit × Heap α) (r : Res Unit × List α) : Prop :=
  r.1 ≠ .ub → ∃ q, MemOk h res q r.1 (put1 h i r.2) ∧ (r.1 = .ok () → (q = true ↔ r.2 ≠ [])) ∧
    (r.1 ≠ .ok () → q = false)

theorem Remakes.lift {h : Heap α} (hi : Inv h none) {i : Nat} {l : List α} (hv : view h i = some l) {x : Res β}
    {f : β → Op (Heap α) Unit} {f' : β → Op (List α) Unit} (hf : ∀ a, x = .ok a → Remakes h i (f a h) (f' a l)) :
    Remakes h i ((Op.lift x >>= f) h) ((Op.lift x >>= f') l) := by
  cases x with
  | ok a => exact hf a rfl
  | trap k =>
    intro _
    refine ⟨false, ?_, by simp, by simp⟩
    simp only [Op.lift_trap_bind, put1_same hv]
    exact MemOk.stop hi
  | ub => intro h1; exact absurd rfl h1

theorem Remakes.rebuild (b : Build) {h : Heap α} (hi : Inv h none) {i : Nat} {n : Int} {old : List α}
    (hv : view h i = some old) {g : List α → List α → Res (List α)}
    (hg : 0 ≤ n → Filled n.toNat (g old (List.replicate n.toNat default))) {r : Res Unit × List α}
    (hr : r = remade b n old g) : Remakes h i (Heap.rebuild b i n g h) r := by
  subst hr
  intro hub
  refine ⟨_, rebuild_mem b hi hv hg hub, fun h1 => ?_, fun h1 => ?_⟩
  · unfold remade at h1 ⊢
    by_cases h0 : 0 ≤ n
    · have hmk : Arr1.make b n = .ok (List.replicate n.toNat (default : α)) := Arr1.make_ok b h0
      simp only [hmk, Res.ok_bind] at h1 ⊢
      have := hg h0
      cases hh : g old (List.replicate n.toNat default) with
      | ok l' =>
        rw [hh] at this
        have hlen : l'.length = n.toNat := this
        simp only [decide_eq_true_eq, ne_eq]
        rw [← List.length_eq_zero_iff, hlen]; omega
      | trap k => simp [hh] at h1
      | ub => simp [hh] at h1
    · exfalso
      have hn1 : decide (n > -1) = false := by simp; omega
      have h4 : n < 0 := by omega
      rcases b with ⟨_ | _, _ | _, _ | _⟩ <;> simp [Arr1.make, hn1, h4, assertDebug, assertAlways] at h1
  · simp only [decide_eq_false_iff_not]
    intro h0
    have hmk : Arr1.make b n = .ok (List.replicate n.toNat (default : α)) := Arr1.make_ok b (by omega)
    have := hg (by omega)
    unfold remade at h1 hub
    simp only [hmk, Res.ok_bind] at h1 hub
    cases hh : g old (List.replicate n.toNat default) with
    | ok l' => simp [hh] at h1
    | trap k => rw [hh] at this; exact this
    | ub => simp [hh] at hub

/-! ### Copy loops -/

theorem rd_cases (l : List α) (i : Int) : rd l i = .ub ∨ ∃ v, rd l i = .ok v := by
  unfold rd
  repeat' split
  all_goals first | exact .inl rfl | exact .inr ⟨_, rfl⟩

theorem wr_filled (l : List α) (i : Int) (x : α) : Filled l.length (wr l i x) := by
  unfold wr
  repeat' split
  all_goals simp [Filled]

theorem foldN_filled {n m : Nat} {f : Nat → List α → Res (List α)} {t : List α} (ht : t.length = m)
    (hf : ∀ i t, t.length = m → Filled m (f i t)) : Filled m (foldN n f t) := by
  induction n with
  | zero => exact ht
  | succ n ih => rw [foldN_succ]; exact ih.bind fun l hl => hf n l hl

/-- A source that only fails by undefined behaviour. -/
def Plain (src : Int → Res α) : Prop := ∀ i, src i = .ub ∨ ∃ v, src i = .ok v

theorem plain_rd (l : List α) : Plain (rd l) := rd_cases l

theorem copyn_filled {src : Int → Res α} (hs : Plain src) {t : List α} {m : Nat} (ht : t.length = m) (a c n : Int) :
    Filled m (copyn src t a c n) := by
  refine foldN_filled ht fun i t ht => ?_
  rcases hs (a + i) with h1 | ⟨v, h1⟩
  · rw [h1]; trivial
  · rw [h1]; have := wr_filled t (c + i) v; rw [ht] at this; exact this

theorem copyn0_filled {src : Int → Res α} (hs : Plain src) {t : List α} {m : Nat} (ht : t.length = m) (n : Int) :
    Filled m (copyn0 src t n) := by
  rw [copyn0_eq]; exact copyn_filled hs ht _ _ _

theorem forN_filled {body : Nat → Op (List α) Unit} {m : Nat}
    (hb : ∀ i l, l.length = m → (body i l).2.length = m ∧ ∀ k, (body i l).1 ≠ .trap k) (n : Nat) {l : List α}
    (hl : l.length = m) : (Op.forN n body l).2.length = m ∧ ∀ k, (Op.forN n body l).1 ≠ .trap k := by
  induction n with
  | zero => exact ⟨hl, by simp⟩
  | succ n ih =>
    rw [Op.forN_succ]
    rcases hh : Op.forN n body l with ⟨_ | k | _, l'⟩ <;> rw [hh] at ih <;> simp only at ih ⊢
    · exact hb n l' ih.1
    · exact absurd rfl (ih.2 k)
    · exact ⟨ih.1, by simp⟩

theorem copy_filled {src : Src (List α) α} (hs : ∀ l, Plain (src.un l)) {l : List α} {m : Nat} (hl : l.length = m) :
    (Arr1.copy src l).2.length = m ∧ ∀ k, (Arr1.copy src l).1 ≠ .trap k := by
  refine forN_filled (fun i l hl => ?_) _ hl
  simp only [Op.get_bind]
  rcases hs l i with h1 | ⟨v, h1⟩
  · rw [h1]; simp [hl]
  · rw [h1, Op.lift_ok_bind]
    have := wr_filled l i v
    rcases hh : wr l (i : Int) v with l' | _ | _ <;> rw [hh] at this
    · simp only [Op.lift_ok_bind, Op.set_run]; exact ⟨this.trans hl, by simp⟩
    · exact absurd this id
    · simp [hl]

end Spp
