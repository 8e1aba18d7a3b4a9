import Verif.Lemmas.HeapStmts
import Verif.Spec.Memory2
import Verif.Model.History2D
import Verif.Lemmas.Slice

/- The two-dimensional statements on the heap and the statements on arrays with dimensions. -/

set_option linter.unusedSectionVars false

namespace Spp
open Spec

variable {α : Type} [Inhabited α]

/-! ### What a statement does to the contents -/

/-- As `MemOk`, with the dimensions. -/
structure MemOk2 (h : Heap2 α) (res : Res Unit × Heap2 α) (q : Bool) (r : Res Unit) (eff : Nat → Option (Arr2 α)) :
    Prop where
  inv : Inv res.2.heap none
  mem : res.2.heap.mem = h.heap.mem
  types : ∀ k o o', h.heap.objs k = some o → res.2.heap.objs k = some o' → o'.af = o.af
  live : ∀ k, res.2.heap.objs k = none ↔ h.heap.objs k = none
  reqs : res.2.heap.requests = h.heap.requests + q.toNat
  refused : q = true → OutOfMemory h.heap → res.1 = .trap .exception ∧ ∀ k, view2 res.2 k = view2 h k
  done : ¬ (q = true ∧ OutOfMemory h.heap) → res.1 = r ∧ ∀ k, view2 res.2 k = eff k

theorem MemOk2.ofData {h : Heap2 α} {x : Res Unit × Heap α} {q : Bool} {r : Res Unit} {eff : Nat → Option (List α)}
    (m : MemOk h.heap x q r eff) {res : Res Unit × Heap2 α} (h1 : res.1 = x.1) (h2 : res.2.heap = x.2)
    {eff2 : Nat → Option (Arr2 α)} (hd : q = true → OutOfMemory h.heap → res.2.dims = h.dims)
    (hdone : ¬ (q = true ∧ OutOfMemory h.heap) →
      ∀ k, (eff k).map (fun l => (⟨(res.2.dims k).1, (res.2.dims k).2, l⟩ : Arr2 α)) = eff2 k) :
    MemOk2 h res q r eff2 := by
  refine ⟨by rw [h2]; exact m.inv, by rw [h2]; exact m.mem, fun k o o' => by rw [h2]; exact m.types k o o',
    fun k => by rw [h2]; exact m.live k, by rw [h2]; exact m.reqs, fun hq ho => ?_, fun hn => ?_⟩
  · obtain ⟨e1, e2⟩ := m.refused hq ho
    refine ⟨by rw [h1, e1], fun k => ?_⟩
    unfold view2
    rw [h2, e2, hd hq ho]
  · obtain ⟨e1, e2⟩ := m.done hn
    refine ⟨by rw [h1, e1], fun k => ?_⟩
    rw [← hdone hn k]
    unfold view2
    rw [h2, e2]

/-- A statement that is rejected before it does anything. -/
theorem MemOk2.stop {h : Heap2 α} (hi : Inv h.heap none) {r : Res Unit} : MemOk2 h (r, h) false r (view2 h) :=
  ⟨hi, rfl, types_eq rfl, fun _ => Iff.rfl, rfl, by simp, fun _ => ⟨rfl, fun _ => rfl⟩⟩

/-- The contents after a change of array `i`. -/
def put2 (h : Heap2 α) (i : Nat) (a : Arr2 α) : Nat → Option (Arr2 α) := fun k => if k = i then some a else view2 h k

theorem put2_same {h : Heap2 α} {i : Nat} {a : Arr2 α} (hv : view2 h i = some a) : put2 h i a = view2 h := by
  funext k
  unfold put2
  by_cases hk : k = i
  · subst hk; rw [if_pos rfl, hv]
  · rw [if_neg hk]

theorem view2_some {h : Heap2 α} {i : Nat} {a : Arr2 α} (hv : view2 h i = some a) :
    view h.heap i = some a.data ∧ h.dims i = (a.rows, a.cols) := by
  unfold view2 at hv
  rw [Option.map_eq_some_iff] at hv
  obtain ⟨l, h1, rfl⟩ := hv
  exact ⟨h1, rfl⟩

theorem load_run {h : Heap2 α} (hi : Inv h.heap none) {i : Nat} {a : Arr2 α} (hv : view2 h i = some a) :
    Heap2.load i h = (.ok a, h) := by
  obtain ⟨h1, h2⟩ := view2_some hv
  obtain ⟨o, ho⟩ := live_obj (h := h.heap) (i := i) (by rw [ne_eq, ← view_none_iff hi, h1]; simp)
  obtain ⟨l, v1, v2, v3⟩ := view_of hi ho
  rw [h1] at v1; cases v1
  have e1 : Heap2.onData (Heap.obj i) h = (.ok o, h) := by unfold Heap2.onData; rw [obj_run ho]
  have e2 : Heap2.onData (Heap.contents o) h = (.ok a.data, h) := by unfold Heap2.onData; rw [v2]
  unfold Heap2.load
  rw [Op.bind_run, e1]
  simp only
  rw [Op.bind_run, e2]
  simp only
  rw [Op.get_bind]
  simp only [h2, Op.pure_run]

/-! ### Filling a temporary -/

/-- The result satisfies `P`, or is undefined behaviour. -/
def Sound {β : Type} (P : β → Prop) : Res β → Prop
  | .ok a => P a
  | .trap _ => False
  | .ub => True

theorem Sound.bind {β γ : Type} {P : β → Prop} {Q : γ → Prop} {x : Res β} {f : β → Res γ} (hx : Sound P x)
    (hf : ∀ a, P a → Sound Q (f a)) : Sound Q (x >>= f) := by
  cases x with
  | ok a => exact hf a hx
  | trap k => exact absurd hx id
  | ub => trivial

theorem Sound.foldN {β : Type} {P : β → Prop} {f : Nat → β → Res β} {t : β} (ht : P t)
    (hf : ∀ i t, P t → Sound P (f i t)) (n : Nat) : Sound P (foldN n f t) := by
  induction n with
  | zero => exact ht
  | succ n ih => rw [foldN_succ]; exact ih.bind fun t ht => hf n t ht

/-- The array has dimensions `m` and `n` and `len` elements. -/
def Dims (m n : Int) (len : Nat) (a : Arr2 α) : Prop := a.rows = m ∧ a.cols = n ∧ a.data.length = len

theorem sound_rd (l : List α) (i : Int) : Sound (fun _ => True) (rd l i) := by
  rcases rd_cases l i with h | ⟨v, h⟩ <;> rw [h] <;> trivial

theorem sound_rd2 (a : Arr2 α) (i j : Int) : Sound (fun _ => True) (Arr2.rd2 a i j) := sound_rd _ _

theorem sound_wr2 {m n : Int} {len : Nat} {a : Arr2 α} (ha : Dims m n len a) (i j : Int) (x : α) :
    Sound (Dims m n len) (Arr2.wr2 a i j x) := by
  unfold Arr2.wr2
  have := wr_filled a.data (i * a.cols + j) x
  rcases hh : wr a.data (i * a.cols + j) x with _ | _ | _ <;> rw [hh] at this
  · exact ⟨ha.1, ha.2.1, Eq.trans this ha.2.2⟩
  · exact absurd this id
  · trivial

/-- Assignments of elements read from somewhere. -/
theorem sound_put2 {m n : Int} {len : Nat} {a : Arr2 α} (ha : Dims m n len a) {x : Res α}
    (hx : Sound (fun _ => True) x) (i j : Int) : Sound (Dims m n len) (x >>= fun v => Arr2.wr2 a i j v) :=
  hx.bind fun _ _ => sound_wr2 ha _ _ _

theorem sound_copyRows0 {m n : Int} {len : Nat} {t : Arr2 α} (ht : Dims m n len t) (cols : Int)
    {src : Int → Int → Res α} (hs : ∀ i j, Sound (fun _ => True) (src i j)) (c : Int) :
    Sound (Dims m n len) (Arr2.copyRows0 cols src t c) :=
  Sound.foldN ht (fun _ _ ht => Sound.foldN ht (fun _ _ ht => sound_put2 ht (hs _ _) _ _) _) _

theorem sound_copyRows {m n : Int} {len : Nat} {t : Arr2 α} (ht : Dims m n len t) (cols : Int)
    {src : Int → Int → Res α} (hs : ∀ i j, Sound (fun _ => True) (src i j)) (c d e : Int) :
    Sound (Dims m n len) (Arr2.copyRows cols src t c d e) :=
  Sound.foldN ht (fun _ _ ht => Sound.foldN ht (fun _ _ ht => sound_put2 ht (hs _ _) _ _) _) _

theorem sound_copyCols0 {m n : Int} {len : Nat} {t : Arr2 α} (ht : Dims m n len t) (rows : Int)
    {src : Int → Int → Res α} (hs : ∀ i j, Sound (fun _ => True) (src i j)) (c : Int) :
    Sound (Dims m n len) (Arr2.copyCols0 rows src t c) :=
  Sound.foldN ht (fun _ _ ht => Sound.foldN ht (fun _ _ ht => sound_put2 ht (hs _ _) _ _) _) _

theorem sound_copyCols {m n : Int} {len : Nat} {t : Arr2 α} (ht : Dims m n len t) (rows : Int)
    {src : Int → Int → Res α} (hs : ∀ i j, Sound (fun _ => True) (src i j)) (c d e : Int) :
    Sound (Dims m n len) (Arr2.copyCols rows src t c d e) :=
  Sound.foldN ht (fun _ _ ht => Sound.foldN ht (fun _ _ ht => sound_put2 ht (hs _ _) _ _) _) _

theorem sound_insertRowLoop {m n : Int} {len : Nat} {t : Arr2 α} (ht : Dims m n len t) (a : Arr2 α) (pos size : Int)
    {un : Int → Res α} (hu : ∀ i, Sound (fun _ => True) (un i)) :
    Sound (fun st => Dims m n len st.2) (Arr2.insertRowLoop a pos size un t) := by
  refine Sound.foldN (P := fun st : Nat × Arr2 α => Dims m n len st.2) ht (fun i st hst => ?_) _
  split
  · exact (Sound.foldN hst (fun _ _ ht => sound_put2 ht (sound_rd2 _ _ _) _ _) _).bind fun t ht => ht
  · exact (Sound.foldN hst (fun _ _ ht => sound_put2 ht (hu _) _ _) _).bind fun t ht => ht

theorem sound_insertColLoop {m n : Int} {len : Nat} {t : Arr2 α} (ht : Dims m n len t) (a : Arr2 α) (pos size : Int)
    {un : Int → Res α} (hu : ∀ i, Sound (fun _ => True) (un i)) :
    Sound (Dims m n len) (Arr2.insertColLoop a pos size un t) := by
  refine Sound.foldN ht (fun i t ht => ?_) _
  refine Sound.bind (P := fun st : Nat × Arr2 α => Dims m n len st.2) ?_ fun st hst => hst
  refine Sound.foldN (P := fun st : Nat × Arr2 α => Dims m n len st.2) ht (fun j st hst => ?_) _
  split
  · exact (sound_rd2 _ _ _).bind fun v _ => (sound_wr2 hst _ _ _).bind fun t ht => ht
  · exact (hu _).bind fun v _ => (sound_wr2 hst _ _ _).bind fun t ht => ht

theorem sound_copyList {m n : Int} {len : Nat} {t : Arr2 α} (ht : Dims m n len t) (L : List (List α)) :
    Sound (Dims m n len) (Arr2.copyList L t) :=
  Sound.foldN ht (fun _ _ ht => Sound.foldN ht (fun _ _ ht => sound_put2 ht (sound_rd _ _) _ _) _) _

theorem copyLinear_dims {m n : Int} {len : Nat} {t : Arr2 α} (ht : Dims m n len t) (size : Int)
    {un : Arr2 α → Int → Res α} (hu : ∀ a i, Sound (fun _ => True) (un a i)) :
    Dims m n len (Arr2.copyLinear size un t).2 ∧ ∀ k, (Arr2.copyLinear size un t).1 ≠ .trap k := by
  unfold Arr2.copyLinear
  generalize size.toNat = c
  induction c with
  | zero => exact ⟨ht, by simp⟩
  | succ c ih =>
    rw [Op.forN_succ]
    generalize hh : Op.forN c _ t = st at ih ⊢
    rcases st with ⟨_ | k | _, l'⟩ <;> simp only at ih ⊢
    · rw [Op.get_bind]
      have h1 := hu l' c
      rcases hh1 : un l' (c : Int) with v | _ | _ <;> rw [hh1] at h1
      · rw [Op.lift_ok_bind]
        have h2 := wr_filled l'.data c v
        unfold Arr2.wr1
        rcases hh2 : wr l'.data (c : Int) v with d | _ | _ <;> rw [hh2] at h2
        · exact ⟨⟨ih.1.1, ih.1.2.1, Eq.trans h2 ih.1.2.2⟩, by simp⟩
        · exact absurd h2 id
        · exact ⟨ih.1, by simp⟩
      · exact absurd h1 id
      · exact ⟨ih.1, by simp⟩
    · exact absurd rfl (ih.2 k)
    · exact ⟨ih.1, by simp⟩

/-! ### Statements that give an array new storage -/

/-- The heap operation does to array `i` what the array operation with result `r` does. -/
def Remakes2 (b : Build) (h : Heap2 α) (i : Nat) (res : Res Unit × Heap2 α) (r : Res Unit × Arr2 α) : Prop :=
  r.1 ≠ .ub → ∃ q, MemOk2 h res q r.1 (put2 h i r.2) ∧ (r.1 = .ok () → (q = true ↔ r.2.data ≠ [])) ∧
    (b.Checked → r.1 ≠ .ok () → q = false)

theorem Remakes2.lift {b : Build} {h : Heap2 α} (hi : Inv h.heap none) {i : Nat} {a : Arr2 α}
    (hv : view2 h i = some a) {x : Res β} {f : β → Op (Heap2 α) Unit} {f' : β → Op (Arr2 α) Unit}
    (hf : ∀ c, x = .ok c → Remakes2 b h i (f c h) (f' c a)) :
    Remakes2 b h i ((Op.lift x >>= f) h) ((Op.lift x >>= f') a) := by
  cases x with
  | ok a => exact hf a rfl
  | trap k =>
    intro _
    refine ⟨false, ?_, by simp, by simp⟩
    simp only [Op.lift_trap_bind, put2_same hv]
    exact MemOk2.stop hi
  | ub => intro h1; exact absurd rfl h1

/-- The model of `rebuild`, on arrays. -/
def remade2 (b : Build) (m n : Int) (a : Arr2 α) (g : Arr2 α → Res (Arr2 α)) : Res Unit × Arr2 α :=
  match Arr2.make b m n >>= g with
  | .ok t => (.ok (), t)
  | .trap k => (.trap k, a)
  | .ub => (.ub, a)

theorem lift_set_remade2 (b : Build) (m n : Int) (a : Arr2 α) (g : Arr2 α → Res (Arr2 α)) :
    (Op.lift (Arr2.make b m n >>= g) >>= Op.set) a = remade2 b m n a g := by
  unfold remade2
  rcases Arr2.make b m n >>= g with _ | _ | _ <;> rfl

/-- The checks in the body of the constructor. -/
def bodyChecks (b : Build) (m n : Int) : Res Unit := do
  assertDebug b (decide (m ≥ 0))
  assertDebug b (decide (n ≥ 0))
  assertDebug b (semiValid m n)

theorem bodyChecks_ok {b : Build} {m n : Int} (hm : 0 < m) (hn : 0 < n) : bodyChecks b m n = .ok () := by
  have h1 : decide (m ≥ 0) = true := by simp; omega
  have h2 : decide (n ≥ 0) = true := by simp; omega
  have h3 : semiValid m n = true := by
    have e1 : (m == 0) = false := by simp; omega
    have e2 : (n == 0) = false := by simp; omega
    simp [semiValid, e1, e2]
  simp [bodyChecks, h1, h2, h3, assertDebug_true]

/-- The elements after an attempt to replace the array `a`. -/
def newData (x : Res (Arr2 α)) (a : Arr2 α) : List α :=
  match x with
  | .ok t => t.data
  | _ => a.data

theorem rebuild2_mem (b : Build) {h : Heap2 α} (hi : Inv h.heap none) {i : Nat} {m n p : Int} {a : Arr2 α}
    (hv : view2 h i = some a) {g : List α → Arr2 α → Res (Arr2 α)}
    (hg : 0 ≤ p → ∀ t', bodyChecks b m n = .ok () → g a.data ⟨m, n, List.replicate p.toNat default⟩ = .ok t' →
      t'.data.length = p.toNat)
    {res : Res Unit × Heap α} (hres : res = Heap.rebuild b i p (fun old tmp => do
      assertDebug b (decide (m ≥ 0))
      assertDebug b (decide (n ≥ 0))
      assertDebug b (semiValid m n)
      let t ← g old ⟨m, n, tmp⟩
      pure t.data) h.heap)
    {x : Res (Arr2 α)} (hx : x = (Arr1.make b p >>= fun d => bodyChecks b m n >>= fun _ => g a.data ⟨m, n, d⟩))
    (hub : x ≠ .ub) :
    MemOk h.heap res (decide (0 < p)) (x >>= fun _ => .ok ())
      (put1 h.heap i (newData x a)) := by
  obtain ⟨v1, _⟩ := view2_some hv
  have hr : remade b p a.data (fun old tmp => do
      assertDebug b (decide (m ≥ 0))
      assertDebug b (decide (n ≥ 0))
      assertDebug b (semiValid m n)
      let t ← g old ⟨m, n, tmp⟩
      pure t.data) = (x >>= fun _ => .ok (), newData x a) := by
    subst hx
    unfold remade bodyChecks
    rcases Arr1.make b p with d | k | _
    · simp only [Res.ok_bind]
      rcases assertDebug b (decide (m ≥ 0)) with _ | _ | _
      · simp only [Res.ok_bind]
        rcases assertDebug b (decide (n ≥ 0)) with _ | _ | _
        · simp only [Res.ok_bind]
          rcases assertDebug b (semiValid m n) with _ | _ | _
          · simp only [Res.ok_bind]
            rcases g a.data ⟨m, n, d⟩ with _ | _ | _ <;> rfl
          · rfl
          · rfl
        · rfl
        · rfl
      · rfl
      · rfl
    · rfl
    · rfl
  have := rebuild_memT b hi (n := p) v1 (g := fun old tmp => do
      assertDebug b (decide (m ≥ 0))
      assertDebug b (decide (n ≥ 0))
      assertDebug b (semiValid m n)
      let t ← g old ⟨m, n, tmp⟩
      pure t.data) (by
    intro h0 l' hl
    have hbc : bodyChecks b m n = .ok () ∧ ∃ t, g a.data ⟨m, n, List.replicate p.toNat default⟩ = .ok t ∧ t.data = l' := by
      unfold bodyChecks
      rcases hc1 : assertDebug b (decide (m ≥ 0)) with _ | _ | _ <;> rw [hc1] at hl
      · rcases hc2 : assertDebug b (decide (n ≥ 0)) with _ | _ | _ <;> rw [hc2] at hl
        · rcases hc3 : assertDebug b (semiValid m n) with _ | _ | _ <;> rw [hc3] at hl
          · rcases hc4 : g a.data ⟨m, n, List.replicate p.toNat default⟩ with t | _ | _ <;> simp [hc4] at hl
            exact ⟨rfl, t, rfl, hl⟩
          · simp at hl
          · simp at hl
        · simp at hl
        · simp at hl
      · simp at hl
      · simp at hl
    obtain ⟨e1, t, e2, e3⟩ := hbc
    rw [← e3]; exact hg h0 t e1 e2) (by
      rw [hr]
      rcases x with _ | _ | _
      · simp
      · simp
      · exact absurd rfl hub)
  rw [hr] at this
  rw [hres]
  exact this

theorem make_eq (b : Build) {m n p : Int} (hp : imul m n = .ok p) (g : Arr2 α → Res (Arr2 α)) :
    (Arr2.make b m n >>= g) = (Arr1.make b p >>= fun d => bodyChecks b m n >>= fun _ => g ⟨m, n, d⟩) := by
  unfold Arr2.make bodyChecks
  rw [hp, Res.ok_bind]
  rcases Arr1.make b p with _ | _ | _
  · simp only [Res.ok_bind]
    rcases assertDebug b (decide (m ≥ 0)) with _ | _ | _
    · rcases assertDebug b (decide (n ≥ 0)) with _ | _ | _
      · rcases assertDebug b (semiValid m n) with _ | _ | _ <;> rfl
      · rfl
      · rfl
    · rfl
    · rfl
  · rfl
  · rfl

theorem Remakes2.rebuild (b : Build) {h : Heap2 α} (hi : Inv h.heap none) {i : Nat} {m n : Int} {a : Arr2 α}
    (hv : view2 h i = some a) {g : Arr2 α → Res (Arr2 α)}
    (hg : ∀ len t, Dims m n len t → Sound (Dims m n len) (g t)) (hpos : b.Checked → 0 ≤ m ∧ 0 ≤ n)
    {r : Res Unit × Arr2 α} (hr : r = remade2 b m n a g) : Remakes2 b h i (Heap2.rebuild b i m n g h) r := by
  subst hr
  intro hub
  unfold Heap2.rebuild
  rcases hp : imul m n with p | k | _
  · simp only [Op.lift_ok_bind]
    have hpe := imul_eq_ok hp
    have hx := make_eq b hp g
    have hxub : (Arr2.make b m n >>= g) ≠ .ub := by
      intro h1; simp [remade2, h1] at hub
    have m1 := rebuild2_mem b hi (p := p) hv (g := fun _ => g) (by
      intro h0 t' _ ht
      have := hg p.toNat ⟨m, n, List.replicate p.toNat default⟩ ⟨rfl, rfl, by simp⟩
      rw [ht] at this; exact this.2.2) rfl hx hxub
    have hdims : ∀ t, (Arr2.make b m n >>= g) = .ok t → Dims m n p.toNat t ∧ 0 ≤ p := by
      intro t ht
      rw [hx] at ht
      rcases hmk : (Arr1.make b p : Res (List α)) with d | _ | _ <;> rw [hmk] at ht
      · simp only [Res.ok_bind] at ht
        have h0 : 0 ≤ p := by
          refine Classical.byContradiction fun h0 => ?_
          have hn1 : decide (p > -1) = false := by simp; omega
          have h4 : p < 0 := by omega
          rcases b with ⟨_ | _, _ | _, _ | _⟩ <;> simp [Arr1.make, hn1, h4, assertDebug, assertAlways] at hmk
        rw [Arr1.make_ok b h0] at hmk
        simp only [Res.ok.injEq] at hmk
        rcases hbc : bodyChecks b m n with _ | _ | _ <;> rw [hbc] at ht
        · simp only [Res.ok_bind] at ht
          have := hg p.toNat ⟨m, n, d⟩ ⟨rfl, rfl, by simp [← hmk]⟩
          rw [ht] at this
          exact ⟨this, h0⟩
        · simp at ht
        · simp at ht
      · simp at ht
      · simp at ht
    have hrun : (do
        Heap2.onData (Heap.rebuild b i p fun _ tmp => do
          assertDebug b (decide (m ≥ 0))
          assertDebug b (decide (n ≥ 0))
          assertDebug b (semiValid m n)
          let t ← g ⟨m, n, tmp⟩
          pure t.data)
        Heap2.setDims i (m, n) : Op (Heap2 α) Unit) h =
        (match (Heap.rebuild b i p (fun _ tmp => do
          assertDebug b (decide (m ≥ 0))
          assertDebug b (decide (n ≥ 0))
          assertDebug b (semiValid m n)
          let t ← g ⟨m, n, tmp⟩
          pure t.data) h.heap : Res Unit × Heap α) with
        | (.ok _, h') => (.ok (), ⟨h', fun k => if k = i then (m, n) else h.dims k⟩)
        | (.trap k, h') => (.trap k, ⟨h', h.dims⟩)
        | (.ub, h') => (.ub, ⟨h', h.dims⟩)) := by
      rw [Op.bind_run]
      simp only [Heap2.onData]
      rcases Heap.rebuild b i p _ h.heap with ⟨_ | _ | _, h'⟩ <;> rfl
    rw [hrun]
    clear hrun
    generalize Heap.rebuild b i p _ h.heap = y at m1 ⊢
    refine ⟨decide (0 < p), ?_, fun h1 => ?_, fun hb h1 => ?_⟩
    · have hre : (remade2 b m n a g).1 = ((Arr2.make b m n >>= g) >>= fun _ => .ok ()) := by
        unfold remade2
        rcases Arr2.make b m n >>= g with _ | _ | _ <;> rfl
      rw [hre]
      refine MemOk2.ofData m1 ?_ ?_ ?_ ?_
      · rcases y with ⟨_ | _ | _, h'⟩ <;> rfl
      · rcases y with ⟨_ | _ | _, h'⟩ <;> rfl
      · intro h1 h2
        have := (m1.refused h1 h2).1
        rcases y with ⟨_ | _ | _, h'⟩
        · simp at this
        · rfl
        · rfl
      · intro h1 k
        obtain ⟨d1, d2⟩ := m1.done h1
        rcases hxx : Arr2.make b m n >>= g with t | k' | _
        · rw [hxx] at d1
          have ht := (hdims t hxx).1
          rcases y with ⟨_ | _ | _, h'⟩
          · simp only [remade2, hxx, put1, put2, newData]
            by_cases hk : k = i
            · subst hk
              simp only [if_true, Option.map_some]
              rw [← ht.1, ← ht.2.1]
            · simp only [hk, if_false]; rfl
          · simp at d1
          · simp at d1
        · rw [hxx] at d1
          simp only [remade2, hxx, newData]
          rw [put1_same (view2_some hv).1, put2_same hv]
          rcases y with ⟨_ | _ | _, h'⟩
          · simp at d1
          · rfl
          · rfl
        · exact absurd hxx hxub
    · rcases hxx : Arr2.make b m n >>= g with t | k' | _
      · simp only [remade2, hxx]
        obtain ⟨e1, e2⟩ := hdims t hxx
        rw [decide_eq_true_eq, ne_eq, ← List.length_eq_zero_iff, e1.2.2]; omega
      · simp [remade2, hxx] at h1
      · simp [remade2, hxx] at h1
    · simp only [decide_eq_false_iff_not]
      intro h0
      obtain ⟨hm, hn⟩ := hpos hb
      have hm' : 0 < m := by
        rcases Int.lt_or_eq_of_le hm with h2 | h2
        · exact h2
        · rw [hpe, ← h2] at h0; simp at h0
      have hn' : 0 < n := by
        rcases Int.lt_or_eq_of_le hn with h2 | h2
        · exact h2
        · rw [hpe, ← h2] at h0; simp at h0
      have hgg := hg p.toNat ⟨m, n, List.replicate p.toNat default⟩ ⟨rfl, rfl, by simp⟩
      have hxx : (Arr2.make b m n >>= g) = g ⟨m, n, List.replicate p.toNat default⟩ := by
        rw [hx, Arr1.make_ok b (by omega), bodyChecks_ok hm' hn']; rfl
      rcases hgt : g ⟨m, n, List.replicate p.toNat default⟩ with t | _ | _
      · rw [hgt] at hxx; simp [remade2, hxx] at h1
      · rw [hgt] at hgg; exact hgg
      · rw [hgt] at hxx; exact hxub hxx
  · simp only [Op.lift_trap_bind]
    refine ⟨false, ?_, ?_, fun _ _ => rfl⟩
    · simp only [remade2, Arr2.make, hp, Res.trap_bind, put2_same hv]
      exact MemOk2.stop hi
    · simp [remade2, Arr2.make, hp]
  · simp [remade2, Arr2.make, hp] at hub

end Spp
