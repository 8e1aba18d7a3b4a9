import Verif.Lemmas.HeapOps2

/- Each two-dimensional member function on the heap does what it does on arrays with dimensions. -/

set_option linter.unusedSectionVars false

namespace Spp
open Spec

variable {α : Type} [Inhabited α]

section
variable {b : Build} {h : Heap2 α} {i : Nat} {a : Arr2 α}

/-- Two loads, or a load and the array itself. -/
theorem load_bind (hi : Inv h.heap none) (hv : view2 h i = some a) {β : Type} (f : Arr2 α → Op (Heap2 α) β) :
    (Heap2.load i >>= f) h = f a h := by
  rw [Op.bind_run, load_run hi hv]

/-! ### In place -/

theorem modify2_mem (hi : Inv h.heap none) (hv : view2 h i = some a) {g : Op (Arr2 α) Unit}
    (hg : Dims a.rows a.cols a.data.length (g a).2) :
    MemOk2 h (Heap2.modify i g h) false (g a).1 (put2 h i (g a).2) := by
  obtain ⟨v1, v2⟩ := view2_some hv
  have ha : (⟨(h.dims i).1, (h.dims i).2, a.data⟩ : Arr2 α) = a := by rw [v2]
  have m := MemOk.ofModify hi v1 (g := fun l =>
    ((g ⟨(h.dims i).1, (h.dims i).2, l⟩).1, (g ⟨(h.dims i).1, (h.dims i).2, l⟩).2.data)) (by rw [ha]; exact hg.2.2)
  simp only [ha] at m
  refine MemOk2.ofData m rfl rfl (fun h1 => by simp at h1) fun _ k => ?_
  simp only [put1, put2]
  by_cases hk : k = i
  · subst hk
    simp only [if_true, Option.map_some]
    have : (Heap2.modify k g h).2.dims = h.dims := rfl
    rw [this, v2]
    simp only
    rw [← hg.1, ← hg.2.1]
  · simp only [hk, if_false]; rfl

theorem fill2_mem (hi : Inv h.heap none) (hv : view2 h i = some a) (x : α) :
    MemOk2 h (Heap2.assignValue i x h) false (Arr2.assignValue x a).1 (put2 h i (Arr2.assignValue x a).2) := by
  refine modify2_mem hi hv ?_
  simp only [Arr2.assignValue, Op.get_bind, Arr1.fill_ok]
  exact ⟨rfl, rfl, by simp⟩

/-- A statement that gives the array new storage, followed by a change in place. -/
theorem Remakes2.modify (hv : view2 h i = some a) {f : Op (Heap2 α) Unit}
    {f' g : Op (Arr2 α) Unit} (hm : Remakes2 b h i (f h) (f' a))
    (hg : ∀ t, Dims t.rows t.cols t.data.length (g t).2 ∧ ∀ k, (g t).1 ≠ .trap k) :
    Remakes2 b h i ((f >>= fun _ => Heap2.modify i g) h) ((f' >>= fun _ => g) a) := by
  generalize hr : (f' >>= fun _ => g) a = r
  rw [Op.bind_run] at hr
  intro hub
  rcases hf' : f' a with ⟨_ | k | _, a'⟩ <;> rw [hf'] at hr hm <;> simp only at hr <;> subst hr
  · obtain ⟨q, m, q1, q2⟩ := hm (by simp)
    simp only [true_implies] at q1
    have hlen : q = true ↔ (g a').2.data ≠ [] := by
      rw [q1 , ne_eq, ne_eq, ← List.length_eq_zero_iff, ← List.length_eq_zero_iff, (hg a').1.2.2]
    refine ⟨q, ?_, fun _ => hlen, fun _ hne => ?_⟩
    · rw [Op.bind_run]
      by_cases ho : q = true ∧ OutOfMemory h.heap
      · obtain ⟨r1, r2⟩ := m.refused ho.1 ho.2
        rcases hf : f h with ⟨_ | k | _, h'⟩ <;> rw [hf] at r1 <;> simp at r1
        subst r1
        rw [hf] at m r2
        simp only
        refine ⟨m.inv, m.mem, m.types, m.live, m.reqs, fun h1 h2 => ⟨rfl, r2⟩, fun h1 => absurd ho h1⟩
      · obtain ⟨d1, d2⟩ := m.done ho
        rcases hf : f h with ⟨_ | k | _, h'⟩ <;> rw [hf] at d1 <;> simp at d1
        rw [hf] at m d2
        simp only at d2 ⊢
        have hv' : view2 h' i = some a' := by rw [d2 i]; simp [put2]
        have m2 := modify2_mem m.inv hv' (g := g) (hg a').1
        refine ⟨m2.inv, m2.mem.trans m.mem, fun k o o' h1 h2 => ?_, fun k => (m2.live k).trans (m.live k), ?_,
          fun h1 h2 => absurd ⟨h1, h2⟩ ho, fun _ => ?_⟩
        · obtain ⟨o1, ho1⟩ := live_obj (h := h'.heap) (i := k) (by
            rw [ne_eq, ← m2.live k, h2]; simp)
          rw [m2.types k o1 o' ho1 h2, m.types k o o1 h1 ho1]
        · rw [m2.reqs, m.reqs]; simp
        · obtain ⟨d3, d4⟩ := m2.done (by simp)
          refine ⟨d3, fun k => ?_⟩
          rw [d4 k]
          simp only [put2]
          by_cases hk : k = i
          · simp [hk]
          · simp only [hk, if_false]
            rw [d2 k]; simp [put2, hk]
    · rcases hgg : (g a').1 with _ | k | _
      · exact absurd hgg hne
      · exact absurd hgg ((hg a').2 k)
      · exact absurd hgg hub
  · obtain ⟨q, m, q1, q2⟩ := hm (by simp)
    refine ⟨q, ?_, by simp, fun hb _ => q2 hb (by simp)⟩
    rw [Op.bind_run]
    have hne : (f h).1 ≠ .ok () ∧ (f h).1 ≠ .ub := by
      by_cases ho : q = true ∧ OutOfMemory h.heap
      · rw [(m.refused ho.1 ho.2).1]; simp
      · rw [(m.done ho).1]; simp
    rcases hf : f h with ⟨_ | k | _, h'⟩ <;> rw [hf] at hne m <;> simp at hne
    exact m
  · exact absurd rfl hub

/-! ### Removals and insertions -/

theorem rebuildFrom (hi : Inv h.heap none) (hv : view2 h i = some a) {m n : Int} {g : Arr2 α → Res (Arr2 α)}
    (hg : ∀ len t, Dims m n len t → Sound (Dims m n len) (g t)) (hpos : b.Checked → 0 ≤ m ∧ 0 ≤ n) :
    Remakes2 b h i (Heap2.rebuild b i m n g h) ((Op.lift (Arr2.make b m n >>= g) >>= Op.set) a) :=
  Remakes2.rebuild b hi hv hg hpos (lift_set_remade2 b m n a g)

theorem resize2_remakes (hi : Inv h.heap none) (hv : view2 h i = some a) (m n : Int) (p : Bool)
    (hne : if p then ¬ (m = a.rows ∧ n = a.cols) else m * n ≠ a.rows * a.cols) :
    Remakes2 b h i (Heap2.resize b i m n p h) (Arr2.resize b m n p a) := by
  unfold Heap2.resize Arr2.resize
  refine Remakes2.lift hi hv fun _ c1 => Remakes2.lift hi hv fun _ c2 => Remakes2.lift hi hv fun _ _ => ?_
  rw [load_bind hi hv, Op.get_bind]
  have hpos : b.Checked → 0 ≤ m ∧ 0 ≤ n := fun hb => by
    have h1 := assertDebug_ok_checked hb c1
    have h2 := assertDebug_ok_checked hb c2
    simp at h1 h2
    exact ⟨h1, h2⟩
  cases p with
  | true =>
    simp only [if_true] at hne
    simp only [if_pos hne, if_true, lift_lift_bind]
    refine rebuildFrom hi hv (fun len t ht => ?_) hpos
    exact Sound.foldN ht (fun _ _ ht => Sound.foldN ht (fun _ _ ht => sound_put2 ht (sound_rd2 _ _ _) _ _) _) _
  | false =>
    simp only [Bool.false_eq_true, if_false] at hne
    have hne' : ¬ (m = a.rows ∧ n = a.cols) := by rintro ⟨rfl, rfl⟩; exact hne rfl
    simp only [if_pos hne', Bool.false_eq_true, if_false]
    refine Remakes2.lift hi hv fun p hp => Remakes2.lift hi hv fun q hq => ?_
    have e1 := imul_eq_ok hp
    have e2 := imul_eq_ok hq
    have : p ≠ q := by rw [e1, e2]; exact hne
    simp only [ne_eq, this, not_false_eq_true, if_true]
    have := rebuildFrom (b := b) hi hv (m := m) (n := n) (g := .ok) (fun len t ht => ht) hpos
    have e : (Arr2.make b m n >>= Res.ok : Res (Arr2 α)) = Arr2.make b m n := by
      rcases (Arr2.make b m n : Res (Arr2 α)) with _ | _ | _ <;> rfl
    rw [e] at this
    exact this

theorem resize2_keeps (hi : Inv h.heap none) (hv : view2 h i = some a) (m n : Int) (p : Bool)
    (hne : ¬ if p then ¬ (m = a.rows ∧ n = a.cols) else m * n ≠ a.rows * a.cols) :
    MemOk2 h (Heap2.resize b i m n p h) false (Arr2.resize b m n p a).1 (put2 h i (Arr2.resize b m n p a).2) := by
  have stop : ∀ {β : Type} {x : Res β} {f : β → Op (Heap2 α) Unit} {f' : β → Op (Arr2 α) Unit},
      (∀ c, x = .ok c → MemOk2 h (f c h) false (f' c a).1 (put2 h i (f' c a).2)) →
      MemOk2 h ((Op.lift x >>= f) h) false ((Op.lift x >>= f') a).1 (put2 h i ((Op.lift x >>= f') a).2) := by
    intro β x f f' hf
    cases x with
    | ok a => exact hf a rfl
    | trap k => simp only [Op.lift_trap_bind, put2_same hv]; exact MemOk2.stop hi
    | ub => simp only [Op.lift_ub_bind, put2_same hv]; exact MemOk2.stop hi
  unfold Heap2.resize Arr2.resize
  refine stop fun _ c1 => stop fun _ c2 => stop fun _ _ => ?_
  rw [load_bind hi hv, Op.get_bind]
  by_cases hd : m = a.rows ∧ n = a.cols
  · simp only [hd, and_self, not_true_eq_false, if_false, Op.pure_run, put2_same hv]
    exact MemOk2.stop hi
  · cases p with
    | true => simp [hd] at hne
    | false =>
      simp only [Bool.false_eq_true, if_false, ne_eq, Classical.not_not] at hne
      simp only [if_pos hd, Bool.false_eq_true, if_false]
      refine stop fun p hp => stop fun q hq => ?_
      have e1 := imul_eq_ok hp
      have e2 := imul_eq_ok hq
      have : p = q := by rw [e1, e2]; exact hne
      simp only [ne_eq, this, not_true_eq_false, if_false, Op.set_run]
      refine ⟨hi, rfl, types_eq rfl, fun _ => Iff.rfl, rfl, by simp, fun _ => ⟨rfl, fun k => ?_⟩⟩
      obtain ⟨v1, v2⟩ := view2_some hv
      simp only [put2, view2, Heap2.setDims]
      by_cases hk : k = i
      · subst hk; simp [v1]
      · simp [hk]

theorem removeRows_remakes (hi : Inv h.heap none) (hv : view2 h i = some a) (hs : Shape a) (pos count : Int) :
    Remakes2 b h i (Heap2.removeRows b i pos count h) (Arr2.removeRows b pos count a) := by
  unfold Heap2.removeRows Arr2.removeRows
  refine Remakes2.lift hi hv fun _ c1 => ?_
  rw [load_bind hi hv, Op.get_bind]
  refine Remakes2.lift hi hv fun _ c2 => Remakes2.lift hi hv fun _ c3 => Remakes2.lift hi hv fun m hm => ?_
  simp only [lift_lift_bind]
  refine rebuildFrom hi hv (fun len t ht => ?_) fun hb => ?_
  · exact (sound_copyRows0 ht _ (sound_rd2 a) _).bind fun t ht => sound_copyRows ht _ (sound_rd2 a) _ _ _
  · have h1 := assertDebugM_ok_checked hb c3
    have h2 := assertDebug_ok_checked hb c2
    rcases he : iadd pos count with e | _ | _ <;> rw [he] at h1 <;> simp at h1
    rcases hf : isub e 1 with f | _ | _ <;> rw [hf] at h1 <;> simp at h1
    have e1 := iadd_eq_ok he
    have e2 := isub_eq_ok hf
    have e3 := isub_eq_ok hm
    simp only [validIndex, Bool.and_eq_true, decide_eq_true_eq] at h1 h2
    have := hs.cols
    refine ⟨by omega, ?_⟩
    split <;> omega

theorem removeCols_remakes (hi : Inv h.heap none) (hv : view2 h i = some a) (hs : Shape a) (pos count : Int) :
    Remakes2 b h i (Heap2.removeCols b i pos count h) (Arr2.removeCols b pos count a) := by
  unfold Heap2.removeCols Arr2.removeCols
  refine Remakes2.lift hi hv fun _ c1 => ?_
  rw [load_bind hi hv, Op.get_bind]
  refine Remakes2.lift hi hv fun _ c2 => Remakes2.lift hi hv fun _ c3 => Remakes2.lift hi hv fun m hm => ?_
  simp only [lift_lift_bind]
  refine rebuildFrom hi hv (fun len t ht => ?_) fun hb => ?_
  · exact (sound_copyCols0 ht _ (sound_rd2 a) _).bind fun t ht => sound_copyCols ht _ (sound_rd2 a) _ _ _
  · have h1 := assertDebugM_ok_checked hb c3
    have h2 := assertDebug_ok_checked hb c2
    rcases he : iadd pos count with e | _ | _ <;> rw [he] at h1 <;> simp at h1
    rcases hf : isub e 1 with f | _ | _ <;> rw [hf] at h1 <;> simp at h1
    have e1 := iadd_eq_ok he
    have e2 := isub_eq_ok hf
    have e3 := isub_eq_ok hm
    simp only [validIndex, Bool.and_eq_true, decide_eq_true_eq] at h1 h2
    have := hs.rows
    refine ⟨?_, by omega⟩
    split <;> omega

theorem removeRowLast_remakes (hi : Inv h.heap none) (hv : view2 h i = some a) (hs : Shape a) (k : Int) :
    Remakes2 b h i (Heap2.removeRowLast b i h) (Arr2.removeRowLast b k a) := by
  unfold Heap2.removeRowLast Arr2.removeRowLast
  rw [load_bind hi hv, Op.get_bind]
  exact Remakes2.lift hi hv fun _ _ => removeRows_remakes hi hv hs _ _

theorem removeColLast_remakes (hi : Inv h.heap none) (hv : view2 h i = some a) (hs : Shape a) (k : Int) :
    Remakes2 b h i (Heap2.removeColLast b i h) (Arr2.removeColLast b k a) := by
  unfold Heap2.removeColLast Arr2.removeColLast
  rw [load_bind hi hv, Op.get_bind]
  exact Remakes2.lift hi hv fun _ _ => removeCols_remakes hi hv hs _ _

theorem removeRowsBack_remakes (hi : Inv h.heap none) (hv : view2 h i = some a) (hs : Shape a) (c : Int) :
    Remakes2 b h i (Heap2.removeRowsBack b i c h) (Arr2.removeRowsBack b c a) := by
  unfold Heap2.removeRowsBack Arr2.removeRowsBack
  rw [load_bind hi hv, Op.get_bind]
  exact Remakes2.lift hi hv fun _ _ => removeRows_remakes hi hv hs _ _

theorem removeColsBack_remakes (hi : Inv h.heap none) (hv : view2 h i = some a) (hs : Shape a) (c : Int) :
    Remakes2 b h i (Heap2.removeColsBack b i c h) (Arr2.removeColsBack b c a) := by
  unfold Heap2.removeColsBack Arr2.removeColsBack
  rw [load_bind hi hv, Op.get_bind]
  exact Remakes2.lift hi hv fun _ _ => removeCols_remakes hi hv hs _ _

theorem removeRowsVec_remakes (hi : Inv h.heap none) (hv : view2 h i = some a) (hs : Shape a) {idx : List Int}
    (hx : idx ≠ []) : Remakes2 b h i (Heap2.removeRowsVec b i idx h) (Arr2.removeRowsVec b idx a) := by
  unfold Heap2.removeRowsVec Arr2.removeRowsVec
  have : idx.isEmpty = false := by simpa using hx
  simp only [this, Bool.false_eq_true, if_false]
  rw [load_bind hi hv, Op.get_bind]
  refine Remakes2.lift hi hv fun ci _ => ?_
  simp only [lift_lift_bind]
  refine rebuildFrom hi hv (fun len t ht => ?_) fun hb => ?_
  · refine Sound.foldN ht (fun _ _ ht => Sound.foldN ht (fun _ _ ht => ?_) _) _
    exact (sound_rd ci _).bind fun k _ => sound_put2 ht (sound_rd2 _ _ _) _ _
  · have := hs.cols
    refine ⟨by simp [len], ?_⟩
    split <;> omega

theorem removeColsVec_remakes (hi : Inv h.heap none) (hv : view2 h i = some a) (hs : Shape a) {idx : List Int}
    (hx : idx ≠ []) : Remakes2 b h i (Heap2.removeColsVec b i idx h) (Arr2.removeColsVec b idx a) := by
  unfold Heap2.removeColsVec Arr2.removeColsVec
  have : idx.isEmpty = false := by simpa using hx
  simp only [this, Bool.false_eq_true, if_false]
  rw [load_bind hi hv, Op.get_bind]
  refine Remakes2.lift hi hv fun ci _ => ?_
  simp only [lift_lift_bind]
  refine rebuildFrom hi hv (fun len t ht => ?_) fun hb => ?_
  · refine Sound.foldN ht (fun _ _ ht => Sound.foldN ht (fun _ _ ht => ?_) _) _
    exact (sound_rd ci _).bind fun k _ => sound_put2 ht (sound_rd2 _ _ _) _ _
  · have := hs.rows
    refine ⟨?_, by simp [len]⟩
    split <;> omega

theorem insertRow_remakes (hi : Inv h.heap none) (hv : view2 h i = some a) (hs : Shape a) (pos : Int) (xs : List α) :
    Remakes2 b h i (Heap2.insertRow b i pos xs h) (Arr2.insertRow b pos (Src.ofList xs) a) := by
  unfold Heap2.insertRow Arr2.insertRow
  rw [load_bind hi hv, Op.get_bind]
  refine Remakes2.lift hi hv fun _ c1 => ?_
  simp only [show (Src.ofList xs : Src (Arr2 α) α).size = len xs from rfl]
  by_cases hc : a.rows = 0 ∧ a.cols = 0 ∧ len xs ≠ 0
  · simp only [if_pos hc]
    refine Remakes2.modify (g := Arr2.copyLinear (len xs) (Src.ofList xs : Src (Arr2 α) α).un) hv
      (resize2_remakes hi hv _ _ _ (by simp [hc.1])) fun t => ?_
    exact copyLinear_dims ⟨rfl, rfl, rfl⟩ _ (fun _ _ => sound_rd xs _)
  · simp only [if_neg hc]
    refine Remakes2.lift hi hv fun _ c1 => Remakes2.lift hi hv fun m hm => ?_
    simp only [lift_lift_bind]
    have e1 := iadd_eq_ok hm
    have h1 := hs.rows
    have h2 := hs.cols
    have := rebuildFrom (b := b) hi hv (m := m) (n := a.cols) (g := fun tmp => do
      let st ← Arr2.insertRowLoop a pos (len xs) (rd xs) tmp
      pure st.2) (fun len t ht =>
        (sound_insertRowLoop ht a pos _ (fun i => sound_rd xs i)).bind fun st hst => hst) (fun hb => ⟨by omega, h2⟩)
    have e : ∀ x : Res (Nat × Arr2 α), (Op.lift (x >>= fun st => (pure st.2 : Res (Arr2 α))) >>= Op.set) a =
        (Op.lift x >>= fun st => Op.set st.2) a := by
      intro x
      rcases x with _ | _ | _ <;> rfl
    rw [← res_bind_assoc, e] at this
    exact this

theorem insertCol_remakes (hi : Inv h.heap none) (hv : view2 h i = some a) (hs : Shape a) (pos : Int) (xs : List α) :
    Remakes2 b h i (Heap2.insertCol b i pos xs h) (Arr2.insertCol b pos (Src.ofList xs) a) := by
  unfold Heap2.insertCol Arr2.insertCol
  rw [load_bind hi hv, Op.get_bind]
  refine Remakes2.lift hi hv fun _ c1 => ?_
  simp only [show (Src.ofList xs : Src (Arr2 α) α).size = len xs from rfl]
  by_cases hc : a.rows = 0 ∧ a.cols = 0 ∧ len xs ≠ 0
  · simp only [if_pos hc]
    refine Remakes2.modify (g := Arr2.copyLinear (len xs) (Src.ofList xs : Src (Arr2 α) α).un) hv
      (resize2_remakes hi hv _ _ _ (by simp [hc.2.1])) fun t => ?_
    exact copyLinear_dims ⟨rfl, rfl, rfl⟩ _ (fun _ _ => sound_rd xs _)
  · simp only [if_neg hc]
    refine Remakes2.lift hi hv fun _ c1 => Remakes2.lift hi hv fun m hm => ?_
    simp only [lift_lift_bind]
    have e1 := iadd_eq_ok hm
    have h1 := hs.rows
    have h2 := hs.cols
    exact rebuildFrom hi hv (fun len t ht => sound_insertColLoop ht a pos _ (fun i => sound_rd xs i))
      (fun hb => ⟨h1, by omega⟩)

theorem insertRowBack_remakes (hi : Inv h.heap none) (hv : view2 h i = some a) (hs : Shape a) (xs : List α) :
    Remakes2 b h i (Heap2.insertRowBack b i xs h) (Arr2.insertRowBack b (Src.ofList xs) a) := by
  unfold Heap2.insertRowBack Arr2.insertRowBack
  rw [load_bind hi hv, Op.get_bind]
  exact insertRow_remakes hi hv hs _ _

theorem insertColBack_remakes (hi : Inv h.heap none) (hv : view2 h i = some a) (hs : Shape a) (xs : List α) :
    Remakes2 b h i (Heap2.insertColBack b i xs h) (Arr2.insertColBack b (Src.ofList xs) a) := by
  unfold Heap2.insertColBack Arr2.insertColBack
  rw [load_bind hi hv, Op.get_bind]
  exact insertCol_remakes hi hv hs _ _

variable {j : Nat} {c : Arr2 α} {src : Src2 (Arr2 α) α}

/-- The operand `src` of a member function of `a` is the array `c`. -/
structure IsOperand (src : Src2 (Arr2 α) α) (a c : Arr2 α) : Prop where
  rows : src.rows = c.rows
  cols : src.cols = c.cols
  un : src.un a = rd c.data
  un2 : src.un2 a = Arr2.rd2 c
  array : src.array = true

theorem resizeAndAssignFrom_remakes (hi : Inv h.heap none) (hv : view2 h i = some a) (hc : Shape c)
    (ho : IsOperand src a c) :
    Remakes2 b h i (Heap2.resizeAndAssignFrom b i c h) (Arr2.resizeAndAssign b src a) := by
  unfold Heap2.resizeAndAssignFrom Arr2.resizeAndAssign Arr2.makeFrom
  rw [Op.get_bind]
  have e : ({ src with un := fun _ => src.un a, un2 := fun _ => src.un2 a } : Src2 (Arr2 α) α) = Arr2.toSrc c := by
    obtain ⟨h1, h2, h3, h4, h5⟩ := ho
    cases src
    simp only at h1 h2 h3 h4 h5
    subst h1 h2 h5
    simp only [Arr2.toSrc, h3, h4]
  rw [e]
  refine rebuildFrom hi hv (fun len t ht => ?_) fun _ => ⟨hc.rows, hc.cols⟩
  obtain ⟨h1, h2⟩ := copyLinear_dims ht (c.rows * c.cols) (un := (Arr2.toSrc c : Src2 (Arr2 α) α).un)
    (fun _ _ => sound_rd _ _)
  have hcp : Arr2.copy (Arr2.toSrc c) t = Arr2.copyLinear (c.rows * c.cols) (Arr2.toSrc c : Src2 (Arr2 α) α).un t := rfl
  rw [← hcp] at h1 h2
  rcases hh : (Arr2.copy (Arr2.toSrc c) t).1 with _ | k | _
  · exact h1
  · exact absurd hh (h2 k)
  · trivial

theorem resizeAndAssign2_remakes (hi : Inv h.heap none) (hv : view2 h i = some a) (hvj : view2 h j = some c)
    (hc : Shape c) (ho : IsOperand src a c) :
    Remakes2 b h i (Heap2.resizeAndAssign b i j h) (Arr2.resizeAndAssign b src a) := by
  unfold Heap2.resizeAndAssign
  rw [load_bind hi hvj]
  exact resizeAndAssignFrom_remakes hi hv hc ho

theorem insertRows_remakes (hi : Inv h.heap none) (hv : view2 h i = some a) (hs : Shape a)
    (hvj : view2 h j = some c) (hc : Shape c) (ho : IsOperand src a c) (pos : Int) :
    Remakes2 b h i (Heap2.insertRows b i pos j h) (Arr2.insertRows b pos src a) := by
  unfold Heap2.insertRows Arr2.insertRows
  rw [load_bind hi hv, load_bind hi hvj, Op.get_bind]
  refine Remakes2.lift hi hv fun _ c1 => ?_
  by_cases hz : a.rows = 0 ∧ a.cols = 0
  · simp only [if_pos hz]
    exact resizeAndAssignFrom_remakes hi hv hc ho
  · simp only [if_neg hz, ho.rows, ho.cols, ho.un2]
    refine Remakes2.lift hi hv fun _ c1 => Remakes2.lift hi hv fun m hm => ?_
    simp only [lift_lift_bind]
    have e1 := iadd_eq_ok hm
    have h1 := hs.rows
    have h2 := hs.cols
    have h3 := hc.rows
    refine rebuildFrom hi hv (fun len t ht => ?_) (fun hb => ⟨by omega, h2⟩)
    exact (sound_copyRows0 ht _ (sound_rd2 a) _).bind fun t ht =>
      (sound_copyRows ht _ (sound_rd2 c) _ _ _).bind fun t ht => sound_copyRows ht _ (sound_rd2 a) _ _ _

theorem insertCols_remakes (hi : Inv h.heap none) (hv : view2 h i = some a) (hs : Shape a)
    (hvj : view2 h j = some c) (hc : Shape c) (ho : IsOperand src a c) (pos : Int) :
    Remakes2 b h i (Heap2.insertCols b i pos j h) (Arr2.insertCols b pos src a) := by
  unfold Heap2.insertCols Arr2.insertCols
  rw [load_bind hi hv, load_bind hi hvj, Op.get_bind]
  refine Remakes2.lift hi hv fun _ c1 => ?_
  by_cases hz : a.rows = 0 ∧ a.cols = 0
  · simp only [if_pos hz]
    exact resizeAndAssignFrom_remakes hi hv hc ho
  · simp only [if_neg hz, ho.rows, ho.cols, ho.un2]
    refine Remakes2.lift hi hv fun _ c1 => Remakes2.lift hi hv fun m hm => ?_
    simp only [lift_lift_bind]
    have e1 := iadd_eq_ok hm
    have h1 := hs.rows
    have h2 := hs.cols
    have h3 := hc.cols
    refine rebuildFrom hi hv (fun len t ht => ?_) (fun hb => ⟨h1, by omega⟩)
    exact (sound_copyCols0 ht _ (sound_rd2 a) _).bind fun t ht =>
      (sound_copyCols ht _ (sound_rd2 c) _ _ _).bind fun t ht => sound_copyCols ht _ (sound_rd2 a) _ _ _

theorem insertRowsBack_remakes (hi : Inv h.heap none) (hv : view2 h i = some a) (hs : Shape a)
    (hvj : view2 h j = some c) (hc : Shape c) (ho : IsOperand src a c) :
    Remakes2 b h i (Heap2.insertRowsBack b i j h) (Arr2.insertRowsBack b src a) := by
  unfold Heap2.insertRowsBack Arr2.insertRowsBack
  rw [load_bind hi hv, Op.get_bind]
  exact insertRows_remakes hi hv hs hvj hc ho _

theorem insertColsBack_remakes (hi : Inv h.heap none) (hv : view2 h i = some a) (hs : Shape a)
    (hvj : view2 h j = some c) (hc : Shape c) (ho : IsOperand src a c) :
    Remakes2 b h i (Heap2.insertColsBack b i j h) (Arr2.insertColsBack b src a) := by
  unfold Heap2.insertColsBack Arr2.insertColsBack
  rw [load_bind hi hv, Op.get_bind]
  exact insertCols_remakes hi hv hs hvj hc ho _

end

end Spp
