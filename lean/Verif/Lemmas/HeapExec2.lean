import Verif.Lemmas.HeapStmts2

/- All two-dimensional statements on the heap. -/

set_option linter.unusedSectionVars false

namespace Spp
open Spec

variable {α : Type} [Inhabited α]

/-- The live arrays are those of `v`. -/
def HoldsV (h : Heap2 α) (v : Vars2 α) : Prop := ∀ i a, view2 h i = some a → a = v i

/-- The contents after several changes. -/
def puts2 (h : Heap2 α) (v : Vars2 α) : Nat → Option (Arr2 α) :=
  fun k => if h.heap.objs k = none then none else some (v k)

theorem view2_none_iff {h : Heap2 α} (hi : Inv h.heap none) (k : Nat) : view2 h k = none ↔ h.heap.objs k = none := by
  rw [← view_none_iff hi]; simp [view2]

theorem holdsV_view {h : Heap2 α} (hi : Inv h.heap none) {v : Vars2 α} (hs : HoldsV h v) {k : Nat}
    (hk : h.heap.objs k ≠ none) : view2 h k = some (v k) := by
  cases hv : view2 h k with
  | none => rw [view2_none_iff hi] at hv; exact absurd hv hk
  | some l => rw [hs k l hv]

theorem puts2_same {h : Heap2 α} (hi : Inv h.heap none) {v : Vars2 α} (hs : HoldsV h v) : puts2 h v = view2 h := by
  funext k
  unfold puts2
  by_cases hk : h.heap.objs k = none
  · rw [if_pos hk, (view2_none_iff hi k).2 hk]
  · rw [if_neg hk, holdsV_view hi hs hk]

theorem puts2_put2 {h : Heap2 α} (hi : Inv h.heap none) {v : Vars2 α} (hs : HoldsV h v) {i : Nat}
    (hk : h.heap.objs i ≠ none) (a : Arr2 α) : puts2 h (v.put i a) = put2 h i a := by
  funext k
  unfold puts2 put2 Vars2.put
  by_cases hki : k = i
  · subst hki; simp [hk]
  · simp only [hki, if_false]
    exact congrFun (puts2_same hi hs) k

theorem HoldsV.data {h : Heap2 α} {v : Vars2 α} (hs : HoldsV h v) : Holds h.heap (fun k => (v k).data) := by
  intro k l hv
  have := hs k ⟨(h.dims k).1, (h.dims k).2, l⟩ (by unfold view2; rw [hv]; rfl)
  simp [← this]

theorem HoldsV.dims {h : Heap2 α} (hi : Inv h.heap none) {v : Vars2 α} (hs : HoldsV h v) {k : Nat}
    (hk : h.heap.objs k ≠ none) : h.dims k = ((v k).rows, (v k).cols) :=
  (view2_some (holdsV_view hi hs hk)).2

theorem MemOk2.ofVars {h : Heap2 α} {x : Res Unit × Heap α} {r : Res Unit} {s' : Vars α}
    (m : MemOk h.heap x false r (puts h.heap s')) {res : Res Unit × Heap2 α} (h1 : res.1 = x.1) (h2 : res.2.heap = x.2)
    {v' : Vars2 α} (hd : ∀ k, h.heap.objs k ≠ none → (⟨(res.2.dims k).1, (res.2.dims k).2, s' k⟩ : Arr2 α) = v' k) :
    MemOk2 h res false r (puts2 h v') := by
  refine MemOk2.ofData m h1 h2 (by simp) fun _ k => ?_
  unfold puts puts2
  by_cases hk : h.heap.objs k = none
  · simp [hk]
  · simp [hk, hd k hk]

section
variable {b : Build} {h : Heap2 α} {v : Vars2 α} {i j : Nat}

theorem copyAssign2_mem (hi : Inv h.heap none) (hs : HoldsV h v) (hli : h.heap.objs i ≠ none)
    (hlj : h.heap.objs j ≠ none) :
    MemOk2 h (Heap2.copyAssign b i j h) false (Vars2.copyAssign b i j v).1 (puts2 h (Vars2.copyAssign b i j v).2) := by
  have hdi := hs.dims hi hli
  have hdj := hs.dims hi hlj
  unfold Heap2.copyAssign Vars2.copyAssign
  rw [Op.get_bind, Op.get_bind, hdi, hdj]
  simp only
  rcases assertDebug b ((v i).rows == (v j).rows && (v i).cols == (v j).cols) with _ | k | _
  · simp only [Op.lift_ok_bind]
    have m := copyAssign_mem (i := i) (j := j) b hi hs.data hli hlj
    by_cases hij : i = j
    · subst hij
      simp only [Vars.copyAssign, ne_eq, not_true_eq_false, if_false, Op.pure_run] at m ⊢
      exact MemOk2.ofVars m rfl rfl fun k hk => by
        have := hs.dims hi hk
        simp [Heap2.onData, this]
    · simp only [Vars.copyAssign, ne_eq, hij, not_false_eq_true, if_true, Op.get_bind] at m ⊢
      refine MemOk2.ofVars m rfl rfl fun k hk => ?_
      have := hs.dims hi hk
      simp only [Heap2.onData, this, Vars.on, Vars.put, Vars2.on, Vars2.put]
      by_cases hki : k = i
      · subst hki; simp
      · simp [hki]
  · simp only [Op.lift_trap_bind, puts2_same hi hs]; exact MemOk2.stop hi
  · simp only [Op.lift_ub_bind, puts2_same hi hs]; exact MemOk2.stop hi

theorem moveAssign2_mem (hi : Inv h.heap none) (hs : HoldsV h v) (ht : SameType h.heap i j) :
    MemOk2 h (Heap2.moveAssign b i j h) false (Vars2.moveAssign b i j v).1 (puts2 h (Vars2.moveAssign b i j v).2) := by
  have hli : h.heap.objs i ≠ none := by obtain ⟨oi, oj, h1, h2, _⟩ := ht; rw [h1]; simp
  have hlj : h.heap.objs j ≠ none := by obtain ⟨oi, oj, h1, h2, _⟩ := ht; rw [h2]; simp
  have hdi := hs.dims hi hli
  have hdj := hs.dims hi hlj
  unfold Heap2.moveAssign Vars2.moveAssign
  rw [Op.get_bind, Op.get_bind, hdi, hdj]
  simp only
  rcases assertNormal b ((v i).rows == (v j).rows && (v i).cols == (v j).cols) with _ | k | _
  · simp only [Op.lift_ok_bind]
    have hrun : (Heap2.setDims j (0, 0) >>= fun _ => Heap2.onData (Heap.moveAssign b i j) : Op (Heap2 α) Unit) h =
        ((Heap.moveAssign b i j h.heap).1,
          ⟨(Heap.moveAssign b i j h.heap).2, fun k => if k = j then (0, 0) else h.dims k⟩) := rfl
    rw [hrun, Op.set_bind]
    clear hrun
    have m := moveAssign_mem b hi hs.data ht
    generalize Heap.moveAssign b i j h.heap = y at m ⊢
    by_cases hij : i = j
    · subst hij
      simp only [Vars.moveAssign, ne_eq, not_true_eq_false, if_false, Op.pure_run] at m ⊢
      refine MemOk2.ofVars m rfl rfl fun k hk => ?_
      have := hs.dims hi hk
      simp only [Vars2.put]
      by_cases hki : k = i
      · subst hki; simp
      · simp [hki, this]
    · have hdat : ∀ k, (v.put j { v j with rows := 0, cols := 0 } k).data = (v k).data := by
        intro k
        unfold Vars2.put
        by_cases hk : k = j
        · subst hk; simp
        · simp [hk]
      simp only [Vars.moveAssign, ne_eq, hij, not_false_eq_true, if_true, Op.get_bind, hdat] at m ⊢
      generalize assertNormal b (len (v i).data == len (v j).data) = z at m ⊢
      rcases z with _ | k | _
      · simp only [Op.lift_ok_bind, Op.set_run] at m ⊢
        refine MemOk2.ofVars m rfl rfl fun k hk => ?_
        have := hs.dims hi hk
        have e : (Vars.swap i j >>= fun _ => Op.get >>= fun s => Op.set (s.put j []) : Op (Vars α) Unit)
            (fun k => (v k).data) = (.ok (), Vars.put (fun k => if k = i then (v j).data else
              if k = j then (v i).data else (v k).data) j []) := rfl
        rw [e]
        simp only [Vars2.put, Vars.put]
        by_cases hki : k = i
        · subst hki; simp [hij, this]
        · by_cases hkj : k = j
          · subst hkj; simp
          · simp [hki, hkj, this]
      · simp only [Op.lift_trap_bind] at m ⊢
        refine MemOk2.ofVars m rfl rfl fun k hk => ?_
        have := hs.dims hi hk
        simp only [Vars2.put]
        by_cases hkj : k = j
        · subst hkj; simp
        · simp [hkj, this]
      · simp only [Op.lift_ub_bind] at m ⊢
        refine MemOk2.ofVars m rfl rfl fun k hk => ?_
        have := hs.dims hi hk
        simp only [Vars2.put]
        by_cases hkj : k = j
        · subst hkj; simp
        · simp [hkj, this]
  · simp only [Op.lift_trap_bind, puts2_same hi hs]; exact MemOk2.stop hi
  · simp only [Op.lift_ub_bind, puts2_same hi hs]; exact MemOk2.stop hi

theorem swap2_mem (hi : Inv h.heap none) (hs : HoldsV h v) (ht : SameType h.heap i j) :
    MemOk2 h (Heap2.swap i j h) false (Vars2.swap i j v).1 (puts2 h (Vars2.swap i j v).2) := by
  have hli : h.heap.objs i ≠ none := by obtain ⟨oi, oj, h1, h2, _⟩ := ht; rw [h1]; simp
  have hlj : h.heap.objs j ≠ none := by obtain ⟨oi, oj, h1, h2, _⟩ := ht; rw [h2]; simp
  have m := swap_mem hi hs.data ht
  unfold Heap2.swap
  rw [Op.get_bind]
  refine MemOk2.ofVars m rfl rfl fun k hk => ?_
  have h1 := hs.dims hi hk
  have h2 := hs.dims hi hli
  have h3 := hs.dims hi hlj
  simp only [Op.bind_run, Heap2.setDims, Heap2.onData, Vars.swap, Vars2.swap]
  by_cases hki : k = i
  · simp [hki, h3]
  · by_cases hkj : k = j
    · subst hkj; simp [hki, h2]
    · simp [hki, hkj, h1]

theorem resizeAndAssignMove2_mem (hi : Inv h.heap none) (hs : HoldsV h v) (ht : SameType h.heap i j) :
    MemOk2 h (Heap2.resizeAndAssignMove i j h) false (Vars2.resizeAndAssignMove i j v).1
      (puts2 h (Vars2.resizeAndAssignMove i j v).2) := by
  have hli : h.heap.objs i ≠ none := by obtain ⟨oi, oj, h1, h2, _⟩ := ht; rw [h1]; simp
  have hlj : h.heap.objs j ≠ none := by obtain ⟨oi, oj, h1, h2, _⟩ := ht; rw [h2]; simp
  have m := resizeAndAssignMove_mem hi hs.data ht
  have hsw := (swap_mem hi hs.data ht).done (by simp)
  have hrun : Heap2.resizeAndAssignMove i j h = ((Heap.resizeAndAssignMove i j h.heap).1,
      ⟨(Heap.resizeAndAssignMove i j h.heap).2,
        fun k => if k = j then (0, 0) else if k = i then h.dims j else if k = j then h.dims i else h.dims k⟩) := by
    have e := hsw.1
    unfold Heap2.resizeAndAssignMove Heap.resizeAndAssignMove Heap2.swap
    rw [Op.bind_run, Op.get_bind]
    simp only [Op.bind_run, Heap2.setDims, Heap2.onData]
    rcases hh : Heap.swap i j h.heap with ⟨_ | _ | _, h'⟩
    · rfl
    · rw [hh] at e; simp [Vars.swap] at e
    · rw [hh] at e; simp [Vars.swap] at e
  rw [hrun]
  refine MemOk2.ofVars m rfl rfl fun k hk => ?_
  have h1 := hs.dims hi hk
  have h3 := hs.dims hi hlj
  have e1 : Vars.resizeAndAssignMove i j (fun k => (v k).data) = (.ok (), Vars.put (fun k => if k = i then (v j).data else
    if k = j then (v i).data else (v k).data) j []) := rfl
  have e2 : Vars2.resizeAndAssignMove i j v = (.ok (), Vars2.put (fun k => if k = i then v j else
    if k = j then v i else v k) j Arr2.empty) := rfl
  rw [e1, e2]
  simp only [Vars.put, Vars2.put, Arr2.empty]
  by_cases hkj : k = j
  · subst hkj; simp
  · by_cases hki : k = i
    · subst hki
      simp [hkj, h3]
    · simp [hki, hkj, h1]

theorem assignList2_mem {a : Arr2 α} (hi : Inv h.heap none) (hv : view2 h i = some a) (L : List (List α))
    (hub : (Arr2.assignList b L a).1 ≠ .ub) :
    MemOk2 h (Heap2.assignList b i L h) (decide (L.length * (L.getD 0 []).length ≠ 0)) (Arr2.assignList b L a).1
      (put2 h i (Arr2.assignList b L a).2) := by
  have hprod : (Arr2.listSizes L).1 * (Arr2.listSizes L).2 = ((L.length * (L.getD 0 []).length : Nat) : Int) := by
    cases L with
    | nil => simp [Arr2.listSizes]
    | cons r rs =>
      simp only [Arr2.listSizes, List.length_cons, List.getD_cons_zero]
      split
      · rename_i hz; simp [hz.2]
      · push_cast; rfl
  unfold Heap2.assignList
  rw [load_bind hi hv]
  rcases hp : imul (Arr2.listSizes L).1 (Arr2.listSizes L).2 with p | k | _
  · simp only [Op.lift_ok_bind]
    have hpe := imul_eq_ok hp
    have hq : decide (L.length * (L.getD 0 []).length ≠ 0) = decide (0 < p) := by
      rw [hpe, hprod]
      congr 1
      rw [eq_iff_iff]
      omega
    rw [hq]
    -- the whole computation of the new elements
    let g : List α → Arr2 α → Res (Arr2 α) := fun old tmp => do
      assertDebug b (Arr2.validList L)
      let t ← Arr2.copyList L tmp
      assertDebug b (a.rows == t.rows && a.cols == t.cols)
      assertNormal b (a.rows == t.rows && a.cols == t.cols)
      assertNormal b (len old == len t.data)
      pure t
    have hg : (fun old tmp => do
        assertDebug b (decide ((Arr2.listSizes L).1 ≥ 0))
        assertDebug b (decide ((Arr2.listSizes L).2 ≥ 0))
        assertDebug b (semiValid (Arr2.listSizes L).1 (Arr2.listSizes L).2)
        assertDebug b (Arr2.validList L)
        let t ← Arr2.copyList L ⟨(Arr2.listSizes L).1, (Arr2.listSizes L).2, tmp⟩
        assertDebug b (a.rows == t.rows && a.cols == t.cols)
        assertNormal b (a.rows == t.rows && a.cols == t.cols)
        assertNormal b (len old == len t.data)
        pure t.data : List α → List α → Res (List α)) = (fun old tmp => do
        assertDebug b (decide ((Arr2.listSizes L).1 ≥ 0))
        assertDebug b (decide ((Arr2.listSizes L).2 ≥ 0))
        assertDebug b (semiValid (Arr2.listSizes L).1 (Arr2.listSizes L).2)
        let t ← g old ⟨(Arr2.listSizes L).1, (Arr2.listSizes L).2, tmp⟩
        pure t.data) := by
      funext old tmp
      simp only [g, res_bind_assoc]
      rfl
    rw [hg]
    have hasg : ∀ x, x = (Arr2.make b (Arr2.listSizes L).1 (Arr2.listSizes L).2 >>= g a.data) →
        Arr2.assignList b L a = (x >>= fun _ => .ok (), { a with data := newData x a }) := by
      intro x hx
      subst hx
      unfold Arr2.assignList Arr2.makeList
      rcases Arr2.make b (Arr2.listSizes L).1 (Arr2.listSizes L).2 with t | _ | _
      · simp only [Res.ok_bind, g]
        rcases assertDebug b (Arr2.validList L) with _ | _ | _
        · simp only [Res.ok_bind]
          rcases Arr2.copyList L t with t | _ | _
          · simp only [Res.ok_bind, Op.lift_ok_bind, Op.get_bind]
            rcases assertDebug b (a.rows == t.rows && a.cols == t.cols) with _ | _ | _
            · simp only [Res.ok_bind, Op.lift_ok_bind]
              rcases assertNormal b (a.rows == t.rows && a.cols == t.cols) with _ | _ | _
              · simp only [Res.ok_bind, Op.lift_ok_bind]
                rcases assertNormal b (len a.data == len t.data) with _ | _ | _ <;> rfl
              · rfl
              · rfl
            · rfl
            · rfl
          · rfl
          · rfl
        · rfl
        · rfl
      · rfl
      · rfl
    have hx := make_eq b hp (g a.data)
    rw [hasg _ rfl] at hub ⊢
    have hxub : (Arr2.make b (Arr2.listSizes L).1 (Arr2.listSizes L).2 >>= g a.data) ≠ .ub := by
      intro hh; rw [hh] at hub; exact hub rfl
    have m := rebuild2_mem b hi hv (p := p) (g := g) (by
      intro h0 t' _ ht
      simp only [g] at ht
      rcases hc1 : assertDebug b (Arr2.validList L) with _ | _ | _ <;> rw [hc1] at ht
      · simp only [Res.ok_bind] at ht
        have hs := sound_copyList (m := (Arr2.listSizes L).1) (n := (Arr2.listSizes L).2) (len := p.toNat)
          (t := ⟨(Arr2.listSizes L).1, (Arr2.listSizes L).2, List.replicate p.toNat default⟩) ⟨rfl, rfl, by simp⟩ L
        rcases hc2 : Arr2.copyList L ⟨(Arr2.listSizes L).1, (Arr2.listSizes L).2, List.replicate p.toNat default⟩ with
          t | _ | _ <;> rw [hc2] at ht hs
        · simp only [Res.ok_bind, Res.bind_eq_ok] at ht
          obtain ⟨_, _, _, _, _, _, h4⟩ := ht
          cases h4
          exact hs.2.2
        · simp at ht
        · simp at ht
      · simp at ht
      · simp at ht) rfl hx hxub
    refine MemOk2.ofData m rfl rfl (fun _ _ => rfl) fun _ k => ?_
    obtain ⟨v1, v2⟩ := view2_some hv
    simp only [put1, put2]
    by_cases hk : k = i
    · subst hk
      simp [Heap2.onData, v2]
    · simp only [hk, if_false]; rfl
  · exfalso
    rcases imul_cases (Arr2.listSizes L).1 (Arr2.listSizes L).2 with ⟨_, e⟩ | ⟨_, e⟩ <;> rw [e] at hp <;> cases hp
  · simp [Arr2.assignList, Arr2.makeList, Arr2.make, hp] at hub

theorem assign2_mem {a c : Arr2 α} (hi : Inv h.heap none) (hv : view2 h i = some a) (hvj : view2 h j = some c)
    {src : Src2 (Arr2 α) α} (hsrc : src = if i = j then
      ⟨a.rows, a.cols, fun a k => rd a.data k, fun a p q => Arr2.rd2 a p q, true⟩ else Arr2.toSrc c) :
    MemOk2 h (Heap2.assign b i j h) false (Arr2.assign b src a).1 (put2 h i (Arr2.assign b src a).2) := by
  unfold Heap2.assign Arr2.assign
  rw [load_bind hi hv, load_bind hi hvj, Op.get_bind]
  have hrc : src.rows = c.rows ∧ src.cols = c.cols := by
    subst hsrc
    by_cases hij : i = j
    · subst hij
      rw [hv] at hvj; cases hvj
      simp
    · simp [hij, Arr2.toSrc]
  rw [hrc.1, hrc.2]
  rcases assertDebug b (a.rows == c.rows && a.cols == c.cols) with _ | k | _
  · simp only [Op.lift_ok_bind]
    rw [← hsrc]
    refine modify2_mem hi hv ?_
    unfold Arr2.copy
    have harr : src.array = true := by subst hsrc; split <;> rfl
    rw [if_pos harr]
    refine (copyLinear_dims ⟨rfl, rfl, rfl⟩ _ fun t k => ?_).1
    subst hsrc
    split
    · exact sound_rd _ _
    · exact sound_rd _ _
  · simp only [Op.lift_trap_bind, put2_same hv]; exact MemOk2.stop hi
  · simp only [Op.lift_ub_bind, put2_same hv]; exact MemOk2.stop hi

end

/-! ### All statements -/

theorem isMat_shape {a : Arr2 α} {M : Mat α} (h : IsMat a M) : Shape a :=
  ⟨by rw [h.rows]; omega, by rw [h.cols]; omega, by rw [h.rows, h.cols, h.size]; push_cast; rfl,
    by rw [h.rows, h.cols]; have := h.zero; omega⟩

theorem operand_isOperand {v : Vars2 α} {i j : Nat} : IsOperand (v.operand i j) (v i) (v j) := by
  unfold Vars2.operand
  by_cases hij : i = j
  · subst hij; simp only [if_true]; exact ⟨rfl, rfl, rfl, rfl, rfl⟩
  · simp only [hij, if_false]; exact ⟨rfl, rfl, rfl, rfl, rfl⟩

/-- The request of statement `c`, which ends in state `v'` with outcome `r`. -/
def Asked (b : Build) (S : Nat → Mat α) (c : Stmt2 α) (q : Bool) (r : Res Unit) (v' : Vars2 α) : Prop :=
  (∀ i L, c = .call i (.assignList L) → q = decide (L.length * (L.getD 0 []).length ≠ 0)) ∧
  ((∀ i L, c ≠ .call i (.assignList L)) →
    (r = .ok () → (q = true ↔ c.rebuilds S = true ∧ (v' c.target).data ≠ [])) ∧
    (b.Checked → r ≠ .ok () → q = false))

/-- Every statement on the heap does what it does on arrays with dimensions, unless it asks for memory and the request
is refused. -/
theorem hexec2_mem (b : Build) {h : Heap2 α} (hi : Inv h.heap none) {v : Vars2 α} {S : Nat → Mat α} {c : Stmt2 α}
    (hw : c.WellTyped h) (hs : HoldsV h v) (hS : AreMats v S) (hub : (exec2 b c v).1 ≠ .ub) :
    ∃ q, MemOk2 h (hexec2 b c h) q (exec2 b c v).1 (puts2 h (exec2 b c v).2) ∧
      Asked b S c q (exec2 b c v).1 (exec2 b c v).2 := by
  have remake : ∀ {i : Nat} {res : Res Unit × Heap2 α} {op : Op (Arr2 α) Unit}, h.heap.objs i ≠ none → c.target = i →
      c.rebuilds S = true → (∀ i L, c ≠ .call i (.assignList L)) → (Vars2.on i op v).1 ≠ .ub →
      Remakes2 b h i res (op (v i)) →
      ∃ q, MemOk2 h res q (Vars2.on i op v).1 (puts2 h (Vars2.on i op v).2) ∧
        Asked b S c q (Vars2.on i op v).1 (Vars2.on i op v).2 := by
    intro i res op hl ht hr hne hu hm
    obtain ⟨q, m1, m2, m3⟩ := hm hu
    simp only [Vars2.on, puts2_put2 hi hs hl]
    refine ⟨q, m1, fun i L e => absurd e (hne i L), fun _ => ⟨fun h1 => ?_, m3⟩⟩
    simp only [hr, ht, Vars2.put, if_true, true_and]
    exact m2 h1
  have inplace : ∀ {i : Nat} {res : Res Unit × Heap2 α} {op : Op (Arr2 α) Unit}, h.heap.objs i ≠ none →
      c.rebuilds S = false → (∀ i L, c ≠ .call i (.assignList L)) →
      MemOk2 h res false (op (v i)).1 (put2 h i (op (v i)).2) →
      ∃ q, MemOk2 h res q (Vars2.on i op v).1 (puts2 h (Vars2.on i op v).2) ∧
        Asked b S c q (Vars2.on i op v).1 (Vars2.on i op v).2 := by
    intro i res op hl hr hne hm
    simp only [Vars2.on, puts2_put2 hi hs hl]
    exact ⟨false, hm, fun i L e => absurd e (hne i L), fun _ => ⟨fun h1 => by simp [hr], fun _ _ => rfl⟩⟩
  obtain ⟨hv, hty⟩ := hw
  have facts : ∀ k, h.heap.objs k ≠ none → view2 h k = some (v k) ∧ Shape (v k) := fun k hk =>
    ⟨holdsV_view hi hs hk, isMat_shape (hS k)⟩
  cases c with
  | call i c =>
    have hl := hv i (by simp [Stmt2.vars])
    obtain ⟨v1, v2⟩ := facts i hl
    cases c with
    | fill x => exact inplace (op := Arr2.assignValue x) hl rfl (by simp) (fill2_mem hi v1 x)
    | assignList L =>
      have m := assignList2_mem (b := b) hi v1 L hub
      refine ⟨_, ?_, fun i' L' e => by cases e; rfl, fun hne => absurd rfl (hne i L)⟩
      simp only [exec2, execCall2, Vars2.on, puts2_put2 hi hs hl]
      exact m
    | resize m n p =>
      have hM : (if p then ¬ (m = (v i).rows ∧ n = (v i).cols) else m * n ≠ (v i).rows * (v i).cols) ↔
          (Stmt2.call i (.resize m n p) : Stmt2 α).rebuilds S = true := by
        rw [(hS i).rows, (hS i).cols]
        cases p <;> simp only [Stmt2.rebuilds, if_true, Bool.false_eq_true, if_false, decide_eq_true_eq]
      by_cases hr : (Stmt2.call i (.resize m n p) : Stmt2 α).rebuilds S = true
      · exact remake hl rfl hr (by simp) hub (resize2_remakes hi v1 m n p (hM.2 hr))
      · exact inplace (op := Arr2.resize b m n p) hl (by simpa using hr) (by simp)
          (resize2_keeps hi v1 m n p (fun h1 => hr (hM.1 h1)))
    | removeRows p c => exact remake hl rfl rfl (by simp) hub (removeRows_remakes hi v1 v2 _ _)
    | removeCols p c => exact remake hl rfl rfl (by simp) hub (removeCols_remakes hi v1 v2 _ _)
    | removeRow p => exact remake hl rfl rfl (by simp) hub (removeRows_remakes hi v1 v2 _ _)
    | removeCol p => exact remake hl rfl rfl (by simp) hub (removeCols_remakes hi v1 v2 _ _)
    | removeLastRow => exact remake hl rfl rfl (by simp) hub (removeRowLast_remakes hi v1 v2 0)
    | removeLastCol => exact remake hl rfl rfl (by simp) hub (removeColLast_remakes hi v1 v2 0)
    | removeRowsFront c => exact remake hl rfl rfl (by simp) hub (removeRows_remakes hi v1 v2 _ _)
    | removeRowsBack c => exact remake hl rfl rfl (by simp) hub (removeRowsBack_remakes hi v1 v2 _)
    | removeColsFront c => exact remake hl rfl rfl (by simp) hub (removeCols_remakes hi v1 v2 _ _)
    | removeColsBack c => exact remake hl rfl rfl (by simp) hub (removeColsBack_remakes hi v1 v2 _)
    | removeRowsVec idx =>
      by_cases hx : idx = []
      · subst hx
        refine inplace (op := Arr2.removeRowsVec b []) hl (by simp [Stmt2.rebuilds]) (by simp) ?_
        simp only [hexec2, hexecCall2, Heap2.removeRowsVec, Arr2.removeRowsVec, List.isEmpty_nil, if_true, Op.pure_run,
          put2_same v1]
        exact MemOk2.stop hi
      · exact remake hl rfl (by simp [Stmt2.rebuilds, hx]) (by simp) hub (removeRowsVec_remakes hi v1 v2 hx)
    | removeColsVec idx =>
      by_cases hx : idx = []
      · subst hx
        refine inplace (op := Arr2.removeColsVec b []) hl (by simp [Stmt2.rebuilds]) (by simp) ?_
        simp only [hexec2, hexecCall2, Heap2.removeColsVec, Arr2.removeColsVec, List.isEmpty_nil, if_true, Op.pure_run,
          put2_same v1]
        exact MemOk2.stop hi
      · exact remake hl rfl (by simp [Stmt2.rebuilds, hx]) (by simp) hub (removeColsVec_remakes hi v1 v2 hx)
    | insertRow p xs => exact remake hl rfl rfl (by simp) hub (insertRow_remakes hi v1 v2 _ _)
    | insertRowFront xs => exact remake hl rfl rfl (by simp) hub (insertRow_remakes hi v1 v2 _ _)
    | insertRowBack xs => exact remake hl rfl rfl (by simp) hub (insertRowBack_remakes hi v1 v2 _)
    | insertCol p xs => exact remake hl rfl rfl (by simp) hub (insertCol_remakes hi v1 v2 _ _)
    | insertColFront xs => exact remake hl rfl rfl (by simp) hub (insertCol_remakes hi v1 v2 _ _)
    | insertColBack xs => exact remake hl rfl rfl (by simp) hub (insertColBack_remakes hi v1 v2 _)
  | callArr i j c =>
    have hl := hv i (by simp [Stmt2.vars])
    obtain ⟨v1, v2⟩ := facts i hl
    obtain ⟨w1, w2⟩ := facts j (hv j (by simp [Stmt2.vars]))
    cases c with
    | assign =>
      exact inplace (op := Arr2.assign b (v.operand i j)) hl rfl (by simp) (assign2_mem hi v1 w1 rfl)
    | resizeAndAssign => exact remake hl rfl rfl (by simp) hub (resizeAndAssign2_remakes hi v1 w1 w2 operand_isOperand)
    | insertRows p => exact remake hl rfl rfl (by simp) hub (insertRows_remakes hi v1 v2 w1 w2 operand_isOperand _)
    | insertRowsFront => exact remake hl rfl rfl (by simp) hub (insertRows_remakes hi v1 v2 w1 w2 operand_isOperand _)
    | insertRowsBack => exact remake hl rfl rfl (by simp) hub (insertRowsBack_remakes hi v1 v2 w1 w2 operand_isOperand)
    | insertCols p => exact remake hl rfl rfl (by simp) hub (insertCols_remakes hi v1 v2 w1 w2 operand_isOperand _)
    | insertColsFront => exact remake hl rfl rfl (by simp) hub (insertCols_remakes hi v1 v2 w1 w2 operand_isOperand _)
    | insertColsBack => exact remake hl rfl rfl (by simp) hub (insertColsBack_remakes hi v1 v2 w1 w2 operand_isOperand)
  | copyAssign i j =>
    exact ⟨false, copyAssign2_mem hi hs (hv i (by simp [Stmt2.vars])) (hv j (by simp [Stmt2.vars])),
      fun i L e => by simp at e, fun _ => ⟨fun h1 => by simp [Stmt2.rebuilds], fun _ _ => rfl⟩⟩
  | moveAssign i j =>
    exact ⟨false, moveAssign2_mem hi hs hty,
      fun i L e => by simp at e, fun _ => ⟨fun h1 => by simp [Stmt2.rebuilds], fun _ _ => rfl⟩⟩
  | swap i j =>
    exact ⟨false, swap2_mem hi hs hty,
      fun i L e => by simp at e, fun _ => ⟨fun h1 => by simp [Stmt2.rebuilds], fun _ _ => rfl⟩⟩
  | resizeAndAssignMove i j =>
    exact ⟨false, resizeAndAssignMove2_mem hi hs hty,
      fun i L e => by simp at e, fun _ => ⟨fun h1 => by simp [Stmt2.rebuilds], fun _ _ => rfl⟩⟩

end Spp
