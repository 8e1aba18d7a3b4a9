import Verif.Lemmas.HeapOps

/- Each member function on the heap does what it does on lists. -/

set_option linter.unusedSectionVars false

namespace Spp
open Spec

variable {α : Type} [Inhabited α]

theorem lift_lift_bind {σ β γ δ : Type} (x : Res β) (f : β → Res γ) (g : γ → Op σ δ) :
    (Op.lift x >>= fun a => Op.lift (f a) >>= g) = (Op.lift (x >>= f) >>= g) := by
  funext s
  cases x with
  | ok a => rfl
  | trap k => rfl
  | ub => rfl

theorem lift_set_remade (b : Build) (n : Int) (l : List α) (g : List α → List α → Res (List α)) :
    (Op.lift (Arr1.make b n >>= g l) >>= Op.set) l = remade b n l g := by
  unfold remade
  rcases Arr1.make b n >>= g l with _ | _ | _ <;> rfl

theorem res_bind_assoc {β γ δ : Type} (x : Res β) (f : β → Res γ) (g : γ → Res δ) :
    ((x >>= f) >>= g) = (x >>= fun a => f a >>= g) := by
  cases x <;> rfl

section
variable {h : Heap α} {i : Nat} {o : Obj} {l : List α}

theorem remove_remakes (b : Build) (hi : Inv h none) (ho : h.objs i = some o) (hv : view h i = some l)
    (hn : (l.length : Int) = o.n) (pos count : Int) :
    Remakes h i (Heap.remove b i pos count h) (Arr1.remove b pos count l) := by
  unfold Heap.remove Arr1.remove
  have hlen : len l = o.n := hn
  refine Remakes.lift hi hv fun _ _ => ?_
  rw [Op.bind_run, obj_run ho, Op.get_bind]
  simp only [hlen]
  refine Remakes.lift hi hv fun _ _ => Remakes.lift hi hv fun _ _ => Remakes.lift hi hv fun m _ => ?_
  simp only [lift_lift_bind]
  refine Remakes.rebuild b hi hv (fun h0 => ?_) ?_
  · exact (copyn0_filled (plain_rd l) (by simp) _).bind fun t ht => copyn_filled (plain_rd l) ht _ _ _
  · rw [← lift_set_remade]

theorem removeBack_remakes (b : Build) (hi : Inv h none) (ho : h.objs i = some o) (hv : view h i = some l)
    (hn : (l.length : Int) = o.n) (count : Int) :
    Remakes h i (Heap.removeBack b i count h) (Arr1.removeBack b count l) := by
  unfold Heap.removeBack Arr1.removeBack
  have hlen : len l = o.n := hn
  rw [Op.bind_run, obj_run ho, Op.get_bind]
  simp only [hlen]
  exact Remakes.lift hi hv fun _ _ => remove_remakes b hi ho hv hn _ _

theorem removeLast_remakes (b : Build) (hi : Inv h none) (ho : h.objs i = some o) (hv : view h i = some l)
    (hn : (l.length : Int) = o.n) (k : Int) :
    Remakes h i (Heap.removeLast b i k h) (Arr1.removeLast b k l) := by
  unfold Heap.removeLast Arr1.removeLast
  have hlen : len l = o.n := hn
  rw [Op.bind_run, obj_run ho, Op.get_bind]
  simp only [hlen]
  exact Remakes.lift hi hv fun _ _ => Remakes.lift hi hv fun _ _ => remove_remakes b hi ho hv hn _ _

theorem removeVec_remakes (b : Build) (hi : Inv h none) (ho : h.objs i = some o) (hv : view h i = some l)
    (hn : (l.length : Int) = o.n) {idx : List Int} (hx : idx ≠ []) :
    Remakes h i (Heap.removeVec b i idx h) (Arr1.removeVec b idx l) := by
  unfold Heap.removeVec Arr1.removeVec
  have hlen : len l = o.n := hn
  have : idx.isEmpty = false := by simpa using hx
  simp only [this, Bool.false_eq_true, if_false]
  rw [Op.bind_run, obj_run ho, Op.get_bind]
  simp only [hlen]
  refine Remakes.lift hi hv fun ci _ => ?_
  simp only [lift_lift_bind]
  refine Remakes.rebuild b hi hv (fun h0 => ?_) ?_
  · refine copyn0_filled (fun k => ?_) (by simp) _
    rcases rd_cases ci k with h1 | ⟨v, h1⟩
    · rw [h1]; exact .inl rfl
    · rw [h1]; exact rd_cases l v
  · rw [← lift_set_remade]

theorem insert_remakes (b : Build) (hi : Inv h none) (ho : h.objs i = some o) (hv : view h i = some l)
    (hn : (l.length : Int) = o.n) (pos : Int) (x : α) :
    Remakes h i (Heap.insert b i pos x h) (Arr1.insert b pos x l) := by
  unfold Heap.insert Arr1.insert
  have hlen : len l = o.n := hn
  rw [Op.bind_run, obj_run ho, Op.get_bind]
  simp only [hlen]
  refine Remakes.lift hi hv fun _ _ => Remakes.lift hi hv fun m _ => ?_
  simp only [lift_lift_bind]
  refine Remakes.rebuild b hi hv (fun h0 => ?_) ?_
  · refine (copyn0_filled (m := m.toNat) (plain_rd l) (by simp) _).bind fun t ht => ?_
    refine Filled.bind (n := m.toNat) ?_ fun t ht => copyn_filled (plain_rd l) ht _ _ _
    have := wr_filled t pos x; rw [ht] at this; exact this
  · rw [← lift_set_remade]

theorem insertBack_remakes (b : Build) (hi : Inv h none) (ho : h.objs i = some o) (hv : view h i = some l)
    (hn : (l.length : Int) = o.n) (x : α) :
    Remakes h i (Heap.insertBack b i x h) (Arr1.insertBack b x l) := by
  unfold Heap.insertBack Arr1.insertBack
  have hlen : len l = o.n := hn
  rw [Op.bind_run, obj_run ho, Op.get_bind]
  simp only [hlen]
  exact insert_remakes b hi ho hv hn _ _

theorem resize_remakes (b : Build) (hi : Inv h none) (ho : h.objs i = some o) (hv : view h i = some l)
    (hn : (l.length : Int) = o.n) (n : Int) (p : Bool) (hne : n ≠ l.length) :
    Remakes h i (Heap.resize b i n p h) (Arr1.resize b n p l) := by
  unfold Heap.resize Arr1.resize
  have hlen : len l = o.n := hn
  refine Remakes.lift hi hv fun _ _ => ?_
  rw [Op.bind_run, obj_run ho, Op.get_bind]
  simp only [hlen, show n ≠ o.n by omega, ne_eq, not_false_eq_true, if_true]
  simp only [lift_lift_bind]
  refine Remakes.rebuild b hi hv (fun h0 => ?_) ?_
  · split
    · exact copyn0_filled (plain_rd l) (by simp) _
    · simp [Filled]
  · rw [← lift_set_remade]; simp only [hlen]

variable {j : Nat} {oj : Obj} {lj : List α}

theorem insertArr_remakes (b : Build) (hi : Inv h none) (ho : h.objs i = some o) (hv : view h i = some l)
    (hn : (l.length : Int) = o.n) (hoj : h.objs j = some oj) (hcj : Heap.contents oj h = (.ok lj, h))
    (hnj : (lj.length : Int) = oj.n) (pos : Int) {src : Src (List α) α} (hsz : src.size = oj.n)
    (hun : src.un l = rd lj) :
    Remakes h i (Heap.insertArr b i pos j h) (Arr1.insertArr b pos src l) := by
  unfold Heap.insertArr Arr1.insertArr
  have hlen : len l = o.n := hn
  rw [Op.bind_run, obj_run ho, Op.get_bind]
  simp only [hlen]
  rw [Op.bind_run, obj_run hoj]
  simp only
  rw [Op.bind_run, hcj]
  simp only [hsz, hun]
  refine Remakes.lift hi hv fun _ _ => Remakes.lift hi hv fun m _ => ?_
  simp only [lift_lift_bind]
  refine Remakes.rebuild b hi hv (fun h0 => ?_) ?_
  · refine (copyn0_filled (m := m.toNat) (plain_rd l) (by simp) _).bind fun t ht => ?_
    exact (copyn_filled (plain_rd lj) ht _ _ _).bind fun t ht => copyn_filled (plain_rd l) ht _ _ _
  · rw [← lift_set_remade]

theorem insertBackArr_remakes (b : Build) (hi : Inv h none) (ho : h.objs i = some o) (hv : view h i = some l)
    (hn : (l.length : Int) = o.n) (hoj : h.objs j = some oj) (hcj : Heap.contents oj h = (.ok lj, h))
    (hnj : (lj.length : Int) = oj.n) {src : Src (List α) α} (hsz : src.size = oj.n) (hun : src.un l = rd lj) :
    Remakes h i (Heap.insertBackArr b i j h) (Arr1.insertBackArr b src l) := by
  unfold Heap.insertBackArr Arr1.insertBackArr
  have hlen : len l = o.n := hn
  rw [Op.bind_run, obj_run ho, Op.get_bind]
  simp only [hlen]
  exact insertArr_remakes b hi ho hv hn hoj hcj hnj _ hsz hun

theorem resizeAndAssign_remakes (b : Build) (hi : Inv h none) (hv : view h i = some l)
    (hoj : h.objs j = some oj) (hcj : Heap.contents oj h = (.ok lj, h))
    (hnj : (lj.length : Int) = oj.n) {src : Src (List α) α} (hsz : src.size = oj.n) (hun : src.un l = rd lj) :
    Remakes h i (Heap.resizeAndAssign b i j h) (Arr1.resizeAndAssign b src l) := by
  unfold Heap.resizeAndAssign Arr1.resizeAndAssign Arr1.makeFrom
  rw [Op.get_bind, Op.bind_run, obj_run hoj]
  simp only
  rw [Op.bind_run, hcj]
  simp only [hsz, hun]
  have hsrc : (⟨oj.n, fun _ => rd lj⟩ : Src (List α) α) = Src.ofList lj := by
    simp only [Src.ofList, hnj]
  simp only [hsrc]
  refine Remakes.rebuild b hi hv (fun h0 => ?_) ?_
  · obtain ⟨h1, h2⟩ := copy_filled (src := Src.ofList lj) (fun _ => plain_rd lj)
      (l := List.replicate oj.n.toNat default) (m := oj.n.toNat) (by simp)
    rcases hh : (Arr1.copy (Src.ofList lj) (List.replicate oj.n.toNat default)).1 with _ | k | _
    · exact h1
    · exact absurd hh (h2 k)
    · trivial
  · rw [← lift_set_remade]
end

/-! ### Statements in place -/

section
variable {h : Heap α} {i j : Nat}

theorem MemOk.ofModify (hi : Inv h none) {l : List α} (hv : view h i = some l) {g : List α → Res Unit × List α}
    (hg : (g l).2.length = l.length) :
    MemOk h (Heap.modify i g h) false (g l).1 (put1 h i (g l).2) := by
  have hl : h.objs i ≠ none := by rw [ne_eq, ← view_none_iff hi, hv]; simp
  obtain ⟨l', h', v1, e1, e2, e3, e4, e5⟩ := modify_step hi hl (g := g) (by
    intro l1 h1; rw [hv] at h1; cases h1; exact hg)
  rw [hv] at v1; cases v1
  have hr := noReq_modify i g h
  rw [e1] at hr ⊢
  exact ⟨e2, e5, types_eq e4, fun k => by rw [e4], hr, by simp, fun _ => ⟨rfl, e3⟩⟩

theorem fill_mem (hi : Inv h none) {l : List α} (hv : view h i = some l) (x : α) :
    MemOk h (Heap.assignValue i x h) false (Arr1.assignValue x l).1 (put1 h i (Arr1.assignValue x l).2) :=
  MemOk.ofModify hi hv (by rw [Arr1.fill_ok]; simp)

theorem assign_mem (b : Build) (hi : Inv h none) {o : Obj} {l : List α} (ho : h.objs i = some o)
    (hv : view h i = some l) (hn : (l.length : Int) = o.n) (xs : List α) :
    MemOk h (Heap.assignList b i xs h) false (Arr1.assign b (Src.ofList xs) l).1
      (put1 h i (Arr1.assign b (Src.ofList xs) l).2) := by
  unfold Heap.assignList Arr1.assign
  have hlen : len l = o.n := hn
  rw [Op.bind_run, obj_run ho, Op.get_bind]
  simp only [hlen, show (Src.ofList xs : Src (List α) α).size = len xs from rfl]
  rcases assertDebug b (o.n == len xs) with _ | k | _
  · simp only [Op.lift_ok_bind]
    exact MemOk.ofModify hi hv (copy_filled (fun _ => plain_rd xs) rfl).1
  · simp only [Op.lift_trap_bind, put1_same hv]
    exact MemOk.stop hi
  · simp only [Op.lift_ub_bind, put1_same hv]
    exact MemOk.stop hi

/-- The contents after several changes. -/
def puts (h : Heap α) (s : Vars α) : Nat → Option (List α) := fun k => if h.objs k = none then none else some (s k)

theorem holds_view {h : Heap α} (hi : Inv h none) {s : Vars α} (hs : Holds h s) {k : Nat} (hk : h.objs k ≠ none) :
    view h k = some (s k) := by
  cases hv : view h k with
  | none => rw [view_none_iff hi] at hv; exact absurd hv hk
  | some l => rw [hs k l hv]

theorem puts_same {h : Heap α} (hi : Inv h none) {s : Vars α} (hs : Holds h s) : puts h s = view h := by
  funext k
  unfold puts
  by_cases hk : h.objs k = none
  · rw [if_pos hk, (view_none_iff hi k).2 hk]
  · rw [if_neg hk, holds_view hi hs hk]

theorem puts_put1 {h : Heap α} (hi : Inv h none) {s : Vars α} (hs : Holds h s) (hk : h.objs i ≠ none) (l : List α) :
    puts h (s.put i l) = put1 h i l := by
  funext k
  unfold puts put1 Vars.put
  by_cases hki : k = i
  · subst hki; simp [hk]
  · simp only [hki, if_false]
    exact congrFun (puts_same hi hs) k

theorem copyAssign_mem (b : Build) (hi : Inv h none) {s : Vars α} (hs : Holds h s) (hli : h.objs i ≠ none)
    (hlj : h.objs j ≠ none) :
    MemOk h (Heap.copyAssign b i j h) false (Vars.copyAssign b i j s).1 (puts h (Vars.copyAssign b i j s).2) := by
  by_cases hij : i = j
  · subst hij
    simp only [Heap.copyAssign, Vars.copyAssign, ne_eq, not_true_eq_false, if_false, Op.pure_run, puts_same hi hs]
    exact MemOk.stop hi
  · obtain ⟨oi, hoi⟩ := live_obj hli
    obtain ⟨oj, hoj⟩ := live_obj hlj
    obtain ⟨li, v1, v2, v3⟩ := view_of hi hoi
    obtain ⟨lj, w1, w2, w3⟩ := view_of hi hoj
    have e1 := hs i li v1
    have e2 := hs j lj w1
    have := assign_mem b hi hoi v1 v3 lj
    have hl : Heap.copyAssign b i j h = Heap.assignList b i lj h := by
      unfold Heap.copyAssign Heap.assignList
      rw [if_pos hij, Op.bind_run, obj_run hoi, Op.bind_run, obj_run hoi]
      simp only
      rw [Op.bind_run, obj_run hoj]
      simp only [← w3]
      have : ((lj.length : Int)) = len lj := rfl
      rw [this]
      rcases assertDebug b (oi.n == len lj) with _ | k | _
      · simp only [Op.lift_ok_bind]; rw [Op.bind_run, w2]
      · rfl
      · rfl
    have hr : Vars.copyAssign b i j s = Vars.on i (Arr1.assign b (Src.ofList lj)) s := by
      unfold Vars.copyAssign
      rw [if_pos hij, Op.get_bind, e2]
    rw [hl, hr]
    simp only [Vars.on, puts_put1 hi hs hli, ← e1]
    exact this

theorem puts_swapped {h : Heap α} (hi : Inv h none) {s : Vars α} (hs : Holds h s) (hli : h.objs i ≠ none)
    (hlj : h.objs j ≠ none) : puts h (fun k => if k = i then s j else if k = j then s i else s k) =
      fun k => if k = j then view h i else if k = i then view h j else view h k := by
  funext k
  unfold puts
  by_cases hj : k = j
  · subst hj
    rw [if_neg hlj, if_pos rfl, holds_view hi hs hli]
    by_cases hki : k = i
    · subst hki; simp
    · simp [hki]
  · by_cases hki : k = i
    · subst hki
      simp [hli, hj, holds_view hi hs hlj]
    · simp only [hj, hki, if_false]
      exact congrFun (puts_same hi hs) k

theorem swap_mem (hi : Inv h none) {s : Vars α} (hs : Holds h s) (ht : SameType h i j) :
    MemOk h (Heap.swap i j h) false (Vars.swap i j s).1 (puts h (Vars.swap i j s).2) := by
  obtain ⟨oi, oj, hoi, hoj, haf⟩ := ht
  obtain ⟨h', e1, e2, e3, e4, e5, e6, e7, e8⟩ := swap_run hi hoi hoj haf
  have hr := noReq_swap i j h
  rw [e1] at hr ⊢
  refine ⟨e2, e6, e7, live_of_views hi e2 fun k => ?_, hr, by simp, fun _ => ⟨rfl, fun k => ?_⟩⟩
  · rw [e3 k]
    by_cases hj : k = j
    · subst hj
      simp only [if_true]; rw [view_none_iff hi, view_none_iff hi, hoi, hoj]; simp
    · by_cases hk : k = i
      · subst hk
        simp only [hj, if_true, if_false]; rw [view_none_iff hi, view_none_iff hi, hoi, hoj]; simp
      · simp [hj, hk]
  · rw [e3 k]
    exact (congrFun (puts_swapped hi hs (by rw [hoi]; simp) (by rw [hoj]; simp)) k).symm

theorem puts_moved {h : Heap α} (hi : Inv h none) {s : Vars α} (hs : Holds h s) (hli : h.objs i ≠ none)
    (hlj : h.objs j ≠ none) :
    puts h (Vars.put (fun k => if k = i then s j else if k = j then s i else s k) j []) =
      fun k => if k = j then some [] else if k = i then view h j else view h k := by
  funext k
  have := congrFun (puts_swapped hi hs hli hlj) k
  unfold puts at this ⊢
  unfold Vars.put
  by_cases hj : k = j
  · subst hj; simp [hlj]
  · simp only [hj, if_false] at this ⊢
    exact this

theorem swapClear_mem (hi : Inv h none) {s : Vars α} (hs : Holds h s) (ht : SameType h i j)
    {res : Res Unit × Heap α} (hres : res = (Heap.swap i j >>= fun _ => Heap.clear j) h) :
    MemOk h res false (.ok ())
      (puts h (Vars.put (fun k => if k = i then s j else if k = j then s i else s k) j [])) := by
  subst hres
  obtain ⟨oi, oj, hoi, hoj, haf⟩ := ht
  obtain ⟨h1, h2, f1, g1, g2, g3, g4, g5, g6, g7, g8⟩ := swap_clear hi hoi hoj haf
  have hr := ((noReq_swap i j).bind fun _ => noReq_clear j) h
  rw [Op.bind_run, f1] at hr ⊢
  simp only [g1] at hr ⊢
  rw [puts_moved hi hs (by rw [hoi]; simp) (by rw [hoj]; simp)]
  refine ⟨g2, g4, g5, live_of_views hi g2 fun k => ?_, hr, by simp, fun _ => ⟨rfl, g3⟩⟩
  rw [g3 k]
  by_cases hj : k = j
  · subst hj
    simp only [if_true]; rw [view_none_iff hi, hoj]; simp
  · by_cases hk : k = i
    · subst hk
      simp only [hj, if_true, if_false]; rw [view_none_iff hi, view_none_iff hi, hoi, hoj]; simp
    · simp [hj, hk]

theorem moveAssign_mem (b : Build) (hi : Inv h none) {s : Vars α} (hs : Holds h s) (ht : SameType h i j) :
    MemOk h (Heap.moveAssign b i j h) false (Vars.moveAssign b i j s).1 (puts h (Vars.moveAssign b i j s).2) := by
  by_cases hij : i = j
  · subst hij
    simp only [Heap.moveAssign, Vars.moveAssign, ne_eq, not_true_eq_false, if_false, Op.pure_run, puts_same hi hs]
    exact MemOk.stop hi
  · obtain ⟨oi, oj, hoi, hoj, haf⟩ := ht
    obtain ⟨li, v1, v2, v3⟩ := view_of hi hoi
    obtain ⟨lj, w1, w2, w3⟩ := view_of hi hoj
    have e1 := hs i li v1
    have e2 := hs j lj w1
    have ei : len (s i) = oi.n := by rw [← e1]; exact v3
    have ej : len (s j) = oj.n := by rw [← e2]; exact w3
    unfold Heap.moveAssign Vars.moveAssign
    rw [if_pos hij, if_pos hij, Op.bind_run, obj_run hoi, Op.get_bind]
    simp only
    rw [Op.bind_run, obj_run hoj]
    simp only [ei, ej]
    rcases assertNormal b (oi.n == oj.n) with _ | k | _
    · simp only [Op.lift_ok_bind]
      have := swapClear_mem hi hs ⟨oi, oj, hoi, hoj, haf⟩ rfl
      exact this
    · simp only [Op.lift_trap_bind, puts_same hi hs]
      exact MemOk.stop hi
    · simp only [Op.lift_ub_bind, puts_same hi hs]
      exact MemOk.stop hi

theorem resizeAndAssignMove_mem (hi : Inv h none) {s : Vars α} (hs : Holds h s) (ht : SameType h i j) :
    MemOk h (Heap.resizeAndAssignMove i j h) false (Vars.resizeAndAssignMove i j s).1
      (puts h (Vars.resizeAndAssignMove i j s).2) :=
  swapClear_mem hi hs ht rfl

end

/-! ### All statements -/

theorem operand_size {s : Vars α} {i j : Nat} : (s.operand i j).size = (s j).length := by
  unfold Vars.operand
  by_cases hij : i = j
  · subst hij; simp
  · simp [hij, Src.ofList]

theorem operand_un {s : Vars α} {i j : Nat} : (s.operand i j).un (s i) = rd (s j) := by
  unfold Vars.operand
  by_cases hij : i = j
  · subst hij; simp
  · simp [hij, Src.ofList]

/-- Every statement on the heap does what it does on lists, unless it asks for memory and the request is refused. -/
theorem hexec_mem (b : Build) {h : Heap α} (hi : Inv h none) {s : Vars α} {c : Stmt α} (hw : c.WellTyped h)
    (hs : Holds h s) (hub : (exec b c s).1 ≠ .ub) :
    ∃ q, MemOk h (hexec b c h) q (exec b c s).1 (puts h (exec b c s).2) ∧
      (q = true ↔ (exec b c s).1 = .ok () ∧ c.allocates s (exec b c s).2 = true) := by
  have remake : ∀ {i : Nat} {res : Res Unit × Heap α} {op : Op (List α) Unit}, h.objs i ≠ none → c.target = i →
      c.rebuilds s = true → (Vars.on i op s).1 ≠ .ub →
      Remakes h i res (op (s i)) →
      ∃ q, MemOk h res q (Vars.on i op s).1 (puts h (Vars.on i op s).2) ∧
        (q = true ↔ (Vars.on i op s).1 = .ok () ∧ c.allocates s (Vars.on i op s).2 = true) := by
    intro i res op hl ht hr hu hm
    obtain ⟨q, m1, m2, m3⟩ := hm hu
    simp only [Vars.on, puts_put1 hi hs hl]
    refine ⟨q, m1, ?_⟩
    simp only [Stmt.allocates, hr, ht, Vars.put, if_true, Bool.true_and, Bool.not_eq_true', List.isEmpty_eq_false_iff]
    by_cases hk : (op (s i)).1 = .ok ()
    · rw [m2 hk]; simp [hk]
    · rw [m3 hk]; simp [hk]
  have facts : ∀ k, h.objs k ≠ none → ∃ o, h.objs k = some o ∧ view h k = some (s k) ∧
      Heap.contents o h = (.ok (s k), h) ∧ ((s k).length : Int) = o.n := by
    intro k hk
    obtain ⟨o, ho⟩ := live_obj hk
    obtain ⟨l, v1, v2, v3⟩ := view_of hi ho
    have := hs k l v1; subst this
    exact ⟨o, ho, v1, v2, v3⟩
  obtain ⟨hv, hty⟩ := hw
  cases c with
  | fill i x =>
    obtain ⟨o, ho, v1, v2, v3⟩ := facts i (hv i (by simp [Stmt.vars, Stmt.target]))
    refine ⟨false, ?_, by simp [Stmt.allocates, Stmt.rebuilds]⟩
    simp only [exec, Vars.on, puts_put1 hi hs (show h.objs i ≠ none by rw [ho]; simp)]
    exact fill_mem hi v1 x
  | assignList i xs =>
    obtain ⟨o, ho, v1, v2, v3⟩ := facts i (hv i (by simp [Stmt.vars, Stmt.target]))
    refine ⟨false, ?_, by simp [Stmt.allocates, Stmt.rebuilds]⟩
    simp only [exec, Vars.on, puts_put1 hi hs (show h.objs i ≠ none by rw [ho]; simp)]
    exact assign_mem b hi ho v1 v3 xs
  | copyAssign i j =>
    exact ⟨false, copyAssign_mem b hi hs (hv i (by simp [Stmt.vars])) (hv j (by simp [Stmt.vars])),
      by simp [Stmt.allocates, Stmt.rebuilds]⟩
  | moveAssign i j => exact ⟨false, moveAssign_mem b hi hs hty, by simp [Stmt.allocates, Stmt.rebuilds]⟩
  | swap i j => exact ⟨false, swap_mem hi hs hty, by simp [Stmt.allocates, Stmt.rebuilds]⟩
  | resize i n p =>
    have hl := hv i (by simp [Stmt.vars, Stmt.target])
    obtain ⟨o, ho, v1, v2, v3⟩ := facts i hl
    by_cases hn : n = (s i).length
    · refine ⟨false, ?_, by simp [Stmt.allocates, Stmt.rebuilds, hn]⟩
      simp only [exec, Vars.on, puts_put1 hi hs hl]
      simp only [hexec, Heap.resize, Arr1.resize]
      rcases assertDebug b (decide (n > -1)) with _ | k | _
      · simp only [Op.lift_ok_bind, Op.get_bind]
        rw [Op.bind_run, obj_run ho]
        simp only [show n = o.n by omega, len, v3, ne_eq, not_true_eq_false, if_false, Op.pure_run, put1_same v1]
        exact MemOk.stop hi
      · simp only [Op.lift_trap_bind, put1_same v1]; exact MemOk.stop hi
      · simp only [Op.lift_ub_bind, put1_same v1]; exact MemOk.stop hi
    · exact remake hl rfl (by simp [Stmt.rebuilds, hn]) hub (resize_remakes b hi ho v1 v3 n p hn)
  | resizeAndAssign i j =>
    have hl := hv i (by simp [Stmt.vars])
    obtain ⟨o, ho, v1, v2, v3⟩ := facts i hl
    obtain ⟨oj, hoj, w1, w2, w3⟩ := facts j (hv j (by simp [Stmt.vars]))
    exact remake hl rfl rfl hub (resizeAndAssign_remakes b hi v1 hoj w2 w3 (by rw [operand_size, w3]) operand_un)
  | resizeAndAssignMove i j => exact ⟨false, resizeAndAssignMove_mem hi hs hty, by simp [Stmt.allocates, Stmt.rebuilds]⟩
  | remove i p c =>
    have hl := hv i (by simp [Stmt.vars, Stmt.target])
    obtain ⟨o, ho, v1, v2, v3⟩ := facts i hl
    exact remake hl rfl rfl hub (remove_remakes b hi ho v1 v3 _ _)
  | removeFront i c =>
    have hl := hv i (by simp [Stmt.vars, Stmt.target])
    obtain ⟨o, ho, v1, v2, v3⟩ := facts i hl
    exact remake hl rfl rfl hub (remove_remakes b hi ho v1 v3 _ _)
  | removeBack i c =>
    have hl := hv i (by simp [Stmt.vars, Stmt.target])
    obtain ⟨o, ho, v1, v2, v3⟩ := facts i hl
    exact remake hl rfl rfl hub (removeBack_remakes b hi ho v1 v3 _)
  | removeLast i k =>
    have hl := hv i (by simp [Stmt.vars, Stmt.target])
    obtain ⟨o, ho, v1, v2, v3⟩ := facts i hl
    exact remake hl rfl rfl hub (removeLast_remakes b hi ho v1 v3 _)
  | removeVec i idx =>
    have hl := hv i (by simp [Stmt.vars, Stmt.target])
    obtain ⟨o, ho, v1, v2, v3⟩ := facts i hl
    by_cases hx : idx = []
    · subst hx
      refine ⟨false, ?_, by simp [Stmt.allocates, Stmt.rebuilds]⟩
      simp only [exec, Vars.on, puts_put1 hi hs hl]
      simp only [hexec, Heap.removeVec, Arr1.removeVec, List.isEmpty_nil, if_true, Op.pure_run, put1_same v1]
      exact MemOk.stop hi
    · exact remake hl rfl (by simp [Stmt.rebuilds, hx]) hub (removeVec_remakes b hi ho v1 v3 hx)
  | insert i p x =>
    have hl := hv i (by simp [Stmt.vars, Stmt.target])
    obtain ⟨o, ho, v1, v2, v3⟩ := facts i hl
    exact remake hl rfl rfl hub (insert_remakes b hi ho v1 v3 _ _)
  | insertFront i x =>
    have hl := hv i (by simp [Stmt.vars, Stmt.target])
    obtain ⟨o, ho, v1, v2, v3⟩ := facts i hl
    exact remake hl rfl rfl hub (insert_remakes b hi ho v1 v3 _ _)
  | insertBack i x =>
    have hl := hv i (by simp [Stmt.vars, Stmt.target])
    obtain ⟨o, ho, v1, v2, v3⟩ := facts i hl
    exact remake hl rfl rfl hub (insertBack_remakes b hi ho v1 v3 _)
  | insertArr i p j =>
    have hl := hv i (by simp [Stmt.vars])
    obtain ⟨o, ho, v1, v2, v3⟩ := facts i hl
    obtain ⟨oj, hoj, w1, w2, w3⟩ := facts j (hv j (by simp [Stmt.vars]))
    exact remake hl rfl rfl hub (insertArr_remakes b hi ho v1 v3 hoj w2 w3 _ (by rw [operand_size, w3]) operand_un)
  | insertFrontArr i j =>
    have hl := hv i (by simp [Stmt.vars])
    obtain ⟨o, ho, v1, v2, v3⟩ := facts i hl
    obtain ⟨oj, hoj, w1, w2, w3⟩ := facts j (hv j (by simp [Stmt.vars]))
    exact remake hl rfl rfl hub (insertArr_remakes b hi ho v1 v3 hoj w2 w3 _ (by rw [operand_size, w3]) operand_un)
  | insertBackArr i j =>
    have hl := hv i (by simp [Stmt.vars])
    obtain ⟨o, ho, v1, v2, v3⟩ := facts i hl
    obtain ⟨oj, hoj, w1, w2, w3⟩ := facts j (hv j (by simp [Stmt.vars]))
    exact remake hl rfl rfl hub (insertBackArr_remakes b hi ho v1 v3 hoj w2 w3 (by rw [operand_size, w3]) operand_un)

end Spp
