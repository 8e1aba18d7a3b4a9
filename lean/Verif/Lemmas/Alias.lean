import Verif.Lemmas.Assign

/-
Which expressions can be assigned in place: expressions that do not read the assigned array, and
element-wise expressions.
-/

set_option linter.unusedSectionVars false

namespace Spp
open Spec

variable {α : Type}

/-- A property of all elements, also outside the matrix. -/
def Sem.AllU {β : Type} (P : Res β → Prop) : {d : Dim} → Sem β d → Prop
  | .one, l => ∀ r, List.Mem r l → P r
  | .two, M => ∀ i j, P (Mat.el M i j)

theorem allU_flat {β : Type} {P : Res β → Prop} {d : Dim} {x : Sem β d} (h : Sem.AllU P x) :
    ∀ r ∈ x.flat, P r := by
  cases d with
  | one => exact h
  | two =>
    intro r hr
    change Mat (Res β) at x
    change r ∈ Mat.flat x at hr
    rw [flat_eq, List.mem_map] at hr
    obtain ⟨k, hk, rfl⟩ := hr
    exact h _ _

theorem getD_allU {β : Type} {P : Res β → Prop} {l : List (Res β)} (hu : P .ub) (h : ∀ r ∈ l, P r)
    (i : Nat) : P (l.getD i .ub) := by
  by_cases hi : i < l.length
  · exact h _ (getD_mem hi)
  · simp [List.getD, List.getElem?_eq_none (Nat.le_of_not_lt hi)]; exact hu

theorem cross_allU {β : Type} {P : Res β → Prop} (hu : P .ub) {M : Mat (Res β)}
    (h : ∀ i j, P (M.el i j)) (rs cs : List Int) : Sem.AllU (d := .two) P (M.cross rs cs) := by
  intro i j
  unfold Mat.cross
  split
  · exact h i j
  · show P (M.pick _ _)
    unfold Mat.pick
    split
    · exact h _ _
    · exact hu

theorem View.sel_allU {β : Type} {P : Res β → Prop} (hu : P .ub) {d d' : Dim} (v : View d d')
    {x : Sem β d} (h : Sem.AllU P x) : Sem.AllU P (v.sel x) := by
  cases v with
  | slice r =>
    intro q hq
    change q ∈ (selection (List.length x) r).map (pick x) at hq
    rw [List.mem_map] at hq
    obtain ⟨i, hi, rfl⟩ := hq
    unfold pick
    split
    · exact getD_allU hu h _
    · exact hu
  | slice2 r1 r2 => exact cross_allU hu h _ _
  | rows r => exact cross_allU hu h _ _
  | cols r => exact cross_allU hu h _ _
  | row p =>
    intro q hq
    change q ∈ Mat.row x _ at hq
    simp only [Mat.row, List.mem_map, List.mem_range] at hq
    obtain ⟨j, hj, rfl⟩ := hq
    exact h _ _
  | col p =>
    intro q hq
    change q ∈ Mat.col x _ at hq
    simp only [Mat.col, List.mem_map, List.mem_range] at hq
    obtain ⟨j, hj, rfl⟩ := hq
    exact h _ _
  | diag =>
    intro q hq
    change q ∈ Mat.diagonal x 0 at hq
    simp only [Mat.diagonal, Int.le_refl, if_true, List.mem_map, List.mem_range] at hq
    obtain ⟨i, hi, rfl⟩ := hq
    exact h _ _
  | diagK k =>
    intro q hq
    change q ∈ Mat.diagonal x k at hq
    unfold Mat.diagonal at hq
    split at hq
    · simp only [List.mem_map, List.mem_range] at hq
      obtain ⟨i, hi, rfl⟩ := hq
      exact h _ _
    · simp only [List.mem_map, List.mem_range] at hq
      obtain ⟨i, hi, rfl⟩ := hq
      exact h _ _
  | block i1 j1 i2 j2 =>
    intro i j
    change P ((Mat.sub x _ _ _ _).el i j)
    unfold Mat.sub
    split
    · exact h _ _
    · exact h _ _
  | blockN i1 j1 p q =>
    intro i j
    change P ((Mat.sub x _ _ _ _).el i j)
    unfold Mat.sub
    split
    · exact h _ _
    · exact h _ _
  | view1D => exact allU_flat h
  | view2D _ p q =>
    intro i j
    change P ((Mat.laid x.flat _ _).el i j)
    unfold Mat.laid
    split
    · exact hu
    · exact getD_allU hu (allU_flat h) _

/-- All places of an assignable object lie in its array. -/
theorem Lv.cells_array (s : Store α) {d : Dim} (l : Lv d) :
    Sem.AllU (fun r => ∀ c : Loc, r = .ok c → c.array = l.array) (l.cells s) := by
  induction l with
  | arr1 id =>
    intro r hr
    change r ∈ (List.range (s.a1 id).length).map (fun k => Res.ok (Loc.one id k)) at hr
    rw [List.mem_map] at hr
    obtain ⟨k, hk, rfl⟩ := hr
    rintro c h; cases h; rfl
  | arr2 id => intro i j c h; cases h; rfl
  | view v l ih => exact v.sel_allU (by rintro c h; cases h) ih

theorem map_congr_allU {β : Type} {P : Res β → Prop} {d : Dim} {x : Sem β d} {γ : Type}
    {f g : β → Res γ} (h : Sem.AllU P x) (hfg : ∀ r, P r → (r >>= f) = (r >>= g)) :
    x.map f = x.map g := by
  cases d with
  | one =>
    change List.map _ _ = List.map _ _
    exact List.map_congr_left (fun r hr => hfg r (h r hr))
  | two =>
    change (⟨_, _, _⟩ : Mat (Res γ)) = ⟨_, _, _⟩
    congr 1
    funext i j
    exact hfg _ (h i j)

/-- An expression that does not read an array does not change when only that array changes. -/
theorem Tm.meaning_frame {a : Dim × Nat} {s s' : Store α} (hs : SameSizes s s')
    (hr : ∀ c : Loc, c.array ≠ a → s'.read c = s.read c) {d : Dim} (t : Tm α d) :
    ¬ t.Mentions a → t.meaning s' = t.meaning s := by
  induction t with
  | lv l =>
    intro h
    simp only [Tm.meaning, l.cells_same hs]
    refine map_congr_allU (l.cells_array s) ?_
    intro r hP
    cases r with
    | ok c =>
      rw [Res.ok_bind, Res.ok_bind]
      refine hr c ?_
      rw [hP c rfl]; exact h
    | trap k => rfl
    | ub => rfl
  | view v t ih => intro h; simp only [Tm.meaning, ih h]
  | unary f t ih => intro h; simp only [Tm.meaning, ih h]
  | binary f t1 t2 ih1 ih2 =>
    intro h
    simp only [Tm.Mentions, not_or] at h
    simp only [Tm.meaning, ih1 h.1, ih2 h.2]
  | scalarL f x t ih => intro h; simp only [Tm.meaning, ih h]
  | scalarR f t x ih => intro h; simp only [Tm.meaning, ih h]
  | sequence ar n x y => intro _; rfl
  | linspace ar n x y => intro _; rfl
  | eUnit ar k n => intro _; rfl
  | const1D n x => intro _; rfl
  | const2D m n x => intro _; rfl
  | identity ar n => intro _; rfl
  | merge t1 t2 ih1 ih2 =>
    intro h
    simp only [Tm.Mentions, not_or] at h
    (simp only [Tm.meaning, ih1 h.1, ih2 h.2] <;> try rfl)
  | append t x ih => intro h; (simp only [Tm.meaning, ih h] <;> try rfl)
  | prepend x t ih => intro h; (simp only [Tm.meaning, ih h] <;> try rfl)
  | exclude t p c ih => intro h; (simp only [Tm.meaning, ih h] <;> try rfl)
  | excludeLast t k ih => intro h; (simp only [Tm.meaning, ih h] <;> try rfl)
  | reduce rw g t ih => intro h; cases rw <;> (simp only [Tm.meaning, ih h] <;> try rfl)
  | matvec ar t x ih1 ih2 =>
    intro h
    simp only [Tm.Mentions, not_or] at h
    (simp only [Tm.meaning, ih1 h.1, ih2 h.2] <;> try rfl)
  | bcast rw t ih => intro h; cases rw <;> (simp only [Tm.meaning, ih h] <;> try rfl)
  | tensor ar t1 t2 ih1 ih2 =>
    intro h
    simp only [Tm.Mentions, not_or] at h
    (simp only [Tm.meaning, ih1 h.1, ih2 h.2] <;> try rfl)
  | transpose t ih => intro h; (simp only [Tm.meaning, ih h] <;> try rfl)
  | mergeH t1 t2 ih1 ih2 =>
    intro h
    simp only [Tm.Mentions, not_or] at h
    (simp only [Tm.meaning, ih1 h.1, ih2 h.2] <;> try rfl)
  | mergeV t1 t2 ih1 ih2 =>
    intro h
    simp only [Tm.Mentions, not_or] at h
    (simp only [Tm.meaning, ih1 h.1, ih2 h.2] <;> try rfl)

theorem flat_map {β γ : Type} {d : Dim} (f : β → Res γ) (x : Sem β d) :
    (x.map f).flat = x.flat.map (fun r => r >>= f) := by
  cases d with
  | one => rfl
  | two =>
    change Mat (Res β) at x
    change Mat.flat (⟨x.m, x.n, fun i j => x.el i j >>= f⟩ : Mat (Res γ)) = (Mat.flat x).map _
    rw [flat_eq, flat_eq, List.map_map]
    rfl

theorem flat_zip {β : Type} {d : Dim} (f : β → β → Res β) {x y : Sem β d} (h : x.dims = y.dims) :
    (Sem.zip f x y).flat = List.zipWith (fun p q => do let u ← p; let v ← q; f u v) x.flat y.flat := by
  cases d with
  | one => rfl
  | two =>
    change Mat (Res β) at x y
    have hm : x.m = y.m := (dims_two.1 h).1
    have hn : x.n = y.n := (dims_two.1 h).2
    change Mat.flat (⟨x.m, x.n, fun i j => do let u ← x.el i j; let v ← y.el i j; f u v⟩ : Mat (Res β)) =
      List.zipWith _ (Mat.flat x) (Mat.flat y)
    rw [flat_eq, flat_eq, flat_eq, ← hm, ← hn]
    rw [List.zipWith_map, List.zipWith_self]

theorem noClobber_of_not_mentions {s : Store α} {d d' : Dim} {t : Tm α d} {l : Lv d'}
    (ht : ¬ t.Mentions l.array) {cs : List Loc} (hc : ∀ c ∈ cs, c.array = l.array) :
    NoClobber t s cs := by
  intro k s' _ hs hr
  rw [t.meaning_frame hs (a := l.array) ?_ ht]
  intro c hca
  apply hr
  intro hm
  exact hca (hc c (List.mem_of_mem_take hm))

theorem nodup_take {cs : List Loc} (h : cs.Nodup) {k : Nat} (hk : k < cs.length) :
    cs[k] ∉ cs.take k := by
  intro hm
  obtain ⟨i, hi, e⟩ := List.mem_take_iff_getElem.1 hm
  exact List.pairwise_iff_getElem.1 h i k (by omega) hk (by omega) e

/-- Element-wise expressions on the assigned object can be assigned in place. -/
theorem noClobber_of_pointwise {s : Store α} {d : Dim} {t : Tm α d} {l : Lv d} (ht : Pointwise l t)
    (hv : t.Valid s) {cs : List Loc} (hp : (l.cells s).flat = cs.map Res.ok) (hn : cs.Nodup)
    (hc : ∀ c ∈ cs, c.array = l.array) : NoClobber t s cs := by
  induction ht with
  | same =>
    intro k s' hk hs hr
    simp only [Tm.meaning, flat_map, l.cells_same hs, hp, List.map_map, List.getElem?_map]
    rw [List.getElem?_eq_getElem hk]
    simp only [Option.map_some, Function.comp, Res.ok_bind]
    rw [hr _ (nodup_take hn hk)]
  | other ht => exact noClobber_of_not_mentions ht hc
  | unary _ ih =>
    intro k s' hk hs hr
    simp only [Tm.meaning, flat_map, List.getElem?_map]
    rw [ih hv k s' hk hs hr]
  | @binary f t1 t2 _ _ ih1 ih2 =>
    intro k s' hk hs hr
    obtain ⟨v1, v2, v3⟩ := hv
    have v3' : (t1.meaning s').dims = (t2.meaning s').dims := by
      rw [t1.meaning_dims hs, t2.meaning_dims hs, v3]
    simp only [Tm.meaning, flat_zip f v3, flat_zip f v3', List.getElem?_zipWith]
    rw [ih1 v1 k s' hk hs hr, ih2 v2 k s' hk hs hr]
  | scalarL _ ih =>
    intro k s' hk hs hr
    simp only [Tm.meaning, flat_map, List.getElem?_map]
    rw [ih hv k s' hk hs hr]
  | scalarR _ ih =>
    intro k s' hk hs hr
    simp only [Tm.meaning, flat_map, List.getElem?_map]
    rw [ih hv k s' hk hs hr]

/-- Owning arrays have no repeated places. -/
theorem nodup_arr1 {s : Store α} {id : Nat} {cs : List Loc} (h : Places (.arr1 id) s cs) :
    cs.Nodup := by
  have h1 : (List.range (s.a1 id).length).map (fun k => Res.ok (Loc.one id k)) = cs.map Res.ok := h.1
  have e : cs = (List.range (s.a1 id).length).map (Loc.one id) := by
    refine List.map_inj_right (f := (Res.ok : Loc → Res Loc)) (fun _ _ h => Res.ok.inj h) |>.1 ?_
    rw [← h1, List.map_map]; rfl
  rw [e]
  exact List.Pairwise.map _ (fun a b hab h => hab (by cases h; rfl)) List.nodup_range

theorem nodup_arr2 {s : Store α} {id : Nat} {cs : List Loc} (h : Places (.arr2 id) s cs) :
    cs.Nodup := by
  have h1 : Mat.flat ((⟨(s.a2 id).rows.toNat, (s.a2 id).cols.toNat,
      fun i j => .ok (.two id (i * (s.a2 id).cols.toNat + j))⟩ : Mat (Res Loc))) = cs.map Res.ok := h.1
  rw [flat_eq] at h1
  have e : cs = (List.range ((s.a2 id).rows.toNat * (s.a2 id).cols.toNat)).map (Loc.two id) := by
    refine List.map_inj_right (f := (Res.ok : Loc → Res Loc)) (fun _ _ h => Res.ok.inj h) |>.1 ?_
    rw [← h1, List.map_map]
    apply List.map_congr_left
    intro k _
    simp only [Function.comp]
    rw [unflat]
  rw [e]
  exact List.Pairwise.map _ (fun a b hab h => hab (by cases h; rfl)) List.nodup_range

end Spp

namespace Spp
open Spec

variable {α : Type}

/-! ### Validity depends on sizes only -/

theorem Lv.valid_same {s s' : Store α} (h : SameSizes s s') {d : Dim} {l : Lv d} :
    l.Valid s → l.Valid s' := by
  induction l with
  | arr1 id => exact fun _ => trivial
  | arr2 id => exact fun _ => trivial
  | view v l ih =>
    rintro ⟨h1, h2⟩
    refine ⟨ih h1, ?_⟩
    rw [l.cells_same h]; exact h2

theorem Lv.sound_same {s s' : Store α} (h : SameSizes s s') {d : Dim} {l : Lv d} :
    l.Sound s → l.Sound s' := by
  induction l with
  | arr1 id => exact fun _ => trivial
  | arr2 id => exact fun _ => trivial
  | view v l ih =>
    rintro ⟨h1, h2, h3⟩
    refine ⟨ih h1, h2, ?_⟩
    rw [l.cells_same h]; exact h3

theorem Tm.valid_same {s s' : Store α} (h : SameSizes s s') {d : Dim} {t : Tm α d} :
    t.Valid s → t.Valid s' := by
  have md : ∀ {d : Dim} (t : Tm α d), (t.meaning s').dims = (t.meaning s).dims :=
    fun t => t.meaning_dims h
  induction t with
  | lv l => exact Lv.valid_same h
  | view v t ih => rintro ⟨h1, h2⟩; exact ⟨ih h1, by rw [md]; exact h2⟩
  | unary f t ih => exact ih
  | binary f t1 t2 ih1 ih2 => rintro ⟨h1, h2, h3⟩; exact ⟨ih1 h1, ih2 h2, by rw [md, md]; exact h3⟩
  | scalarL f x t ih => exact ih
  | scalarR f t x ih => exact ih
  | sequence ar n x y => exact id
  | linspace ar n x y => exact id
  | eUnit ar k n => exact id
  | const1D n x => exact id
  | const2D m n x => exact id
  | identity ar n => exact id
  | merge t1 t2 ih1 ih2 => rintro ⟨h1, h2⟩; exact ⟨ih1 h1, ih2 h2⟩
  | append t x ih => exact ih
  | prepend x t ih => exact ih
  | exclude t p c ih => rintro ⟨h1, h2, h3, h4⟩; exact ⟨ih h1, h2, h3, by rw [md]; exact h4⟩
  | excludeLast t k ih => rintro ⟨h1, h2⟩; exact ⟨ih h1, by rw [md]; exact h2⟩
  | reduce rw g t ih => exact ih
  | matvec ar t x ih1 ih2 => rintro ⟨h1, h2, h3⟩; exact ⟨ih1 h1, ih2 h2, by rw [md, md]; exact h3⟩
  | bcast rw t ih => exact ih
  | tensor ar t1 t2 ih1 ih2 => rintro ⟨h1, h2⟩; exact ⟨ih1 h1, ih2 h2⟩
  | transpose t ih => exact ih
  | mergeH t1 t2 ih1 ih2 => rintro ⟨h1, h2, h3⟩; exact ⟨ih1 h1, ih2 h2, by rw [md, md]; exact h3⟩
  | mergeV t1 t2 ih1 ih2 => rintro ⟨h1, h2, h3⟩; exact ⟨ih1 h1, ih2 h2, by rw [md, md]; exact h3⟩

theorem Tm.sound_same {s s' : Store α} (h : SameSizes s s') {d : Dim} {t : Tm α d} :
    t.Sound s → t.Sound s' := by
  have md : ∀ {d : Dim} (t : Tm α d), (t.meaning s').dims = (t.meaning s).dims :=
    fun t => t.meaning_dims h
  induction t with
  | lv l => exact Lv.sound_same h
  | view v t ih =>
    rintro ⟨h1, h2, h3⟩
    exact ⟨ih h1, h2, (small_congr (md (.view v t)).symm) h3⟩
  | unary f t ih => exact ih
  | binary f t1 t2 ih1 ih2 => rintro ⟨h1, h2⟩; exact ⟨ih1 h1, ih2 h2⟩
  | scalarL f x t ih => exact ih
  | scalarR f t x ih => exact ih
  | sequence ar n x y => exact id
  | linspace ar n x y => exact id
  | eUnit ar k n => exact id
  | const1D n x => exact id
  | const2D m n x => exact id
  | identity ar n => exact id
  | merge t1 t2 ih1 ih2 => rintro ⟨h1, h2, h3⟩; exact ⟨ih1 h1, ih2 h2, by rw [md, md]; exact h3⟩
  | append t x ih => rintro ⟨h1, h2⟩; exact ⟨ih h1, by rw [md]; exact h2⟩
  | prepend x t ih => rintro ⟨h1, h2⟩; exact ⟨ih h1, by rw [md]; exact h2⟩
  | exclude t p c ih => rintro ⟨h1, h2⟩; exact ⟨ih h1, h2⟩
  | excludeLast t k ih => exact ih
  | reduce rw g t ih => exact ih
  | matvec ar t x ih1 ih2 => rintro ⟨h1, h2⟩; exact ⟨ih1 h1, ih2 h2⟩
  | bcast rw t ih =>
    rintro ⟨h1, h2⟩
    exact ⟨ih h1, (small_congr (md (.bcast rw t)).symm) h2⟩
  | tensor ar t1 t2 ih1 ih2 =>
    rintro ⟨h1, h2, h3⟩
    exact ⟨ih1 h1, ih2 h2, (small_congr (md (.tensor ar t1 t2)).symm) h3⟩
  | transpose t ih => exact ih
  | mergeH t1 t2 ih1 ih2 =>
    rintro ⟨h1, h2, h3⟩
    exact ⟨ih1 h1, ih2 h2, (small_congr (md (.mergeH t1 t2)).symm) h3⟩
  | mergeV t1 t2 ih1 ih2 =>
    rintro ⟨h1, h2, h3⟩
    exact ⟨ih1 h1, ih2 h2, (small_congr (md (.mergeV t1 t2)).symm) h3⟩

/-! ### From writes to states -/

theorem writes_ok {cs : List Loc} {xs : List α} {s : Store α} {r : Res Unit × Store α}
    (h : Writes cs (xs.map Res.ok) s r) : r.1 = .ok () ∧ Effect s r.2 (cs.zip xs) := by
  obtain ⟨ys, h1, h2⟩ := h
  rcases h2 with ⟨e, h2⟩ | ⟨e, rest, h2, h3, _⟩
  · have : xs = ys := List.map_inj_right (f := (Res.ok : α → Res α)) (fun _ _ h => Res.ok.inj h) |>.1 e
    subst this
    exact ⟨h2, h1⟩
  · exfalso
    have hm : e ∈ xs.map Res.ok := by rw [h2]; simp
    rw [List.mem_map] at hm
    obtain ⟨x, _, hx⟩ := hm
    exact h3 x hx.symm

theorem writes_fail {cs : List Loc} {xs : List α} {e : Res α} {rest : List (Res α)} {s : Store α}
    {r : Res Unit × Store α} (he : ∀ x, e ≠ .ok x) (h : Writes cs (xs.map Res.ok ++ e :: rest) s r) :
    r.1 = (e >>= fun _ => .ok ()) ∧ Effect s r.2 (cs.zip xs) := by
  obtain ⟨ys, h1, h2⟩ := h
  have key : ∀ (xs ys : List α) (e e' : Res α) (rest rest' : List (Res α)), (∀ x, e ≠ .ok x) →
      (∀ x, e' ≠ .ok x) → xs.map Res.ok ++ e :: rest = ys.map Res.ok ++ e' :: rest' →
      xs = ys ∧ e = e' := by
    intro xs
    induction xs with
    | nil =>
      intro ys e e' rest rest' he he' h
      cases ys with
      | nil => simp at h; exact ⟨rfl, h.1⟩
      | cons y ys => simp at h; exact absurd h.1 (he y)
    | cons x xs ih =>
      intro ys e e' rest rest' he he' h
      cases ys with
      | nil => simp at h; exact absurd h.1.symm (he' x)
      | cons y ys =>
        simp at h
        obtain ⟨e1, e2⟩ := ih ys e e' rest rest' he he' h.2
        exact ⟨by rw [h.1, e1], e2⟩
  rcases h2 with ⟨h2, h3⟩ | ⟨e', rest', h2, h3, h4⟩
  · exfalso
    have hm : e ∈ ys.map Res.ok := by rw [← h2]; simp
    rw [List.mem_map] at hm
    obtain ⟨x, _, hx⟩ := hm
    exact he x hx.symm
  · obtain ⟨rfl, rfl⟩ := key _ _ _ _ _ _ he h3 h2
    exact ⟨h4, h1⟩

theorem list_eq_of_rd {l1 l2 : List α} (hl : l1.length = l2.length)
    (h : ∀ k : Nat, rd l1 k = rd l2 k) : l1 = l2 := by
  apply List.ext_getElem hl
  intro k h1 h2
  have := h k
  rw [rd_nat h1, rd_nat h2] at this
  exact Res.ok.inj this

/-- Two states with the same sizes and the same elements are equal. -/
theorem store_ext {s t : Store α} (hs : SameSizes s t) (h : ∀ c, s.read c = t.read c) : s = t := by
  obtain ⟨f1, f2⟩ := s
  obtain ⟨g1, g2⟩ := t
  have e1 : f1 = g1 := by
    funext id
    exact list_eq_of_rd (hs.1 id) (fun k => h (.one id k))
  have e2 : f2 = g2 := by
    funext id
    have hd : (f2 id).data = (g2 id).data := list_eq_of_rd (hs.2 id).2.2 (fun k => h (.two id k))
    have hr := (hs.2 id).1
    have hc := (hs.2 id).2.1
    simp only at hr hc
    cases h1 : f2 id with
    | mk r c d =>
      cases h2 : g2 id with
      | mk r' c' d' =>
        rw [h1, h2] at hd hr hc
        simp only at hd hr hc
        rw [hd, hr, hc]
  rw [e1, e2]

theorem SameSizes.symm {s t : Store α} (h : SameSizes s t) : SameSizes t s :=
  ⟨fun id => (h.1 id).symm, fun id => ⟨(h.2 id).1.symm, (h.2 id).2.1.symm, (h.2 id).2.2.symm⟩⟩

/-- The writes determine the state. -/
theorem Effect.unique {s t t' : Store α} {ws : List (Loc × α)} (h : Effect s t ws)
    (h' : Effect s t' ws) : t = t' := by
  refine store_ext (SameSizes.trans (SameSizes.symm h.1) h'.1) (fun c => ?_)
  rw [h.2 c, h'.2 c]

/-- The `k`-th element after some writes to array `id`. -/
theorem foldl_set_getElem? (ws : List (Nat × α)) (l : List α) (id : Nat) (k : Nat)
    (hw : ∀ w ∈ ws, w.1 < l.length) :
    (ws.foldl (fun a w => a.set w.1 w.2) l)[k]? =
      match lastWrite (ws.map (fun w => (Loc.one id w.1, w.2))) (.one id k) with
      | some x => some x
      | none => l[k]? := by
  induction ws generalizing l with
  | nil => rfl
  | cons w ws ih =>
    simp only [List.foldl_cons, List.map_cons, lastWrite]
    rw [ih _ (by intro w' hw'; rw [List.length_set]; exact hw w' (by simp [hw']))]
    cases hl : lastWrite (ws.map (fun w => (Loc.one id w.1, w.2))) (.one id k) with
    | some x => rfl
    | none =>
      simp only
      have hw1 := hw w (by simp)
      by_cases hk : w.1 = k
      · subst hk
        rw [if_pos rfl]
        simp [hw1]
      · rw [if_neg (by intro h; cases h; exact hk rfl)]
        simp [List.getElem?_set, hk]

theorem foldl_set_length (ws : List (Nat × α)) (l : List α) :
    (ws.foldl (fun a w => a.set w.1 w.2) l).length = l.length := by
  induction ws generalizing l with
  | nil => rfl
  | cons w ws ih => rw [List.foldl_cons, ih, List.length_set]

/-- Writes to the one-dimensional array `id` only. -/
theorem Effect.array {s t : Store α} {id : Nat} {ws : List (Nat × α)}
    (h : Effect s t (ws.map (fun w => (Loc.one id w.1, w.2)))) (hw : ∀ w ∈ ws, w.1 < (s.a1 id).length) :
    t.a1 id = ws.foldl (fun a w => a.set w.1 w.2) (s.a1 id) ∧ (∀ i, i ≠ id → t.a1 i = s.a1 i) ∧
      ∀ i, t.a2 i = s.a2 i := by
  have other : ∀ c : Loc, c.array ≠ (.one, id) → t.read c = s.read c := by
    intro c hc
    refine Effect.frame h ?_
    intro w hw e
    rw [List.mem_map] at hw
    obtain ⟨v, _, rfl⟩ := hw
    rw [← e] at hc
    exact hc rfl
  refine ⟨?_, ?_, ?_⟩
  · apply List.ext_getElem
    · rw [foldl_set_length, h.1.1 id]
    · intro k h1 h2
      have e1 := h.2 (.one id k)
      have e2 := foldl_set_getElem? ws (s.a1 id) id k hw
      have hk : k < (s.a1 id).length := by rw [foldl_set_length] at h2; exact h2
      simp only [Store.read] at e1
      rw [rd_nat h1] at e1
      rw [List.getElem?_eq_getElem h2] at e2
      cases hl : lastWrite (ws.map (fun w => (Loc.one id w.1, w.2))) (.one id k) with
      | some x =>
        rw [hl] at e1 e2
        rw [Res.ok.inj e1, Option.some.inj e2]
      | none =>
        rw [hl] at e1 e2
        simp only at e1 e2
        rw [rd_nat hk] at e1
        rw [List.getElem?_eq_getElem hk] at e2
        rw [Res.ok.inj e1, Option.some.inj e2]
  · intro i hi
    refine list_eq_of_rd (h.1.1 i).symm (fun k => other (.one i k) ?_)
    intro e
    exact hi (congrArg Prod.snd e)
  · intro i
    have hd : (t.a2 i).data = (s.a2 i).data :=
      list_eq_of_rd (h.1.2 i).2.2.symm (fun k => other (.two i k) (by intro e; cases e))
    have hr := (h.1.2 i).1
    have hc := (h.1.2 i).2.1
    cases h1 : t.a2 i with
    | mk r c d =>
      cases h2 : s.a2 i with
      | mk r' c' d' =>
        rw [h1, h2] at hd hr hc
        simp only at hd hr hc
        rw [hd, hr, hc]

/-! ### Nested lists -/

theorem rect_valid {L : List (List α)} {m n : Nat} (h : Rect L m n) :
    Arr2.validList L = true ∧ Arr2.listSizes L = ((m : Int), (n : Int)) := by
  rcases h with ⟨hn, hm, hm0, hr⟩ | ⟨rfl, rfl, h⟩
  · cases L with
    | nil => simp at hm; omega
    | cons r rs =>
      have hl : r.length = n := hr r (by simp)
      constructor
      · simp only [Arr2.validList]
        rw [if_neg (by omega), if_neg (by omega)]
        rw [List.all_eq_true]
        intro x hx
        simp [hr x hx, hl]
      · simp only [Arr2.listSizes]
        rw [if_neg (by omega)]
        simp at hm
        ext <;> simp <;> omega
  · cases L with
    | nil => exact ⟨rfl, rfl⟩
    | cons r rs =>
      rcases h with h | ⟨h1, h2⟩
      · simp at h
      · have : rs = [] := by simpa using h1
        have hr := h2 r (by simp)
        simp [Arr2.validList, Arr2.listSizes, this, hr]

theorem valid_rect {L : List (List α)} (hv : Arr2.validList L = true) :
    ∃ m n : Nat, Rect L m n := by
  cases L with
  | nil => exact ⟨0, 0, .inr ⟨rfl, rfl, .inl rfl⟩⟩
  | cons r rs =>
    simp only [Arr2.validList] at hv
    split at hv
    · rename_i h
      refine ⟨0, 0, .inr ⟨rfl, rfl, .inr ⟨by simp [h.1], ?_⟩⟩⟩
      intro x hx
      have : rs = [] := List.eq_nil_of_length_eq_zero h.1
      subst this
      simp at hx
      subst hx
      exact h.2
    · rename_i h
      split at hv
      · simp at hv
      · rename_i h2
        refine ⟨rs.length + 1, r.length, .inl ⟨by omega, by simp, by omega, ?_⟩⟩
        rw [List.all_eq_true] at hv
        intro x hx
        simpa using hv x hx

theorem rect_flatten {L : List (List α)} {n : Nat} (h : ∀ r ∈ L, r.length = n) :
    L.flatten.length = L.length * n ∧
    ∀ (i j : Nat) (hi : i < L.length) (hj : j < n),
      L.flatten[i * n + j]? = some ((L[i])[j]'(by rw [h _ (List.getElem_mem hi)]; exact hj)) := by
  induction L with
  | nil => exact ⟨by simp, fun i j hi => absurd hi (by simp)⟩
  | cons r L ih =>
    obtain ⟨h1, h2⟩ := ih (fun r hr => h r (by simp [hr]))
    have hr := h r (by simp)
    refine ⟨by simp [h1, hr, Nat.succ_mul]; omega, ?_⟩
    intro i j hi hj
    rw [List.flatten_cons]
    cases i with
    | zero =>
      rw [List.getElem?_append_left (by omega)]
      simp only [Nat.zero_mul, Nat.zero_add, List.getElem_cons_zero]
      rw [List.getElem?_eq_getElem (by omega)]
    | succ i =>
      rw [List.getElem?_append_right (by rw [hr, Nat.succ_mul]; omega)]
      have : (i + 1) * n + j - r.length = i * n + j := by rw [hr, Nat.succ_mul]; omega
      rw [this]
      simp only [List.getElem_cons_succ]
      exact h2 i j (by simpa using hi) hj

section stmts
variable {s0 : Store α} {cs : List Loc} {dst : Acc (Store α) Loc}

theorem copyList2_writes {l : Lv .two} (hp : Places l s0 cs)
    (hd : ∀ s, SameSizes s0 s → Den .two dst s (l.cells s)) {L : List (List α)} {m n : Nat}
    (hL : Rect L m n) (hdim : (l.cells s0).dims = (m, n)) :
    Writes cs (L.flatten.map Res.ok) s0 (copyList2 dst L s0) := by
  have hcs : cs.length = m * n := by rw [Places.length hp, hdim]
  rcases hL with ⟨hn, hm, hm0, hr⟩ | ⟨rfl, rfl, h⟩
  · obtain ⟨f1, f2⟩ := rect_flatten hr
    have e : copyList2 dst L = Op.forN m (fun i => Op.forN n (fun j => do
        let s : Store α ← Op.get
        let v ← Op.lift (rd (L.getD i []) j)
        let l ← Op.lift (dst.un2 s i j)
        put l v)) := by
      unfold copyList2
      rw [hm]
      apply Op.forN_congr
      intro i hi
      funext s
      have hi' : i < L.length := by omega
      simp only [rd_nat hi', Op.lift_ok_bind, hr _ (List.getElem_mem hi')]
      rw [getD_lt hi']
    rw [e, Op.forN_nest]
    refine writes_loop hp.2 (by rw [List.length_map, f1, hcs, hm]) (by rw [List.length_map, f1, hm]) ?_
    intro xs t h he _
    rw [List.length_map] at h
    have hk : xs.length < cs.length := by rw [f1, hm] at h; omega
    have hkm : xs.length < m * n := by omega
    obtain ⟨u, v⟩ := unflat_lt hkm
    have hu' : xs.length / n < L.length := by omega
    have hv' : xs.length % n < (L[xs.length / n]).length := by
      rw [hr _ (List.getElem_mem hu')]; exact v
    have hx : L.flatten[xs.length]? = some (L[xs.length / n])[xs.length % n] := by
      have := f2 _ _ hu' v
      rw [unflat] at this
      exact this
    have hx2 : L.flatten[xs.length]'h = (L[xs.length / n])[xs.length % n] := by
      rw [List.getElem?_eq_getElem h] at hx
      exact Option.some.inj hx
    have hrd : rd (L.getD (xs.length / n) []) ((xs.length % n : Nat) : Int) =
        .ok (L[xs.length / n])[xs.length % n] := by
      rw [getD_lt hu', rd_nat hv']
    simp only [List.getElem_map, Op.get_bind, hrd, Op.lift_ok_bind,
      dst_un2 hp hd he.1 hk (n := n) (by rw [hdim]), hx2]
  · have hc : cs = [] := List.eq_nil_of_length_eq_zero (by simpa using hcs)
    subst hc
    have : L = [] ∨ L = [[]] := by
      cases L with
      | nil => exact .inl rfl
      | cons r rs =>
        rcases h with h | ⟨h1, h2⟩
        · simp at h
        · right
          have : rs = [] := by simpa using h1
          rw [this, List.eq_nil_of_length_eq_zero (h2 r (by simp))]
    rcases this with rfl | rfl
    · exact ⟨[], Effect.refl _, .inl ⟨rfl, rfl⟩⟩
    · exact ⟨[], Effect.refl _, .inl ⟨rfl, rfl⟩⟩

end stmts

/-! ### No statement changes a size -/

/-- The computation keeps all sizes, however it ends. -/
def Keeps (m : Op (Store α) β) : Prop := ∀ s, SameSizes s (m s).2

theorem Keeps.bind {m : Op (Store α) β} {f : β → Op (Store α) γ} (h1 : Keeps m)
    (h2 : ∀ x, Keeps (f x)) : Keeps (m >>= f) := by
  intro s
  rw [Op.bind_run]
  have := h1 s
  rcases h : m s with ⟨x | k | _, t⟩ <;> rw [h] at this
  · exact SameSizes.trans this (h2 x t)
  · exact this
  · exact this

theorem keeps_get : Keeps (Op.get : Op (Store α) (Store α)) := fun s => SameSizes.refl s
theorem keeps_lift (r : Res β) : Keeps (Op.lift r : Op (Store α) β) := fun s => SameSizes.refl s

theorem write_sizes {s s' : Store α} {c : Loc} {x : α} (h : s.write c x = .ok s') :
    SameSizes s s' := by
  by_cases hv : c.Valid s
  · obtain ⟨t, h1, h2, _⟩ := write_ok hv x
    rw [h1] at h
    cases h; exact h2
  · exfalso
    cases c with
    | one id k =>
      simp only [Loc.Valid] at hv
      simp only [Store.write, wr, Res.bind_eq_ok] at h
      obtain ⟨d, hd, _⟩ := h
      rw [if_neg (by omega)] at hd
      cases hd
    | two id k =>
      simp only [Loc.Valid] at hv
      simp only [Store.write, wr, Res.bind_eq_ok] at h
      obtain ⟨d, hd, _⟩ := h
      rw [if_neg (by omega)] at hd
      cases hd

theorem keeps_put (c : Loc) (x : α) : Keeps (put c x) := by
  intro s
  simp only [put, Op.get_bind]
  cases h : s.write c x with
  | ok s' => simp only [Op.lift_ok_bind, Op.set_run]; exact write_sizes h
  | trap k => exact SameSizes.refl s
  | ub => exact SameSizes.refl s

theorem keeps_forN {n : Nat} {f : Nat → Op (Store α) Unit} (h : ∀ i, Keeps (f i)) :
    Keeps (Op.forN n f) := by
  induction n with
  | zero => exact fun s => SameSizes.refl s
  | succ n ih =>
    intro s
    rw [Op.forN_succ]
    have := ih s
    rcases h1 : Op.forN n f s with ⟨x | k | _, t⟩ <;> rw [h1] at this
    · exact SameSizes.trans this (h n t)
    · exact this
    · exact this

theorem AStmt.keeps (b : Build) (st : AStmt α) : Keeps (st.run b) := by
  cases st with
  | assign l t =>
    refine keeps_get.bind fun s => (keeps_lift _).bind fun src => (keeps_lift _).bind fun dst =>
      (keeps_lift _).bind fun _ => ?_
    have h1 : Keeps (copyLin dst src) :=
      keeps_get.bind fun s => (keeps_lift _).bind fun n => keeps_forN fun i =>
        keeps_get.bind fun s => (keeps_lift _).bind fun v => (keeps_lift _).bind fun c => keeps_put c v
    unfold copyTo
    split
    · exact h1
    · split
      · exact h1
      · exact keeps_get.bind fun s => keeps_forN fun i => keeps_forN fun j =>
          keeps_get.bind fun s => (keeps_lift _).bind fun v => (keeps_lift _).bind fun c => keeps_put c v
  | fill l x =>
    exact keeps_get.bind fun s => (keeps_lift _).bind fun dst => keeps_get.bind fun s =>
      (keeps_lift _).bind fun n => keeps_forN fun i => keeps_get.bind fun s =>
        (keeps_lift _).bind fun c => keeps_put c x
  | list l xs =>
    exact keeps_get.bind fun s => (keeps_lift _).bind fun dst => (keeps_lift _).bind fun _ =>
      keeps_forN fun i => keeps_get.bind fun s => (keeps_lift _).bind fun v =>
        (keeps_lift _).bind fun c => keeps_put c v
  | list2 l L =>
    exact keeps_get.bind fun s => (keeps_lift _).bind fun dst => (keeps_lift _).bind fun _ =>
      (keeps_lift _).bind fun _ => (keeps_lift _).bind fun _ =>
      keeps_forN fun i => (keeps_lift _).bind fun row => keeps_forN fun j => keeps_get.bind fun s =>
        (keeps_lift _).bind fun v => (keeps_lift _).bind fun c => keeps_put c v
  | compound op l t =>
    exact keeps_get.bind fun s => (keeps_lift _).bind fun src => (keeps_lift _).bind fun dst =>
      (keeps_lift _).bind fun _ => keeps_get.bind fun s => (keeps_lift _).bind fun n =>
      keeps_forN fun i => keeps_get.bind fun s => (keeps_lift _).bind fun c =>
        (keeps_lift _).bind fun v => keeps_put c v
  | compoundX op l x =>
    exact keeps_get.bind fun s => (keeps_lift _).bind fun dst => keeps_get.bind fun s =>
      (keeps_lift _).bind fun n =>
      keeps_forN fun i => keeps_get.bind fun s => (keeps_lift _).bind fun c =>
        (keeps_lift _).bind fun v => keeps_put c v

end Spp
