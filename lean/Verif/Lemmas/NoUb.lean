import Verif.Lemmas.Eval
import Verif.Spec.Gives

/- Elements of accepted expressions are never computed from memory outside the arrays. -/

set_option linter.unusedSectionVars false

namespace Spp
open Spec

variable {α : Type}

theorem bind_ne_ub {β γ : Type} {r : Res β} {f : β → Res γ} (h : r ≠ .ub) (hf : ∀ x, f x ≠ .ub) :
    (r >>= f) ≠ .ub := by
  cases r with
  | ok x => rw [Res.ok_bind]; exact hf x
  | trap k => intro h; cases h
  | ub => exact absurd rfl h

theorem foldl_ne_ub {β γ : Type} {l : List β} {f : Res γ → β → Res γ} {a : Res γ} (ha : a ≠ .ub)
    (h : ∀ a x, x ∈ l → a ≠ .ub → f a x ≠ .ub) : l.foldl f a ≠ .ub := by
  induction l generalizing a with
  | nil => exact ha
  | cons x l ih =>
    exact ih (h a x (by simp) ha) (fun a y hy => h a y (by simp [hy]))

theorem inner_ne_ub {ar : Arith α} (har : Tm.Total.ArTotal ar) {xs ys : List (Res α)}
    (hx : ∀ r ∈ xs, r ≠ .ub) (hy : ∀ r ∈ ys, r ≠ .ub) : inner ar xs ys ≠ .ub := by
  unfold inner
  refine foldl_ne_ub (by intro h; cases h) ?_
  rintro a ⟨u, v⟩ hp ha
  have h1 := hx _ (List.of_mem_zip hp).1
  have h2 := hy _ (List.of_mem_zip hp).2
  exact bind_ne_ub ha fun _ => bind_ne_ub h1 fun _ => bind_ne_ub h2 fun _ =>
    bind_ne_ub (har.2.2.1 _ _) fun _ => har.1 _ _

theorem all_map {β γ : Type} {d : Dim} {x : Sem β d} {P : Res β → Prop} {Q : Res γ → Prop}
    {f : β → Res γ} (h : Sem.All P x) (hf : ∀ r, P r → Q (r >>= f)) : Sem.All Q (x.map f) := by
  cases d with
  | one =>
    intro r hr
    change List (Res β) at x
    change r ∈ List.map (fun x => x >>= f) x at hr
    rw [List.mem_map] at hr
    obtain ⟨q, hq, rfl⟩ := hr
    exact hf _ (h q hq)
  | two => exact fun i j hi hj => hf _ (h i j hi hj)

theorem range_map_all {γ : Type} {n : Nat} {f : Nat → γ} {P : γ → Prop} (h : ∀ i, i < n → P (f i)) :
    ∀ r ∈ (List.range n).map f, P r := by
  intro r hr
  rw [List.mem_map] at hr
  obtain ⟨i, hi, rfl⟩ := hr
  exact h i (List.mem_range.1 hi)

theorem zipWith_ne_ub {f : α → α → Res α} (hf : ∀ x y, f x y ≠ .ub) {xs ys : List (Res α)}
    (hx : ∀ r ∈ xs, r ≠ .ub) (hy : ∀ r ∈ ys, r ≠ .ub) :
    ∀ r ∈ List.zipWith (fun x y => do let u ← x; let v ← y; f u v) xs ys, r ≠ .ub := by
  intro r hr
  obtain ⟨i, hi, rfl⟩ := List.mem_iff_getElem.1 hr
  rw [List.getElem_zipWith]
  exact bind_ne_ub (hx _ (List.getElem_mem _)) fun _ =>
    bind_ne_ub (hy _ (List.getElem_mem _)) fun _ => hf _ _

theorem Tm.noUb {s : Store α} (hs : Store.Ok s) {d : Dim} (t : Tm α d) :
    t.Sound s → t.Valid s → t.Total → Sem.All (· ≠ .ub) (t.meaning s) := by
  induction t with
  | lv l =>
    intro hS hV _
    refine all_map (l.cells_all hs hS hV) ?_
    rintro r ⟨c, rfl, hc, _⟩
    rw [Res.ok_bind]
    cases c with
    | one id k => simp only [Store.read]; rw [rd_nat hc]; intro h; cases h
    | two id k => simp only [Store.read]; rw [rd_nat hc]; intro h; cases h
  | view v t ih =>
    intro hS hV hT
    exact v.sel_all hS.2.1 hV.2 (t.main ⟨false, true, false⟩ hs hS.1 hV.1).1 (ih hS.1 hV.1 hT)
  | unary f t ih =>
    intro hS hV hT
    exact all_map (ih hS hV hT.2) (fun r hr => bind_ne_ub hr hT.1)
  | binary f t1 t2 ih1 ih2 =>
    intro hS hV hT
    have h1 := ih1 hS.1 hV.1 hT.2.1
    have h2 := ih2 hS.2 hV.2.1 hT.2.2
    rename_i d
    cases d with
    | one => exact zipWith_ne_ub hT.1 h1 h2
    | two =>
      intro i j hi hj
      obtain ⟨e1, e2⟩ := dims_two.1 hV.2.2
      refine bind_ne_ub (h1 i j hi hj) fun _ => bind_ne_ub (h2 i j ?_ ?_) fun _ => hT.1 _ _
      · rw [← e1]; exact hi
      · rw [← e2]; exact hj
  | scalarL f x t ih =>
    intro hS hV hT
    exact all_map (ih hS hV hT.2) (fun r hr => bind_ne_ub hr (fun _ => hT.1 _ _))
  | scalarR f t x ih =>
    intro hS hV hT
    exact all_map (ih hS hV hT.2) (fun r hr => bind_ne_ub hr (fun _ => hT.1 _ _))
  | sequence ar n start incr =>
    intro hS hV hT
    exact range_map_all (fun i _ => bind_ne_ub (hT.2.2.2.2 _) fun _ => bind_ne_ub (hT.2.2.1 _ _) fun _ =>
      hT.1 _ _)
  | linspace ar n start stop =>
    intro hS hV hT
    exact range_map_all (fun i _ => bind_ne_ub (hT.2.1 _ _) fun _ => bind_ne_ub (hT.2.2.2.2 _) fun _ =>
      bind_ne_ub (hT.2.2.2.1 _ _) fun _ => bind_ne_ub (hT.2.2.2.2 _) fun _ =>
      bind_ne_ub (hT.2.2.1 _ _) fun _ => hT.1 _ _)
  | eUnit ar k n => intro hS hV hT; exact range_map_all (fun i _ => by intro h; cases h)
  | const1D n x =>
    intro hS hV hT r hr
    change r ∈ List.replicate _ _ at hr
    rw [List.mem_replicate] at hr
    rw [hr.2]; intro h; cases h
  | const2D m n x => intro hS hV hT i j _ _ h; cases h
  | identity ar n => intro hS hV hT i j _ _ h; cases h
  | merge t1 t2 ih1 ih2 =>
    intro hS hV hT r hr
    change r ∈ List.append _ _ at hr
    rcases List.mem_append.1 hr with h | h
    · exact ih1 hS.1 hV.1 hT.1 r h
    · exact ih2 hS.2.1 hV.2 hT.2 r h
  | append t x ih =>
    intro hS hV hT r hr
    change r ∈ List.append _ _ at hr
    rcases List.mem_append.1 hr with h | h
    · exact ih hS.1 hV hT r h
    · rw [List.mem_singleton.1 h]; intro h; cases h
  | prepend x t ih =>
    intro hS hV hT r hr
    change r ∈ List.cons _ _ at hr
    rcases List.mem_cons.1 hr with h | h
    · rw [h]; intro h; cases h
    · exact ih hS.1 hV hT r h
  | exclude t p c ih =>
    intro hS hV hT r hr
    change r ∈ removed _ _ _ at hr
    unfold removed at hr
    rcases List.mem_append.1 hr with h | h
    · exact ih hS.1 hV.1 hT r (List.mem_of_mem_take h)
    · exact ih hS.1 hV.1 hT r (List.mem_of_mem_drop h)
  | excludeLast t k ih =>
    intro hS hV hT r hr
    change r ∈ List.dropLast _ at hr
    exact ih hS hV.1 hT r (List.dropLast_subset _ hr)
  | reduce rw' g t ih =>
    intro hS hV hT
    have h := ih hS hV hT.2
    cases rw'
    · exact range_map_all (fun j hj => hT.1 _ (range_map_all (fun i hi => h i j hi hj)))
    · exact range_map_all (fun i hi => hT.1 _ (range_map_all (fun j hj => h i j hi hj)))
  | matvec ar t x ih1 ih2 =>
    intro hS hV hT
    have h := ih1 hS.1 hV.1 hT.2.1
    exact range_map_all (fun i hi => inner_ne_ub hT.1 (range_map_all (fun j hj => h i j hi hj))
      (ih2 hS.2 hV.2.1 hT.2.2))
  | bcast rw' t ih =>
    intro hS hV hT
    have h := ih hS.1 hV hT
    cases rw'
    · exact fun i j hi hj => h _ (getD_mem hi)
    · exact fun i j hi hj => h _ (getD_mem hj)
  | tensor ar t1 t2 ih1 ih2 =>
    intro hS hV hT i j hi hj
    have h1 := ih1 hS.1 hV.1 hT.2.1
    have h2 := ih2 hS.2.1 hV.2 hT.2.2
    exact bind_ne_ub (h1 _ (getD_mem hi)) fun _ => bind_ne_ub (h2 _ (getD_mem hj)) fun _ =>
      hT.1.2.2.1 _ _
  | transpose t ih =>
    intro hS hV hT
    exact fun i j hi hj => ih hS hV hT j i hj hi
  | mergeH t1 t2 ih1 ih2 =>
    intro hS hV hT i j hi hj
    have h1 := ih1 hS.1 hV.1 hT.1
    have h2 := ih2 hS.2.1 hV.2.1 hT.2
    have s1 := (t1.main ⟨false, true, false⟩ hs hS.1 hV.1).1
    have s2 := (t2.main ⟨false, true, false⟩ hs hS.2.1 hV.2.1).1
    revert hi hj
    show i < (Mat.beside (t1.meaning s) (t2.meaning s)).m →
      j < (Mat.beside (t1.meaning s) (t2.meaning s)).n →
      (Mat.beside (t1.meaning s) (t2.meaning s)).el i j ≠ .ub
    have z1 := s1.2
    have z2 := s2.2
    have hm : Mat.m (t1.meaning s) = 0 ∨ Mat.m (t2.meaning s) = 0 ∨
      Mat.m (t1.meaning s) = Mat.m (t2.meaning s) := hV.2.2
    simp only [Mat.beside]
    intro hi hj
    split
    · rename_i hlt
      refine h1 i j ?_ hlt
      split at hi <;> omega
    · rename_i hlt
      refine h2 i _ ?_ (by omega)
      split at hi <;> omega
  | mergeV t1 t2 ih1 ih2 =>
    intro hS hV hT i j hi hj
    have h1 := ih1 hS.1 hV.1 hT.1
    have h2 := ih2 hS.2.1 hV.2.1 hT.2
    have s1 := (t1.main ⟨false, true, false⟩ hs hS.1 hV.1).1
    have s2 := (t2.main ⟨false, true, false⟩ hs hS.2.1 hV.2.1).1
    revert hi hj
    show i < (Mat.above (t1.meaning s) (t2.meaning s)).m →
      j < (Mat.above (t1.meaning s) (t2.meaning s)).n →
      (Mat.above (t1.meaning s) (t2.meaning s)).el i j ≠ .ub
    have z1 := s1.2
    have z2 := s2.2
    have hm : Mat.n (t1.meaning s) = 0 ∨ Mat.n (t2.meaning s) = 0 ∨
      Mat.n (t1.meaning s) = Mat.n (t2.meaning s) := hV.2.2
    simp only [Mat.above]
    intro hi hj
    split
    · rename_i hlt
      refine h1 i j hlt ?_
      split at hj <;> omega
    · rename_i hlt
      refine h2 _ j (by omega) ?_
      split at hj <;> omega

end Spp
