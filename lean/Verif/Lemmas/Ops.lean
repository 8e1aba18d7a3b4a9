import Verif.Spec.Ops
import Verif.Lemmas.Assign
import Verif.Lemmas.Alias
import Mathlib.Order.Basic

/-
Lemmas on operations on whole arrays.
-/

set_option linter.unusedSectionVars false

namespace Spp
open Spec

variable {σ α : Type}

theorem den_flat {d : Dim} {a : Acc σ α} {s : σ} {X : Sem α d} (h : Den d a s X) :
    a.size s = .ok (X.flat.length : Int) ∧
    ∀ i : Nat, i < X.flat.length → a.un s i = X.flat.getD i .ub := by
  cases d with
  | one => exact h.2
  | two =>
    change Mat (Res α) at X
    obtain ⟨h1, h2, h3, h4⟩ := h
    refine ⟨?_, fun i hi => ?_⟩
    · rw [h3]; show _ = Res.ok ((Mat.flat X).length : Int); rw [flat_length]
    · have hi' : i < X.m * X.n := by
        have : (Mat.flat X).length = X.m * X.n := flat_length X
        change i < (Mat.flat X).length at hi
        omega
      obtain ⟨p, q⟩ := unflat_lt hi'
      have := (h4 (i / X.n) (i % X.n) p q).2
      rw [unflat] at this
      rw [this]
      show _ = (Mat.flat X).getD i .ub
      have e := flat_getD (M := X) (d := Res.ub) p q
      rw [unflat] at e
      exact e.symm

theorem Elems.size {d : Dim} {a : Acc σ α} {s : σ} {l : List α} (h : Elems d a s l) :
    a.size s = .ok (l.length : Int) := by
  obtain ⟨X, h1, h2⟩ := h
  rw [(den_flat h1).1, h2, List.length_map]

theorem Elems.un {d : Dim} {a : Acc σ α} {s : σ} {l : List α} (h : Elems d a s l) {i : Nat}
    (hi : i < l.length) : a.un s i = .ok l[i] := by
  obtain ⟨X, h1, h2⟩ := h
  rw [(den_flat h1).2 i (by rw [h2, List.length_map]; exact hi), h2]
  simp [hi]

theorem Elems.rows {a : Acc σ α} {s : σ} {l : List α} (h : Elems .one a s l) :
    a.rows s = (l.length : Int) := by
  obtain ⟨X, h1, h2⟩ := h
  change List (Res α) at X
  change X = l.map Res.ok at h2
  rw [h1.1, h2, List.length_map]

theorem Elems.empty {d : Dim} {a : Acc σ α} {s : σ} {l : List α} (h : Elems d a s l) :
    a.empty s = .ok l.isEmpty := by
  unfold Acc.empty
  rw [Elems.size h]
  cases l with
  | nil => rfl
  | cons x xs =>
    simp only [Res.ok_bind, Res.pure_eq, List.isEmpty_cons, Res.ok.injEq, beq_eq_false_iff_ne]
    simp only [List.length_cons]
    omega

theorem Elems.unary {d : Dim} {a : Acc σ α} {s : σ} {l : List α} (h : Elems d a s l)
    {f : α → Res α} {g : α → α} (hf : ∀ x ∈ l, f x = .ok (g x)) :
    Elems d (a.unary f) s (l.map g) := by
  obtain ⟨X, h1, h2⟩ := h
  refine ⟨X.map f, ?_, ?_⟩
  · exact den_unary f h1
  · rw [flat_map, h2, List.map_map, List.map_map]
    exact List.map_congr_left fun x hx => by simp [hf x hx]

/-- A loop over the elements of a list. -/
theorem foldN_list {β : Type} {l : List α} {p : Nat → Res α}
    (hp : ∀ i (h : i < l.length), p i = .ok l[i]) (f : β → α → Res β) (init : β) :
    foldN l.length (fun i acc => do let x ← p i; f acc x) init = l.foldlM f init := by
  have key : ∀ k, k ≤ l.length →
      foldN k (fun i acc => do let x ← p i; f acc x) init = (l.take k).foldlM f init := by
    intro k
    induction k with
    | zero => intro _; rfl
    | succ k ih =>
      intro hk
      rw [foldN_succ, ih (by omega), List.take_succ_eq_append_getElem (by omega), List.foldlM_append]
      congr 1
      funext acc
      rw [hp k (by omega), Res.ok_bind, List.foldlM_cons]
      cases f acc l[k] <;> rfl
  rw [key _ (Nat.le_refl _), List.take_length]

theorem foldlM_pure {β : Type} {f : β → α → Res β} {g : β → α → β} (l : List α) (init : β)
    (h : ∀ acc, ∀ x ∈ l, f acc x = .ok (g acc x)) :
    l.foldlM f init = .ok (l.foldl g init) := by
  induction l generalizing init with
  | nil => rfl
  | cons x xs ih =>
    rw [List.foldlM_cons, h _ x (List.mem_cons_self ..), Res.ok_bind, List.foldl_cons]
    exact ih _ fun acc y hy => h acc y (List.mem_cons_of_mem _ hy)

theorem foldElems_eq {d : Dim} {a : Acc σ α} {s : σ} {l : List α} (h : Elems d a s l)
    (f : α → α → Res α) (dflt : α) :
    Ops.foldElems f a s dflt = match l with
      | [] => .ok dflt
      | x :: xs => xs.foldlM f x := by
  unfold Ops.foldElems
  rw [Elems.empty h]
  cases l with
  | nil => rfl
  | cons x xs =>
    have h0 := Elems.un h (i := 0) (by simp)
    simp only [Res.ok_bind, List.isEmpty_cons, Bool.false_eq_true, if_false]
    have e0 : a.un s 0 = .ok x := h0
    rw [e0, Elems.size h, Res.ok_bind, Res.ok_bind]
    have el : ((((x :: xs).length : Nat) : Int)).toNat - 1 = xs.length := by simp
    rw [el]
    exact foldN_list (l := xs) (p := fun k => a.un s ((k + 1 : Nat) : Int))
      (fun i hi => Elems.un h (i := i + 1) (by simpa using hi)) f x

theorem anyLoop_eq {l : List α} {p : Nat → Res Bool} {f : α → Res Bool} (i : Nat)
    (hp : ∀ k (h : k < l.length), p (i + k) = f l[k]) :
    Ops.anyLoop p l.length i = l.anyM f := by
  induction l generalizing i with
  | nil => rfl
  | cons x xs ih =>
    rw [List.length_cons, Ops.anyLoop, List.anyM_cons]
    have h0 : p i = f x := hp 0 (by simp)
    rw [h0]
    congr 1
    funext c
    cases c
    · exact ih (i + 1) fun k hk => by
        have := hp (k + 1) (by simpa using hk)
        rw [show i + 1 + k = i + (k + 1) by omega, this]; rfl
    · rfl

theorem allLoop_eq {l : List α} {p : Nat → Res Bool} {f : α → Res Bool} (i : Nat)
    (hp : ∀ k (h : k < l.length), p (i + k) = f l[k]) :
    Ops.allLoop p l.length i = l.allM f := by
  induction l generalizing i with
  | nil => rfl
  | cons x xs ih =>
    rw [List.length_cons, Ops.allLoop, List.allM_cons]
    have h0 : p i = f x := hp 0 (by simp)
    rw [h0]
    congr 1
    funext c
    cases c
    · rfl
    · exact ih (i + 1) fun k hk => by
        have := hp (k + 1) (by simpa using hk)
        rw [show i + 1 + k = i + (k + 1) by omega, this]; rfl

theorem anyM_ok {l : List α} {f : α → Res Bool} {p : α → Bool} (h : ∀ x ∈ l, f x = .ok (p x)) :
    l.anyM f = .ok (l.any p) := by
  induction l with
  | nil => rfl
  | cons x xs ih =>
    rw [List.anyM_cons, h x (List.mem_cons_self ..), Res.ok_bind, List.any_cons]
    cases p x
    · exact ih fun y hy => h y (List.mem_cons_of_mem _ hy)
    · rfl

theorem allM_ok {l : List α} {f : α → Res Bool} {p : α → Bool} (h : ∀ x ∈ l, f x = .ok (p x)) :
    l.allM f = .ok (l.all p) := by
  induction l with
  | nil => rfl
  | cons x xs ih =>
    rw [List.allM_cons, h x (List.mem_cons_self ..), Res.ok_bind, List.all_cons]
    cases p x
    · rfl
    · exact ih fun y hy => h y (List.mem_cons_of_mem _ hy)

theorem anyOf_eq {d : Dim} {a : Acc σ α} {s : σ} {l : List α} (h : Elems d a s l)
    (f : α → Res Bool) (dflt : Bool) :
    Ops.anyOf f a s dflt = if l = [] then .ok dflt else l.anyM f := by
  unfold Ops.anyOf
  rw [Elems.empty h]
  cases l with
  | nil => rfl
  | cons x xs =>
    simp only [Res.ok_bind, List.isEmpty_cons, Bool.false_eq_true, if_false, Elems.size h, reduceCtorEq]
    exact anyLoop_eq (l := x :: xs) 0 fun k hk => by rw [Nat.zero_add, Elems.un h hk, Res.ok_bind]

theorem allOf_eq {d : Dim} {a : Acc σ α} {s : σ} {l : List α} (h : Elems d a s l)
    (f : α → Res Bool) (dflt : Bool) :
    Ops.allOf f a s dflt = if l = [] then .ok dflt else l.allM f := by
  unfold Ops.allOf
  rw [Elems.empty h]
  cases l with
  | nil => rfl
  | cons x xs =>
    simp only [Res.ok_bind, List.isEmpty_cons, Bool.false_eq_true, if_false, Elems.size h, reduceCtorEq]
    exact allLoop_eq (l := x :: xs) 0 fun k hk => by rw [Nat.zero_add, Elems.un h hk, Res.ok_bind]

/-! ### Two objects of the same shape -/

theorem flat_len_dims {β : Type} {d : Dim} {X : Sem α d} {Y : Sem β d} (h : X.dims = Y.dims) :
    X.flat.length = Y.flat.length := by
  rw [flat_dims, flat_dims, h]

end Spp
