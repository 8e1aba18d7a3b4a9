import Verif.Spec.Replace
import Verif.Lemmas.Threads
import Verif.Props.TermLaws

/-
C122: an expression in an expression or statement can be replaced by one that means the same thing.
-/

namespace Spp.Props
open Spec TermLaws

variable {α : Type} [Inhabited α] {s0 : Store α}

theorem den_eqv {σ β : Type} {d : Dim} {a : Acc σ β} {s : σ} {x y : Sem β d} (h : Den d a s x) (k : Den d a s y) :
    Eqv x y := by
  cases d with
  | one =>
    change List (Res β) at x y
    obtain ⟨h1, _, h3⟩ := h
    obtain ⟨k1, _, k3⟩ := k
    have hl : x.length = y.length := by
      have := h1.symm.trans k1
      exact_mod_cast this
    refine List.ext_getElem hl (fun i hi hi' => ?_)
    have := (h3 i hi).symm.trans (k3 i hi')
    rwa [getD_lt hi, getD_lt hi'] at this
  | two =>
    change Mat (Res β) at x y
    obtain ⟨h1, h2, _, h4⟩ := h
    obtain ⟨k1, k2, _, k4⟩ := k
    have hm : x.m = y.m := by have := h1.symm.trans k1; exact_mod_cast this
    have hn : x.n = y.n := by have := h2.symm.trans k2; exact_mod_cast this
    exact ⟨hm, hn, fun i j hi hj =>
      (h4 i j hi hj).1.symm.trans (k4 i j (by rw [← hm]; exact hi) (by rw [← hn]; exact hj)).1⟩

theorem sameTerms_eqv {b : Build} (hs : Store.Ok s0) {d : Dim} {t u : Tm α d}
    (hS : t.Sound s0) (hV : t.Valid s0) (hS' : u.Sound s0) (hV' : u.Valid s0) (h : SameTerms b s0 t u) :
    ∀ s, SameSizes s0 s → Eqv (t.meaning s) (u.meaning s) := by
  obtain ⟨x, ⟨_, _, a, h1, h2⟩, _, _, a', k1, k2⟩ := h
  obtain ⟨_, _, e, m1, m2⟩ := C43_reads b hs hS hV
  obtain ⟨_, _, e', m1', m2'⟩ := C43_reads b hs hS' hV'
  rw [m1] at h1
  rw [m1'] at k1
  cases h1; cases k1
  intro s hz
  exact (den_eqv (m2 s hz) (h2 s hz)).trans (den_eqv (k2 s hz) (m2' s hz))

theorem replaced_core (b : Build) (hs : Store.Ok s0) {d : Dim} {t t' : Tm α d}
    (h : Replaced (fun t u => Equal b s0 t u) t t') : t.Sound s0 → t.Valid s0 →
    t'.Sound s0 ∧ t'.Valid s0 ∧ ∀ s, SameSizes s0 s → Eqv (t.meaning s) (t'.meaning s) := by
  have rf := SameSizes.refl s0
  have two : ∀ {t : Tm α .two} {s : Store α}, t.Sound s0 → t.Valid s0 → SameSizes s0 s →
      (Mat.m (t.meaning s) = 0 ↔ Mat.n (t.meaning s) = 0) := fun {t s} hS hV hz =>
    (t.main ⟨false, true, false⟩ (ok_same hz hs) (Tm.sound_same hz hS) (Tm.valid_same hz hV)).1.2
  induction h with
  | here h =>
    intro hS hV
    exact ⟨h.2.1, h.2.2, sameTerms_eqv hs hS hV h.2.1 h.2.2 h.1⟩
  | same t => intro hS hV; exact ⟨hS, hV, fun s _ => Eqv.refl _⟩
  | view v _ ih =>
    rename_i t t' _
    intro hS hV
    obtain ⟨a1, a2, a3⟩ := ih hS.1 hV.1
    have e : ∀ s, SameSizes s0 s → Eqv (v.sel (t.meaning s)) (v.sel (t'.meaning s)) := fun s hz =>
      (a3 s hz).sel v hS.2.1 (by rw [t.meaning_dims hz]; exact hV.2)
        (t.main ⟨false, true, false⟩ (ok_same hz hs) (Tm.sound_same hz hS.1) (Tm.valid_same hz hV.1)).1
    refine ⟨⟨a1, hS.2.1, small_congr (e s0 rf).dims hS.2.2⟩, ⟨a2, ?_⟩, e⟩
    rw [← (a3 s0 rf).dims]; exact hV.2
  | unary f _ ih =>
    intro hS hV
    obtain ⟨a1, a2, a3⟩ := ih hS hV
    exact ⟨a1, a2, fun s hz => (a3 s hz).map _⟩
  | binary f _ _ ih1 ih2 =>
    rename_i t t' u u' _ _
    intro hS hV
    obtain ⟨a1, a2, a3⟩ := ih1 hS.1 hV.1
    obtain ⟨b1, b2, b3⟩ := ih2 hS.2 hV.2.1
    refine ⟨⟨a1, b1⟩, ⟨a2, b2, ?_⟩, fun s hz => (a3 s hz).zip (b3 s hz) ?_ f⟩
    · rw [← (a3 s0 rf).dims, ← (b3 s0 rf).dims]; exact hV.2.2
    · rw [t.meaning_dims hz, u.meaning_dims hz]; exact hV.2.2
  | scalarL f x _ ih =>
    intro hS hV
    obtain ⟨a1, a2, a3⟩ := ih hS hV
    exact ⟨a1, a2, fun s hz => (a3 s hz).map _⟩
  | scalarR f x _ ih =>
    intro hS hV
    obtain ⟨a1, a2, a3⟩ := ih hS hV
    exact ⟨a1, a2, fun s hz => (a3 s hz).map _⟩
  | merge _ _ ih1 ih2 =>
    rename_i t t' u u' _ _
    intro hS hV
    obtain ⟨a1, a2, a3⟩ := ih1 hS.1 hV.1
    obtain ⟨b1, b2, b3⟩ := ih2 hS.2.1 hV.2
    refine ⟨⟨a1, b1, ?_⟩, ⟨a2, b2⟩, fun s hz => Eqv.of_eq ?_⟩
    · rw [← (a3 s0 rf).dims, ← (b3 s0 rf).dims]; exact hS.2.2
    · have e1 : t.meaning s = t'.meaning s := a3 s hz
      have e2 : u.meaning s = u'.meaning s := b3 s hz
      simp only [Tm.meaning, e1, e2]; rfl
  | append x _ ih =>
    rename_i t t' _
    intro hS hV
    obtain ⟨a1, a2, a3⟩ := ih hS.1 hV
    refine ⟨⟨a1, ?_⟩, a2, fun s hz => Eqv.of_eq ?_⟩
    · rw [← (a3 s0 rf).dims]; exact hS.2
    · have e1 : t.meaning s = t'.meaning s := a3 s hz
      simp only [Tm.meaning, e1]; rfl
  | prepend x _ ih =>
    rename_i t t' _
    intro hS hV
    obtain ⟨a1, a2, a3⟩ := ih hS.1 hV
    refine ⟨⟨a1, ?_⟩, a2, fun s hz => Eqv.of_eq ?_⟩
    · rw [← (a3 s0 rf).dims]; exact hS.2
    · have e1 : t.meaning s = t'.meaning s := a3 s hz
      simp only [Tm.meaning, e1]; rfl
  | exclude p c _ ih =>
    rename_i t t' _
    intro hS hV
    obtain ⟨a1, a2, a3⟩ := ih hS.1 hV.1
    refine ⟨⟨a1, hS.2⟩, ⟨a2, hV.2.1, hV.2.2.1, ?_⟩, fun s hz => Eqv.of_eq ?_⟩
    · rw [← (a3 s0 rf).dims]; exact hV.2.2.2
    · have e1 : t.meaning s = t'.meaning s := a3 s hz
      simp only [Tm.meaning, e1]; rfl
  | excludeLast k _ ih =>
    rename_i t t' _
    intro hS hV
    obtain ⟨a1, a2, a3⟩ := ih hS hV.1
    refine ⟨a1, ⟨a2, ?_⟩, fun s hz => Eqv.of_eq ?_⟩
    · rw [← (a3 s0 rf).dims]; exact hV.2
    · have e1 : t.meaning s = t'.meaning s := a3 s hz
      simp only [Tm.meaning, e1]; rfl
  | reduce rw g _ ih =>
    intro hS hV
    obtain ⟨a1, a2, a3⟩ := ih hS hV
    exact ⟨a1, a2, fun s hz => (a3 s hz).reduce g⟩
  | matvec ar _ _ ih1 ih2 =>
    intro hS hV
    obtain ⟨a1, a2, a3⟩ := ih1 hS.1 hV.1
    obtain ⟨b1, b2, b3⟩ := ih2 hS.2 hV.2.1
    refine ⟨⟨a1, b1⟩, ⟨a2, b2, ?_⟩, fun s hz => (a3 s hz).matvec ar (b3 s hz)⟩
    rw [← (a3 s0 rf).dims, ← (b3 s0 rf).dims]; exact hV.2.2
  | bcast rw _ ih =>
    rename_i t t' _
    intro hS hV
    obtain ⟨a1, a2, a3⟩ := ih hS.1 hV
    have e : ∀ s, SameSizes s0 s → Tm.meaning s (.bcast rw t) = Tm.meaning s (.bcast rw t') := fun s hz => by
      have e1 : t.meaning s = t'.meaning s := a3 s hz
      cases rw <;> (simp only [Tm.meaning, e1] <;> rfl)
    exact ⟨⟨a1, by rw [← e s0 rf]; exact hS.2⟩, a2, fun s hz => Eqv.of_eq (e s hz)⟩
  | tensor ar _ _ ih1 ih2 =>
    rename_i t t' u u' _ _
    intro hS hV
    obtain ⟨a1, a2, a3⟩ := ih1 hS.1 hV.1
    obtain ⟨b1, b2, b3⟩ := ih2 hS.2.1 hV.2
    have e : ∀ s, SameSizes s0 s → Tm.meaning s (.tensor ar t u) = Tm.meaning s (.tensor ar t' u') := fun s hz => by
      have e1 : t.meaning s = t'.meaning s := a3 s hz
      have e2 : u.meaning s = u'.meaning s := b3 s hz
      simp only [Tm.meaning, e1, e2]; rfl
    exact ⟨⟨a1, b1, by rw [← e s0 rf]; exact hS.2.2⟩, ⟨a2, b2⟩, fun s hz => Eqv.of_eq (e s hz)⟩
  | transpose _ ih =>
    intro hS hV
    obtain ⟨a1, a2, a3⟩ := ih hS hV
    exact ⟨a1, a2, fun s hz => (a3 s hz).transposed⟩
  | mergeH _ _ ih1 ih2 =>
    rename_i t t' u u' _ _
    intro hS hV
    obtain ⟨a1, a2, a3⟩ := ih1 hS.1 hV.1
    obtain ⟨b1, b2, b3⟩ := ih2 hS.2.1 hV.2.1
    have e : ∀ s, SameSizes s0 s → Eqv (Tm.meaning s (.mergeH t u)) (Tm.meaning s (.mergeH t' u')) := fun s hz => by
      refine (a3 s hz).beside (b3 s hz) (two hS.1 hV.1 hz) (two hS.2.1 hV.2.1 hz) ?_
      have := hV.2.2
      rw [← t.meaning_dims hz, ← u.meaning_dims hz] at this
      exact this
    refine ⟨⟨a1, b1, small_congr (e s0 rf).dims hS.2.2⟩, ⟨a2, b2, ?_⟩, e⟩
    rw [← (a3 s0 rf).dims, ← (b3 s0 rf).dims]; exact hV.2.2
  | mergeV _ _ ih1 ih2 =>
    rename_i t t' u u' _ _
    intro hS hV
    obtain ⟨a1, a2, a3⟩ := ih1 hS.1 hV.1
    obtain ⟨b1, b2, b3⟩ := ih2 hS.2.1 hV.2.1
    have e : ∀ s, SameSizes s0 s → Eqv (Tm.meaning s (.mergeV t u)) (Tm.meaning s (.mergeV t' u')) := fun s hz => by
      refine (a3 s hz).above (b3 s hz) (two hS.1 hV.1 hz) (two hS.2.1 hV.2.1 hz) ?_
      have := hV.2.2
      rw [← t.meaning_dims hz, ← u.meaning_dims hz] at this
      exact this
    refine ⟨⟨a1, b1, small_congr (e s0 rf).dims hS.2.2⟩, ⟨a2, b2, ?_⟩, e⟩
    rw [← (a3 s0 rf).dims, ← (b3 s0 rf).dims]; exact hV.2.2

/-- C122: replacing parts of an accepted expression by equal ones gives an accepted expression that is equal to it. -/
theorem C122_replace (b : Build) (hs : Store.Ok s0) {d : Dim} {t t' : Tm α d} (hS : t.Sound s0) (hV : t.Valid s0)
    (h : Replaced (fun t u => Equal b s0 t u) t t') : Equal b s0 t t' := by
  obtain ⟨h1, h2, h3⟩ := replaced_core b hs h hS hV
  exact ⟨same b hs hS hV h1 h2 h3, h1, h2⟩

/-- C122: equality of expressions is an equivalence. -/
theorem C122_equivalence (b : Build) (hs : Store.Ok s0) {d : Dim} {t u v : Tm α d} (hS : t.Sound s0)
    (hV : t.Valid s0) :
    Equal b s0 t t ∧ (Equal b s0 t u → Equal b s0 u t) ∧ (Equal b s0 t u → Equal b s0 u v → Equal b s0 t v) := by
  refine ⟨⟨same b hs hS hV hS hV (fun _ _ => Eqv.refl _), hS, hV⟩, fun h => ?_, fun h k => ?_⟩
  · have := sameTerms_eqv hs hS hV h.2.1 h.2.2 h.1
    exact ⟨same b hs h.2.1 h.2.2 hS hV (fun s hz => (this s hz).symm), hS, hV⟩
  · have e1 := sameTerms_eqv hs hS hV h.2.1 h.2.2 h.1
    have e2 := sameTerms_eqv hs h.2.1 h.2.2 k.2.1 k.2.2 k.1
    exact ⟨same b hs hS hV k.2.1 k.2.2 (fun s hz => (e1 s hz).trans (e2 s hz)), k.2⟩

/-- C122: in an assignment or compound assignment the right side can be replaced: the statement is accepted, has the
same outcome and leaves the same state. -/
theorem C122_statement (b : Build) (hs : Store.Ok s0) {d : Dim} {l : Lv d} {t t' : Tm α d}
    (hl : l.Sound s0) (hl' : l.Valid s0) (hS : t.Sound s0) (hV : t.Valid s0)
    (hd : (l.cells s0).dims = (t.meaning s0).dims)
    (h : Replaced (fun t u => Equal b s0 t u) t t') (op : α → α → Res α) :
    (AStmt.assign l t').run b s0 = (AStmt.assign l t).run b s0 ∧
    (AStmt.compound op l t').run b s0 = (AStmt.compound op l t).run b s0 := by
  obtain ⟨h1, h2, h3⟩ := replaced_core b hs h hS hV
  have hd' : (l.cells s0).dims = (t'.meaning s0).dims := by rw [hd, (h3 s0 (SameSizes.refl s0)).dims]
  obtain ⟨cs, hp, _⟩ := l.places hs hl hl'
  constructor
  · rw [C118_in_order b hs (st := .assign l t) ⟨hl, hS⟩ ⟨hl', hV, hd⟩ hp,
      C118_in_order b hs (st := .assign l t') ⟨hl, h1⟩ ⟨hl', h2, hd'⟩ hp]
    refine stepwise_congr cs 0 s0 hp.2 (fun i u _ hz => ?_)
    show (t'.meaning u).flat.getD _ .ub = (t.meaning u).flat.getD _ .ub
    rw [(h3 u hz).flat]
  · rw [C118_in_order b hs (st := .compound op l t) ⟨hl, hS⟩ ⟨hl', hV, hd⟩ hp,
      C118_in_order b hs (st := .compound op l t') ⟨hl, h1⟩ ⟨hl', h2, hd'⟩ hp]
    refine stepwise_congr cs 0 s0 hp.2 (fun i u _ hz => ?_)
    simp only [AStmt.value]
    rw [(h3 u hz).flat]

/-- `y * (-x)(reverse)` and `y * (-(x(reverse)))`, and the assignments of both. -/
example : Equal ⟨false, true, false⟩ Sample.store
      (.binary (fun u v => .ok (u * v)) Sample.y (.view (.slice .reverse) (.unary (fun x => .ok (-x)) Sample.x)))
      (.binary (fun u v => .ok (u * v)) Sample.y (.unary (fun x => .ok (-x)) (.view (.slice .reverse) Sample.x))) :=
  C122_replace _ Sample.store_ok (by decide) (by decide) (.binary _ (.same _) (.here
    ⟨C111_view_unary _ Sample.store_ok (.slice .reverse) _ (by decide) (by decide), by decide, by decide⟩))

example : (AStmt.assign (.arr1 0) (.binary (fun u v => .ok (u * v)) Sample.y
      (.unary (fun x => .ok (-x)) (.view (.slice .reverse) Sample.x)))).run ⟨false, true, false⟩ Sample.store =
    (AStmt.assign (.arr1 0) (.binary (fun u v => .ok (u * v)) Sample.y
      (.view (.slice .reverse) (.unary (fun x => .ok (-x)) Sample.x)))).run ⟨false, true, false⟩ Sample.store :=
  (C122_statement _ Sample.store_ok (by decide) (by decide) (by decide) (by decide) rfl (.binary _ (.same _) (.here
    ⟨C111_view_unary _ Sample.store_ok (.slice .reverse) _ (by decide) (by decide), by decide, by decide⟩))
    (fun u _ => .ok u)).1

end Spp.Props
