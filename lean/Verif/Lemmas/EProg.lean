import Verif.Model.EProg
import Verif.Lemmas.Indep
import Verif.Props.Safe
import Verif.Props.Statements
import Verif.Props.History1D
import Verif.Props.History2D

/- Lemmas for C130. -/

set_option linter.unusedSectionVars false

namespace Spp
open Spec Props

variable {α : Type} [Inhabited α]

theorem Store.Moderate.roomy {s : Store α} (h : s.Moderate) : s.Roomy :=
  ⟨fun id => by have := h.1 id; omega, fun id => ⟨(h.2 id).1, by have := (h.2 id).2; omega⟩⟩

/-- The matrix of an array. -/
def theMat (a : Arr2 α) : Mat α :=
  ⟨a.rows.toNat, a.cols.toNat, fun i j => a.data.getD (i * a.cols.toNat + j) default⟩

theorem theMat_is {a : Arr2 α} (h : Shape a) : IsMat a (theMat a) := by
  have h1 := h.rows; have h2 := h.cols
  have hz : a.data.length = a.rows.toNat * a.cols.toNat := by
    have := h.size
    obtain ⟨m, hm⟩ := Int.eq_ofNat_of_zero_le h1
    obtain ⟨n, hn⟩ := Int.eq_ofNat_of_zero_le h2
    rw [hm, hn] at this ⊢
    simp only [Int.toNat_natCast]
    exact_mod_cast this
  refine ⟨?_, ?_, hz, ?_, fun i j hi hj => ?_⟩
  · simp only [theMat]; omega
  · simp only [theMat]; omega
  · have := h.zero
    simp only [theMat]; omega
  · simp only [theMat] at hi hj ⊢
    have hlt : i * a.cols.toNat + j < a.data.length := by
      rw [hz]
      calc i * a.cols.toNat + j < i * a.cols.toNat + a.cols.toNat := by omega
        _ = (i + 1) * a.cols.toNat := by rw [Nat.succ_mul]
        _ ≤ _ := Nat.mul_le_mul_right _ hi
    rw [List.getD_eq_getElem?_getD, List.getElem?_eq_getElem hlt]
    rfl

theorem theMats {s : Store α} (h : s.Moderate) : AreMats s.a2 (fun i => theMat (s.a2 i)) :=
  fun i => theMat_is (h.2 i).1

theorem mats_moderate {s : Store α} (h : s.Moderate) {S : Nat → Mat α} (hS : AreMats s.a2 S) : ModerateSizes2 S := by
  intro i
  have := (hS i).size
  have h2 := (h.2 i).2
  rw [this] at h2
  exact_mod_cast h2

theorem eval_valid (b : Build) {s : Store α} (hs : s.Roomy) {c : AStmt α} (hM : c.Modest s) (hV : AStmt.Valid s c)
    {cs : List Loc} (hp : Places c.target.2 s cs) : c.run b s = stepwise c.value cs 0 s := by
  refine C118_in_order b hs.ok (AStmt.modest_sound hs hM hV) hV ?_
  cases c <;> exact hp

/-- The operand of a member function call: the expression in the state in which it was built. -/
theorem use1_denotes (b : Build) {s : Store α} (hs : s.Roomy) {t : Tm α .one} (hM : t.Modest s) (hV : t.Valid s)
    {xs : List α} (hx : t.meaning s = xs.map Res.ok) (i : Nat) :
    ∃ a, t.build b s = .ok a ∧ (xs.length : Int) < 2 ^ 62 ∧
      Denotes (⟨a.rows s, fun l k => a.un { s with a1 := Vars.put s.a1 i l } k⟩ : Src (List α) α) (s.a1 i) xs := by
  obtain ⟨hS, hR⟩ := t.modest_sound hs hM hV
  obtain ⟨_, a, e, hd⟩ := t.main b hs.ok hS hV
  have hd := hd s (SameSizes.refl s)
  refine ⟨a, e, ?_, ?_, fun k hk => ?_⟩
  · have : (List.length (t.meaning s) : Int) < 2 ^ 62 := hR
    rw [hx] at this
    simpa using this
  · show a.rows s = _
    rw [hd.1, hx]
    simp
  · have es : ({ s with a1 := Vars.put s.a1 i (s.a1 i) } : Store α) = s := by
      have : Vars.put s.a1 i (s.a1 i) = s.a1 := by
        funext k; unfold Vars.put; split
        · subst_vars; rfl
        · rfl
      rw [this]
    show a.un { s with a1 := Vars.put s.a1 i (s.a1 i) } k = _
    rw [es, hd.2.2 k (by rw [hx]; simpa using hk), hx, getD_lt (by simpa using hk), List.getElem_map]

theorem use1_ok (b : Build) {src : Src (List α) α} {l xs l' : List α} (h : Denotes src l xs)
    (h1 : (l.length : Int) < 2 ^ 61) (h2 : (xs.length : Int) < 2 ^ 62) {u : Use1} (hu : u.meaning l xs = some l') :
    execUse1 b src u l = (.ok (), l') := by
  cases u with
  | resizeAndAssign =>
    simp only [Use1.meaning, Option.some.injEq] at hu; subst hu
    exact resizeAndAssign_ok b h
  | insert p =>
    simp only [Use1.meaning, Option.ite_none_right_eq_some, Option.some.injEq] at hu
    obtain ⟨⟨k1, k2⟩, rfl⟩ := hu
    exact C27_insert_array b h (by omega) k1 k2
  | insertFront =>
    simp only [Use1.meaning, Option.some.injEq] at hu; subst hu
    exact (C27_insert_ends b default h (by omega) (by omega)).2.2.1
  | insertBack =>
    simp only [Use1.meaning, Option.some.injEq] at hu; subst hu
    exact (C27_insert_ends b default h (by omega) (by omega)).2.2.2

theorem use1_rejected {b : Build} (hb : b.Checked) (src : Src (List α) α) {l xs : List α} {u : Use1}
    (hu : u.meaning l xs = none) : execUse1 b src u l = (.trap b.kind, l) := by
  cases u with
  | insert p =>
    simp only [Use1.meaning, ite_eq_right_iff, reduceCtorEq, imp_false] at hu
    exact (C27_insert_rejected hb hu default src).2
  | resizeAndAssign => simp [Use1.meaning] at hu
  | insertFront => simp [Use1.meaning] at hu
  | insertBack => simp [Use1.meaning] at hu

theorem use2_denotes (b : Build) {s : Store α} (hs : s.Roomy) {t : Tm α .two} (hM : t.Modest s) (hV : t.Valid s)
    {N : Mat α} (hx : IsTable (t.meaning s) N) (i : Nat) :
    ∃ a, t.build b s = .ok a ∧ ((N.m * N.n : Nat) : Int) < 2 ^ 62 ∧
      Denotes2 (⟨a.rows s, a.cols s, fun m k => a.un { s with a2 := Vars2.put s.a2 i m } k,
        fun m p q => a.un2 { s with a2 := Vars2.put s.a2 i m } p q, t.isArray2⟩ : Src2 (Arr2 α) α) (s.a2 i) N := by
  obtain ⟨hS, hR⟩ := t.modest_sound hs hM hV
  obtain ⟨_, a, e, hd⟩ := t.main b hs.ok hS hV
  have hd := hd s (SameSizes.refl s)
  obtain ⟨e1, e2, e3⟩ := hx
  have es : ({ s with a2 := Vars2.put s.a2 i (s.a2 i) } : Store α) = s := by rw [put2_same]
  have hR : (((Mat.m (t.meaning s) * Mat.n (t.meaning s) : Nat) : Int) < 2 ^ 62 ∧
    (Mat.m (t.meaning s) = 0 ↔ Mat.n (t.meaning s) = 0)) := hR
  obtain ⟨d1, d2, d3, d4⟩ := hd
  rw [e1, e2] at hR
  refine ⟨a, e, hR.1, ?_, ?_, hR.2, fun p q hp hq => ?_, fun p q hp hq => ?_⟩
  · show a.rows s = _
    rw [d1, e1]
  · show a.cols s = _
    rw [d2, e2]
  · show a.un2 { s with a2 := Vars2.put s.a2 i (s.a2 i) } p q = _
    rw [es, (d4 p q (by rw [e1]; exact hp) (by rw [e2]; exact hq)).1, e3 p q hp hq]
  · show a.un { s with a2 := Vars2.put s.a2 i (s.a2 i) } ((p * N.n + q : Nat) : Int) = _
    have := (d4 p q (by rw [e1]; exact hp) (by rw [e2]; exact hq)).2
    rw [e2] at this
    rw [es, this, e3 p q hp hq]

theorem use2_ok (b : Build) {src : Src2 (Arr2 α) α} {a : Arr2 α} {M N M' : Mat α} (h : IsMat a M)
    (hd : Denotes2 src a N) (hi : (M.m : Int) * M.n < 2 ^ 61) (hj : ((N.m * N.n : Nat) : Int) < 2 ^ 62) {u : Use2}
    (hu : u.meaning M N = some M') : ∃ a', execUse2 b src u a = (.ok (), a') ∧ IsMat a' M' := by
  have h1 := h.rows; have h2 := h.cols
  have hj' : (N.m : Int) * N.n < 2 ^ 62 := by exact_mod_cast hj
  have hF : Fits2 N := by unfold Fits2; omega
  have ir : ∀ {pos : Int}, M.insertRows? N pos = some M' →
      ∃ a', Arr2.insertRows b pos src a = (.ok (), a') ∧ IsMat a' M' := by
    intro pos hm
    unfold Mat.insertRows? at hm
    split at hm
    · rename_i h0
      simp only [Option.ite_none_right_eq_some, Option.some.injEq] at hm
      obtain ⟨rfl, rfl⟩ := hm
      exact (C38_insert_into_empty b h h0 hd hF).1
    · rename_i h0
      simp only [Option.ite_none_right_eq_some, Option.some.injEq] at hm
      obtain ⟨⟨k1, k2, k3⟩, rfl⟩ := hm
      refine C38_insert_rows b h hd h0 k3 ?_ k1 k2
      exact insFits hi (by rw [← k3]; omega)
  have ic : ∀ {pos : Int}, M.insertCols? N pos = some M' →
      ∃ a', Arr2.insertCols b pos src a = (.ok (), a') ∧ IsMat a' M' := by
    intro pos hm
    unfold Mat.insertCols? at hm
    split at hm
    · rename_i h0
      simp only [Option.ite_none_right_eq_some, Option.some.injEq] at hm
      obtain ⟨rfl, rfl⟩ := hm
      exact (C38_insert_into_empty b h h0 hd hF).2
    · rename_i h0
      simp only [Option.ite_none_right_eq_some, Option.some.injEq] at hm
      obtain ⟨⟨k1, k2, k3⟩, rfl⟩ := hm
      refine C38_insert_cols b h hd h0 k3 ?_ k1 k2
      rw [Int.mul_comm] at hi hj' ⊢
      exact insFits hi (by rw [← k3]; omega)
  cases u with
  | resizeAndAssign =>
    simp only [Use2.meaning, Option.some.injEq] at hu; subst hu
    exact C38_resize_and_assign b hd hF
  | insertRows p => exact ir hu
  | insertRowsFront => exact ir hu
  | insertRowsBack =>
    rw [show execUse2 b src .insertRowsBack a = Arr2.insertRows b a.rows src a from rfl, h1]
    exact ir hu
  | insertCols p => exact ic hu
  | insertColsFront => exact ic hu
  | insertColsBack =>
    rw [show execUse2 b src .insertColsBack a = Arr2.insertCols b a.cols src a from rfl, h2]
    exact ic hu

theorem use2_rejected {b : Build} (hb : b.Checked) {src : Src2 (Arr2 α) α} {a : Arr2 α} {M N : Mat α} (h : IsMat a M)
    (hd : Denotes2 src a N) {u : Use2} (hu : u.meaning M N = none) : execUse2 b src u a = (.trap b.kind, a) := by
  have g1 := hd.rows; have g2 := hd.cols
  have h1 := h.rows; have h2 := h.cols; have hz := h.zero
  have ir : ∀ {pos : Int}, M.insertRows? N pos = none → Arr2.insertRows b pos src a = (.trap b.kind, a) := by
    intro pos hm
    apply (C38_insert_rejected hb a).1
    unfold Mat.insertRows? at hm
    split at hm <;> simp only [ite_eq_right_iff, reduceCtorEq, imp_false] at hm <;> omega
  have ic : ∀ {pos : Int}, M.insertCols? N pos = none → Arr2.insertCols b pos src a = (.trap b.kind, a) := by
    intro pos hm
    apply (C38_insert_rejected hb a).2
    unfold Mat.insertCols? at hm
    split at hm <;> simp only [ite_eq_right_iff, reduceCtorEq, imp_false] at hm <;> omega
  cases u with
  | resizeAndAssign => simp [Use2.meaning] at hu
  | insertRows p => exact ir hu
  | insertRowsFront => exact ir hu
  | insertRowsBack =>
    rw [show execUse2 b src .insertRowsBack a = Arr2.insertRows b a.rows src a from rfl, h1]
    exact ir hu
  | insertCols p => exact ic hu
  | insertColsFront => exact ic hu
  | insertColsBack =>
    rw [show execUse2 b src .insertColsBack a = Arr2.insertCols b a.cols src a from rfl, h2]
    exact ic hu

theorem useRow_denotes (b : Build) {s : Store α} (hs : s.Roomy) {t : Tm α .one} (hM : t.Modest s) (hV : t.Valid s)
    {xs : List α} (hx : t.meaning s = xs.map Res.ok) (i : Nat) :
    ∃ a, t.build b s = .ok a ∧ (xs.length : Int) < 2 ^ 62 ∧
      ∀ m, m = s.a2 i ∨ ¬ t.Mentions (.two, i) →
        Denotes (⟨a.rows s, fun m k => a.un { s with a2 := Vars2.put s.a2 i m } k⟩ : Src (Arr2 α) α) m xs := by
  obtain ⟨hS, hR⟩ := t.modest_sound hs hM hV
  obtain ⟨_, a, e, hd⟩ := t.main b hs.ok hS hV
  have hd := hd s (SameSizes.refl s)
  refine ⟨a, e, ?_, fun m hm => ⟨?_, fun k hk => ?_⟩⟩
  · have : (List.length (t.meaning s) : Int) < 2 ^ 62 := hR
    rw [hx] at this
    simpa using this
  · show a.rows s = _
    rw [hd.1, hx]
    simp
  · show a.un { s with a2 := Vars2.put s.a2 i m } k = _
    have es : a.un { s with a2 := Vars2.put s.a2 i m } k = a.un s k := by
      rcases hm with rfl | hm
      · rw [put2_same]
      · have hI := t.build_indep b (s := s) (s' := { s with a2 := Vars2.put s.a2 i m }) (fun y hy => by
          rcases y with ⟨_ | _, j⟩
          · rfl
          · exact if_neg fun h => hy (by rw [h])) hm
        exact (((hI.2 a e).un k).1).symm
    rw [es, hd.2.2 k (by rw [hx]; simpa using hk), hx, getD_lt (by simpa using hk), List.getElem_map]

theorem useRow_ok (b : Build) {src : Src (Arr2 α) α} {a : Arr2 α} {M M' : Mat α} {xs : List α} (h : IsMat a M)
    (hd : Denotes src a xs) (h0 : M.m = 0 → ∀ m, Denotes src m xs) (hi : (M.m : Int) * M.n < 2 ^ 61)
    (hj : (xs.length : Int) < 2 ^ 62) {u : UseRow} (hu : u.meaning M xs = some M') :
    ∃ a', execUseRow b src u a = (.ok (), a') ∧ IsMat a' M' := by
  have h1 := h.rows; have h2 := h.cols
  have ir : ∀ {pos : Int}, M.insertRow? xs pos = some M' →
      ∃ a', Arr2.insertRow b pos src a = (.ok (), a') ∧ IsMat a' M' := by
    intro pos hm
    unfold Mat.insertRow? at hm
    split at hm
    · cases hm
    rename_i hx
    unfold Mat.insertRows? at hm
    split at hm
    · rename_i hz
      simp only [Option.ite_none_right_eq_some, Option.some.injEq] at hm
      obtain ⟨rfl, rfl⟩ := hm
      exact (C38_insert_row_into_empty b h hz (h0 hz) (fun e => hx (by rw [e]; rfl)) (by unfold Sized; omega)).1
    · rename_i hz
      simp only [Option.ite_none_right_eq_some, Option.some.injEq] at hm
      obtain ⟨⟨k1, k2, k3⟩, rfl⟩ := hm
      refine C38_insert_row b h hd hz k3 ?_ k1 k2
      have k3 : xs.length = M.n := k3
      exact insFits (k := 1) hi (by rw [← k3]; omega)
  have ic : ∀ {pos : Int}, M.insertCol? xs pos = some M' →
      ∃ a', Arr2.insertCol b pos src a = (.ok (), a') ∧ IsMat a' M' := by
    intro pos hm
    unfold Mat.insertCol? at hm
    split at hm
    · cases hm
    rename_i hx
    unfold Mat.insertCols? at hm
    split at hm
    · rename_i hz
      simp only [Option.ite_none_right_eq_some, Option.some.injEq] at hm
      obtain ⟨rfl, rfl⟩ := hm
      exact (C38_insert_row_into_empty b h hz (h0 hz) (fun e => hx (by rw [e]; rfl)) (by unfold Sized; omega)).2
    · rename_i hz
      simp only [Option.ite_none_right_eq_some, Option.some.injEq] at hm
      obtain ⟨⟨k1, k2, k3⟩, rfl⟩ := hm
      refine C38_insert_col b h hd hz k3 ?_ k1 k2
      have k3 : xs.length = M.m := k3
      rw [Int.mul_comm] at hi ⊢
      exact insFits (k := 1) hi (by rw [← k3]; omega)
  cases u with
  | insertRow p => exact ir hu
  | insertRowFront => exact ir hu
  | insertRowBack =>
    rw [show execUseRow b src .insertRowBack a = Arr2.insertRow b a.rows src a from rfl, h1]
    exact ir hu
  | insertCol p => exact ic hu
  | insertColFront => exact ic hu
  | insertColBack =>
    rw [show execUseRow b src .insertColBack a = Arr2.insertCol b a.cols src a from rfl, h2]
    exact ic hu

theorem useRow_rejected {b : Build} (hb : b.Checked) {src : Src (Arr2 α) α} {a : Arr2 α} {M : Mat α} {xs : List α}
    (h : IsMat a M) (hd : Denotes src a xs) {u : UseRow} (hu : u.meaning M xs = none) :
    execUseRow b src u a = (.trap b.kind, a) := by
  have g1 := hd.1
  have h1 := h.rows; have h2 := h.cols; have hz := h.zero
  have ir : ∀ {pos : Int}, M.insertRow? xs pos = none → Arr2.insertRow b pos src a = (.trap b.kind, a) := by
    intro pos hm
    apply (C38_insert_row_rejected hb a).1
    unfold Mat.insertRow? at hm
    split at hm
    · omega
    · have e : (Mat.ofRow xs).n = xs.length := rfl
      unfold Mat.insertRows? at hm
      split at hm <;> simp only [ite_eq_right_iff, reduceCtorEq, imp_false] at hm <;> omega
  have ic : ∀ {pos : Int}, M.insertCol? xs pos = none → Arr2.insertCol b pos src a = (.trap b.kind, a) := by
    intro pos hm
    apply (C38_insert_row_rejected hb a).2
    unfold Mat.insertCol? at hm
    split at hm
    · omega
    · have e : (Mat.ofCol xs).m = xs.length := rfl
      unfold Mat.insertCols? at hm
      split at hm <;> simp only [ite_eq_right_iff, reduceCtorEq, imp_false] at hm <;> omega
  cases u with
  | insertRow p => exact ir hu
  | insertRowFront => exact ir hu
  | insertRowBack =>
    rw [show execUseRow b src .insertRowBack a = Arr2.insertRow b a.rows src a from rfl, h1]
    exact ir hu
  | insertCol p => exact ic hu
  | insertColFront => exact ic hu
  | insertColBack =>
    rw [show execUseRow b src .insertColBack a = Arr2.insertCol b a.cols src a from rfl, h2]
    exact ic hu

theorem store_a1_same (s : Store α) : ({ s with a1 := s.a1 } : Store α) = s := rfl
theorem store_a2_same (s : Store α) : ({ s with a2 := s.a2 } : Store α) = s := rfl

/-! ### Assignments to elements -/

theorem roomy_dims {X : Sem Loc .two} (h : Roomy X) : (X.dims.1 : Int) < 2 ^ 62 ∧ (X.dims.2 : Int) < 2 ^ 62 := by
  obtain ⟨h1, h2⟩ : ((Mat.m X * Mat.n X : Nat) : Int) < 2 ^ 62 ∧ (Mat.m X = 0 ↔ Mat.n X = 0) := h
  show (Mat.m X : Int) < 2 ^ 62 ∧ (Mat.n X : Int) < 2 ^ 62
  by_cases h0 : Mat.m X = 0
  · rw [h0, h2.1 h0]; decide
  · have hn : Mat.n X ≠ 0 := fun h => h0 (h2.2 h)
    have k1 : Mat.m X * 1 ≤ Mat.m X * Mat.n X := Nat.mul_le_mul_left _ (by omega)
    have k2 : 1 * Mat.n X ≤ Mat.m X * Mat.n X := Nat.mul_le_mul_right _ (by omega)
    omega

theorem put_stepwise (c : Loc) (f : α → Res α) (s : Store α) :
    (do let x ← Op.lift (s.read c); let y ← Op.lift (f x); put c y : Op (Store α) Unit) s =
      stepwise (fun _ s => (s.read c).bind f) [c] 0 s := by
  unfold stepwise
  cases hr : s.read c with
  | trap k => rfl
  | ub => rfl
  | ok x =>
    simp only [Op.lift_ok_bind, Res.bind]
    cases hf : f x with
    | trap k => rfl
    | ub => rfl
    | ok y =>
      simp only [Op.lift_ok_bind, put, Op.get_bind]
      cases hw : s.write c y <;> rfl

theorem elem1_ok (b : Build) {s : Store α} (hs : s.Roomy) {l : Lv .one} {p : Pos} (hM : l.Modest s) (hV : l.Valid s)
    (hi : InRange (l.cells s).dims.1 (target (l.cells s).dims.1 p)) {c : Loc}
    (hc : List.getD (l.cells s) (target (l.cells s).dims.1 p).toNat .ub = .ok c) (f : α → Res α) :
    assignElem1 b l p f s = stepwise (fun _ s => (s.read c).bind f) [c] 0 s := by
  obtain ⟨hsm, a, e, hd⟩ := l.main b hs.ok (l.modest_sound hM hV) hV
  obtain ⟨d1, d2, d3⟩ := hd s (SameSizes.refl s)
  have d1 : a.rows s = ((l.cells s).dims.1 : Int) := d1
  have hR := resolve_inRange (n := (l.cells s).dims.1) hsm hi
  have hu : a.un s (target (l.cells s).dims.1 p) = .ok c := by
    have := d3 (target (l.cells s).dims.1 p).toNat (by
      have := hi.1; have := hi.2
      show _ < (l.cells s).dims.1
      omega)
    rw [Int.toNat_of_nonneg hi.1] at this
    rw [this, hc]
  have hv : validIndex (l.cells s).dims.1 (target (l.cells s).dims.1 p) = true := validIndex_iff.2 hi
  unfold assignElem1
  simp only [Op.get_bind, e, Op.lift_ok_bind, d1, hR, Res.ok_bind, Res.pure_eq, assertDebugM_ok, hv, assertDebug_true, hu]
  exact put_stepwise c f s

theorem elem1_rejected {b : Build} (hb : b.Checked) {s : Store α} (hs : s.Roomy) {l : Lv .one} {p : Pos}
    (hM : l.Modest s) (hp : p.Modest)
    (h : ¬ (l.Valid s ∧ InRange (l.cells s).dims.1 (target (l.cells s).dims.1 p))) (f : α → Res α) :
    assignElem1 b l p f s = (.trap b.kind, s) := by
  by_cases hV : l.Valid s
  · obtain ⟨hsm, a, e, hd⟩ := l.main b hs.ok (l.modest_sound hM hV) hV
    obtain ⟨d1, d2, d3⟩ := hd s (SameSizes.refl s)
    have d1 : a.rows s = ((l.cells s).dims.1 : Int) := d1
    have hR := resolve_ok (hp.noOverflow (n := (l.cells s).dims.1) (l.roomy_cells hs hM hV))
    have hv : validIndex (l.cells s).dims.1 (target (l.cells s).dims.1 p) = false :=
      validIndex_false.2 fun hi => h ⟨hV, hi⟩
    unfold assignElem1
    simp only [Op.get_bind, e, Op.lift_ok_bind, d1, hR, Res.ok_bind, Res.pure_eq, assertDebugM_ok, hv,
      assertDebug_false hb, Op.lift_trap_bind]
  · unfold assignElem1
    simp only [Op.get_bind, l.traps hb hs hM hV, Op.lift_trap_bind]

theorem elem2_ok (b : Build) {s : Store α} (hs : s.Roomy) {l : Lv .two} {p q : Pos} (hM : l.Modest s)
    (hp : p.Modest) (hq : q.Modest) (hV : l.Valid s)
    (hi : InRange (l.cells s).dims.1 (target (l.cells s).dims.1 p))
    (hj : InRange (l.cells s).dims.2 (target (l.cells s).dims.2 q)) {c : Loc}
    (hc : Mat.el (l.cells s) (target (l.cells s).dims.1 p).toNat (target (l.cells s).dims.2 q).toNat = .ok c)
    (f : α → Res α) : assignElem2 b l p q f s = stepwise (fun _ s => (s.read c).bind f) [c] 0 s := by
  obtain ⟨hsm, a, e, hd⟩ := l.main b hs.ok (l.modest_sound hM hV) hV
  obtain ⟨d1, d2, d3, d4⟩ := hd s (SameSizes.refl s)
  have d1 : a.rows s = ((l.cells s).dims.1 : Int) := d1
  have d2 : a.cols s = ((l.cells s).dims.2 : Int) := d2
  obtain ⟨r1, r2⟩ := roomy_dims (l.roomy_cells hs hM hV)
  have hR := resolve_ok (hp.noOverflow r1)
  have hC := resolve_ok (hq.noOverflow r2)
  have hu : a.un2 s (target (l.cells s).dims.1 p) (target (l.cells s).dims.2 q) = .ok c := by
    have := (d4 (target (l.cells s).dims.1 p).toNat (target (l.cells s).dims.2 q).toNat (by
      have := hi.1; have := hi.2
      show _ < (l.cells s).dims.1
      omega) (by
      have := hj.1; have := hj.2
      show _ < (l.cells s).dims.2
      omega)).1
    rw [Int.toNat_of_nonneg hi.1, Int.toNat_of_nonneg hj.1] at this
    rw [this, hc]
  have hv : validIndex (l.cells s).dims.1 (target (l.cells s).dims.1 p) = true := validIndex_iff.2 hi
  have hw : validIndex (l.cells s).dims.2 (target (l.cells s).dims.2 q) = true := validIndex_iff.2 hj
  unfold assignElem2
  simp only [Op.get_bind, e, Op.lift_ok_bind, d1, d2, hR, hC, hv, hw, Bool.and_self, assertDebug_true, hu]
  exact put_stepwise c f s

theorem elem2_rejected {b : Build} (hb : b.Checked) {s : Store α} (hs : s.Roomy) {l : Lv .two} {p q : Pos}
    (hM : l.Modest s) (hp : p.Modest) (hq : q.Modest)
    (h : ¬ (l.Valid s ∧ InRange (l.cells s).dims.1 (target (l.cells s).dims.1 p) ∧
      InRange (l.cells s).dims.2 (target (l.cells s).dims.2 q))) (f : α → Res α) :
    assignElem2 b l p q f s = (.trap b.kind, s) := by
  by_cases hV : l.Valid s
  · obtain ⟨hsm, a, e, hd⟩ := l.main b hs.ok (l.modest_sound hM hV) hV
    obtain ⟨d1, d2, d3, d4⟩ := hd s (SameSizes.refl s)
    have d1 : a.rows s = ((l.cells s).dims.1 : Int) := d1
    have d2 : a.cols s = ((l.cells s).dims.2 : Int) := d2
    obtain ⟨r1, r2⟩ := roomy_dims (l.roomy_cells hs hM hV)
    have hR := resolve_ok (hp.noOverflow r1)
    have hC := resolve_ok (hq.noOverflow r2)
    have hv : (validIndex (l.cells s).dims.1 (target (l.cells s).dims.1 p) &&
        validIndex (l.cells s).dims.2 (target (l.cells s).dims.2 q)) = false := by
      rw [Bool.and_eq_false_iff, validIndex_false, validIndex_false]
      by_cases hi : InRange (l.cells s).dims.1 (target (l.cells s).dims.1 p)
      · exact .inr fun hj => h ⟨hV, hi, hj⟩
      · exact .inl hi
    unfold assignElem2
    simp only [Op.get_bind, e, Op.lift_ok_bind, d1, d2, hR, hC, hv, assertDebug_false hb, Op.lift_trap_bind]
  · unfold assignElem2
    simp only [Op.get_bind, l.traps hb hs hM hV, Op.lift_trap_bind]

/-- Every position in a view is an element of the array it is a view of. -/
theorem elem1_cell {s : Store α} (hs : s.Roomy) {l : Lv .one} (hM : l.Modest s) (hV : l.Valid s) {i : Int}
    (hi : InRange (l.cells s).dims.1 i) :
    ∃ c, List.getD (l.cells s) i.toNat .ub = .ok c ∧ c.Valid s ∧ c.array = l.array := by
  obtain ⟨cs, hp, ha⟩ := l.places hs.ok (l.modest_sound hM hV) hV
  have e : l.cells s = cs.map Res.ok := hp.1
  have hl : i.toNat < cs.length := by
    have h1 := hi.1
    have h2 := hi.2
    rw [e] at h2
    simp only [Sem.dims, List.length_map] at h2
    omega
  refine ⟨cs[i.toNat], ?_, hp.2 _ (List.getElem_mem hl), ha _ (List.getElem_mem hl)⟩
  rw [e, getD_lt (by simpa using hl), List.getElem_map]

theorem elem2_cell {s : Store α} (hs : s.Roomy) {l : Lv .two} (hM : l.Modest s) (hV : l.Valid s) {i j : Int}
    (hi : InRange (l.cells s).dims.1 i) (hj : InRange (l.cells s).dims.2 j) :
    ∃ c, Mat.el (l.cells s) i.toNat j.toNat = .ok c ∧ c.Valid s ∧ c.array = l.array := by
  obtain ⟨cs, hp, ha⟩ := l.places hs.ok (l.modest_sound hM hV) hV
  have e : Mat.flat (l.cells s) = cs.map Res.ok := hp.1
  have hm : Mat.el (l.cells s) i.toNat j.toNat ∈ Mat.flat (l.cells s) := by
    simp only [Mat.flat, Mat.row, List.mem_flatMap, List.mem_map, List.mem_range]
    have h1 : i < (Mat.m (l.cells s) : Nat) := hi.2
    have h2 : j < (Mat.n (l.cells s) : Nat) := hj.2
    have h3 := hi.1
    have h4 := hj.1
    exact ⟨i.toNat, by omega, j.toNat, by omega, rfl⟩
  rw [e, List.mem_map] at hm
  obtain ⟨c, hc, e⟩ := hm
  exact ⟨c, e.symm, hp.2 _ hc, ha _ hc⟩

theorem elem_no_ub {s : Store α} {c : Loc} (hv : c.Valid s) {f : α → Res α} (hf : ∀ x, f x ≠ .ub) :
    (stepwise (fun _ s => (s.read c).bind f) [c] 0 s).1 ≠ .ub := by
  obtain ⟨x, hx⟩ := read_valid hv
  unfold stepwise
  simp only [hx, Res.bind]
  cases h : f x with
  | ub => exact absurd h (hf x)
  | trap k => simp
  | ok y =>
    obtain ⟨s', e, _⟩ := write_ok hv y
    simp [e, stepwise]

theorem areMats_unique {v w : Nat → Arr2 α} {S : Nat → Mat α} (h1 : AreMats v S) (h2 : AreMats w S) : v = w :=
  funext fun i => Arr2.isMat_unique (h1 i) (h2 i)

/-- Without rejections a statement does in every build what the rules say. -/
theorem run_of_does (b : Build) {c : EStmt α} {s s' : Store α} {r : Res Unit} (hF : c.Fits s)
    (h : Does none c s r s') : estmtRun b c s = (r, s') := by
  cases h with
  | eval hV hp => exact eval_valid b hF.1.roomy hF.2.1 hV hp
  | evalRejected _ h => cases h
  | elem1 hV hi hc => exact elem1_ok b hF.1.roomy hF.2.1 hV hi hc _
  | elem2 hV hi hj hc => exact elem2_ok b hF.1.roomy hF.2.1 hF.2.2.1.1 hF.2.2.1.2 hV hi hj hc _
  | elem1Rejected _ h => cases h
  | elem2Rejected _ h => cases h
  | listRejected _ h => cases h
  | matRejected _ _ h => cases h
  | use1Rejected _ _ _ h => cases h
  | use1Invalid _ h => cases h
  | use2Rejected _ _ _ _ h => cases h
  | use2Invalid _ h => cases h
  | useRowRejected _ _ _ _ h => cases h
  | useRowInvalid _ h => cases h
  | list hm =>
    have := C23_valid_statement b hF.1.1 hF.2.1 hm
    simp only [estmtRun, onLists, this]
  | mat hS hm hv =>
    obtain ⟨v', e1, e2⟩ := C34_valid_statement b hS (mats_moderate hF.1 hS) hF.2.1 hm
    rw [areMats_unique hv e2]
    simp only [estmtRun, onMats, e1]
  | use1 hV hx hu =>
    rename_i i u t xs l
    obtain ⟨a, e, hl, hd⟩ := use1_denotes b hF.1.roomy hF.2.1 hV hx i
    simp only [estmtRun, Op.get_bind, e, Op.lift_ok_bind]
    simp only [onLists, on_ok (use1_ok b hd (hF.1.1 i) hl hu)]
  | use2 hV hM hx hu ha =>
    rename_i i u t M N M' a'
    obtain ⟨a, e, hl, hd⟩ := use2_denotes b hF.1.roomy hF.2.1 hV hx i
    have hsz : (M.m : Int) * M.n < 2 ^ 61 := by
      have := (hF.1.2 i).2
      rw [hM.size] at this
      exact_mod_cast this
    obtain ⟨a2, e1, e2⟩ := use2_ok b hM hd hsz hl hu
    simp only [estmtRun, Op.get_bind, e, Op.lift_ok_bind]
    simp only [onMats, Vars2.on, e1, Arr2.isMat_unique ha e2]
    rfl
  | useRow hV hM hx hu ha =>
    rename_i i u t M M' xs a'
    obtain ⟨a, e, hl, hd⟩ := useRow_denotes b hF.1.roomy hF.2.1 hV hx i
    have hsz : (M.m : Int) * M.n < 2 ^ 61 := by
      have := (hF.1.2 i).2
      rw [hM.size] at this
      exact_mod_cast this
    obtain ⟨a2, e1, e2⟩ := useRow_ok b hM (hd _ (.inl rfl))
      (fun hz m => hd m (.inr (hF.2.2.2.2 (by rw [hM.rows, hz]; rfl)))) hsz hl hu
    simp only [estmtRun, Op.get_bind, e, Op.lift_ok_bind]
    simp only [onMats, Vars2.on, e1, Arr2.isMat_unique ha e2]
    rfl

theorem all_ok {l : List (Res α)} (h : ∀ r ∈ l, ∃ x, r = .ok x) : ∃ xs : List α, l = xs.map Res.ok := by
  induction l with
  | nil => exact ⟨[], rfl⟩
  | cons r l ih =>
    obtain ⟨x, rfl⟩ := h r (by simp)
    obtain ⟨xs, rfl⟩ := ih fun r hr => h r (by simp [hr])
    exact ⟨x :: xs, rfl⟩

theorem exists_table {X : Sem α .two} (h : ∀ r ∈ X.flat, ∃ x, r = .ok x) : ∃ N, IsTable X N := by
  refine ⟨⟨Mat.m X, Mat.n X, fun i j => match Mat.el X i j with | .ok x => x | _ => default⟩, rfl, rfl,
    fun i j hi hj => ?_⟩
  have hm : Mat.el X i j ∈ X.flat := by
    show _ ∈ Mat.flat X
    simp only [Mat.flat, Mat.row, List.mem_flatMap, List.mem_map, List.mem_range]
    exact ⟨i, hi, j, hj, rfl⟩
  obtain ⟨x, hx⟩ := h _ hm
  simp only [hx]

/-- In a checked build a statement does what the rules say. -/
theorem does_of_run {b : Build} (hb : b.Checked) {c : EStmt α} {s : Store α} (hF : c.Fits s) :
    Does (some b.kind) c s (estmtRun b c s).1 (estmtRun b c s).2 := by
  cases c with
  | eval c =>
    rcases C84_statement hb hF.1.roomy hF.2.1 hF.2.2 with ⟨hV, _, cs, hp, _⟩ | ⟨hV, k, e⟩
    · rw [show estmtRun b (.eval c) s = c.run b s from rfl, eval_valid b hF.1.roomy hF.2.1 hV hp]
      exact .eval hV hp
    · rw [show estmtRun b (.eval c) s = c.run b s from rfl, e]
      exact .evalRejected hV rfl
  | elem1 l p f =>
    by_cases h : l.Valid s ∧ InRange (l.cells s).dims.1 (target (l.cells s).dims.1 p)
    · obtain ⟨c, hc, _⟩ := elem1_cell hF.1.roomy hF.2.1 h.1 h.2
      rw [show estmtRun b (.elem1 l p f) s = _ from elem1_ok b hF.1.roomy hF.2.1 h.1 h.2 hc f]
      exact .elem1 h.1 h.2 hc
    · rw [show estmtRun b (.elem1 l p f) s = _ from elem1_rejected hb hF.1.roomy hF.2.1 hF.2.2.1 h f]
      exact .elem1Rejected h rfl
  | elem2 l p q f =>
    by_cases h : l.Valid s ∧ InRange (l.cells s).dims.1 (target (l.cells s).dims.1 p) ∧
        InRange (l.cells s).dims.2 (target (l.cells s).dims.2 q)
    · obtain ⟨c, hc, _⟩ := elem2_cell hF.1.roomy hF.2.1 h.1 h.2.1 h.2.2
      rw [show estmtRun b (.elem2 l p q f) s = _ from
        elem2_ok b hF.1.roomy hF.2.1 hF.2.2.1.1 hF.2.2.1.2 h.1 h.2.1 h.2.2 hc f]
      exact .elem2 h.1 h.2.1 h.2.2 hc
    · rw [show estmtRun b (.elem2 l p q f) s = _ from
        elem2_rejected hb hF.1.roomy hF.2.1 hF.2.2.1.1 hF.2.2.1.2 h f]
      exact .elem2Rejected h rfl
  | list c =>
    cases hm : c.meaning s.a1 with
    | some v =>
      simp only [estmtRun, onLists, C23_valid_statement b hF.1.1 hF.2.1 hm]
      exact .list hm
    | none =>
      rcases C30_invalid_statement hb hF.1.1 hF.2.1 hm with e | ⟨i, j, e, _⟩
      · simp only [estmtRun, onLists, e]
        exact .listRejected hm rfl
      · exact absurd hm (hF.2.2 i j e)
  | mat c =>
    have hS := theMats hF.1
    cases hm : c.meaning (fun i => theMat (s.a2 i)) with
    | some S' =>
      obtain ⟨v, e1, e2⟩ := C34_valid_statement b hS (mats_moderate hF.1 hS) hF.2.1 hm
      simp only [estmtRun, onMats, e1]
      exact .mat hS hm e2
    | none =>
      rcases C34_invalid_statement hb hS (mats_moderate hF.1 hS) hF.2.1 hm with e | ⟨i, j, e, _⟩
      · simp only [estmtRun, onMats, e]
        exact .matRejected hS hm rfl
      · obtain ⟨k1, k2, k3⟩ := hF.2.2 i j e
        subst e
        simp only [Stmt2.meaning, theMat, k2, k3, k1, ne_eq, not_false_eq_true, and_self, if_true] at hm
        cases hm
  | use1 i u t =>
    by_cases hV : t.Valid s
    · obtain ⟨xs, hx⟩ := all_ok (hF.2.2.2 hV)
      obtain ⟨a, e, hl, hd⟩ := use1_denotes b hF.1.roomy hF.2.1 hV hx i
      cases hu : u.meaning (s.a1 i) xs with
      | some l =>
        simp only [estmtRun, Op.get_bind, e, Op.lift_ok_bind]
        simp only [onLists, on_ok (use1_ok b hd (hF.1.1 i) hl hu)]
        exact .use1 hV hx hu
      | none =>
        simp only [estmtRun, Op.get_bind, e, Op.lift_ok_bind]
        simp only [onLists, on_trap (use1_rejected hb _ hu)]
        exact .use1Rejected hV hx hu rfl
    · obtain ⟨k, e⟩ := t.traps hb hF.1.roomy hF.2.1 hF.2.2.1 hV
      simp only [estmtRun, Op.get_bind, e, Op.lift_trap_bind]
      exact .use1Invalid hV rfl
  | use2 i u t =>
    by_cases hV : t.Valid s
    · obtain ⟨N, hx⟩ := exists_table (hF.2.2.2 hV)
      have hM := theMat_is (hF.1.2 i).1
      obtain ⟨a, e, hl, hd⟩ := use2_denotes b hF.1.roomy hF.2.1 hV hx i
      have hsz : ((theMat (s.a2 i)).m : Int) * (theMat (s.a2 i)).n < 2 ^ 61 := by
        have := (hF.1.2 i).2
        rw [hM.size] at this
        exact_mod_cast this
      cases hu : u.meaning (theMat (s.a2 i)) N with
      | some M' =>
        obtain ⟨a2, e1, e2⟩ := use2_ok b hM hd hsz hl hu
        simp only [estmtRun, Op.get_bind, e, Op.lift_ok_bind]
        simp only [onMats, Vars2.on, e1]
        exact .use2 hV hM hx hu e2
      | none =>
        simp only [estmtRun, Op.get_bind, e, Op.lift_ok_bind]
        simp only [onMats, on2_trap (use2_rejected hb hM hd hu)]
        exact .use2Rejected hV hM hx hu rfl
    · obtain ⟨k, e⟩ := t.traps hb hF.1.roomy hF.2.1 hF.2.2.1 hV
      simp only [estmtRun, Op.get_bind, e, Op.lift_trap_bind]
      exact .use2Invalid hV rfl
  | useRow i u t =>
    by_cases hV : t.Valid s
    · obtain ⟨xs, hx⟩ := all_ok (hF.2.2.2.1 hV)
      have hM := theMat_is (hF.1.2 i).1
      obtain ⟨a, e, hl, hd⟩ := useRow_denotes b hF.1.roomy hF.2.1 hV hx i
      have hsz : ((theMat (s.a2 i)).m : Int) * (theMat (s.a2 i)).n < 2 ^ 61 := by
        have := (hF.1.2 i).2
        rw [hM.size] at this
        exact_mod_cast this
      cases hu : u.meaning (theMat (s.a2 i)) xs with
      | some M' =>
        obtain ⟨a2, e1, e2⟩ := useRow_ok b hM (hd _ (.inl rfl))
          (fun hz m => hd m (.inr (hF.2.2.2.2 (by rw [hM.rows, hz]; rfl)))) hsz hl hu
        simp only [estmtRun, Op.get_bind, e, Op.lift_ok_bind]
        simp only [onMats, Vars2.on, e1]
        exact .useRow hV hM hx hu e2
      | none =>
        simp only [estmtRun, Op.get_bind, e, Op.lift_ok_bind]
        simp only [onMats, on2_trap (useRow_rejected hb hM (hd _ (.inl rfl)) hu)]
        exact .useRowRejected hV hM hx hu rfl
    · obtain ⟨k, e⟩ := t.traps hb hF.1.roomy hF.2.1 hF.2.2.1 hV
      simp only [estmtRun, Op.get_bind, e, Op.lift_trap_bind]
      exact .useRowInvalid hV rfl

/-- `n` executions in a row. -/
theorem times_run (b : Build) (p : EProg α) (n : Nat) :
    eprogRun b (p.times n) = Op.forN n (fun _ => eprogRun b p) := by
  induction n with
  | zero => rfl
  | succ n ih =>
    funext s
    rw [Op.forN_succ, ← ih]
    show (eprogRun b (p.times n) >>= fun _ => eprogRun b p) s = _
    rw [Op.bind_run]
    rcases eprogRun b (p.times n) s with ⟨_ | _ | _, _⟩ <;> rfl

theorem loop_run (b : Build) (count : Store α → Nat) (p : EProg α) (s : Store α) :
    eprogRun b (.loop count p) s = eprogRun b (p.times (count s)) s := by
  rw [times_run]
  simp only [eprogRun, Op.get_bind]

theorem seq_run (b : Build) (p q : EProg α) (s : Store α) :
    eprogRun b (.seq p q) s = match eprogRun b p s with
      | (.ok _, s') => eprogRun b q s'
      | (.trap k, s') => (.trap k, s')
      | (.ub, s') => (.ub, s') := by
  show (eprogRun b p >>= fun _ => eprogRun b q) s = _
  rw [Op.bind_run]
  rcases eprogRun b p s with ⟨_ | _ | _, _⟩ <;> rfl

theorem SameArray.refl (s : Store α) (a : Dim × Nat) : SameArray s s a := by
  rcases a with ⟨_ | _, i⟩ <;> rfl

theorem SameArray.trans {s s1 s2 : Store α} {a : Dim × Nat} (h1 : SameArray s s1 a) (h2 : SameArray s1 s2 a) :
    SameArray s s2 a := by
  rcases a with ⟨_ | _, i⟩
  · exact Eq.trans h2 h1
  · exact Eq.trans h2 h1

theorem changed_frame {c : Stmt α} {s s' : Nat → List α} (h : c.meaning s = some s') {k : Nat} (hk : k ∉ c.changed) :
    s' k = s k := by
  cases c <;> simp only [Stmt.changed, List.mem_cons, List.not_mem_nil, or_false, not_or] at hk <;>
    simp only [Stmt.meaning] at h <;> (repeat' split at h) <;>
    cases h <;> simp [upd, hk]

theorem changed_frame2 {c : Stmt2 α} {s s' : Nat → Mat α} (h : c.meaning s = some s') {k : Nat} (hk : k ∉ c.changed) :
    s' k = s k := by
  cases c <;> simp only [Stmt2.changed, List.mem_cons, List.not_mem_nil, or_false, not_or] at hk <;>
    simp only [Stmt2.meaning] at h
  case call => obtain ⟨m, _, rfl⟩ := Option.map_eq_some_iff.1 h; simp [upd, hk]
  case callArr => obtain ⟨m, _, rfl⟩ := Option.map_eq_some_iff.1 h; simp [upd, hk]
  all_goals (repeat' split at h) <;> cases h <;> simp [upd, hk]

theorem stepwise_elsewhere (val : Nat → Store α → Res α) (cs : List Loc) (s : Store α) (hv : ∀ c ∈ cs, c.Valid s)
    {a : Dim × Nat} (ha : ∀ c ∈ cs, c.array ≠ a) : SameArray s (stepwise val cs 0 s).2 a := by
  obtain ⟨f1, f2⟩ := stepwise_frame val cs 0 s hv
  rcases a with ⟨_ | _, i⟩
  · exact list_eq_of_rd (f1.1 i).symm fun k => f2 (.one i k) fun hm => ha _ hm rfl
  · have e := list_eq_of_rd (f1.2 i).2.2.symm fun k => f2 (.two i k) fun hm => ha _ hm rfl
    show _ = _
    have e1 := (f1.2 i).1
    have e2 := (f1.2 i).2.1
    generalize (stepwise val cs 0 s).2.a2 i = x at *
    generalize s.a2 i = y at *
    cases x; cases y
    simp_all

/-- What a statement leaves alone. -/
theorem does_frame {K : Option Kind} {c : EStmt α} {s s' : Store α} {r : Res Unit} (hF : c.Fits s)
    (h : Does K c s r s') {a : Dim × Nat} (ha : ¬ c.Changes a) : SameArray s s' a := by
  cases h with
  | eval hV hp =>
    rename_i c cs
    have hp' : AStmt.Places s cs c := by cases c <;> exact hp
    have hS := AStmt.modest_sound hF.1.roomy hF.2.1 hV
    have hd := AStmt.places_array hF.1.roomy.ok hS hV hp'
    exact stepwise_elsewhere c.value cs s (AStmt.places_valid hp') (fun c hc h => ha ((hd c hc).symm.trans h))
  | elem1 hV hi hc =>
    obtain ⟨c, e, hv, h⟩ := elem1_cell hF.1.roomy hF.2.1 hV hi
    rw [hc] at e
    cases e
    exact stepwise_elsewhere _ _ s (by simpa using hv) (by simpa [h, EStmt.Changes] using ha)
  | elem2 hV hi hj hc =>
    obtain ⟨c, e, hv, h⟩ := elem2_cell hF.1.roomy hF.2.1 hV hi hj
    rw [hc] at e
    cases e
    exact stepwise_elsewhere _ _ s (by simpa using hv) (by simpa [h, EStmt.Changes] using ha)
  | list hm =>
    rcases a with ⟨_ | _, i⟩
    · exact changed_frame hm fun h => ha ⟨rfl, h⟩
    · rfl
  | mat hS hm hv =>
    rcases a with ⟨_ | _, i⟩
    · rfl
    · have e := changed_frame2 hm fun h => ha ⟨rfl, h⟩
      exact Arr2.isMat_unique (e ▸ hv i) (hS i)
  | use1 hV hx hu =>
    rcases a with ⟨_ | _, i⟩
    · exact if_neg fun h => ha (by rw [h]; rfl)
    · rfl
  | use2 hV hM hx hu hm =>
    rcases a with ⟨_ | _, i⟩
    · rfl
    · exact if_neg fun h => ha (by rw [h]; rfl)
  | useRow hV hM hx hu hm =>
    rcases a with ⟨_ | _, i⟩
    · rfl
    · exact if_neg fun h => ha (by rw [h]; rfl)
  | _ => exact SameArray.refl _ _

theorem shape_of_isMat {a : Arr2 α} {M : Mat α} (h : IsMat a M) : Shape a :=
  ⟨by rw [h.rows]; omega, by rw [h.cols]; omega, by rw [h.rows, h.cols, h.size]; push_cast; rfl,
    by rw [h.rows, h.cols]; have := h.zero; omega⟩

theorem same_shape {s u : Store α} (f1 : SameSizes s u) {i : Nat} (h : Shape (s.a2 i)) : Shape (u.a2 i) := by
  obtain ⟨e1, e2, e3⟩ := f1.2 i
  exact ⟨e1 ▸ h.rows, e2 ▸ h.cols, by rw [← e1, ← e2, ← e3]; exact h.size, by rw [← e1, ← e2]; exact h.zero⟩

/-- The shape of two-dimensional arrays is kept. -/
theorem does_shape {K : Option Kind} {c : EStmt α} {s s' : Store α} {r : Res Unit} (hF : c.Fits s)
    (h : Does K c s r s') (hs : ∀ i, Shape (s.a2 i)) (i : Nat) : Shape (s'.a2 i) := by
  cases h with
  | eval hV hp =>
    rename_i c cs
    have hp' : AStmt.Places s cs c := by cases c <;> exact hp
    exact same_shape (stepwise_frame c.value cs 0 s (AStmt.places_valid hp')).1 (hs i)
  | elem1 hV hi hc =>
    obtain ⟨c, e, hv, h⟩ := elem1_cell hF.1.roomy hF.2.1 hV hi
    rw [hc] at e
    cases e
    exact same_shape (stepwise_frame _ _ 0 s (by simpa using hv)).1 (hs i)
  | elem2 hV hi hj hc =>
    obtain ⟨c, e, hv, h⟩ := elem2_cell hF.1.roomy hF.2.1 hV hi hj
    rw [hc] at e
    cases e
    exact same_shape (stepwise_frame _ _ 0 s (by simpa using hv)).1 (hs i)
  | mat hS hm hv => exact shape_of_isMat (hv i)
  | use2 hV hM hx hu hm =>
    rename_i j _ _ _ _ _ _
    show Shape (upd s.a2 j _ i)
    unfold upd
    split
    · exact shape_of_isMat hm
    · exact hs i
  | useRow hV hM hx hu hm =>
    rename_i j _ _ _ _ _ _
    show Shape (upd s.a2 j _ i)
    unfold upd
    split
    · exact shape_of_isMat hm
    · exact hs i
  | list _ => exact hs i
  | use1 _ _ _ => exact hs i
  | _ => exact hs i

end Spp
