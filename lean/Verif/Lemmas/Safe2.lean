import Verif.Lemmas.Safe
import Verif.Props.Assign

/- Statements whose parts make sense have no undefined behaviour and change only what they assign to,
even when the expression reads what is being assigned. -/

set_option linter.unusedSectionVars false

namespace Spp
open Spec Props

variable {α : Type}

theorem forN_safe {σ : Type} {body : Nat → Op σ Unit} {s : σ} (I : σ → Prop) (n : Nat) (h0 : I s)
    (hb : ∀ k t, k < n → I t → (body k t).1 ≠ .ub ∧ I (body k t).2) :
    (Op.forN n body s).1 ≠ .ub ∧ I (Op.forN n body s).2 := by
  induction n with
  | zero => exact ⟨by simp, h0⟩
  | succ n ih =>
    obtain ⟨h1, h2⟩ := ih fun k t hk => hb k t (by omega)
    rw [Op.forN_succ]
    cases h : Op.forN n body s with
    | mk r t =>
      rw [h] at h1 h2
      cases r with
      | ok u => exact hb n t (by omega) h2
      | trap k => exact ⟨by simp, h2⟩
      | ub => exact absurd rfl h1

theorem Spec.Within.refl (cs : List Loc) (s : Store α) : Within cs s s := ⟨SameSizes.refl s, fun _ _ => rfl⟩

theorem put_within {cs : List Loc} {s t : Store α} (h : Within cs s t) {c : Loc} (hc : c ∈ cs)
    (hv : c.Valid s) (x : α) :
    (put c x t).1 ≠ .ub ∧ Within cs s (put c x t).2 := by
  obtain ⟨t', h1, h2, h3⟩ := write_ok (hv.same h.1) x
  have e : put c x t = (.ok (), t') := by
    simp only [Spp.put, Op.get_bind, h1, Op.lift_ok_bind, Op.set_run]
  rw [e]
  refine ⟨by simp, SameSizes.trans h.1 h2, fun l hl => ?_⟩
  have hne : ¬ c = l := by rintro rfl; exact hl hc
  rw [h3, if_neg hne]
  exact h.2 l hl

section
variable {s0 : Store α} {d : Dim} {l : Lv d} {cs : List Loc} {dst : Acc (Store α) Loc}

theorem fillTo_safe (hp : Places l s0 cs)
    (hd : ∀ s, SameSizes s0 s → Den d dst s (l.cells s)) (x : α) :
    (fillTo dst x s0).1 ≠ .ub ∧ Within cs s0 (fillTo dst x s0).2 := by
  have hsz : dst.size s0 = .ok (cs.length : Int) := by
    rw [(linDen_of (hd s0 (SameSizes.refl s0))).1, hp.1, List.length_map]
  simp only [fillTo, Op.get_bind, hsz, Op.lift_ok_bind, Int.toNat_natCast]
  refine forN_safe (Within cs s0) _ (Within.refl cs s0) fun k t hk ht => ?_
  simp only [Op.get_bind, dst_un hp hd ht.1 hk, Op.lift_ok_bind]
  exact put_within ht (List.getElem_mem hk) (hp.2 _ (List.getElem_mem hk)) x

theorem copyLin_safe (hp : Places l s0 cs)
    (hd : ∀ s, SameSizes s0 s → Den d dst s (l.cells s)) {t : Tm α d} {src : Acc (Store α) α}
    (ht : ∀ s, SameSizes s0 s → Den d src s (t.meaning s))
    (hlen : (t.meaning s0).flat.length = cs.length)
    (hu : ∀ s, SameSizes s0 s → ∀ r ∈ (t.meaning s).flat, r ≠ .ub) :
    (copyLin dst src s0).1 ≠ .ub ∧ Within cs s0 (copyLin dst src s0).2 := by
  have hsz : src.size s0 = .ok ((t.meaning s0).flat.length : Int) :=
    (linDen_of (ht s0 (SameSizes.refl s0))).1
  simp only [copyLin, Op.get_bind, hsz, Op.lift_ok_bind, Int.toNat_natCast]
  refine forN_safe (Within cs s0) _ (Within.refl cs s0) fun k u hk hw => ?_
  have hk1 : k < cs.length := by omega
  have hk2 : k < (t.meaning u).flat.length := by
    rw [flat_dims, t.meaning_dims hw.1, ← flat_dims]; exact hk
  simp only [Op.get_bind, den_un (ht u hw.1) hk2]
  have hr := hu u hw.1 _ (List.getElem_mem hk2)
  cases h : (t.meaning u).flat[k] with
  | ok x =>
    simp only [Op.lift_ok_bind, dst_un hp hd hw.1 hk1]
    exact put_within hw (List.getElem_mem hk1) (hp.2 _ (List.getElem_mem hk1)) x
  | trap j => exact ⟨(by intro h; cases h), hw⟩
  | ub => exact absurd h hr

theorem copyTwo_safe {l : Lv .two} (hp : Places l s0 cs)
    (hd : ∀ s, SameSizes s0 s → Den .two dst s (l.cells s)) {t : Tm α .two} {src : Acc (Store α) α}
    (ht : ∀ s, SameSizes s0 s → Den .two src s (t.meaning s))
    (hdim : (l.cells s0).dims = (t.meaning s0).dims)
    (hu : ∀ s, SameSizes s0 s → ∀ r ∈ (t.meaning s).flat, r ≠ .ub) :
    (copyTwo dst src s0).1 ≠ .ub ∧ Within cs s0 (copyTwo dst src s0).2 := by
  have h0 := ht s0 (SameSizes.refl s0)
  have hlen : (t.meaning s0).flat.length = cs.length := by rw [flat_dims, ← hdim, ← Places.length hp]
  have hr : src.rows s0 = (((t.meaning s0).dims.1 : Nat) : Int) := h0.1
  have hcl : src.cols s0 = (((t.meaning s0).dims.2 : Nat) : Int) := h0.2.1
  simp only [copyTwo, Op.get_bind, hr, hcl, Int.toNat_natCast]
  rw [Op.forN_nest, ← flat_dims]
  refine forN_safe (Within cs s0) _ (Within.refl cs s0) fun k u hk hw => ?_
  have hk1 : k < cs.length := by omega
  have hk2 : k < (t.meaning u).flat.length := by
    rw [flat_dims, t.meaning_dims hw.1, ← flat_dims]; exact hk
  have hn : (t.meaning s0).dims.2 = (t.meaning u).dims.2 := by rw [t.meaning_dims hw.1]
  have hval : src.un2 u ((k / (t.meaning s0).dims.2 : Nat) : Int)
      ((k % (t.meaning s0).dims.2 : Nat) : Int) = (t.meaning u).flat[k] := by
    rw [hn]
    exact den_un2 (ht u hw.1) hk2
  simp only [Op.get_bind, hval]
  have hr := hu u hw.1 _ (List.getElem_mem hk2)
  cases h : (t.meaning u).flat[k] with
  | ok x =>
    simp only [Op.lift_ok_bind, dst_un2 hp hd hw.1 hk1 (n := (t.meaning s0).dims.2) (by rw [hdim])]
    exact put_within hw (List.getElem_mem hk1) (hp.2 _ (List.getElem_mem hk1)) x
  | trap j => exact ⟨(by intro h; cases h), hw⟩
  | ub => exact absurd h hr

theorem updateAll_safe (hp : Places l s0 cs)
    (hd : ∀ s, SameSizes s0 s → Den d dst s (l.cells s)) {g : Store α → Nat → α → Res α}
    (hg : ∀ (k : Nat) (u : Store α) (x : α), k < cs.length → SameSizes s0 u → g u k x ≠ .ub) :
    (updateAll dst g s0).1 ≠ .ub ∧ Within cs s0 (updateAll dst g s0).2 := by
  have hsz : dst.size s0 = .ok (cs.length : Int) := by
    rw [(linDen_of (hd s0 (SameSizes.refl s0))).1, hp.1, List.length_map]
  simp only [updateAll, Op.get_bind, hsz, Op.lift_ok_bind, Int.toNat_natCast]
  refine forN_safe (Within cs s0) _ (Within.refl cs s0) fun k u hk hw => ?_
  have hv := hp.2 _ (List.getElem_mem hk)
  obtain ⟨x, hx⟩ := read_valid (hv.same hw.1)
  simp only [Op.get_bind, dst_un hp hd hw.1 hk, Op.lift_ok_bind, hx, Res.ok_bind]
  have hr := hg k u x hk hw.1
  cases h : g u k x with
  | ok x =>
    simp only [Op.lift_ok_bind]
    exact put_within hw (List.getElem_mem hk) hv x
  | trap j => exact ⟨(by intro h; cases h), hw⟩
  | ub => exact absurd h hr

end

theorem effect_within {cs : List Loc} {xs : List α} {s t : Store α}
    (h : Effect s t (cs.zip xs)) : Within cs s t :=
  ⟨h.1, fun c hc => Effect.frame h fun w hw e => hc (by
    rw [← e]; exact (List.of_mem_zip (a := w.1) (b := w.2) hw).1)⟩

theorem noUb_all {s : Store α} (hs : Store.Ok s) {d : Dim} {t : Tm α d} (hS : t.Sound s)
    (hV : t.Valid s) (hT : t.Total) :
    ∀ u, SameSizes s u → ∀ r ∈ (t.meaning u).flat, r ≠ .ub := by
  intro u hu r hr
  exact all_flat (t.noUb (ok_same hu hs) (Tm.sound_same hu hS) (Tm.valid_same hu hV) hT) r hr

/-- Statements whose parts make sense are safe, in every build. -/
theorem AStmt.valid_safe (b : Build) {s : Store α} (hs : Store.Ok s) {st : AStmt α}
    (hS : AStmt.Sound s st) (hV : AStmt.Valid s st) (hT : st.Total) :
    ∃ cs, Places st.target.2 s cs ∧ (st.run b s).1 ≠ .ub ∧ Within cs s (st.run b s).2 := by
  have rf := SameSizes.refl s
  cases st with
  | @assign d l t =>
    obtain ⟨_, a, h1, h2⟩ := l.main b hs hS.1 hV.1
    obtain ⟨_, e, h3, h4⟩ := t.main b hs hS.2 hV.2.1
    obtain ⟨cs, hp, _⟩ := l.places hs hS.1 hV.1
    refine ⟨cs, hp, ?_⟩
    simp only [AStmt.run, Op.get_bind, h3, h1, Op.lift_ok_bind,
      (sameSize_iff (h2 s rf) (h4 s rf)).2 hV.2.2, assertDebug_true]
    have hlen : (t.meaning s).flat.length = cs.length := by
      rw [flat_dims, ← hV.2.2, ← Places.length hp]
    have hu := noUb_all hs hS.2 hV.2.1 hT
    cases d with
    | one => exact copyLin_safe hp h2 h4 hlen hu
    | two =>
      simp only [copyTo]
      split
      · exact copyLin_safe hp h2 h4 hlen hu
      · exact copyTwo_safe hp h2 h4 hV.2.2 hu
  | fill l x =>
    obtain ⟨_, a, h1, h2⟩ := l.main b hs hS hV
    obtain ⟨cs, hp, _⟩ := l.places hs hS hV
    refine ⟨cs, hp, ?_⟩
    simp only [AStmt.run, Op.get_bind, h1, Op.lift_ok_bind]
    exact fillTo_safe hp h2 x
  | list l xs =>
    obtain ⟨cs, s', h1, _, h2, h3⟩ := C20_list b hs hS hV.1 hV.2
    exact ⟨cs, h1, by rw [h2]; simp, by rw [h2]; exact effect_within h3⟩
  | list2 l L =>
    obtain ⟨cs, s', h1, _, h2, h3⟩ := C20_list2 b hs hS hV.1 hV.2 rfl
    exact ⟨cs, h1, by rw [h2]; simp, by rw [h2]; exact effect_within h3⟩
  | compound op l t =>
    obtain ⟨_, a, h1, h2⟩ := l.main b hs hS.1 hV.1
    obtain ⟨_, e, h3, h4⟩ := t.main b hs hS.2 hV.2.1
    obtain ⟨cs, hp, _⟩ := l.places hs hS.1 hV.1
    refine ⟨cs, hp, ?_⟩
    simp only [AStmt.run, Op.get_bind, h3, h1, Op.lift_ok_bind,
      (sameSize_iff (h2 s rf) (h4 s rf)).2 hV.2.2, assertDebug_true]
    have hlen : (t.meaning s).flat.length = cs.length := by
      rw [flat_dims, ← hV.2.2, ← Places.length hp]
    refine updateAll_safe hp h2 fun k u x hk hu => ?_
    have hk2 : k < (t.meaning u).flat.length := by
      rw [flat_dims, t.meaning_dims hu, ← flat_dims, hlen]; exact hk
    rw [den_un (h4 u hu) hk2]
    exact bind_ne_ub (noUb_all hs hS.2 hV.2.1 hT.2 u hu _ (List.getElem_mem hk2)) fun _ => hT.1 _ _
  | compoundX op l x =>
    obtain ⟨_, a, h1, h2⟩ := l.main b hs hS hV
    obtain ⟨cs, hp, _⟩ := l.places hs hS hV
    refine ⟨cs, hp, ?_⟩
    simp only [AStmt.run, Op.get_bind, h1, Op.lift_ok_bind]
    exact updateAll_safe hp h2 fun k u y _ _ => hT y x

/-- Statements whose parts do not make sense trap and do nothing. -/
theorem AStmt.invalid_traps {b : Build} (hb : b.Checked) {s : Store α} (hs : s.Roomy) {st : AStmt α}
    (hM : st.Modest s) (hT : st.Total) (hV : ¬ AStmt.Valid s st) :
    ∃ k, st.run b s = (.trap k, s) := by
  have two : ∀ {d : Dim} (l : Lv d) (t : Tm α d)
      (f : Acc (Store α) Loc → Acc (Store α) α → Op (Store α) Unit), l.Modest s → t.Modest s →
      t.Total → ¬ (l.Valid s ∧ t.Valid s ∧ (l.cells s).dims = (t.meaning s).dims) →
      ∃ k, (do
        let s : Store α ← Op.get
        let src ← Op.lift (t.build b s)
        let dst ← Op.lift (l.build b s)
        Op.lift (assertDebug b (Acc.sameSize d dst src s))
        f dst src : Op (Store α) Unit) s = (.trap k, s) := by
    intro d l t f hl ht hT hV
    simp only [Op.get_bind]
    by_cases c1 : t.Valid s
    · obtain ⟨_, e, h3, h4⟩ := t.main b hs.ok (t.modest_sound hs ht c1).1 c1
      by_cases c2 : l.Valid s
      · obtain ⟨_, a, h1, h2⟩ := l.main b hs.ok (l.modest_sound hl c2) c2
        have rf := SameSizes.refl s
        have : Acc.sameSize d a e s = false := by
          rw [← Bool.not_eq_true, sameSize_iff (h2 s rf) (h4 s rf)]
          exact fun h => hV ⟨c2, c1, h⟩
        exact ⟨b.kind, by simp only [h3, h1, Op.lift_ok_bind, this, assertDebug_false hb,
          Op.lift_trap_bind]⟩
      · exact ⟨b.kind, by simp only [h3, Op.lift_ok_bind, l.traps hb hs hl c2, Op.lift_trap_bind]⟩
    · obtain ⟨k, e⟩ := t.traps hb hs ht hT c1
      exact ⟨k, by simp only [e, Op.lift_trap_bind]⟩
  cases st with
  | assign l t => exact two l t _ hM.1 hM.2 hT hV
  | compound op l t => exact two l t _ hM.1 hM.2 hT.2 hV
  | fill l x =>
    exact ⟨b.kind, by simp only [AStmt.run, Op.get_bind, l.traps hb hs hM hV, Op.lift_trap_bind]⟩
  | compoundX op l x =>
    exact ⟨b.kind, by simp only [AStmt.run, Op.get_bind, l.traps hb hs hM hV, Op.lift_trap_bind]⟩
  | list l xs =>
    by_cases hl : l.Valid s
    · exact ⟨_, C20_list_rejected hb hs.ok (l.modest_sound hM hl) hl (fun h => hV ⟨hl, h⟩)⟩
    · exact ⟨b.kind, by simp only [AStmt.run, Op.get_bind, l.traps hb hs hM hl, Op.lift_trap_bind]⟩
  | list2 l L =>
    by_cases hl : l.Valid s
    · exact ⟨_, C20_list2_rejected hb hs.ok (l.modest_sound hM hl) hl (fun h => hV ⟨hl, h⟩)⟩
    · exact ⟨b.kind, by simp only [AStmt.run, Op.get_bind, l.traps hb hs hM hl, Op.lift_trap_bind]⟩

theorem AStmt.modest_sound {s : Store α} (hs : s.Roomy) {st : AStmt α} (hM : st.Modest s)
    (hV : AStmt.Valid s st) : AStmt.Sound s st := by
  cases st with
  | assign l t => exact ⟨l.modest_sound hM.1 hV.1, (t.modest_sound hs hM.2 hV.2.1).1⟩
  | compound op l t => exact ⟨l.modest_sound hM.1 hV.1, (t.modest_sound hs hM.2 hV.2.1).1⟩
  | fill l x => exact l.modest_sound hM hV
  | compoundX op l x => exact l.modest_sound hM hV
  | list l xs => exact l.modest_sound hM hV.1
  | list2 l L => exact l.modest_sound hM hV.1

/-! ### Only sizes matter -/

theorem Spec.SameSizes.symm' {s t : Store α} (h : SameSizes s t) : SameSizes t s :=
  ⟨fun id => (h.1 id).symm, fun id => ⟨(h.2 id).1.symm, (h.2 id).2.1.symm, (h.2 id).2.2.symm⟩⟩

theorem roomy_same {s t : Store α} (h : SameSizes s t) (hs : s.Roomy) : t.Roomy := by
  have ok := ok_same h hs.ok
  exact ⟨fun id => by rw [← h.1 id]; exact hs.1 id,
    fun id => ⟨(ok.2 id).1, by rw [← (h.2 id).2.2]; exact (hs.2 id).2⟩⟩

theorem Lv.modest_same {s s' : Store α} (h : SameSizes s s') {d : Dim} {l : Lv d} :
    l.Modest s → l.Modest s' := by
  induction l with
  | arr1 id => exact fun h => h
  | arr2 id => exact fun h => h
  | view v l ih =>
    rintro ⟨h1, h2, h3⟩
    exact ⟨ih h1, h2, fun hv => (h3 (Lv.valid_same h.symm' hv)).congr ((Lv.view v l).cells_dims h).symm⟩

theorem Tm.modest_same {s s' : Store α} (h : SameSizes s s') {d : Dim} {t : Tm α d} :
    t.Modest s → t.Modest s' := by
  have key : ∀ {d : Dim} {t : Tm α d}, (t.Valid s → Roomy (t.meaning s)) →
      t.Valid s' → Roomy (t.meaning s') := fun {d t} h1 hv =>
    (h1 (Tm.valid_same h.symm' hv)).congr (t.meaning_dims h).symm
  induction t with
  | lv l => exact Lv.modest_same h
  | view v t ih => rintro ⟨h1, h2, h3⟩; exact ⟨ih h1, h2, key h3⟩
  | unary f t ih => exact ih
  | binary f t1 t2 ih1 ih2 => rintro ⟨h1, h2⟩; exact ⟨ih1 h1, ih2 h2⟩
  | scalarL f x t ih => exact ih
  | scalarR f t x ih => exact ih
  | sequence ar n x y => exact id
  | linspace ar n x y => exact id
  | eUnit ar k n => exact id
  | const1D n x => exact id
  | const2D m n x => exact id
  | identity ar n => exact id
  | merge t1 t2 ih1 ih2 => rintro ⟨h1, h2, h3⟩; exact ⟨ih1 h1, ih2 h2, key h3⟩
  | append t x ih => rintro ⟨h1, h2⟩; exact ⟨ih h1, key h2⟩
  | prepend x t ih => rintro ⟨h1, h2⟩; exact ⟨ih h1, key h2⟩
  | exclude t p c ih => rintro ⟨h1, h2⟩; exact ⟨ih h1, h2⟩
  | excludeLast t k ih => exact ih
  | reduce rw g t ih => exact ih
  | matvec ar t x ih1 ih2 => rintro ⟨h1, h2⟩; exact ⟨ih1 h1, ih2 h2⟩
  | bcast rw t ih => rintro ⟨h1, h2⟩; exact ⟨ih h1, key h2⟩
  | tensor ar t1 t2 ih1 ih2 => rintro ⟨h1, h2, h3⟩; exact ⟨ih1 h1, ih2 h2, key h3⟩
  | transpose t ih => exact ih
  | mergeH t1 t2 ih1 ih2 => rintro ⟨h1, h2, h3⟩; exact ⟨ih1 h1, ih2 h2, key h3⟩
  | mergeV t1 t2 ih1 ih2 => rintro ⟨h1, h2, h3⟩; exact ⟨ih1 h1, ih2 h2, key h3⟩

theorem AStmt.modest_same {s s' : Store α} (h : SameSizes s s') {st : AStmt α} (hM : st.Modest s) :
    st.Modest s' := by
  cases st with
  | assign l t => exact ⟨Lv.modest_same h hM.1, Tm.modest_same h hM.2⟩
  | compound op l t => exact ⟨Lv.modest_same h hM.1, Tm.modest_same h hM.2⟩
  | fill l x => exact Lv.modest_same h hM
  | compoundX op l x => exact Lv.modest_same h hM
  | list l xs => exact Lv.modest_same h hM
  | list2 l L => exact Lv.modest_same h hM

theorem AStmt.valid_same {s s' : Store α} (h : SameSizes s s') {st : AStmt α}
    (hV : AStmt.Valid s st) : AStmt.Valid s' st := by
  cases st with
  | assign l t => exact ⟨Lv.valid_same h hV.1, Tm.valid_same h hV.2.1, by
      rw [l.cells_dims h, t.meaning_dims h]; exact hV.2.2⟩
  | compound op l t => exact ⟨Lv.valid_same h hV.1, Tm.valid_same h hV.2.1, by
      rw [l.cells_dims h, t.meaning_dims h]; exact hV.2.2⟩
  | fill l x => exact Lv.valid_same h hV
  | compoundX op l x => exact Lv.valid_same h hV
  | list l xs => exact ⟨Lv.valid_same h hV.1, by rw [l.cells_dims h]; exact hV.2⟩
  | list2 l L => exact ⟨Lv.valid_same h hV.1, by rw [l.cells_dims h]; exact hV.2⟩

end Spp
