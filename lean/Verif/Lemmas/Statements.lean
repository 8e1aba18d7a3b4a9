import Verif.Spec.Statements
import Verif.Lemmas.Alias
import Verif.Props.Assign

/-
Statements as sequences of writes.
-/

namespace Spp
open Spec

variable {α : Type}

/-- One step of `stepwise`. -/
theorem loop_stepwise {val : Nat → Store α → Res α} {s0 : Store α} (cs : List Loc)
    (hc : ∀ c ∈ cs, c.Valid s0) (k : Nat) (body : Nat → Op (Store α) Unit)
    (hb : ∀ i (hi : i < cs.length) u, SameSizes s0 u → body i u = (Op.lift (val (k + i) u) >>= put cs[i]) u)
    (s : Store α) (hs : SameSizes s0 s) : Op.forN cs.length body s = stepwise val cs k s := by
  induction cs generalizing k body s with
  | nil => rfl
  | cons c cs ih =>
    rw [List.length_cons, Nat.add_comm, Op.forN_split, Op.forN_succ]
    have h0 := hb 0 (by simp) s hs
    simp only [List.getElem_cons_zero, Nat.add_zero] at h0
    have hz : Op.forN 0 body s = (.ok (), s) := rfl
    simp only [hz]
    rw [h0]
    unfold stepwise
    cases val k s with
    | trap q => rfl
    | ub => rfl
    | ok x =>
      simp only [Op.lift_ok_bind]
      obtain ⟨u, w1, w2, w3⟩ := write_ok ((hc c (by simp)).same hs) x
      simp only [put, Op.get_bind, w1, Op.lift_ok_bind, Op.set_run]
      have := ih (fun c' h => hc c' (by simp [h])) (k + 1) (fun i => body (1 + i)) (fun i hi v hv => by
        rw [hb (1 + i) (by simp; omega) v hv]
        have e : (c :: cs)[1 + i]'(by simp; omega) = cs[i] := by
          simp [Nat.add_comm 1 i]
        rw [e, Nat.add_assoc]) u (SameSizes.trans hs w2)
      exact this

theorem lift_put {r : Res α} {l : Res Loc} {c : Loc} (h : l = .ok c) (s : Store α) :
    (do let v ← Op.lift r; let l ← Op.lift l; put l v : Op (Store α) Unit) s = (Op.lift r >>= put c) s := by
  subst h
  cases r with
  | ok x => simp only [Op.lift_ok_bind]
  | trap k => rfl
  | ub => rfl

section

variable {s0 : Store α} {d : Dim} {l : Lv d} {cs : List Loc} {dst : Acc (Store α) Loc}

theorem copyLin_stepwise (hp : Places l s0 cs)
    (hd : ∀ s, SameSizes s0 s → Den d dst s (l.cells s)) {t : Tm α d} {src : Acc (Store α) α}
    (ht : ∀ s, SameSizes s0 s → Den d src s (t.meaning s)) (hlen : (t.meaning s0).flat.length = cs.length) :
    copyLin dst src s0 = stepwise (fun k u => (t.meaning u).flat.getD k .ub) cs 0 s0 := by
  have hsz : src.size s0 = .ok ((t.meaning s0).flat.length : Int) :=
    (linDen_of (ht s0 (SameSizes.refl s0))).1
  simp only [copyLin, Op.get_bind, hsz, Op.lift_ok_bind, Int.toNat_natCast, hlen]
  refine loop_stepwise cs hp.2 0 _ (fun k hk u hu => ?_) s0 (SameSizes.refl s0)
  have hk2 : k < (t.meaning u).flat.length := by
    rw [flat_dims, t.meaning_dims hu, ← flat_dims, hlen]; exact hk
  simp only [Op.get_bind, den_un (ht u hu) hk2, Nat.zero_add, getD_lt hk2]
  exact lift_put (dst_un hp hd hu hk) u

theorem copyTwo_stepwise {l : Lv .two} (hp : Places l s0 cs)
    (hd : ∀ s, SameSizes s0 s → Den .two dst s (l.cells s)) {t : Tm α .two} {src : Acc (Store α) α}
    (ht : ∀ s, SameSizes s0 s → Den .two src s (t.meaning s))
    (hdim : (l.cells s0).dims = (t.meaning s0).dims) :
    copyTwo dst src s0 = stepwise (fun k u => (t.meaning u).flat.getD k .ub) cs 0 s0 := by
  have h0 := ht s0 (SameSizes.refl s0)
  have hlen : (t.meaning s0).flat.length = cs.length := by rw [flat_dims, ← hdim, ← Places.length hp]
  have hr : src.rows s0 = (((t.meaning s0).dims.1 : Nat) : Int) := h0.1
  have hcl : src.cols s0 = (((t.meaning s0).dims.2 : Nat) : Int) := h0.2.1
  simp only [copyTwo, Op.get_bind, hr, hcl, Int.toNat_natCast]
  rw [Op.forN_nest, ← flat_dims, hlen]
  refine loop_stepwise cs hp.2 0 _ (fun k hk u hu => ?_) s0 (SameSizes.refl s0)
  have hk2 : k < (t.meaning u).flat.length := by
    rw [flat_dims, t.meaning_dims hu, ← flat_dims, hlen]; exact hk
  have hn : (t.meaning s0).dims.2 = (t.meaning u).dims.2 := by rw [t.meaning_dims hu]
  have hu2 : src.un2 u ((k / (t.meaning s0).dims.2 : Nat) : Int)
      ((k % (t.meaning s0).dims.2 : Nat) : Int) = (t.meaning u).flat[k] := by
    rw [hn]
    exact den_un2 (ht u hu) hk2
  simp only [Op.get_bind, hu2, Nat.zero_add, getD_lt hk2]
  exact lift_put (dst_un2 hp hd hu hk (n := (t.meaning s0).dims.2) (by rw [hdim])) u

theorem updateAll_stepwise (hp : Places l s0 cs)
    (hd : ∀ s, SameSizes s0 s → Den d dst s (l.cells s)) {g : Store α → Nat → α → Res α}
    {val : Nat → Store α → Res α}
    (hg : ∀ (k : Nat) (u : Store α) (hk : k < cs.length), SameSizes s0 u →
      (do let x ← u.read cs[k]; g u k x) = val k u) :
    updateAll dst g s0 = stepwise val cs 0 s0 := by
  have hsz : dst.size s0 = .ok (cs.length : Int) := by
    rw [(linDen_of (hd s0 (SameSizes.refl s0))).1, hp.1, List.length_map]
  simp only [updateAll, Op.get_bind, hsz, Op.lift_ok_bind, Int.toNat_natCast]
  refine loop_stepwise cs hp.2 0 _ (fun k hk u hu => ?_) s0 (SameSizes.refl s0)
  simp only [Op.get_bind, dst_un hp hd hu hk, Op.lift_ok_bind, Nat.zero_add, hg k u hk hu]

end

/-! ### Properties of `stepwise` -/

/-- Only the places of the list change, and the sizes stay. -/
theorem stepwise_frame (val : Nat → Store α → Res α) (cs : List Loc) (k : Nat) (s : Store α)
    (hc : ∀ c ∈ cs, c.Valid s) :
    SameSizes s (stepwise val cs k s).2 ∧ ∀ c, c ∉ cs → (stepwise val cs k s).2.read c = s.read c := by
  induction cs generalizing k s with
  | nil => exact ⟨SameSizes.refl s, fun _ _ => rfl⟩
  | cons c cs ih =>
    unfold stepwise
    cases val k s with
    | trap q => exact ⟨SameSizes.refl s, fun _ _ => rfl⟩
    | ub => exact ⟨SameSizes.refl s, fun _ _ => rfl⟩
    | ok x =>
      obtain ⟨u, w1, w2, w3⟩ := write_ok (hc c (by simp)) x
      simp only [w1]
      obtain ⟨i1, i2⟩ := ih (k + 1) u (fun c' h => (hc c' (by simp [h])).same w2)
      refine ⟨SameSizes.trans w2 i1, fun c' h => ?_⟩
      simp only [List.mem_cons, not_or] at h
      rw [i2 c' h.2, w3, if_neg (Ne.symm h.1)]

/-- Two states that differ only in places the values do not depend on: the same outcome, and the states
afterwards differ only in those places. -/
theorem stepwise_sim (P : Loc → Prop) (val : Nat → Store α → Res α) (cs : List Loc) (k : Nat)
    (s s' : Store α) (hc : ∀ c ∈ cs, c.Valid s) (hs : SameSizes s s')
    (hv : ∀ i u u', SameSizes s u → SameSizes u u' → (∀ c, ¬ P c → u.read c = u'.read c) → val i u = val i u')
    (h : ∀ c, ¬ P c → s.read c = s'.read c) :
    (stepwise val cs k s).1 = (stepwise val cs k s').1 ∧
    (∀ c, ¬ P c → (stepwise val cs k s).2.read c = (stepwise val cs k s').2.read c) ∧
    ((stepwise val cs k s).1 = .ok () → ∀ c ∈ cs,
      (stepwise val cs k s).2.read c = (stepwise val cs k s').2.read c) := by
  induction cs generalizing k s s' with
  | nil => exact ⟨rfl, h, fun _ c hc => absurd hc (by simp)⟩
  | cons c cs ih =>
    unfold stepwise
    rw [← hv k s s' (SameSizes.refl s) hs h]
    cases val k s with
    | trap q => exact ⟨rfl, h, fun h => nomatch h⟩
    | ub => exact ⟨rfl, h, fun h => nomatch h⟩
    | ok x =>
      obtain ⟨u, w1, w2, w3⟩ := write_ok (hc c (by simp)) x
      obtain ⟨u', w1', w2', w3'⟩ := write_ok ((hc c (by simp)).same hs) x
      simp only [w1, w1']
      have hu : SameSizes u u' := SameSizes.trans (SameSizes.symm w2) (SameSizes.trans hs w2')
      have hcu : ∀ c' ∈ cs, c'.Valid u := fun c' h => (hc c' (by simp [h])).same w2
      have hr : ∀ c', ¬ P c' → u.read c' = u'.read c' := fun c' hp => by
        rw [w3, w3']; split
        · rfl
        · exact h c' hp
      obtain ⟨i1, i2, i3⟩ := ih (k + 1) u u' hcu hu (fun i v v' a b c => hv i v v' (SameSizes.trans w2 a) b c) hr
      refine ⟨i1, i2, fun hok c' hm => ?_⟩
      by_cases hin : c' ∈ cs
      · exact i3 hok c' hin
      · have : c = c' := by
          rcases List.mem_cons.1 hm with e | e
          · exact e.symm
          · exact absurd e hin
        subst this
        rw [(stepwise_frame val cs (k + 1) u hcu).2 c hin,
          (stepwise_frame val cs (k + 1) u' (fun c' h => (hcu c' h).same hu)).2 c hin, w3, w3', if_pos rfl, if_pos rfl]

theorem stepwise_congr {val val' : Nat → Store α → Res α} (cs : List Loc) (k : Nat) (s : Store α)
    (hc : ∀ c ∈ cs, c.Valid s)
    (h : ∀ i u, i < cs.length → SameSizes s u → val (k + i) u = val' (k + i) u) :
    stepwise val cs k s = stepwise val' cs k s := by
  induction cs generalizing k s with
  | nil => rfl
  | cons c cs ih =>
    unfold stepwise
    rw [show val k s = val' k s from h 0 s (by simp) (SameSizes.refl s)]
    cases val' k s with
    | trap q => rfl
    | ub => rfl
    | ok x =>
      obtain ⟨u, w1, w2, w3⟩ := write_ok (hc c (by simp)) x
      simp only [w1]
      exact ih (k + 1) u (fun c' h => (hc c' (by simp [h])).same w2) (fun i v hi hv => by
        have := h (i + 1) v (by simp; omega) (SameSizes.trans w2 hv)
        rwa [show k + (i + 1) = k + 1 + i by omega] at this)

/-- Writing to every place what it holds. -/
theorem stepwise_same (cs : List Loc) (val : Nat → Store α → Res α) (k : Nat) (s : Store α)
    (hc : ∀ c ∈ cs, c.Valid s)
    (h : ∀ i (hi : i < cs.length), val (k + i) s = s.read cs[i]) : stepwise val cs k s = (.ok (), s) := by
  induction cs generalizing k with
  | nil => rfl
  | cons c cs ih =>
    have h0 := h 0 (by simp)
    simp only [Nat.add_zero, List.getElem_cons_zero] at h0
    unfold stepwise
    obtain ⟨x, hx⟩ := read_valid (hc c (by simp))
    rw [h0, hx]
    obtain ⟨u, w1, w2, w3⟩ := write_ok (hc c (by simp)) x
    have hu : u = s := by
      refine store_ext (SameSizes.symm w2) (fun c' => ?_)
      rw [w3]
      split
      · next e => rw [← e, hx]
      · rfl
    simp only [w1, hu]
    exact ih (k + 1) (fun c' h => hc c' (by simp [h])) (fun i hi => by
      have := h (i + 1) (by simp; omega)
      simp only [List.getElem_cons_succ] at this
      rwa [show k + (i + 1) = k + 1 + i by omega] at this)

/-! ### Statements -/

/-- Constant values. -/
theorem writes_stepwise {cs : List Loc} {xs : List α} {s : Store α} {r : Res Unit × Store α}
    (hc : ∀ c ∈ cs, c.Valid s) (hl : xs.length = cs.length) (h : Writes cs (xs.map Res.ok) s r) :
    r = stepwise (fun k _ => nth xs k) cs 0 s := by
  have e := loop_stepwise (val := fun k _ => nth xs k) cs hc 0
    (fun i => do let v ← Op.lift (nth xs i); let l ← Op.lift (Res.ok (cs.getD i (.one 0 0))); put l v)
    (fun i hi u _ => by
      rw [Nat.zero_add]
      exact lift_put (by rw [getD_lt hi]) u) s (SameSizes.refl s)
  have w : Writes cs (xs.map Res.ok) s (stepwise (fun k _ => nth xs k) cs 0 s) := by
    rw [← e]
    refine writes_loop hc (by simpa using hl) (by simpa using hl.symm) ?_
    intro ys u hy _ _
    have hy' : ys.length < xs.length := by simpa using hy
    have hy2 : ys.length < cs.length := by omega
    simp only [nth, List.getElem?_eq_getElem hy', Op.lift_ok_bind, List.getElem_map, getD_lt hy2]
  obtain ⟨a1, a2⟩ := writes_ok h
  obtain ⟨b1, b2⟩ := writes_ok w
  exact Prod.ext (a1.trans b1.symm) (Effect.unique a2 b2)

theorem places_unique {d : Dim} {l : Lv d} {s : Store α} {cs cs' : List Loc} (h : Spec.Places l s cs)
    (h' : Spec.Places l s cs') : cs = cs' := by
  have := h.1.symm.trans h'.1
  exact List.map_inj_right (f := (Res.ok : Loc → Res Loc)) (fun _ _ h => Res.ok.inj h) |>.1 this

theorem AStmt.places_exist {s : Store α} (hs : Store.Ok s) {st : AStmt α} (hS : AStmt.Sound s st)
    (hV : AStmt.Valid s st) : ∃ cs, AStmt.Places s cs st ∧ ∀ c ∈ cs, c.array = st.dest := by
  cases st with
  | assign l t => exact l.places hs hS.1 hV.1
  | fill l x => exact l.places hs hS hV
  | list l xs => exact l.places hs hS hV.1
  | list2 l L => exact l.places hs hS hV.1
  | compound op l t => exact l.places hs hS.1 hV.1
  | compoundX op l x => exact l.places hs hS hV

theorem AStmt.places_valid {s : Store α} {st : AStmt α} {cs : List Loc} (h : AStmt.Places s cs st) :
    ∀ c ∈ cs, c.Valid s := by
  cases st <;> exact h.2

theorem AStmt.places_array {s : Store α} (hs : Store.Ok s) {st : AStmt α} (hS : AStmt.Sound s st)
    (hV : AStmt.Valid s st) {cs : List Loc} (hp : AStmt.Places s cs st) : ∀ c ∈ cs, c.array = st.dest := by
  obtain ⟨cs', h1, h2⟩ := AStmt.places_exist hs hS hV
  have : cs = cs' := by cases st <;> exact places_unique hp h1
  rw [this]; exact h2

theorem AStmt.places_same {s u : Store α} (h : SameSizes s u) {st : AStmt α} {cs : List Loc}
    (hp : AStmt.Places s cs st) : AStmt.Places u cs st := by
  have key : ∀ {d : Dim} (l : Lv d), Spec.Places l s cs → Spec.Places l u cs := fun l hp =>
    ⟨by rw [l.cells_same h]; exact hp.1, fun c hc => (hp.2 c hc).same h⟩
  cases st <;> exact key _ hp

theorem AStmt.stays_sound {s u : Store α} (h : SameSizes s u) {st : AStmt α} (hS : AStmt.Sound s st) :
    AStmt.Sound u st := by
  cases st with
  | assign l t => exact ⟨Lv.sound_same h hS.1, Tm.sound_same h hS.2⟩
  | fill l x => exact Lv.sound_same h hS
  | list l xs => exact Lv.sound_same h hS
  | list2 l L => exact Lv.sound_same h hS
  | compound op l t => exact ⟨Lv.sound_same h hS.1, Tm.sound_same h hS.2⟩
  | compoundX op l x => exact Lv.sound_same h hS

theorem AStmt.stays_valid {s u : Store α} (h : SameSizes s u) {st : AStmt α} (hV : AStmt.Valid s st) :
    AStmt.Valid u st := by
  cases st with
  | assign l t =>
    exact ⟨Lv.valid_same h hV.1, Tm.valid_same h hV.2.1, by rw [l.cells_same h, t.meaning_dims h]; exact hV.2.2⟩
  | fill l x => exact Lv.valid_same h hV
  | list l xs => exact ⟨Lv.valid_same h hV.1, by rw [l.cells_same h]; exact hV.2⟩
  | list2 l L => exact ⟨Lv.valid_same h hV.1, by rw [l.cells_same h]; exact hV.2⟩
  | compound op l t =>
    exact ⟨Lv.valid_same h hV.1, Tm.valid_same h hV.2.1, by rw [l.cells_same h, t.meaning_dims h]; exact hV.2.2⟩
  | compoundX op l x => exact Lv.valid_same h hV

/-- The values of a statement do not depend on arrays it does not read. -/
theorem AStmt.value_frame {s s' : Store α} (hs : SameSizes s s') {st : AStmt α} {a : Dim × Nat}
    (ha : ¬ st.Reads a) (h : ∀ c : Loc, c.array ≠ a → s.read c = s'.read c) (k : Nat) :
    st.value k s = st.value k s' := by
  have h' : ∀ c : Loc, c.array ≠ a → s'.read c = s.read c := fun c hc => (h c hc).symm
  have old : ∀ {d : Dim} (l : Lv d) (f : Loc → α → Res α), l.array ≠ a →
      ((l.cells s).flat.getD k .ub >>= fun c => s.read c >>= f c) =
        ((l.cells s).flat.getD k .ub >>= fun c => s'.read c >>= f c) := by
    intro d l f hl
    have := getD_allU (P := fun r => ∀ c : Loc, r = .ok c → c.array = l.array) (fun c h => nomatch h)
      (allU_flat (l.cells_array s)) k
    cases hr : (l.cells s).flat.getD k .ub with
    | ok c =>
      simp only [Res.ok_bind]
      rw [h c (by rw [this c hr]; exact hl)]
    | trap q => rfl
    | ub => rfl
  cases st with
  | assign l t =>
    show (t.meaning s).flat.getD k .ub = (t.meaning s').flat.getD k .ub
    rw [t.meaning_frame hs h' ha]
  | fill l x => rfl
  | list l xs => rfl
  | list2 l L => rfl
  | compound op l t =>
    have hm := t.meaning_frame hs h' (fun h => ha (.inr h))
    show ((l.cells s).flat.getD k .ub >>= fun c => s.read c >>= fun x =>
      (t.meaning s).flat.getD k .ub >>= fun y => op x y) = ((l.cells s').flat.getD k .ub >>= fun c =>
        s'.read c >>= fun x => (t.meaning s').flat.getD k .ub >>= fun y => op x y)
    rw [hm, l.cells_same hs]
    exact old l (fun _ x => (t.meaning s).flat.getD k .ub >>= fun y => op x y) (fun h => ha (.inl h))
  | compoundX op l x =>
    show ((l.cells s).flat.getD k .ub >>= fun c => s.read c >>= fun y => op y x) =
      ((l.cells s').flat.getD k .ub >>= fun c => s'.read c >>= fun y => op y x)
    rw [l.cells_same hs]
    exact old l (fun _ y => op y x) ha

end Spp
