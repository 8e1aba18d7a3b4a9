import Verif.Lemmas.Statements
import Verif.Spec.Decide

/-
C118: statements as sequences of element writes, whatever they read; compound assignment as assignment;
statements that can be left out, swapped or rearranged.
-/

namespace Spp.Props
open Spec

variable {α : Type}

/-- C118: a statement gives its values to its places one after the other, each computed in the state left by
the writes before it (so also when it reads what it writes), up to the first that fails. -/
theorem C118_in_order (b : Build) {s : Store α} (hs : Store.Ok s) {st : AStmt α} (hS : AStmt.Sound s st)
    (hV : AStmt.Valid s st) {cs : List Loc} (hp : AStmt.Places s cs st) :
    st.run b s = stepwise st.value cs 0 s := by
  have rf := SameSizes.refl s
  cases st with
  | assign l t =>
    rename_i d
    obtain ⟨_, a, h1, h2⟩ := l.main b hs hS.1 hV.1
    obtain ⟨_, e, h3, h4⟩ := t.main b hs hS.2 hV.2.1
    have hd := hV.2.2
    have hlen : (t.meaning s).flat.length = cs.length := by rw [flat_dims, ← hd, ← Places.length hp]
    simp only [AStmt.run, Op.get_bind, h3, h1, Op.lift_ok_bind,
      (sameSize_iff (h2 s rf) (h4 s rf)).2 hd, assertDebug_true]
    cases d with
    | one => exact copyLin_stepwise hp h2 h4 hlen
    | two =>
      simp only [copyTo]
      split
      · exact copyLin_stepwise hp h2 h4 hlen
      · exact copyTwo_stepwise hp h2 h4 hd
  | fill l x =>
    obtain ⟨_, a, h1, h2⟩ := l.main b hs hS hV
    simp only [AStmt.run, Op.get_bind, h1, Op.lift_ok_bind]
    have hw := fillTo_writes hp h2 x
    have e : cs.map (fun _ => Res.ok x) = (cs.map (fun _ => x)).map Res.ok := by
      rw [List.map_map]; rfl
    rw [e] at hw
    rw [writes_stepwise hp.2 (by simp) hw]
    refine stepwise_congr cs 0 s hp.2 (fun i u hi _ => ?_)
    simp [nth, AStmt.value, hi]
  | list l xs =>
    obtain ⟨_, a, h1, h2⟩ := l.main b hs hS hV.1
    have hl : cs.length = xs.length := by
      have := Places.length hp
      rw [show (l.cells s).dims.2 = 1 from rfl, Nat.mul_one, hV.2] at this
      exact this
    have hr : (a.rows s == len xs) = true := by
      have : a.rows s = ((l.cells s).dims.1 : Int) := (h2 s rf).1
      rw [this, hV.2]; simp [len]
    simp only [AStmt.run, Op.get_bind, h1, Op.lift_ok_bind, hr, assertDebug_true]
    exact writes_stepwise hp.2 hl.symm (copyList_writes hp h2 hl.symm)
  | list2 l L =>
    obtain ⟨_, a, h1, h2⟩ := l.main b hs hS hV.1
    obtain ⟨cs', s', p1, p2, p3, p4⟩ := C20_list2 b hs hS hV.1 hV.2 rfl
    have := places_unique p1 hp
    subst this
    rw [p3]
    refine writes_stepwise hp.2 p2.symm ⟨L.flatten, p4, .inl ⟨rfl, rfl⟩⟩
  | compound op l t =>
    obtain ⟨_, a, h1, h2⟩ := l.main b hs hS.1 hV.1
    obtain ⟨_, e, h3, h4⟩ := t.main b hs hS.2 hV.2.1
    have hd := hV.2.2
    have hlen : (t.meaning s).flat.length = cs.length := by rw [flat_dims, ← hd, ← Places.length hp]
    simp only [AStmt.run, Op.get_bind, h3, h1, Op.lift_ok_bind,
      (sameSize_iff (h2 s rf) (h4 s rf)).2 hd, assertDebug_true]
    refine updateAll_stepwise hp h2 (fun k u hk hu => ?_)
    have hk2 : k < (t.meaning u).flat.length := by
      rw [flat_dims, t.meaning_dims hu, ← flat_dims, hlen]; exact hk
    have hc : (l.cells u).flat.getD k .ub = .ok cs[k] := by
      rw [l.cells_same hu, hp.1, getD_lt (by simpa using hk), List.getElem_map]
    simp only [AStmt.value, hc, Res.ok_bind, den_un (h4 u hu) hk2, getD_lt hk2]
  | compoundX op l x =>
    obtain ⟨_, a, h1, h2⟩ := l.main b hs hS hV
    simp only [AStmt.run, Op.get_bind, h1, Op.lift_ok_bind]
    refine updateAll_stepwise hp h2 (fun k u hk hu => ?_)
    have hc : (l.cells u).flat.getD k .ub = .ok cs[k] := by
      rw [l.cells_same hu, hp.1, getD_lt (by simpa using hk), List.getElem_map]
    simp only [AStmt.value, hc, Res.ok_bind]

/-- `x = reverse(x)`: the third element is given the new first one. -/
example : (AStmt.assign (.arr1 0) (.view (.slice .reverse) Sample.x)).run ⟨false, true, false⟩ Sample.store =
    stepwise (fun k u => ((Tm.view (.slice .reverse) Sample.x).meaning u).flat.getD k .ub)
      [.one 0 0, .one 0 1, .one 0 2] 0 Sample.store :=
  C118_in_order (st := .assign (.arr1 0) (.view (.slice .reverse) Sample.x)) _ Sample.store_ok
    (show Lv.Sound _ _ ∧ Tm.Sound _ _ by decide)
    ⟨show Lv.Valid _ _ by decide, show Tm.Valid _ _ by decide, rfl⟩ ⟨rfl, by decide⟩

/-- C118: `l op= t` does the same as `l = l op t`, whatever `t` reads: the same outcome and the same state. -/
theorem C118_compound (b : Build) (op : α → α → Res α) {s : Store α} (hs : Store.Ok s) {d : Dim} {l : Lv d}
    {t : Tm α d} (hS : l.Sound s) (hV : l.Valid s) (tS : t.Sound s) (tV : t.Valid s)
    (hd : (l.cells s).dims = (t.meaning s).dims) :
    (AStmt.compound op l t).run b s = (AStmt.assign l (.binary op (.lv l) t)).run b s := by
  obtain ⟨cs, hp, _⟩ := l.places hs hS hV
  have hml : ((Tm.lv l : Tm α d).meaning s).dims = (l.cells s).dims := by
    simp only [Tm.meaning, map_dims]
  have hz : (l.cells s).dims = ((Tm.binary op (.lv l) t).meaning s).dims := by
    show _ = (Sem.zip op ((Tm.lv l : Tm α d).meaning s) (t.meaning s)).dims
    rw [zip_dims_left op (hml.trans hd), hml]
  rw [C118_in_order b hs (st := .compound op l t) ⟨hS, tS⟩ ⟨hV, tV, hd⟩ hp,
    C118_in_order b hs (st := .assign l (.binary op (.lv l) t)) ⟨hS, hS, tS⟩ ⟨hV, ⟨hV, tV, hml.trans hd⟩, hz⟩ hp]
  refine stepwise_congr cs 0 s hp.2 (fun k u hk hu => ?_)
  rw [Nat.zero_add]
  have hdu : ((Tm.lv l : Tm α d).meaning u).dims = (t.meaning u).dims := by
    rw [Tm.meaning_dims hu, t.meaning_dims hu, hml, hd]
  have h2 : k < (t.meaning u).flat.length := by
    rw [flat_dims, t.meaning_dims hu, ← hd, ← Places.length hp]; exact hk
  have h1 : k < ((Tm.lv l : Tm α d).meaning u).flat.length := by
    rw [flat_dims, hdu, ← flat_dims]; exact h2
  show ((l.cells u).flat.getD k .ub >>= fun c => u.read c >>= fun x =>
    (t.meaning u).flat.getD k .ub >>= fun y => op x y) =
    (Sem.zip op ((Tm.lv l : Tm α d).meaning u) (t.meaning u)).flat.getD k .ub
  have hc : (l.cells u).flat.getD k .ub = .ok cs[k] := by
    rw [l.cells_same hu, hp.1, getD_lt (by simpa using hk), List.getElem_map]
  have hx : ((Tm.lv l : Tm α d).meaning u).flat[k] = u.read cs[k] := by
    have e : ((Tm.lv l : Tm α d).meaning u).flat = cs.map u.read := by
      simp only [Tm.meaning, flat_map, l.cells_same hu, hp.1, List.map_map]
      rfl
    simp only [e, List.getElem_map]
  rw [flat_zip op hdu, getD_zipWith h1 h2, hx, hc, getD_lt h2]
  rfl

/-- `x += reverse(x)`, which reads elements it has changed. -/
example : (AStmt.compound (fun u v => .ok (u + v)) (.arr1 0) (.view (.slice .reverse) Sample.x)).run
      ⟨false, true, false⟩ Sample.store =
    (AStmt.assign (.arr1 0) (.binary (fun u v => .ok (u + v)) Sample.x
      (.view (.slice .reverse) Sample.x))).run ⟨false, true, false⟩ Sample.store :=
  C118_compound (l := .arr1 0) (t := .view (.slice .reverse) Sample.x) _ _ Sample.store_ok (by decide)
    (by decide) (by decide) (by decide) rfl

example : ((AStmt.compound (fun u v => .ok (u + v)) (.arr1 0) (.view (.slice .reverse) Sample.x)).run
    ⟨false, true, false⟩ Sample.store).2.a1 0 = [4, 4, 7] := by decide

/-- C118: `l op= x` does the same as `l = l op x`. -/
theorem C118_compound_scalar (b : Build) (op : α → α → Res α) {s : Store α} (hs : Store.Ok s) {d : Dim}
    {l : Lv d} (hS : l.Sound s) (hV : l.Valid s) (x : α) :
    (AStmt.compoundX op l x).run b s = (AStmt.assign l (.scalarR op (.lv l) x)).run b s := by
  obtain ⟨cs, hp, _⟩ := l.places hs hS hV
  have hz : (l.cells s).dims = ((Tm.scalarR op (.lv l) x).meaning s).dims := by
    simp only [Tm.meaning, map_dims]
  rw [C118_in_order b hs (st := .compoundX op l x) hS hV hp,
    C118_in_order b hs (st := .assign l (.scalarR op (.lv l) x)) ⟨hS, hS⟩ ⟨hV, hV, hz⟩ hp]
  refine stepwise_congr cs 0 s hp.2 (fun k u hk hu => ?_)
  rw [Nat.zero_add]
  have hc : (l.cells u).flat.getD k .ub = .ok cs[k] := by
    rw [l.cells_same hu, hp.1, getD_lt (by simpa using hk), List.getElem_map]
  have e : ((Tm.scalarR op (.lv l) x).meaning u).flat = cs.map (fun c => u.read c >>= fun y => op y x) := by
    simp only [Tm.meaning, flat_map, l.cells_same hu, hp.1, List.map_map]
    rfl
  show ((l.cells u).flat.getD k .ub >>= fun c => u.read c >>= fun y => op y x) =
    ((Tm.scalarR op (.lv l) x).meaning u).flat.getD k .ub
  rw [hc, e, getD_lt (by simpa using hk), List.getElem_map]
  rfl

example : (AStmt.compoundX (fun u v => .ok (u * v)) (.view (.row (.at 1)) (.arr2 0)) 7).run ⟨false, true, false⟩
      Sample.store =
    (AStmt.assign (.view (.row (.at 1)) (.arr2 0)) (.scalarR (fun u v => .ok (u * v))
      (.lv (.view (.row (.at 1)) (.arr2 0))) 7)).run ⟨false, true, false⟩ Sample.store :=
  C118_compound_scalar (l := .view (.row (.at 1)) (.arr2 0)) _ _ Sample.store_ok (by decide) (by decide) 7

/-- C118: in a checked build both forms are rejected together, and write nothing then. -/
theorem C118_compound_rejected {b : Build} (hb : b.Checked) (op : α → α → Res α) {s : Store α}
    (hs : Store.Ok s) {d : Dim} {l : Lv d} {t : Tm α d} (hS : l.Sound s) (tS : t.Sound s)
    (h : ¬ (l.Valid s ∧ t.Valid s ∧ (l.cells s).dims = (t.meaning s).dims)) :
    ((AStmt.compound op l t).run b s).1 ≠ .ok () ∧
    ((AStmt.assign l (.binary op (.lv l) t)).run b s).1 ≠ .ok () ∧
    ((AStmt.compound op l t).run b s).2 = s ∧
    ((AStmt.assign l (.binary op (.lv l) t)).run b s).2 = s := by
  obtain ⟨a1, a2⟩ := C30_invalid_assignment hb hs (st := .compound op l t) ⟨hS, tS⟩ h
  obtain ⟨b1, b2⟩ := C30_invalid_assignment hb hs (st := .assign l (.binary op (.lv l) t)) ⟨hS, hS, tS⟩
    (fun ⟨v1, v2, _⟩ => h ⟨v1, v2.2.1, by
      have := v2.2.2
      simp only [Tm.meaning, map_dims] at this
      exact this⟩)
  exact ⟨a1, b1, a2, b2⟩

example : ((AStmt.compound (fun u v => .ok (u + v)) (.arr1 0) (.view (.slice (.firstN 2)) Sample.y)).run
    ⟨false, true, false⟩ Sample.store).1 ≠ .ok () :=
  (C118_compound_rejected (l := .arr1 0) (t := .view (.slice (.firstN 2)) Sample.y) (by decide) _
    Sample.store_ok (by decide) (by decide) (fun h => absurd h.2.2 (by decide))).1

/-- C118: `l = l` changes nothing, also when `l` selects elements several times. -/
theorem C118_self (b : Build) {s : Store α} (hs : Store.Ok s) {d : Dim} {l : Lv d} (hS : l.Sound s)
    (hV : l.Valid s) : (AStmt.assign l (.lv l)).run b s = (.ok (), s) := by
  obtain ⟨cs, hp, _⟩ := l.places hs hS hV
  have hz : (l.cells s).dims = ((Tm.lv l : Tm α d).meaning s).dims := by
    simp only [Tm.meaning, map_dims]
  rw [C118_in_order b hs (st := .assign l (.lv l)) ⟨hS, hS⟩ ⟨hV, hV, hz⟩ hp]
  refine stepwise_same cs _ 0 s hp.2 (fun k hk => ?_)
  have e : ((Tm.lv l : Tm α d).meaning s).flat = cs.map s.read := by
    simp only [Tm.meaning, flat_map, hp.1, List.map_map]
    rfl
  show ((Tm.lv l : Tm α d).meaning s).flat.getD (0 + k) .ub = _
  rw [e, Nat.zero_add, getD_lt (by simpa using hk), List.getElem_map]

example : (AStmt.assign (.view (.slice (.vec [0, 2, 0])) (.arr1 0)) (.lv (.view (.slice (.vec [0, 2, 0]))
    (.arr1 0)))).run ⟨false, true, false⟩ Sample.store = (.ok (), Sample.store) :=
  C118_self (l := .view (.slice (.vec [0, 2, 0])) (.arr1 0)) _ Sample.store_ok (by decide) (by decide)

/-! ### Leaving out, swapping and rearranging statements -/

/-- What a statement does does not depend on arrays it does not read: run in two states that differ only in
places `P` of such an array, it has the same outcome and the states afterwards differ only in `P`; when it
succeeds, not in places it has written to. -/
theorem run_sim (b : Build) {s s' : Store α} (hs : Store.Ok s) {st : AStmt α} (hS : AStmt.Sound s st)
    (hV : AStmt.Valid s st) (h : SameSizes s s') {a : Dim × Nat} (ha : ¬ st.Reads a) (P : Loc → Prop)
    (hP : ∀ c, P c → c.array = a) (hr : ∀ c, ¬ P c → s.read c = s'.read c) {cs : List Loc}
    (hp : AStmt.Places s cs st) :
    (st.run b s).1 = (st.run b s').1 ∧
    (∀ c, ¬ P c → (st.run b s).2.read c = (st.run b s').2.read c) ∧
    ((st.run b s).1 = .ok () → ∀ c ∈ cs, (st.run b s).2.read c = (st.run b s').2.read c) := by
  rw [C118_in_order b hs hS hV hp,
    C118_in_order b (ok_same h hs) (AStmt.stays_sound h hS) (AStmt.stays_valid h hV) (AStmt.places_same h hp)]
  exact stepwise_sim P st.value cs 0 s s' (AStmt.places_valid hp) h (fun k u u' _ hu hr' =>
    AStmt.value_frame hu ha (fun c hc => hr' c (fun hpc => hc (hP c hpc))) k) hr

theorem run_frame (b : Build) {s : Store α} (hs : Store.Ok s) {st : AStmt α} (hS : AStmt.Sound s st)
    (hV : AStmt.Valid s st) {cs : List Loc} (hp : AStmt.Places s cs st) :
    SameSizes s (st.run b s).2 ∧ ∀ c, c ∉ cs → (st.run b s).2.read c = s.read c := by
  rw [C118_in_order b hs hS hV hp]
  exact stepwise_frame st.value cs 0 s (AStmt.places_valid hp)

/-- C118: a statement `p` whose places are all overwritten by the next statement `q`, which does not read the
array, can be left out: `q` has the same outcome and, when it succeeds, leaves the same state. -/
theorem C118_overwritten (b : Build) {s u : Store α} (hs : Store.Ok s) {p q : AStmt α}
    (pS : AStmt.Sound s p) (pV : AStmt.Valid s p) (qS : AStmt.Sound s q) (qV : AStmt.Valid s q)
    {cs ds : List Loc} (hp : AStmt.Places s cs p) (hq : AStmt.Places s ds q) (hsub : ∀ c ∈ cs, c ∈ ds)
    (hr : ¬ q.Reads p.dest) (hu : p.run b s = (.ok (), u)) :
    (q.run b u).1 = (q.run b s).1 ∧ ((q.run b s).1 = .ok () → q.run b u = q.run b s) := by
  obtain ⟨f1, f2⟩ := run_frame b hs pS pV hp
  rw [hu] at f1 f2
  obtain ⟨e1, e2, e3⟩ := run_sim b hs qS qV f1 hr (fun c => c ∈ cs) (AStmt.places_array hs pS pV hp)
    (fun c hc => (f2 c hc).symm) hq
  refine ⟨e1.symm, fun hok => Prod.ext e1.symm ?_⟩
  refine (store_ext ?_ (fun c => ?_)).symm
  · exact SameSizes.trans (SameSizes.symm (q.keeps b s)) (SameSizes.trans f1 (q.keeps b u))
  · by_cases hc : c ∈ cs
    · exact e3 hok c (hsub c hc)
    · exact e2 c hc

/-- `x(firstN(2)) += 5; x = y` is the same as `x = y`. -/
example : ∀ u, (AStmt.compoundX (fun u v => .ok (u + v)) (.view (.slice (.firstN 2)) (.arr1 0)) 5).run
      ⟨false, true, false⟩ Sample.store = (.ok (), u) →
    (AStmt.assign (.arr1 0) Sample.y).run ⟨false, true, false⟩ u =
      (AStmt.assign (.arr1 0) Sample.y).run ⟨false, true, false⟩ Sample.store := fun u hu =>
  (C118_overwritten (p := .compoundX (fun u v => .ok (u + v)) (.view (.slice (.firstN 2)) (.arr1 0)) 5)
    (q := .assign (.arr1 0) Sample.y) (cs := [.one 0 0, .one 0 1]) (ds := [.one 0 0, .one 0 1, .one 0 2])
    _ Sample.store_ok (show Lv.Sound _ _ by decide) (show Lv.Valid _ _ by decide)
    (show Lv.Sound _ _ ∧ Tm.Sound _ _ by decide) ⟨show Lv.Valid _ _ by decide, show Tm.Valid _ _ by decide, rfl⟩
    ⟨rfl, by decide⟩ ⟨rfl, by decide⟩ (by decide) (show ¬ Tm.Mentions _ _ by decide) hu).2 rfl

/-- Two statements in sequence. -/
theorem runAll_two (b : Build) (p q : AStmt α) (rest : List (AStmt α)) (s s' : Store α) :
    AStmt.runAll b (p :: q :: rest) s = (.ok (), s') ↔
      ∃ u v, p.run b s = (.ok (), u) ∧ q.run b u = (.ok (), v) ∧ AStmt.runAll b rest v = (.ok (), s') := by
  simp only [AStmt.runAll, Op.bind_run]
  rcases hp : p.run b s with ⟨x | k | _, u⟩ <;> simp
  rcases hq : q.run b u with ⟨x | k | _, v⟩ <;> simp

theorem runAll_one (b : Build) (p : AStmt α) (rest : List (AStmt α)) (s s' : Store α) :
    AStmt.runAll b (p :: rest) s = (.ok (), s') ↔
      ∃ u, p.run b s = (.ok (), u) ∧ AStmt.runAll b rest u = (.ok (), s') := by
  simp only [AStmt.runAll, Op.bind_run]
  rcases hp : p.run b s with ⟨x | k | _, u⟩ <;> simp

theorem swap_aux (b : Build) {s : Store α} (hs : Store.Ok s) {p q : AStmt α}
    (pS : AStmt.Sound s p) (pV : AStmt.Valid s p) (qS : AStmt.Sound s q) (qV : AStmt.Valid s q)
    (h : p.Independent q) {u v : Store α} (h1 : p.run b s = (.ok (), u)) (h2 : q.run b u = (.ok (), v)) :
    ∃ w, q.run b s = (.ok (), w) ∧ p.run b w = (.ok (), v) := by
  obtain ⟨hne, hpq, hqp⟩ := h
  obtain ⟨cs, hp, pa⟩ := AStmt.places_exist hs pS pV
  obtain ⟨ds, hq, qa⟩ := AStmt.places_exist hs qS qV
  obtain ⟨f1, f2⟩ := run_frame b hs pS pV hp
  obtain ⟨g1, g2⟩ := run_frame b hs qS qV hq
  rw [h1] at f1 f2
  have us := ok_same f1 hs
  obtain ⟨k1, k2⟩ := run_frame b us (AStmt.stays_sound f1 qS) (AStmt.stays_valid f1 qV) (AStmt.places_same f1 hq)
  rw [h2] at k1 k2
  -- `q` in `s` and in `u`
  obtain ⟨a1, a2, _⟩ := run_sim b hs qS qV f1 hqp (fun c => c.array = p.dest) (fun _ h => h)
    (fun c hc => (f2 c (fun hm => hc (pa c hm))).symm) hq
  rcases hw : q.run b s with ⟨r, w⟩
  rw [hw] at a1 a2 g1 g2
  rw [h2] at a1 a2
  simp only at a1 a2 g1 g2 f1 f2 k1 k2
  subst a1
  have ws := ok_same g1 hs
  obtain ⟨m1, m2⟩ := run_frame b ws (AStmt.stays_sound g1 pS) (AStmt.stays_valid g1 pV) (AStmt.places_same g1 hp)
  -- `p` in `s` and in `w`
  obtain ⟨b1, b2, _⟩ := run_sim b hs pS pV g1 hpq (fun c => c.array = q.dest) (fun _ h => h)
    (fun c hc => (g2 c (fun hm => hc (qa c hm))).symm) hp
  rcases hv : p.run b w with ⟨r, v'⟩
  rw [hv] at b1 b2 m1 m2
  rw [h1] at b1 b2
  simp only at b1 b2 m1 m2
  subst b1
  refine ⟨w, rfl, ?_⟩
  rw [hv]
  refine Prod.ext rfl (store_ext ?_ (fun c => ?_))
  · exact SameSizes.trans (SameSizes.symm (SameSizes.trans g1 m1)) (SameSizes.trans f1 k1)
  · by_cases hc : c.array = q.dest
    · have hnp : c ∉ cs := fun hm => hne ((pa c hm).symm.trans hc)
      rw [m2 c hnp, a2 c (fun e => hne (e.symm.trans hc))]
    · rw [← b2 c hc, k2 c (fun hm => hc (qa c hm))]

/-- C118: independent statements can be swapped: `p; q` succeeds with a state if and only if `q; p` does. -/
theorem C118_swap (b : Build) {s s' : Store α} (hs : Store.Ok s) {p q : AStmt α}
    (pS : AStmt.Sound s p) (pV : AStmt.Valid s p) (qS : AStmt.Sound s q) (qV : AStmt.Valid s q)
    (h : p.Independent q) :
    AStmt.runAll b [p, q] s = (.ok (), s') ↔ AStmt.runAll b [q, p] s = (.ok (), s') := by
  rw [runAll_two, runAll_two]
  constructor
  · rintro ⟨u, v, h1, h2, h3⟩
    obtain ⟨w, w1, w2⟩ := swap_aux b hs pS pV qS qV h h1 h2
    exact ⟨w, v, w1, w2, h3⟩
  · rintro ⟨u, v, h1, h2, h3⟩
    obtain ⟨w, w1, w2⟩ := swap_aux b hs qS qV pS pV ⟨h.1.symm, h.2.2, h.2.1⟩ h1 h2
    exact ⟨w, v, w1, w2, h3⟩

/-- C118: a program of pairwise independent statements gives the same final state in every order. -/
theorem C118_permuted (b : Build) {s s' : Store α} (hs : Store.Ok s) {sts sts' : List (AStmt α)}
    (hS : ∀ st ∈ sts, AStmt.Sound s st) (hV : ∀ st ∈ sts, AStmt.Valid s st)
    (hi : sts.Pairwise AStmt.Independent) (h : sts.Perm sts') :
    AStmt.runAll b sts s = (.ok (), s') ↔ AStmt.runAll b sts' s = (.ok (), s') := by
  have sym : ∀ {p q : AStmt α}, p.Independent q → q.Independent p := fun h => ⟨h.1.symm, h.2.2, h.2.1⟩
  induction h generalizing s with
  | nil => exact Iff.rfl
  | cons st _ ih =>
    rw [runAll_one, runAll_one]
    have key : ∀ u, st.run b s = (.ok (), u) → SameSizes s u := fun u hu => by
      have := st.keeps b s; rwa [hu] at this
    have go := fun u (hu : SameSizes s u) => ih (s := u) (ok_same hu hs)
      (fun x hx => AStmt.stays_sound hu (hS x (by simp [hx])))
      (fun x hx => AStmt.stays_valid hu (hV x (by simp [hx]))) (List.pairwise_cons.1 hi).2
    constructor
    · rintro ⟨u, h1, h2⟩
      exact ⟨u, h1, (go u (key u h1)).1 h2⟩
    · rintro ⟨u, h1, h2⟩
      exact ⟨u, h1, (go u (key u h1)).2 h2⟩
  | swap p q rest =>
    have hqp : q.Independent p := (List.pairwise_cons.1 hi).1 p (by simp)
    have pS := hS p (by simp)
    have pV := hV p (by simp)
    have qS := hS q (by simp)
    have qV := hV q (by simp)
    rw [runAll_two, runAll_two]
    constructor
    · rintro ⟨u, v, h1, h2, h3⟩
      obtain ⟨w, w1, w2⟩ := swap_aux b hs qS qV pS pV hqp h1 h2
      exact ⟨w, v, w1, w2, h3⟩
    · rintro ⟨u, v, h1, h2, h3⟩
      obtain ⟨w, w1, w2⟩ := swap_aux b hs pS pV qS qV (sym hqp) h1 h2
      exact ⟨w, v, w1, w2, h3⟩
  | trans h1 _ ih1 ih2 =>
    exact (ih1 hs hS hV hi).trans (ih2 hs (fun st hm => hS st (h1.mem_iff.2 hm))
      (fun st hm => hV st (h1.mem_iff.2 hm)) ((h1.pairwise_iff (fun h => sym h)).1 hi))

/-- `x *= 2; A(row 0) = y` and `A(row 0) = y; x *= 2`. -/
example (s' : Store Int) : AStmt.runAll ⟨false, true, false⟩
      [.compoundX (fun u v => .ok (u * v)) (.arr1 0) 2, .assign (.view (.row (.at 0)) (.arr2 0)) Sample.y]
      Sample.store = (.ok (), s') ↔
    AStmt.runAll ⟨false, true, false⟩
      [.assign (.view (.row (.at 0)) (.arr2 0)) Sample.y, .compoundX (fun u v => .ok (u * v)) (.arr1 0) 2]
      Sample.store = (.ok (), s') :=
  C118_permuted _ Sample.store_ok
    (List.forall_mem_cons.2 ⟨show Lv.Sound _ _ by decide, List.forall_mem_cons.2
      ⟨show Lv.Sound _ _ ∧ Tm.Sound _ _ by decide, by simp⟩⟩)
    (List.forall_mem_cons.2 ⟨show Lv.Valid _ _ by decide, List.forall_mem_cons.2
      ⟨⟨show Lv.Valid _ _ by decide, show Tm.Valid _ _ by decide, rfl⟩, by simp⟩⟩)
    (List.pairwise_pair.2 ⟨by decide, show ¬ _ = _ by decide, show ¬ Tm.Mentions _ _ by decide⟩)
    (List.Perm.swap _ _ _)

end Spp.Props
