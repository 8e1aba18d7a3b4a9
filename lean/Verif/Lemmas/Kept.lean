import Verif.Spec.Kept
import Verif.Lemmas.Assign

/- Views kept across changes of the sizes of the arrays. -/

namespace Spp
open Spec Props

section
variable {σ β : Type}

/-- The object with the sizes it has in state `s0`, and its elements by number. -/
def Acc.pinLin (a : Acc σ β) (s0 : σ) : Acc σ β :=
  ⟨fun _ => a.rows s0, fun _ => a.cols s0, fun _ => a.size s0, a.un, fun s i j => a.un s (i * a.cols s0 + j)⟩

/-- The object with the sizes it has in state `s0`, and its elements by row and column. -/
def Acc.pinPair (a : Acc σ β) (s0 : σ) : Acc σ β :=
  ⟨fun _ => a.rows s0, fun _ => a.cols s0, fun _ => a.size s0,
   fun s k => a.un2 s (k / a.cols s0) (k % a.cols s0), a.un2⟩

theorem mk_pinLin (b : Build) {d d' : Dim} (v : View d d') (hv : v.byNumber = true) (a : Acc σ β) (s0 : σ) :
    v.mk b a s0 = v.mk b (a.pinLin s0) s0 := by
  cases v <;> first | (simp [View.byNumber] at hv; done) | rfl

theorem mk_pinPair (b : Build) {d d' : Dim} (v : View d d') (hv : v.byNumber = false) (a : Acc σ β) (s0 : σ) :
    v.mk b a s0 = v.mk b (a.pinPair s0) s0 := by
  cases v <;> first | (simp [View.byNumber] at hv; done) | rfl

end

variable {α : Type}

theorem kept_base1 (s0 s1 : Store α) (n : Bool) (id : Nat) :
    Den .one ((Lv.acc1 α id).pinLin s0) s1 ((Lv.arr1 id).seen s0 s1 n) := by
  refine ⟨by simp [Lv.acc1, Acc.pinLin, Acc.oneD, Lv.seen, len], by simp [Lv.acc1, Acc.pinLin, Acc.oneD, Lv.seen, len], ?_⟩
  intro i hi
  have hi' : i < (s0.a1 id).length := by simpa [Lv.seen] using hi
  show (if 0 ≤ (i : Int) ∧ (i : Int) < len (s1.a1 id) then Res.ok (Loc.one id (i : Int).toNat) else .ub) = _
  simp only [Lv.seen]
  rw [getD_range_map hi']
  simp [place1, len]

theorem pin_size {s : Store α} (hs : Store.Ok s) (id : Nat) :
    (((s.a2 id).rows.toNat : Nat) : Int) = (s.a2 id).rows ∧ (((s.a2 id).cols.toNat : Nat) : Int) = (s.a2 id).cols ∧
    (s.a2 id).data.length = (s.a2 id).rows.toNat * (s.a2 id).cols.toNat := by
  obtain ⟨sh, hl⟩ := hs.2 id
  have hr := sh.rows
  have hc := sh.cols
  have hz := sh.size
  have e1 : (((s.a2 id).rows.toNat : Nat) : Int) = (s.a2 id).rows := by omega
  have e2 : (((s.a2 id).cols.toNat : Nat) : Int) = (s.a2 id).cols := by omega
  refine ⟨e1, e2, ?_⟩
  rw [← e1, ← e2] at hz
  rw [← Int.natCast_mul] at hz
  omega

theorem kept_base2 {s0 : Store α} (hs : Store.Ok s0) (s1 : Store α) (id : Nat) :
    Den .two ((Lv.acc2 α id).pinLin s0) s1 ((Lv.arr2 id).seen s0 s1 true) := by
  obtain ⟨e1, e2, hz⟩ := pin_size hs id
  refine ⟨e1.symm, e2.symm, ?_, ?_⟩
  · show Res.ok ((s0.a2 id).data.length : Int) = _
    rw [hz]; rfl
  · intro i j hi hj
    have key : (Lv.acc2 α id).un s1 ((i * (s0.a2 id).cols.toNat + j : Nat) : Int)
        = Mat.el ((Lv.arr2 id).seen s0 s1 true) i j := by
      simp only [Lv.acc2, Lv.seen, place2, len]
      simp only [Int.ofNat_nonneg, true_and, Int.ofNat_lt, Int.toNat_natCast, if_true]
    refine ⟨?_, key⟩
    show (Lv.acc2 α id).un s1 ((i : Int) * (s0.a2 id).cols + j) = _
    rw [← key]
    congr 1
    rw [Int.natCast_add, Int.natCast_mul, e2]

theorem kept_pair2 {s0 : Store α} (hs : Store.Ok s0) {s1 : Store α} (h1 : Store.Ok s1) (id : Nat) :
    Den .two ((Lv.acc2 α id).pinPair s0) s1 ((Lv.arr2 id).seen s0 s1 false) := by
  obtain ⟨e1, e2, hz⟩ := pin_size hs id
  obtain ⟨f1, f2, hz1⟩ := pin_size h1 id
  have hl := (h1.2 id).2
  have key : ∀ i j : Nat, (Lv.acc2 α id).un2 s1 i j = Mat.el ((Lv.arr2 id).seen s0 s1 false) i j := by
    intro i j
    show (Elem2.off (s1.a2 id).cols i j >>= fun o => if 0 ≤ o ∧ o < len (s1.a2 id).data then
      Res.ok (Loc.two id o.toNat) else .ub) = if i * (s1.a2 id).cols.toNat + j < (s1.a2 id).data.length then _ else _
    have hm : (i : Int) * (s1.a2 id).cols = ((i * (s1.a2 id).cols.toNat : Nat) : Int) := by
      rw [Int.natCast_mul, f2]
    by_cases hlt : i * (s1.a2 id).cols.toNat + j < (s1.a2 id).data.length
    · have ho : Elem2.off (s1.a2 id).cols i j = .ok ((i * (s1.a2 id).cols.toNat + j : Nat) : Int) := by
        unfold Elem2.off
        rw [imul_ok (by rw [hm]; unfold IsIndex; omega), Res.ok_bind, hm, iadd_ok (by unfold IsIndex; omega)]
        rfl
      rw [if_pos hlt, ho, Res.ok_bind, if_pos (by unfold len; omega), Int.toNat_natCast]
      rfl
    · rw [if_neg hlt]
      cases ho : Elem2.off (s1.a2 id).cols i j with
      | ok o =>
        unfold Elem2.off at ho
        rw [Res.bind_eq_ok] at ho
        obtain ⟨r, hr, ho⟩ := ho
        have := imul_eq_ok hr
        have := iadd_eq_ok ho
        rw [Res.ok_bind, if_neg (by unfold len; omega)]
      | ub => rfl
      | trap k =>
        exfalso
        unfold Elem2.off at ho
        rcases imul_cases (i : Int) (s1.a2 id).cols with ⟨_, e⟩ | ⟨_, e⟩
        · rw [e, Res.ok_bind] at ho
          rcases iadd_cases ((i : Int) * (s1.a2 id).cols) j with ⟨_, e⟩ | ⟨_, e⟩ <;> rw [e] at ho <;> cases ho
        · rw [e] at ho; cases ho
  refine ⟨e1.symm, e2.symm, ?_, ?_⟩
  · show Res.ok ((s0.a2 id).data.length : Int) = _
    rw [hz]; rfl
  · intro i j hi hj
    refine ⟨key i j, ?_⟩
    show (Lv.acc2 α id).un2 s1 (((i * (s0.a2 id).cols.toNat + j : Nat) : Int) / (s0.a2 id).cols)
      (((i * (s0.a2 id).cols.toNat + j : Nat) : Int) % (s0.a2 id).cols) = _
    have hj' : j < (s0.a2 id).cols.toNat := hj
    have q1 : ((i * (s0.a2 id).cols.toNat + j : Nat) : Int) / (s0.a2 id).cols = (i : Int) := by
      rw [← e2, Int.toNat_natCast, ← Int.natCast_ediv, Nat.mul_comm, Nat.mul_add_div (by omega), Nat.div_eq_of_lt hj',
        Nat.add_zero]
    have q2 : ((i * (s0.a2 id).cols.toNat + j : Nat) : Int) % (s0.a2 id).cols = (j : Int) := by
      rw [← e2, Int.toNat_natCast, ← Int.natCast_emod, Nat.mul_comm, Nat.mul_add_mod, Nat.mod_eq_of_lt hj']
    rw [q1, q2]
    exact key i j

theorem seen_dims {s0 : Store α} (s1 : Store α) {d : Dim} (l : Lv d) :
    ∀ n, (l.seen s0 s1 n).dims = (l.cells s0).dims := by
  induction l with
  | arr1 id => intro n; simp [Lv.seen, Lv.cells, Sem.dims]
  | arr2 id => intro n; rfl
  | view v l ih => intro n; exact View.sel_dims v (ih _)

theorem kept_main (b : Build) {s0 : Store α} (hs : Store.Ok s0) {d : Dim} (l : Lv d) :
    l.isView = true → l.Sound s0 → l.Valid s0 →
      ∃ a, l.build b s0 = .ok a ∧ ∀ s1, Store.Ok s1 → ∀ n, Den d a s1 (l.seen s0 s1 n) := by
  induction l with
  | arr1 id => intro h; cases h
  | arr2 id => intro h; cases h
  | view v l ih =>
    intro _ hS hV
    obtain ⟨hsm, a, h1, h2⟩ := Lv.main b hs l hS.1 hV.1
    have h20 := h2 s0 (SameSizes.refl s0)
    have hdim := fun s1 n => seen_dims (s0 := s0) s1 l n
    cases l with
    | arr1 id =>
      cases h1
      have hk := kept_base1 s0 s0 true id
      have hv : v.byNumber = true := by cases v <;> rfl
      have hd0 := hdim s0 true
      have hsm' := small_congr hd0.symm hsm
      have hS' := small_congr (View.sel_dims v hd0).symm hS.2.2
      obtain ⟨a', h3, h4⟩ := View.mk_ok b v hk hsm' hS.2.1 (by rw [hd0]; exact hV.2) hS'
      refine ⟨a', ?_, fun s1 _ n => h4 s1 _ ((hdim s1 _).trans hd0.symm) (kept_base1 s0 s1 _ id)⟩
      show (Res.ok _ >>= fun a => v.mk b a s0) = _
      rw [Res.ok_bind, mk_pinLin b v hv, h3]
    | arr2 id =>
      cases h1
      cases hv : v.byNumber with
      | true =>
        have hk := kept_base2 hs s0 id
        have hd0 := hdim s0 true
        have hsm' := small_congr hd0.symm hsm
        have hS' := small_congr (View.sel_dims v hd0).symm hS.2.2
        obtain ⟨a', h3, h4⟩ := View.mk_ok b v hk hsm' hS.2.1 (by rw [hd0]; exact hV.2) hS'
        refine ⟨a', ?_, fun s1 _ n => ?_⟩
        · show (Res.ok _ >>= fun a => v.mk b a s0) = _
          rw [Res.ok_bind, mk_pinLin b v hv, h3]
        · have := h4 s1 _ ((hdim s1 _).trans hd0.symm) (kept_base2 hs s1 id)
          rw [← hv] at this; exact this
      | false =>
        have hk := kept_pair2 hs hs id
        have hd0 := hdim s0 false
        have hsm' := small_congr hd0.symm hsm
        have hS' := small_congr (View.sel_dims v hd0).symm hS.2.2
        obtain ⟨a', h3, h4⟩ := View.mk_ok b v hk hsm' hS.2.1 (by rw [hd0]; exact hV.2) hS'
        refine ⟨a', ?_, fun s1 k1 n => ?_⟩
        · show (Res.ok _ >>= fun a => v.mk b a s0) = _
          rw [Res.ok_bind, mk_pinPair b v hv, h3]
        · have := h4 s1 _ ((hdim s1 _).trans hd0.symm) (kept_pair2 hs k1 id)
          rw [← hv] at this; exact this
    | view w l =>
      obtain ⟨a0, g1, g2⟩ := ih rfl hS.1 hV.1
      rw [g1] at h1; cases h1
      obtain ⟨a', h3, h4⟩ := View.mk_ok b v h20 hsm hS.2.1 hV.2 hS.2.2
      refine ⟨a', ?_, fun s1 k1 n => h4 s1 _ (hdim s1 _) (g2 s1 k1 _)⟩
      simp only [Lv.build] at g1 ⊢
      rw [g1, Res.ok_bind, h3]

theorem seen_same {s0 s1 s2 : Store α} (h : SameSizes s1 s2) {d : Dim} (l : Lv d) :
    ∀ n, l.seen s0 s2 n = l.seen s0 s1 n := by
  induction l with
  | arr1 id =>
    intro n
    simp only [Lv.seen]
    refine List.map_congr_left fun k _ => ?_
    simp only [place1, h.1 id]
  | arr2 id =>
    intro n
    have e : ∀ k, place2 s2 id k = place2 s1 id k := fun k => by simp only [place2, (h.2 id).2.2]
    cases n <;> simp only [Lv.seen, e, (h.2 id).2.1, if_true, Bool.false_eq_true, if_false] <;> rfl
  | view v l ih => intro n; simp only [Lv.seen, ih]

theorem kept_all {s0 : Store α} (hs : Store.Ok s0) (s1 : Store α) {d : Dim} (l : Lv d) :
    l.Sound s0 → l.Valid s0 → ∀ n,
      Sem.All (fun r => (∃ c : Loc, r = .ok c ∧ c.Valid s1) ∨ r = .ub) (l.seen s0 s1 n) := by
  induction l with
  | arr1 id =>
    intro _ _ n r hr
    change r ∈ (List.range (s0.a1 id).length).map (place1 s1 id) at hr
    rw [List.mem_map] at hr
    obtain ⟨k, hk, rfl⟩ := hr
    unfold place1
    split
    · exact .inl ⟨_, rfl, by assumption⟩
    · exact .inr rfl
  | arr2 id =>
    intro _ _ n i j hi hj
    show _ ∨ place2 s1 id _ = .ub
    change (∃ c : Loc, place2 s1 id _ = .ok c ∧ _) ∨ _
    generalize i * (if n then s0.a2 id else s1.a2 id).cols.toNat + j = k
    unfold place2
    split
    · exact .inl ⟨_, rfl, by assumption⟩
    · exact .inr rfl
  | view v l ih =>
    intro hS hV n
    obtain ⟨hsm, _⟩ := l.main ⟨false, true, false⟩ hs hS.1 hV.1
    have hd := seen_dims (s0 := s0) s1 l v.byNumber
    exact v.sel_all hS.2.1 (by rw [hd]; exact hV.2) (small_congr hd.symm hsm) (ih hS.1 hV.1 _)

/-- Filling an object that refers to `cells` (some of which may not exist) while the sizes stay the same. -/
theorem fill_kept {s1 : Store α} {d : Dim} {dst : Acc (Store α) Loc} {x : Sem Loc d}
    (hd : ∀ s, SameSizes s1 s → Den d dst s x)
    (ha : ∀ r ∈ x.flat, (∃ c : Loc, r = .ok c ∧ c.Valid s1) ∨ r = .ub) (v : α) :
    (∀ cs : List Loc, x.flat = cs.map Res.ok → Writes cs (cs.map fun _ => Res.ok v) s1 (fillTo dst v s1)) ∧
    (Res.ub ∈ x.flat → (fillTo dst v s1).1 = .ub) := by
  have hsz : dst.size s1 = .ok (x.flat.length : Int) := (linDen_of (hd s1 (SameSizes.refl s1))).1
  have hun : ∀ {s}, SameSizes s1 s → ∀ {k : Nat} (hk : k < x.flat.length), dst.un s k = x.flat[k] :=
    fun h _ hk => den_un (hd _ h) hk
  constructor
  · intro cs hcs
    have hlen : cs.length = x.flat.length := by rw [hcs, List.length_map]
    simp only [fillTo, Op.get_bind, hsz, Op.lift_ok_bind, Int.toNat_natCast]
    refine writes_loop ?_ (by simp) (by simp [hlen]) ?_
    · intro c hc
      rcases ha (.ok c) (by rw [hcs]; exact List.mem_map.2 ⟨c, hc, rfl⟩) with ⟨c', e, hv⟩ | e
      · cases e; exact hv
      · cases e
    · intro xs t h he _
      rw [List.length_map] at h
      have hu : dst.un t (xs.length : Int) = .ok cs[xs.length] := by
        rw [hun he.1 (by omega)]; simp [hcs]
      simp only [List.getElem_map, Op.get_bind, hu, Op.lift_ok_bind]
  · intro hub
    let l : List (Res α) := x.flat.map (fun r => r >>= fun _ => .ok v)
    have hl : l.length = x.flat.length := by simp [l]
    have key := forN_eval (body := fun i => do
        let s : Store α ← Op.get
        let c ← Op.lift (dst.un s (i : Nat))
        put c v) (s0 := s1) l (fun _ t => SameSizes s1 t) (SameSizes.refl s1) (by
      intro xs t hlt hI _
      have hk : xs.length < x.flat.length := by omega
      have e : l[xs.length] = (x.flat[xs.length] >>= fun _ => .ok v) := by simp [l]
      rcases ha _ (List.getElem_mem hk) with ⟨c, hc, hv⟩ | hc
      · rw [e, hc]
        simp only [Res.ok_bind, Op.get_bind, hun hI hk, hc, Op.lift_ok_bind]
        obtain ⟨t', h1, h2⟩ := Effect.put (Effect.refl t) (hv.same hI) v
        exact ⟨t', h1, SameSizes.trans hI h2.1⟩
      · rw [e, hc]
        simp only [Op.get_bind, hun hI hk, hc]
        rfl)
    simp only [fillTo, Op.get_bind, hsz, Op.lift_ok_bind, Int.toNat_natCast]
    rw [← hl]
    cases he : evalAll l with
    | ok xs =>
      exfalso
      have := evalAll_eq_ok.1 he
      have hm : (Res.ub : Res α) ∈ l := List.mem_map.2 ⟨_, hub, rfl⟩
      rw [this, List.mem_map] at hm
      obtain ⟨_, _, e⟩ := hm
      cases e
    | trap k =>
      rw [he] at key
      obtain ⟨xs, t, hlt, _, h2, _⟩ := key
      exfalso
      have hm := List.getElem_mem (l := l) hlt
      rw [h2] at hm
      obtain ⟨r, hr, e⟩ := List.mem_map.1 hm
      rcases ha r hr with ⟨c, rfl, _⟩ | rfl <;> cases e
    | ub =>
      rw [he] at key
      obtain ⟨xs, t, hlt, _, _, h3, _⟩ := key
      rw [h3]

end Spp
