import Verif.Spec.Algorithm
import Verif.Lemmas.Iter
import Verif.Props.Iter
import Verif.Props.Select

/-
Runs of algorithms on iterators follow the runs on lists.
-/

namespace Spp

open Spec

variable {σ ρ α β : Type}

/-- The iterators behave like positions in the list `cs`. -/
structure Follows (w : Walk σ ρ) (lo hi : Int) (I : σ → Prop) (cs : List ρ) : Prop where
  inc : ∀ p, lo ≤ p + 1 ∧ p + 1 ≤ hi → w.inc p = .ok (p + 1)
  dec : ∀ p, lo ≤ p - 1 ∧ p - 1 ≤ hi → w.dec p = .ok (p - 1)
  plus : ∀ p n, lo ≤ p + n ∧ p + n ≤ hi → w.plus p n = .ok (p + n)
  minus : ∀ p n, lo ≤ p - n ∧ p - n ≤ hi → w.minus p n = .ok (p - n)
  diff : ∀ p q, IsIndex (p - q) → w.diff p q = .ok (p - q)
  cmp : ∀ c p q, w.cmp c p q = .ok (c.holds p q)
  deref : ∀ s, I s → ∀ (p : Int) (h : 0 ≤ p ∧ p < cs.length), w.deref p s = .ok (cs[p.toNat]'(by omega))
  get : ∀ s, I s → ∀ (p n : Int) (h : 0 ≤ p + n ∧ p + n < cs.length), lo ≤ p + n ∧ p + n ≤ hi →
    w.get p n s = .ok (cs[(p + n).toNat]'(by omega))

/-- Accesses outside trap. -/
structure Guards (w : Walk σ ρ) (lo hi : Int) (I : σ → Prop) (n : Nat) (e : Kind) : Prop where
  deref : ∀ s, I s → ∀ p : Int, ¬ (0 ≤ p ∧ p < n) → w.deref p s = .trap e
  get : ∀ s, I s → ∀ p k : Int, ¬ (0 ≤ p + k ∧ p + k < n) → lo ≤ p + k ∧ p + k ≤ hi → w.get p k s = .trap e

/-- Leaving the range of positions is undefined. -/
structure Overflows (w : Walk σ ρ) (lo hi : Int) : Prop where
  inc : ∀ p, ¬ (lo ≤ p + 1 ∧ p + 1 ≤ hi) → w.inc p = .ub
  dec : ∀ p, ¬ (lo ≤ p - 1 ∧ p - 1 ≤ hi) → w.dec p = .ub
  plus : ∀ p n, ¬ (lo ≤ p + n ∧ p + n ≤ hi) → w.plus p n = .ub
  minus : ∀ p n, ¬ (lo ≤ p - n ∧ p - n ≤ hi) → w.minus p n = .ub
  diff : ∀ p q, ¬ IsIndex (p - q) → w.diff p q = .ub

/-- The outcome `out` of a run is that of the run on a list. -/
def Ends (G O : Prop) (e : Kind) (cs : List Loc) (t : Store α) (r : Ran α β) (out : Res β × Store α) : Prop :=
  match r with
  | .done x l => out.1 = .ok x ∧ Leaves cs t out.2 l
  | .outside l => G → out.1 = .trap e ∧ Leaves cs t out.2 l
  | .overflow => O → out.1 = .ub ∧ ∃ l, Leaves cs t out.2 l

theorem Spec.Leaves.refl {cs : List Loc} {t : Store α} {l : List α} (h : cs.map t.read = l.map Res.ok) :
    Leaves cs t t l := ⟨SameSizes.refl t, h, fun _ _ => rfl⟩

theorem Spec.Leaves.trans {cs : List Loc} {t t' t'' : Store α} {l l' : List α} (h : Leaves cs t t' l)
    (h' : Leaves cs t' t'' l') : Leaves cs t t'' l' :=
  ⟨SameSizes.trans h.1 h'.1, h'.2.1, fun c hc => (h'.2.2 c hc).trans (h.2.2 c hc)⟩

theorem Ends.after {G O : Prop} {e : Kind} {cs : List Loc} {t t' : Store α} {l : List α} {r : Ran α β}
    {out : Res β × Store α} (h : Leaves cs t t' l) (h' : Ends G O e cs t' r out) : Ends G O e cs t r out := by
  cases r with
  | done x l' => exact ⟨h'.1, h.trans h'.2⟩
  | outside l' => exact fun g => ⟨(h' g).1, h.trans (h' g).2⟩
  | overflow => exact fun o => ⟨(h' o).1, (h' o).2.imp fun _ h'' => h.trans h''⟩

/-- One assignment. -/
theorem put_leaves {cs : List Loc} {t : Store α} {l : List α} (hv : ∀ c ∈ cs, c.Valid t) (hn : cs.Nodup)
    (hx : cs.map t.read = l.map Res.ok) {i : Nat} (hi : i < cs.length) (x : α) :
    ∃ t', put cs[i] x t = (.ok (), t') ∧ Leaves cs t t' (l.set i x) := by
  obtain ⟨t', h1, h2, h3⟩ := write_ok (hv _ (List.getElem_mem hi)) x
  refine ⟨t', by simp only [put, Op.get_bind, h1, Op.lift_ok_bind, Op.set_run], h2, ?_, fun c hc => ?_⟩
  · have hlen : cs.length = l.length := by simpa using congrArg List.length hx
    apply List.ext_getElem
    · simp [hlen]
    · intro j h4 h5
      simp only [List.length_map, List.length_set] at h4 h5
      have hj := congrArg (fun m => m[j]?) hx
      simp only [List.getElem?_map, List.getElem?_eq_getElem h4, List.getElem?_eq_getElem h5, Option.map_some,
        Option.some.injEq] at hj
      simp only [List.getElem_map, List.getElem_set, h3]
      by_cases hij : i = j
      · subst hij; simp
      · rw [if_neg hij, if_neg (fun h => hij ((List.Nodup.getElem_inj_iff hn).1 h)), hj]
  · rw [h3, if_neg (fun h : cs[i] = c => hc (h ▸ List.getElem_mem hi))]

theorem run_ends {w : Walk (Store α) Loc} {lo hi : Int} {t0 : Store α} {cs : List Loc}
    (hw : Follows w lo hi (SameSizes t0) cs) {G O : Prop} {e : Kind}
    (hg : G → Guards w lo hi (SameSizes t0) cs.length e) (ho : O → Overflows w lo hi)
    (hgo : O → ∀ s, SameSizes t0 s → ∀ p n, ¬ (lo ≤ p + n ∧ p + n ≤ hi) → w.get p n s = .ub)
    (hv : ∀ c ∈ cs, c.Valid t0) (hn : cs.Nodup) (alg : Alg α β) :
    ∀ (t : Store α) (xs : List α), SameSizes t0 t → cs.map t.read = xs.map Res.ok →
      Ends G O e cs t (onList lo hi alg xs) (alg.run w t) := by
  have hover : ∀ (t : Store α) (xs : List α) (x : Res Int) (f : Int → Op (Store α) β),
      cs.map t.read = xs.map Res.ok → (O → x = .ub) →
      Ends G O e cs t (.overflow : Ran α β) ((do let q ← Op.lift x; f q : Op (Store α) β) t) := by
    intro t xs x f hx h o
    rw [h o]
    exact ⟨rfl, xs, Leaves.refl hx⟩
  have read : ∀ (t : Store α) (xs : List α), cs.map t.read = xs.map Res.ok → ∀ (i : Nat) (h1 : i < cs.length)
      (h2 : i < xs.length), t.read cs[i] = .ok xs[i] := by
    intro t xs hx i h1 h2
    have hj := congrArg (fun m => m[i]?) hx
    simpa only [List.getElem?_map, List.getElem?_eq_getElem h1, List.getElem?_eq_getElem h2, Option.map_some,
      Option.some.injEq] using hj
  induction alg with
  | ret x => intro t xs ht hx; exact ⟨rfl, Leaves.refl hx⟩
  | inc p k ih =>
    intro t xs ht hx
    rw [onList]; split
    · next h => simp only [Alg.run, hw.inc p h, Op.lift_ok_bind]; exact ih _ t xs ht hx
    · next h => exact hover t xs _ _ hx fun o => (ho o).inc p h
  | dec p k ih =>
    intro t xs ht hx
    rw [onList]; split
    · next h => simp only [Alg.run, hw.dec p h, Op.lift_ok_bind]; exact ih _ t xs ht hx
    · next h => exact hover t xs _ _ hx fun o => (ho o).dec p h
  | plus p n k ih =>
    intro t xs ht hx
    rw [onList]; split
    · next h => simp only [Alg.run, hw.plus p n h, Op.lift_ok_bind]; exact ih _ t xs ht hx
    · next h => exact hover t xs _ _ hx fun o => (ho o).plus p n h
  | minus p n k ih =>
    intro t xs ht hx
    rw [onList]; split
    · next h => simp only [Alg.run, hw.minus p n h, Op.lift_ok_bind]; exact ih _ t xs ht hx
    · next h => exact hover t xs _ _ hx fun o => (ho o).minus p n h
  | diff p q k ih =>
    intro t xs ht hx
    rw [onList]; split
    · next h => simp only [Alg.run, hw.diff p q h, Op.lift_ok_bind]; exact ih _ t xs ht hx
    · next h => exact hover t xs _ _ hx fun o => (ho o).diff p q h
  | cmp c p q k ih =>
    intro t xs ht hx
    rw [onList]
    simp only [Alg.run, hw.cmp, Op.lift_ok_bind]
    exact ih _ t xs ht hx
  | read p k ih =>
    intro t xs ht hx
    have hlen : cs.length = xs.length := by simpa using congrArg List.length hx
    rw [onList]; split
    · next h =>
      simp only [Alg.run, Op.get_bind, hw.deref t ht p (by omega), Op.lift_ok_bind,
        read t xs hx p.toNat (by omega) (by omega)]
      exact ih _ t xs ht hx
    · next h =>
      intro g
      simp only [Alg.run, Op.get_bind, (hg g).deref t ht p (by omega)]
      exact ⟨rfl, Leaves.refl hx⟩
  | readAt p n k ih =>
    intro t xs ht hx
    have hlen : cs.length = xs.length := by simpa using congrArg List.length hx
    rw [onList]; split
    · next hr =>
      split
      · next h =>
        simp only [Alg.run, Op.get_bind, hw.get t ht p n (by omega) hr, Op.lift_ok_bind,
          read t xs hx (p + n).toNat (by omega) (by omega)]
        exact ih _ t xs ht hx
      · next h =>
        intro g
        simp only [Alg.run, Op.get_bind, (hg g).get t ht p n (by omega) hr]
        exact ⟨rfl, Leaves.refl hx⟩
    · next h =>
      intro o
      simp only [Alg.run, Op.get_bind, hgo o t ht p n h]
      exact ⟨rfl, xs, Leaves.refl hx⟩
  | write p x k ih =>
    intro t xs ht hx
    have hlen : cs.length = xs.length := by simpa using congrArg List.length hx
    rw [onList]; split
    · next h =>
      obtain ⟨t', h1, h2⟩ := put_leaves (fun c hc => (hv c hc).same ht) hn hx (i := p.toNat) (by omega) x
      simp only [Alg.run, Op.get_bind, hw.deref t ht p (by omega), Op.lift_ok_bind]
      rw [Op.bind_run, h1]
      exact Ends.after h2 (ih t' _ (SameSizes.trans ht h2.1) h2.2.1)
    · next h =>
      intro g
      simp only [Alg.run, Op.get_bind, (hg g).deref t ht p (by omega)]
      exact ⟨rfl, Leaves.refl hx⟩
  | writeAt p n x k ih =>
    intro t xs ht hx
    have hlen : cs.length = xs.length := by simpa using congrArg List.length hx
    rw [onList]; split
    · next hr =>
      split
      · next h =>
        obtain ⟨t', h1, h2⟩ := put_leaves (fun c hc => (hv c hc).same ht) hn hx (i := (p + n).toNat) (by omega) x
        simp only [Alg.run, Op.get_bind, hw.get t ht p n (by omega) hr, Op.lift_ok_bind]
        rw [Op.bind_run, h1]
        exact Ends.after h2 (ih t' _ (SameSizes.trans ht h2.1) h2.2.1)
      · next h =>
        intro g
        simp only [Alg.run, Op.get_bind, (hg g).get t ht p n (by omega) hr]
        exact ⟨rfl, Leaves.refl hx⟩
    · next h =>
      intro o
      simp only [Alg.run, Op.get_bind, hgo o t ht p n h]
      exact ⟨rfl, xs, Leaves.refl hx⟩

/-- The run of an algorithm that only reads. -/
theorem look_ends {w : Walk σ α} {lo hi : Int} {s : σ} {xs : List α} (hw : Follows w lo hi (· = s) xs) {e : Kind}
    (alg : Alg α β) (hr : ReadOnly alg) :
    (∀ x ys, onList lo hi alg xs = .done x ys → ys = xs ∧ alg.look w s = .ok x) ∧
    (Guards w lo hi (· = s) xs.length e → ∀ ys, onList lo hi alg xs = .outside ys → ys = xs ∧ alg.look w s = .trap e) ∧
    (Overflows w lo hi → (∀ p n, ¬ (lo ≤ p + n ∧ p + n ≤ hi) → w.get p n s = .ub) → onList lo hi alg xs = .overflow →
      alg.look w s = .ub) := by
  induction alg with
  | ret x =>
    refine ⟨fun y ys h => ?_, fun _ ys h => ?_, fun _ _ h => ?_⟩ <;> rw [onList] at h <;> cases h
    exact ⟨rfl, rfl⟩
  | inc p k ih =>
    rw [onList]; split
    · next h => simp only [Alg.look, hw.inc p h, Res.ok_bind]; exact ih _ (hr _)
    · next h => exact ⟨(fun _ _ h => by cases h), (fun _ _ h => by cases h), (fun o _ _ => by
        simp only [Alg.look, o.inc p h]; rfl)⟩
  | dec p k ih =>
    rw [onList]; split
    · next h => simp only [Alg.look, hw.dec p h, Res.ok_bind]; exact ih _ (hr _)
    · next h => exact ⟨(fun _ _ h => by cases h), (fun _ _ h => by cases h), (fun o _ _ => by
        simp only [Alg.look, o.dec p h]; rfl)⟩
  | plus p n k ih =>
    rw [onList]; split
    · next h => simp only [Alg.look, hw.plus p n h, Res.ok_bind]; exact ih _ (hr _)
    · next h => exact ⟨(fun _ _ h => by cases h), (fun _ _ h => by cases h), (fun o _ _ => by
        simp only [Alg.look, o.plus p n h]; rfl)⟩
  | minus p n k ih =>
    rw [onList]; split
    · next h => simp only [Alg.look, hw.minus p n h, Res.ok_bind]; exact ih _ (hr _)
    · next h => exact ⟨(fun _ _ h => by cases h), (fun _ _ h => by cases h), (fun o _ _ => by
        simp only [Alg.look, o.minus p n h]; rfl)⟩
  | diff p q k ih =>
    rw [onList]; split
    · next h => simp only [Alg.look, hw.diff p q h, Res.ok_bind]; exact ih _ (hr _)
    · next h => exact ⟨(fun _ _ h => by cases h), (fun _ _ h => by cases h), (fun o _ _ => by
        simp only [Alg.look, o.diff p q h]; rfl)⟩
  | cmp c p q k ih =>
    rw [onList]
    simp only [Alg.look, hw.cmp, Res.ok_bind]
    exact ih _ (hr _)
  | read p k ih =>
    rw [onList]; split
    · next h => simp only [Alg.look, hw.deref s rfl p h, Res.ok_bind]; exact ih _ (hr _)
    · next h => exact ⟨(fun _ _ h => by cases h), (fun g _ h' => by
        cases h'; refine ⟨rfl, ?_⟩; simp only [Alg.look, g.deref s rfl p h]; rfl), (fun _ _ h => by cases h)⟩
  | readAt p n k ih =>
    rw [onList]; split
    · next hb =>
      split
      · next h => simp only [Alg.look, hw.get s rfl p n h hb, Res.ok_bind]; exact ih _ (hr _)
      · next h => exact ⟨(fun _ _ h => by cases h), (fun g _ h' => by
          cases h'; refine ⟨rfl, ?_⟩; simp only [Alg.look, g.get s rfl p n h hb]; rfl), (fun _ _ h => by cases h)⟩
    · next h => exact ⟨(fun _ _ h => by cases h), (fun _ _ h => by cases h), (fun _ o _ => by
        simp only [Alg.look, o p n h]; rfl)⟩
  | write p x k ih => exact hr.elim
  | writeAt p n x k ih => exact hr.elim

/-! ### The iterators of the library -/

section

variable {b : Build} {mem : Nat → Flag σ ρ} {a : Nat} {A : Acc σ ρ} {I : σ → Prop} {cs : List ρ}

theorem forward_follows (ha : mem a = .index A) (hz : ∀ s, I s → A.size s = .ok (cs.length : Int))
    (hu : ∀ s, I s → ∀ (i : Nat) (h : i < cs.length), A.un s i = .ok cs[i]) :
    Follows (Walk.forward b mem a) (-(2 ^ 63)) (2 ^ 63 - 1) I cs := by
  have hz' : ∀ s, I s → (mem a).size s = .ok (cs.length : Int) := by rw [ha]; exact hz
  have hg : ∀ s, I s → ∀ (p : Int) (h : 0 ≤ p ∧ p < cs.length), (mem a).get s p = .ok (cs[p.toNat]'(by omega)) := by
    intro s hs p h
    have := hu s hs p.toNat (by omega)
    rw [ha]
    rwa [Int.toNat_of_nonneg h.1] at this
  refine ⟨fun p h => ?_, fun p h => ?_, fun p n h => ?_, fun p n h => ?_, fun p q h => ?_, fun c p q => ?_,
    fun s hs p h => ?_, fun s hs p n h _ => ?_⟩
  · simp only [Walk.forward, It.mk', It.inc_ok b a (p := p) (by unfold IsIndex; omega)]; rfl
  · simp only [Walk.forward, It.mk', It.dec_ok b a (p := p) (by unfold IsIndex; omega)]; rfl
  · simp only [Walk.forward, It.mk', It.plus_ok b a (p := p) (n := n) (by unfold IsIndex; omega)]; rfl
  · simp only [Walk.forward, It.mk', It.minus_ok b a (p := p) (n := n) (by unfold IsIndex; omega)]; rfl
  · exact It.diff_ok b a h
  · cases c <;> simp only [Walk.forward, ItCmp.forward, It.eq, It.ne, It.lt, It.le, It.gt, It.ge, It.mk',
      It.compare_ok, ItCmp.holds]
  · exact (It.deref_ok b (hz' s hs) h).trans (hg s hs p h)
  · exact (It.at_ok b (by unfold IsIndex; omega) (hz' s hs) h).trans (hg s hs _ h)

theorem forward_guards (hb : b.Checked) (ha : mem a = .index A) {n : Nat} (hz : ∀ s, I s → A.size s = .ok (n : Int)) :
    Guards (Walk.forward b mem a) (-(2 ^ 63)) (2 ^ 63 - 1) I n b.kind := by
  have hz' : ∀ s, I s → (mem a).size s = .ok (n : Int) := by rw [ha]; exact hz
  exact ⟨fun s hs p h => It.deref_out hb (hz' s hs) h,
    fun s hs p k h h' => It.at_out hb (by unfold IsIndex; omega) (hz' s hs) h⟩

theorem iadd_ub {x y : Int} (h : ¬ IsIndex (x + y)) : iadd x y = .ub := by
  rcases iadd_cases x y with ⟨h', _⟩ | ⟨_, h'⟩
  · exact absurd h' h
  · exact h'

theorem isub_ub {x y : Int} (h : ¬ IsIndex (x - y)) : isub x y = .ub := by
  rcases isub_cases x y with ⟨h', _⟩ | ⟨_, h'⟩
  · exact absurd h' h
  · exact h'

theorem forward_overflows : Overflows (Walk.forward b mem a) (-(2 ^ 63)) (2 ^ 63 - 1) := by
  refine ⟨fun p h => ?_, fun p h => ?_, fun p n h => ?_, fun p n h => ?_, fun p q h => ?_⟩
  · simp [Walk.forward, It.mk', It.inc, iadd_ub (x := p) (y := 1) (by unfold IsIndex; omega)]
  · simp [Walk.forward, It.mk', It.dec, isub_ub (x := p) (y := 1) (by unfold IsIndex; omega)]
  · simp [Walk.forward, It.mk', It.plus, It.addAssign, iadd_ub (x := p) (y := n) (by unfold IsIndex; omega)]
  · simp [Walk.forward, It.mk', It.minus, It.subAssign, isub_ub (x := p) (y := n) (by unfold IsIndex; omega)]
  · simp [Walk.forward, It.mk', It.diff, isub_ub h]

/-- Only the positions from 0 to the length are needed for reverse iterators. -/
theorem backward_follows (ha : mem a = .index A) (hn : (cs.length : Int) < 2 ^ 63)
    (hz : ∀ s, I s → A.size s = .ok (cs.length : Int))
    (hu : ∀ s, I s → ∀ (i : Nat) (h : i < cs.length), A.un s i = .ok cs[i]) :
    Follows (Walk.backward b mem a cs.length) 0 cs.length I cs.reverse := by
  have hz' : ∀ s, I s → (mem a).size s = .ok (cs.length : Int) := by rw [ha]; exact hz
  have hg : ∀ s, I s → ∀ (p : Int) (h : 0 ≤ p ∧ p < cs.length), (mem a).get s p = .ok (cs[p.toNat]'(by omega)) := by
    intro s hs p h
    have := hu s hs p.toNat (by omega)
    rw [ha]
    rwa [Int.toNat_of_nonneg h.1] at this
  have hd : ∀ s, I s → ∀ (p : Int) (h : 0 ≤ p ∧ p < cs.reverse.length),
      RIt.deref b mem ⟨⟨some a, cs.length - p⟩⟩ s = .ok (cs.reverse[p.toNat]'(by omega)) := by
    intro s hs p h
    rw [List.length_reverse] at h
    unfold RIt.deref
    simp only [It.dec_ok b a (p := cs.length - p) (by unfold IsIndex; omega), Res.ok_bind]
    rw [It.deref_ok b (hz' s hs) (by omega), hg s hs _ (by omega), List.getElem_reverse]
    congr 2
    omega
  refine ⟨fun p h => ?_, fun p h => ?_, fun p n h => ?_, fun p n h => ?_, fun p q h => ?_, fun c p q => ?_,
    fun s hs p h => hd s hs p h, fun s hs p n h h' => ?_⟩
  · simp only [Walk.backward, It.mk', RIt.inc, It.dec_ok b a (p := cs.length - p) (by unfold IsIndex; omega),
      Res.ok_bind, Res.pure_eq]
    congr 1; omega
  · simp only [Walk.backward, It.mk', RIt.dec, It.inc_ok b a (p := cs.length - p) (by unfold IsIndex; omega),
      Res.ok_bind, Res.pure_eq]
    congr 1; omega
  · simp only [Walk.backward, It.mk', RIt.plus, It.minus_ok b a (p := cs.length - p) (n := n)
      (by unfold IsIndex; omega), Res.ok_bind, Res.pure_eq]
    congr 1; omega
  · simp only [Walk.backward, It.mk', RIt.minus, It.plus_ok b a (p := cs.length - p) (n := n)
      (by unfold IsIndex; omega), Res.ok_bind, Res.pure_eq]
    congr 1; omega
  · simp only [Walk.backward, It.mk', RIt.diff]
    rw [It.diff_ok b a (by unfold IsIndex at *; omega)]
    congr 1; omega
  · have e : ∀ (r r' : Int → Int → Bool), (r (cs.length - p) (cs.length - q) = r' p q) →
        It.compare b r ⟨some a, cs.length - p⟩ ⟨some a, cs.length - q⟩ = .ok (r' p q) := by
      intro r r' h; rw [It.compare_ok, h]
    cases c
    · exact e (fun p q => decide (p = q)) (fun p q => decide (p = q)) (by rw [decide_eq_decide]; omega)
    · exact e (fun p q => decide (p ≠ q)) (fun p q => decide (p ≠ q)) (by rw [decide_eq_decide]; omega)
    · exact e (fun p q => decide (p > q)) (fun p q => decide (p < q)) (by rw [decide_eq_decide]; omega)
    · exact e (fun p q => decide (p ≥ q)) (fun p q => decide (p ≤ q)) (by rw [decide_eq_decide]; omega)
    · exact e (fun p q => decide (p < q)) (fun p q => decide (p > q)) (by rw [decide_eq_decide]; omega)
    · exact e (fun p q => decide (p ≤ q)) (fun p q => decide (p ≥ q)) (by rw [decide_eq_decide]; omega)
  · simp only [Walk.backward, It.mk', RIt.at', RIt.plus, It.minus_ok b a (p := cs.length - p) (n := n)
      (by unfold IsIndex; omega), Res.ok_bind, Res.pure_eq]
    have := hd s hs (p + n) h
    rwa [show (cs.length : Int) - (p + n) = cs.length - p - n by omega] at this

end

/-- A run that stays between narrower bounds. -/
theorem onList_mono {lo hi lo' hi' : Int} (h : lo' ≤ lo) (h' : hi ≤ hi') (alg : Alg α β) :
    ∀ (l : List α), onList lo hi alg l ≠ .overflow → onList lo' hi' alg l = onList lo hi alg l := by
  induction alg with
  | ret x => intro l _; simp only [onList]
  | inc p k ih =>
    intro l hl
    simp only [onList] at hl ⊢
    split at hl
    · next hp => rw [if_pos hp, if_pos (by omega)]; exact ih _ l hl
    · exact absurd rfl hl
  | dec p k ih =>
    intro l hl
    simp only [onList] at hl ⊢
    split at hl
    · next hp => rw [if_pos hp, if_pos (by omega)]; exact ih _ l hl
    · exact absurd rfl hl
  | plus p n k ih =>
    intro l hl
    simp only [onList] at hl ⊢
    split at hl
    · next hp => rw [if_pos hp, if_pos (by omega)]; exact ih _ l hl
    · exact absurd rfl hl
  | minus p n k ih =>
    intro l hl
    simp only [onList] at hl ⊢
    split at hl
    · next hp => rw [if_pos hp, if_pos (by omega)]; exact ih _ l hl
    · exact absurd rfl hl
  | diff p q k ih =>
    intro l hl
    simp only [onList] at hl ⊢
    split at hl
    · next hp => rw [if_pos hp, if_pos hp]; exact ih _ l hl
    · exact absurd rfl hl
  | cmp c p q k ih =>
    intro l hl
    simp only [onList] at hl ⊢
    exact ih _ l hl
  | read p k ih =>
    intro l hl
    simp only [onList] at hl ⊢
    split
    · next hp => rw [dif_pos hp] at hl; exact ih _ l hl
    · rfl
  | readAt p n k ih =>
    intro l hl
    simp only [onList] at hl ⊢
    split at hl
    · next hp =>
      rw [if_pos hp, if_pos (by omega)]
      split
      · next hq => rw [dif_pos hq] at hl; exact ih _ l hl
      · rfl
    · exact absurd rfl hl
  | write p x k ih =>
    intro l hl
    simp only [onList] at hl ⊢
    split
    · next hp => rw [if_pos hp] at hl; exact ih _ hl
    · rfl
  | writeAt p n x k ih =>
    intro l hl
    simp only [onList] at hl ⊢
    split at hl
    · next hp =>
      rw [if_pos hp, if_pos (by omega)]
      split
      · next hq => rw [if_pos hq] at hl; exact ih _ hl
      · rfl
    · exact absurd rfl hl

end Spp
