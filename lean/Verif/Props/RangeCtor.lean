import Verif.Model.RangeCtor
import Verif.Props.Iter
import Verif.Lemmas.Print
import Verif.Props.Ops

/-
C127: one-dimensional arrays made from two iterators.
-/

set_option linter.unusedSectionVars false

namespace Spp.Props

open Spec Spp.RangeCtor

section
variable {ι σ α : Type}

/-- The first `k` steps of the loop, if nothing happens. -/
theorem copyRange_steps {o : RangeCtor.Ops ι α} {e : ι} (it : Nat → ι) (v : Nat → α) {l : List α} (k : Nat)
    (h : ∀ j, j < k → o.ne (it j) e = .ok true ∧ o.deref (it j) = .ok (v j) ∧ o.inc (it j) = .ok (it (j + 1)))
    (hk : k ≤ l.length) (hl : (l.length : Int) < 2 ^ 63) (fuel : Nat) :
    copyRange o e (fuel + k) (it 0) 0 l = copyRange o e fuel (it k) (k : Int) ((List.range k).map v ++ l.drop k) := by
  induction k generalizing fuel with
  | zero => rfl
  | succ k ih =>
    have ih' := ih (fun j hj => h j (by omega)) (by omega) (fuel + 1)
    rw [show fuel + (k + 1) = fuel + 1 + k by omega, ih']
    obtain ⟨h1, h2, h3⟩ := h k (by omega)
    have hw : wr ((List.range k).map v ++ l.drop k) (k : Int) (v k) =
        .ok ((List.range (k + 1)).map v ++ l.drop (k + 1)) := by
      rw [wr_ok ⟨by omega, by simp; omega⟩, Int.toNat_natCast, List.set_append_right _ _ (by simp), List.range_succ]
      have hc : l.drop k = l[k] :: l.drop (k + 1) := List.drop_eq_getElem_cons (by omega)
      simp
      rw [hc]; rfl
    rw [copyRange, h1, Res.ok_bind, if_pos rfl, h2, Res.ok_bind, iadd_ok (by unfold IsIndex; omega), Res.ok_bind, hw,
      Res.ok_bind, h3, Res.ok_bind]
    push_cast
    rfl

/-- A loop that ends. -/
theorem copyRange_ends {o : RangeCtor.Ops ι α} {e : ι} (it : Nat → ι) (v : Nat → α) {l : List α} {k : Nat}
    (h : ∀ j, j < k → o.ne (it j) e = .ok true ∧ o.deref (it j) = .ok (v j) ∧ o.inc (it j) = .ok (it (j + 1)))
    (he : o.ne (it k) e = .ok false) (hk : k ≤ l.length) (hl : (l.length : Int) < 2 ^ 63) {fuel : Nat} (hf : k < fuel) :
    copyRange o e fuel (it 0) 0 l = .ok (some ((List.range k).map v ++ l.drop k)) := by
  obtain ⟨f, rfl⟩ : ∃ f, fuel = f + 1 + k := ⟨fuel - k - 1, by omega⟩
  rw [copyRange_steps it v k h hk hl, copyRange, he]
  rfl

/-- A loop that meets an element that cannot be read. -/
theorem copyRange_trap {o : RangeCtor.Ops ι α} {e : ι} (it : Nat → ι) (v : Nat → α) {l : List α} {k : Nat} {κ : Kind}
    (h : ∀ j, j < k → o.ne (it j) e = .ok true ∧ o.deref (it j) = .ok (v j) ∧ o.inc (it j) = .ok (it (j + 1)))
    (he : o.ne (it k) e = .ok true) (ht : o.deref (it k) = .trap κ) (hk : k ≤ l.length) (hl : (l.length : Int) < 2 ^ 63)
    {fuel : Nat} (hf : k < fuel) :
    copyRange o e fuel (it 0) 0 l = .trap κ := by
  obtain ⟨f, rfl⟩ : ∃ f, fuel = f + 1 + k := ⟨fuel - k - 1, by omega⟩
  rw [copyRange_steps it v k h hk hl, copyRange, he, Res.ok_bind, if_pos rfl, ht]
  rfl

/-- A loop that writes past the end. -/
theorem copyRange_ub {o : RangeCtor.Ops ι α} {e : ι} (it : Nat → ι) (v : Nat → α) {l : List α}
    (h : ∀ j, j < l.length → o.ne (it j) e = .ok true ∧ o.deref (it j) = .ok (v j) ∧ o.inc (it j) = .ok (it (j + 1)))
    (he : o.ne (it l.length) e = .ok true) (ht : (∃ x, o.deref (it l.length) = .ok x) ∨ o.deref (it l.length) = .ub)
    (hl : (l.length : Int) < 2 ^ 63 - 1) {fuel : Nat} (hf : l.length < fuel) :
    copyRange o e fuel (it 0) 0 l = .ub := by
  obtain ⟨f, rfl⟩ : ∃ f, fuel = f + 1 + l.length := ⟨fuel - l.length - 1, by omega⟩
  rw [copyRange_steps it v l.length h (Nat.le_refl _) (by omega), copyRange, he, Res.ok_bind, if_pos rfl]
  rcases ht with ⟨x, ht⟩ | ht
  · rw [ht, Res.ok_bind, iadd_ok (by unfold IsIndex; omega), Res.ok_bind, wr_ub (by simp [InRange])]
    rfl
  · rw [ht]; rfl

/-- A loop that reads past the end. -/
theorem copyRange_ub_read {o : RangeCtor.Ops ι α} {e : ι} (it : Nat → ι) (v : Nat → α) {l : List α} {k : Nat}
    (h : ∀ j, j < k → o.ne (it j) e = .ok true ∧ o.deref (it j) = .ok (v j) ∧ o.inc (it j) = .ok (it (j + 1)))
    (he : o.ne (it k) e = .ok true) (ht : o.deref (it k) = .ub) (hk : k ≤ l.length) (hl : (l.length : Int) < 2 ^ 63)
    {fuel : Nat} (hf : k < fuel) :
    copyRange o e fuel (it 0) 0 l = .ub := by
  obtain ⟨f, rfl⟩ : ∃ f, fuel = f + 1 + k := ⟨fuel - k - 1, by omega⟩
  rw [copyRange_steps it v k h hk hl, copyRange, he, Res.ok_bind, if_pos rfl, ht]
  rfl

theorem abss_distance {d : Int} (h : IsIndex d) (h' : IsIndex (-d)) : abss .long d = .ok (d.natAbs : Int) := by
  refine IO.abss_ok ?_ ?_
  · exact ⟨fun _ => by unfold IsIndex at h; simp [IntTy.long]; omega, fun h => by simp [IntTy.long] at h⟩
  · rintro ⟨-, h2⟩
    unfold IsIndex at h'
    simp [IntTy.long, IntTy.lo] at h2
    omega

variable [Inhabited α]

theorem slice_range {l : List α} {p k : Nat} (h : p + k ≤ l.length) :
    (List.range k).map (fun j => l.getD (p + j) default) = (l.drop p).take k := by
  apply List.ext_getElem
  · simp; omega
  · intro i h1 h2
    simp only [List.length_map, List.length_range] at h1
    simp [List.getD_eq_getElem?_getD, List.getElem?_eq_getElem (show p + i < l.length by omega)]

theorem slice_range_rev {l : List α} {p k : Nat} (h : p + k ≤ l.length) :
    (List.range k).map (fun j => l.getD (p + k - 1 - j) default) = ((l.drop p).take k).reverse := by
  apply List.ext_getElem
  · simp; omega
  · intro i h1 h2
    simp only [List.length_map, List.length_range] at h1
    have : p + (min k (l.length - p) - 1 - i) = p + k - 1 - i := by omega
    simp [List.getD_eq_getElem?_getD, List.getElem?_eq_getElem (show p + k - 1 - i < l.length by omega), this]

/-- The steps of iterators. -/
theorem fwd_steps (b : Build) {mem : Nat → Flag σ α} {a : Nat} {A : Acc σ α} (ha : mem a = .index A) {s : σ} {l : List α}
    {d : Dim} (h : Elems d A s l) (hn : (l.length : Int) < 2 ^ 63) (p : Nat) (q : Int) (j : Nat) (hj : p + j < l.length)
    (hq : ((p : Int) + j) ≠ q) :
    (fwd b mem s).ne ⟨some a, (p : Int) + j⟩ ⟨some a, q⟩ = .ok true ∧
    (fwd b mem s).deref ⟨some a, (p : Int) + j⟩ = .ok (l.getD (p + j) default) ∧
    (fwd b mem s).inc ⟨some a, (p : Int) + j⟩ = .ok ⟨some a, (p : Int) + (j + 1 : Nat)⟩ := by
  have hz : (mem a).size s = .ok (l.length : Int) := by rw [ha]; exact Elems.size h
  refine ⟨?_, ?_, ?_⟩
  · show It.ne b _ _ = _
    rw [It.ne, It.compare_ok, decide_eq_true hq]
  · show It.deref b mem _ s = _
    rw [It.deref_ok b hz (by omega), ha]
    show A.un s ((p : Int) + j) = _
    rw [show (p : Int) + j = ((p + j : Nat) : Int) by push_cast; rfl, Elems.un h hj]
    simp [List.getD_eq_getElem?_getD, hj]
  · show It.inc b _ = _
    rw [It.inc_ok b a (by unfold IsIndex; omega)]
    congr 2

/-- The steps of reverse iterators. -/
theorem rev_steps (b : Build) {mem : Nat → Flag σ α} {a : Nat} {A : Acc σ α} (ha : mem a = .index A) {s : σ} {l : List α}
    {d : Dim} (h : Elems d A s l) (hn : (l.length : Int) < 2 ^ 63) (p : Nat) (q : Int) (j : Nat) (hp : p ≤ l.length)
    (hj : j < p) (hq : ((p : Int) - j) ≠ q) :
    (rev b mem s).ne ⟨⟨some a, (p : Int) - j⟩⟩ ⟨⟨some a, q⟩⟩ = .ok true ∧
    (rev b mem s).deref ⟨⟨some a, (p : Int) - j⟩⟩ = .ok (l.getD (p - 1 - j) default) ∧
    (rev b mem s).inc ⟨⟨some a, (p : Int) - j⟩⟩ = .ok ⟨⟨some a, (p : Int) - (j + 1 : Nat)⟩⟩ := by
  have hz : (mem a).size s = .ok (l.length : Int) := by rw [ha]; exact Elems.size h
  refine ⟨?_, ?_, ?_⟩
  · show It.ne b _ _ = _
    rw [It.ne, It.compare_ok, decide_eq_true hq]
  · show RIt.deref b mem _ s = _
    rw [RIt.deref, It.dec_ok b a (by unfold IsIndex; omega), Res.ok_bind, It.deref_ok b hz (by omega), ha]
    show A.un s ((p : Int) - j - 1) = _
    rw [show (p : Int) - j - 1 = ((p - 1 - j : Nat) : Int) by omega, Elems.un h (by omega)]
    simp [List.getD_eq_getElem?_getD, show p - 1 - j < l.length by omega]
  · show RIt.inc b _ = _
    rw [RIt.inc, It.dec_ok b a (by unfold IsIndex; omega), Res.ok_bind]
    show Res.ok _ = _
    congr 3
    push_cast; omega

theorem make_start (b : Build) {o : RangeCtor.Ops ι α} {x e : ι} {k : Nat} (hd : o.diff e x = .ok (k : Int))
    (hg : o.ge e x = .ok true) (hk : (k : Int) < 2 ^ 63) (fuel : Nat) :
    RangeCtor.make b o x e fuel = copyRange o e fuel x 0 (List.replicate k default) := by
  rw [RangeCtor.make, hd, Res.ok_bind, abss_distance (by unfold IsIndex; omega) (by unfold IsIndex; omega), Res.ok_bind,
    Int.natAbs_natCast, Arr1.make_ok b (by omega), Res.ok_bind, hg, assertDebugM_ok, assertDebug_true, Res.ok_bind,
    Int.toNat_natCast]

/-- **C127** `Array1D A(x.begin() + p, x.begin() + q)`: a new array with the elements `p`, ..., `q - 1` of `x`. -/
theorem C127_range (b : Build) {mem : Nat → Flag σ α} {a : Nat} {A : Acc σ α} (ha : mem a = .index A) {s : σ} {l : List α}
    {d : Dim} (h : Elems d A s l) (hn : (l.length : Int) < 2 ^ 63) {p q : Nat} (hp : p ≤ q) (hq : q ≤ l.length) {fuel : Nat}
    (hf : q - p < fuel) :
    RangeCtor.make b (fwd b mem s) ⟨some a, p⟩ ⟨some a, q⟩ fuel = .ok (some ((l.drop p).take (q - p))) := by
  have hd : (fwd b mem s).diff ⟨some a, (q : Int)⟩ ⟨some a, (p : Int)⟩ = .ok ((q - p : Nat) : Int) := by
    show It.diff b _ _ = _
    rw [It.diff_ok b a (by unfold IsIndex; omega)]
    congr 1; omega
  have hg : (fwd b mem s).ge ⟨some a, (q : Int)⟩ ⟨some a, (p : Int)⟩ = .ok true := by
    show It.ge b _ _ = _
    rw [It.ge, It.compare_ok, decide_eq_true (by omega)]
  rw [make_start b hd hg (by omega)]
  have key := copyRange_ends (o := fwd b mem s) (e := ⟨some a, (q : Int)⟩) (fun j => ⟨some a, (p : Int) + j⟩)
    (fun j => l.getD (p + j) default) (l := List.replicate (q - p) (default : α)) (k := q - p)
    (fun j hj => fwd_steps b ha h hn p q j (by omega) (by omega))
    (by show It.ne b _ _ = _
        rw [It.ne, It.compare_ok, decide_eq_false (by push_cast [hp]; omega)]) (by simp) (by simp; omega) hf
  simp only [Nat.cast_zero, Int.add_zero] at key
  rw [key, slice_range (by omega)]
  simp

/-- **C127** With reverse iterators: the elements in the opposite order. -/
theorem C127_reverse (b : Build) {mem : Nat → Flag σ α} {a : Nat} {A : Acc σ α} (ha : mem a = .index A) {s : σ}
    {l : List α} {d : Dim} (h : Elems d A s l) (hn : (l.length : Int) < 2 ^ 63) {p q : Nat} (hp : p ≤ q)
    (hq : q ≤ l.length) {fuel : Nat} (hf : q - p < fuel) :
    RangeCtor.make b (rev b mem s) ⟨⟨some a, q⟩⟩ ⟨⟨some a, p⟩⟩ fuel =
      .ok (some ((l.drop p).take (q - p)).reverse) := by
  have hd : (rev b mem s).diff ⟨⟨some a, (p : Int)⟩⟩ ⟨⟨some a, (q : Int)⟩⟩ = .ok ((q - p : Nat) : Int) := by
    show It.diff b _ _ = _
    rw [It.diff_ok b a (by unfold IsIndex; omega)]
    congr 1; omega
  have hg : (rev b mem s).ge ⟨⟨some a, (p : Int)⟩⟩ ⟨⟨some a, (q : Int)⟩⟩ = .ok true := by
    show It.le b _ _ = _
    rw [It.le, It.compare_ok, decide_eq_true (by omega)]
  rw [make_start b hd hg (by omega)]
  have key := copyRange_ends (o := rev b mem s) (e := ⟨⟨some a, (p : Int)⟩⟩) (fun j => ⟨⟨some a, (q : Int) - j⟩⟩)
    (fun j => l.getD (q - 1 - j) default) (l := List.replicate (q - p) (default : α)) (k := q - p)
    (fun j hj => rev_steps b ha h hn q p j hq (by omega) (by omega))
    (by show It.ne b _ _ = _
        rw [It.ne, It.compare_ok, decide_eq_false (by push_cast [hp]; omega)]) (by simp) (by simp; omega) hf
  simp only [Nat.cast_zero, Int.sub_zero] at key
  have e := slice_range_rev (l := l) (p := p) (k := q - p) (by omega)
  rw [show p + (q - p) = q by omega] at e
  rw [key, e]
  simp

/-- **C127** All outcomes in checked builds, for two iterators of the same object, whatever their positions: the
elements between them, unless the first is after the second or an element between them does not exist; two equal
iterators give an empty array, even if they point to no element. -/
theorem C127_outcome {b : Build} (hb : b.Checked) {mem : Nat → Flag σ α} {a : Nat} {A : Acc σ α} (ha : mem a = .index A)
    {s : σ} {l : List α} {d : Dim} (h : Elems d A s l) (hn : (l.length : Int) < 2 ^ 63) {p q : Int}
    (hd : IsIndex (q - p)) (hd' : IsIndex (p - q)) {fuel : Nat} (hf : (q - p).toNat < fuel) :
    RangeCtor.make b (fwd b mem s) ⟨some a, p⟩ ⟨some a, q⟩ fuel =
      if q < p then .trap b.kind
      else if p = q then .ok (some [])
      else if 0 ≤ p ∧ q ≤ l.length then .ok (some ((l.drop p.toNat).take (q - p).toNat))
      else .trap b.kind := by
  have hz : (mem a).size s = .ok (l.length : Int) := by rw [ha]; exact Elems.size h
  have hdiff : (fwd b mem s).diff ⟨some a, q⟩ ⟨some a, p⟩ = .ok (q - p) := It.diff_ok b a hd
  have hge : (fwd b mem s).ge ⟨some a, q⟩ ⟨some a, p⟩ = .ok (decide (p ≤ q)) := by
    show It.ge b _ _ = _
    rw [It.ge, It.compare_ok]
  have hne : ∀ x : Int, (fwd b mem s).ne ⟨some a, x⟩ ⟨some a, q⟩ = .ok (decide (x ≠ q)) := by
    intro x
    show It.ne b _ _ = _
    rw [It.ne, It.compare_ok]
  have hout : ∀ x : Int, ¬ (0 ≤ x ∧ x < l.length) → (fwd b mem s).deref ⟨some a, x⟩ = .trap b.kind :=
    fun x hx => It.deref_out hb hz hx
  have hi : IsIndex ((q - p).natAbs : Int) := by
    unfold IsIndex at hd hd' ⊢; omega
  split
  · rename_i hlt
    rw [RangeCtor.make, hdiff, Res.ok_bind, abss_distance hd (by rwa [show -(q - p) = p - q by omega]), Res.ok_bind,
      Arr1.make_ok b (by omega), Res.ok_bind, hge, assertDebugM_ok, decide_eq_false (by omega), assertDebug_false hb]
    rfl
  rename_i hle
  have hk : q - p = ((q - p).toNat : Int) := by omega
  have hs := make_start b (o := fwd b mem s) (x := ⟨some a, p⟩) (e := ⟨some a, q⟩) (k := (q - p).toNat)
    (by rw [hdiff, ← hk]) (by rw [hge, decide_eq_true (by omega)]) (by unfold IsIndex at hd; omega) fuel
  obtain ⟨f, rfl⟩ : ∃ f, fuel = f + 1 := ⟨fuel - 1, by omega⟩
  split
  · rename_i heq
    rw [hs, copyRange, hne, Res.ok_bind, decide_eq_false (by omega), if_neg (by decide), show (q - p).toNat = 0 by omega]
    rfl
  rename_i hpq
  split
  · rename_i hr
    have := C127_range b ha h hn (p := p.toNat) (q := q.toNat) (by omega) (by omega) (fuel := f + 1) (by omega)
    rw [Int.toNat_of_nonneg hr.1, Int.toNat_of_nonneg (by omega)] at this
    rw [this]
    congr 3
    omega
  · rename_i hr
    rw [hs]
    by_cases hp : 0 ≤ p ∧ p < l.length
    · obtain ⟨p, rfl⟩ : ∃ n : Nat, p = n := ⟨p.toNat, by omega⟩
      have key := copyRange_trap (o := fwd b mem s) (e := ⟨some a, q⟩) (fun j => ⟨some a, (p : Int) + j⟩)
        (fun j => l.getD (p + j) default) (l := List.replicate (q - p).toNat (default : α)) (k := l.length - p) (κ := b.kind)
        (fun j hj => fwd_steps b ha h hn p q j (by omega) (by omega))
        (by rw [hne, decide_eq_true (by omega)]) (hout _ (by omega)) (by simp; omega)
        (by unfold IsIndex at hd; simp; omega) (fuel := f + 1) (by omega)
      simpa only [Nat.cast_zero, Int.add_zero] using key
    · exact copyRange_trap (o := fwd b mem s) (fun _ => ⟨some a, p⟩) (fun _ => default) (k := 0)
        (by omega) (by rw [hne, decide_eq_true (by omega)]) (hout p hp) (by omega)
        (by unfold IsIndex at hd; simp; omega) (by omega)

/-- **C127** The same with reverse iterators: `r.base()` is at `p` for the first and at `q` for the second. -/
theorem C127_outcome_reverse {b : Build} (hb : b.Checked) {mem : Nat → Flag σ α} {a : Nat} {A : Acc σ α}
    (ha : mem a = .index A) {s : σ} {l : List α} {d : Dim} (h : Elems d A s l) (hn : (l.length : Int) < 2 ^ 63) {p q : Int}
    (hp1 : IsIndex (p - 1)) (hd : IsIndex (q - p)) (hd' : IsIndex (p - q)) {fuel : Nat} (hf : (p - q).toNat < fuel) :
    RangeCtor.make b (rev b mem s) ⟨⟨some a, p⟩⟩ ⟨⟨some a, q⟩⟩ fuel =
      if p < q then .trap b.kind
      else if p = q then .ok (some [])
      else if 0 ≤ q ∧ p ≤ l.length then .ok (some ((l.drop q.toNat).take (p - q).toNat).reverse)
      else .trap b.kind := by
  have hz : (mem a).size s = .ok (l.length : Int) := by rw [ha]; exact Elems.size h
  have hdiff : (rev b mem s).diff ⟨⟨some a, q⟩⟩ ⟨⟨some a, p⟩⟩ = .ok (p - q) := It.diff_ok b a hd'
  have hge : (rev b mem s).ge ⟨⟨some a, q⟩⟩ ⟨⟨some a, p⟩⟩ = .ok (decide (q ≤ p)) := by
    show It.le b _ _ = _
    rw [It.le, It.compare_ok]
  have hne : ∀ x : Int, (rev b mem s).ne ⟨⟨some a, x⟩⟩ ⟨⟨some a, q⟩⟩ = .ok (decide (x ≠ q)) := by
    intro x
    show It.ne b _ _ = _
    rw [It.ne, It.compare_ok]
  have hout : ∀ x : Int, IsIndex (x - 1) → ¬ (0 ≤ x - 1 ∧ x - 1 < l.length) →
      (rev b mem s).deref ⟨⟨some a, x⟩⟩ = .trap b.kind := by
    intro x hx hx'
    show RIt.deref b mem _ s = _
    rw [RIt.deref, It.dec_ok b a hx, Res.ok_bind, It.deref_out hb hz hx']
  have hi : IsIndex ((p - q).natAbs : Int) := by
    unfold IsIndex at hd hd' ⊢; omega
  split
  · rename_i hlt
    rw [RangeCtor.make, hdiff, Res.ok_bind, abss_distance hd' (by rwa [show -(p - q) = q - p by omega]), Res.ok_bind,
      Arr1.make_ok b (by omega), Res.ok_bind, hge, assertDebugM_ok, decide_eq_false (by omega), assertDebug_false hb]
    rfl
  rename_i hle
  have hk : p - q = ((p - q).toNat : Int) := by omega
  have hs := make_start b (o := rev b mem s) (x := ⟨⟨some a, p⟩⟩) (e := ⟨⟨some a, q⟩⟩) (k := (p - q).toNat)
    (by rw [hdiff, ← hk]) (by rw [hge, decide_eq_true (by omega)]) (by unfold IsIndex at hd'; omega) fuel
  obtain ⟨f, rfl⟩ : ∃ f, fuel = f + 1 := ⟨fuel - 1, by omega⟩
  split
  · rename_i heq
    rw [hs, copyRange, hne, Res.ok_bind, decide_eq_false (by omega), if_neg (by decide), show (p - q).toNat = 0 by omega]
    rfl
  rename_i hpq
  split
  · rename_i hr
    have := C127_reverse b ha h hn (p := q.toNat) (q := p.toNat) (by omega) (by omega) (fuel := f + 1) (by omega)
    rw [Int.toNat_of_nonneg hr.1, Int.toNat_of_nonneg (by omega)] at this
    rw [this]
    congr 4
    omega
  · rename_i hr
    rw [hs]
    by_cases hp : 0 < p ∧ p ≤ l.length
    · obtain ⟨p, rfl⟩ : ∃ n : Nat, p = n := ⟨p.toNat, by omega⟩
      have key := copyRange_trap (o := rev b mem s) (e := ⟨⟨some a, q⟩⟩) (fun j => ⟨⟨some a, (p : Int) - j⟩⟩)
        (fun j => l.getD (p - 1 - j) default) (l := List.replicate (p - q).toNat (default : α)) (k := p) (κ := b.kind)
        (fun j hj => rev_steps b ha h hn p q j (by omega) (by omega) (by omega))
        (by rw [hne, decide_eq_true (by omega)]) (hout _ (by unfold IsIndex; omega) (by omega)) (by simp; omega)
        (by unfold IsIndex at hd'; simp; omega) (fuel := f + 1) (by omega)
      simpa only [Nat.cast_zero, Int.sub_zero] using key
    · exact copyRange_trap (o := rev b mem s) (fun _ => ⟨⟨some a, p⟩⟩) (fun _ => default) (k := 0)
        (by omega) (by rw [hne, decide_eq_true (by omega)])
        (hout p hp1 (by omega)) (by omega)
        (by unfold IsIndex at hd'; simp; omega) (by omega)

/-- **C127** Iterators that point to nothing, or to different objects, are rejected in checked builds. -/
theorem C127_other_object {b : Build} (hb : b.Checked) {mem : Nat → Flag σ α} {s : σ} (x e : It)
    (h : e.ptr = none ∨ e.ptr ≠ x.ptr) (fuel : Nat) :
    RangeCtor.make b (fwd b mem s) x e fuel = .trap b.kind ∧
    RangeCtor.make b (rev b mem s) ⟨e⟩ ⟨x⟩ fuel = .trap b.kind ∧
    (∀ N, RangeCtor.makeFixed b N (fwd b mem s) x e fuel = .trap b.kind) ∧
    ∀ N, RangeCtor.makeFixed b N (rev b mem s) ⟨e⟩ ⟨x⟩ fuel = .trap b.kind := by
  have hd : It.diff b e x = .trap b.kind := by
    rw [It.diff]
    by_cases hp : e.points = true
    · rw [hp, assertDebug_true, Res.ok_bind]
      have : (e.ptr == x.ptr) = false := by
        rcases h with h | h
        · simp [It.points, h] at hp
        · simpa using h
      rw [this, assertDebug_false hb]; rfl
    · rw [Bool.not_eq_true] at hp
      rw [hp, assertDebug_false hb]; rfl
  refine ⟨?_, ?_, fun N => ?_, fun N => ?_⟩
  · rw [RangeCtor.make]; change (It.diff b e x >>= _) = _; rw [hd]; rfl
  · rw [RangeCtor.make]; change (It.diff b e x >>= _) = _; rw [hd]; rfl
  · rw [RangeCtor.makeFixed, assertDebugM_checked hb]; change (((It.diff b e x >>= _) >>= _) >>= _) = _; rw [hd]; rfl
  · rw [RangeCtor.makeFixed, assertDebugM_checked hb]; change (((It.diff b e x >>= _) >>= _) >>= _) = _; rw [hd]; rfl

theorem makeFixed_start {b : Build} {N : Nat} {o : RangeCtor.Ops ι α} {x e : ι} (hd : o.diff e x = .ok (N : Int))
    (hg : o.ge e x = .ok true) (fuel : Nat) :
    RangeCtor.makeFixed b N o x e fuel = copyRange o e fuel x 0 (List.replicate N default) := by
  rw [RangeCtor.makeFixed, hd, Res.ok_bind, hg]
  show (assertDebugM b (.ok ((N : Int) == N)) >>= _) = _
  rw [assertDebugM_ok, assertDebugM_ok, beq_self_eq_true, assertDebug_true, Res.ok_bind, Res.ok_bind]

/-- **C127** Arrays with a fixed number `N` of elements: as above when the iterators are `N` apart (every build) ... -/
theorem C127_fixed {b : Build} {N : Nat} {o : RangeCtor.Ops ι α} {x e : ι} (hd : o.diff e x = .ok (N : Int))
    (hg : o.ge e x = .ok true) (hN : (N : Int) < 2 ^ 63) (fuel : Nat) :
    RangeCtor.makeFixed b N o x e fuel = RangeCtor.make b o x e fuel := by
  rw [makeFixed_start hd hg, make_start b hd hg hN]

/-- **C127** ... and a rejection otherwise (checked builds). -/
theorem C127_fixed_rejected {b : Build} (hb : b.Checked) {N : Nat} {o : RangeCtor.Ops ι α} {x e : ι} {k : Int}
    (hd : o.diff e x = .ok k) (hk : k ≠ N) (fuel : Nat) :
    RangeCtor.makeFixed b N o x e fuel = .trap b.kind := by
  rw [RangeCtor.makeFixed, hd, Res.ok_bind]
  show (assertDebugM b (.ok (k == N)) >>= _) = _
  rw [assertDebugM_ok, show (k == (N : Int)) = false by simpa using hk, assertDebug_false hb]
  rfl

/-- **C127** Without the checks: too few elements leave the rest zero, too many are written past the array. -/
theorem C127_fixed_release {b : Build} (hb : b.Release) {mem : Nat → Flag σ α} {a : Nat} {A : Acc σ α}
    (ha : mem a = .index A) {s : σ} {l : List α} {d : Dim} (h : Elems d A s l) (hn : (l.length : Int) < 2 ^ 63) {p q : Nat}
    (hp : p ≤ q) (hq : q ≤ l.length) {N : Nat} (hN : (N : Int) < 2 ^ 63 - 1) {fuel : Nat} (hf : q - p < fuel) :
    RangeCtor.makeFixed b N (fwd b mem s) ⟨some a, p⟩ ⟨some a, q⟩ fuel =
      if q - p ≤ N then .ok (some ((l.drop p).take (q - p) ++ List.replicate (N - (q - p)) default)) else .ub := by
  have hM : ∀ c, assertDebugM b c = .ok () := fun c => by
    unfold Build.Release at hb; simp [assertDebugM, hb]
  have hne : ∀ x : Int, (fwd b mem s).ne ⟨some a, x⟩ ⟨some a, q⟩ = .ok (decide (x ≠ q)) := by
    intro x
    show It.ne b _ _ = _
    rw [It.ne, It.compare_ok]
  rw [RangeCtor.makeFixed, hM, Res.ok_bind, hM, Res.ok_bind]
  split
  · rename_i hle
    have key := copyRange_ends (o := fwd b mem s) (e := ⟨some a, (q : Int)⟩) (fun j => ⟨some a, (p : Int) + j⟩)
      (fun j => l.getD (p + j) default) (l := List.replicate N (default : α)) (k := q - p)
      (fun j hj => fwd_steps b ha h hn p q j (by omega) (by omega))
      (by rw [hne, decide_eq_false (by push_cast [hp]; omega)]) (by simpa using hle) (by simp; omega) hf
    simp only [Nat.cast_zero, Int.add_zero] at key
    rw [key, slice_range (by omega)]
    simp
  · rename_i hlt
    have st := fwd_steps b ha h hn p q N (by omega) (by omega)
    have key := copyRange_ub (o := fwd b mem s) (e := ⟨some a, (q : Int)⟩) (fun j => ⟨some a, (p : Int) + j⟩)
      (fun j => l.getD (p + j) default) (l := List.replicate N (default : α))
      (fun j hj => fwd_steps b ha h hn p q j (by simp at hj; omega) (by simp at hj; omega))
      (by simpa using st.1) (.inl ⟨_, by simpa using st.2.1⟩) (by simpa using hN) (fuel := fuel) (by simp; omega)
    simpa only [Nat.cast_zero, Int.add_zero] using key

/-- **C127** Without the checks, two iterators in the wrong order: the elements of the first and the following ones are
copied until the new array, or the old one, has no more. -/
theorem C127_backwards_release {b : Build} (hb : b.Release) {mem : Nat → Flag σ α} {a : Nat} {A : Acc σ α}
    (ha : mem a = .index A) {s : σ} {l : List α} {d : Dim} (h : Elems d A s l) (hub : A.un s l.length = .ub)
    (hn : (l.length : Int) < 2 ^ 63 - 1) {p q : Nat} (hp : q < p) (hq : p ≤ l.length) {fuel : Nat} (hf : p - q < fuel) :
    RangeCtor.make b (fwd b mem s) ⟨some a, p⟩ ⟨some a, q⟩ fuel = .ub := by
  have hM : ∀ c, assertDebugM b c = .ok () := fun c => by
    unfold Build.Release at hb; simp [assertDebugM, hb]
  have hdiff : (fwd b mem s).diff ⟨some a, (q : Int)⟩ ⟨some a, (p : Int)⟩ = .ok ((q : Int) - p) :=
    It.diff_ok b a (by unfold IsIndex; omega)
  have hne : ∀ x : Int, (fwd b mem s).ne ⟨some a, x⟩ ⟨some a, q⟩ = .ok (decide (x ≠ q)) := by
    intro x
    show It.ne b _ _ = _
    rw [It.ne, It.compare_ok]
  have hend : (fwd b mem s).deref ⟨some a, (l.length : Int)⟩ = .ub := by
    show It.deref b mem _ s = _
    rw [It.deref, hM, assertDebug_release hb, Res.ok_bind, Res.ok_bind, It.apply]
    simp only [ha]
    exact hub
  rw [RangeCtor.make, hdiff, Res.ok_bind, abss_distance (by unfold IsIndex; omega) (by unfold IsIndex; omega), Res.ok_bind,
    Arr1.make_ok b (by omega), Res.ok_bind, hM, Res.ok_bind, Int.toNat_natCast,
    show ((q : Int) - p).natAbs = p - q by omega]
  by_cases hc : p + (p - q) < l.length
  · have st := fwd_steps b ha h (by omega) p q (p - q) (by omega) (by omega)
    have key := copyRange_ub (o := fwd b mem s) (e := ⟨some a, (q : Int)⟩) (fun j => ⟨some a, (p : Int) + j⟩)
      (fun j => l.getD (p + j) default) (l := List.replicate (p - q) (default : α))
      (fun j hj => fwd_steps b ha h (by omega) p q j (by simp at hj; omega) (by simp at hj; omega))
      (by rw [List.length_replicate]; exact st.1) (.inl ⟨_, by rw [List.length_replicate]; exact st.2.1⟩)
      (by simp; omega) (fuel := fuel) (by simp; omega)
    simpa only [Nat.cast_zero, Int.add_zero] using key
  · have key := copyRange_ub_read (o := fwd b mem s) (e := ⟨some a, (q : Int)⟩) (fun j => ⟨some a, (p : Int) + j⟩)
      (fun j => l.getD (p + j) default) (l := List.replicate (p - q) (default : α)) (k := l.length - p)
      (fun j hj => fwd_steps b ha h (by omega) p q j (by omega) (by omega))
      (by rw [hne, decide_eq_true (by omega)])
      (by rw [show (p : Int) + ((l.length - p : Nat) : Int) = (l.length : Int) by omega]; exact hend)
      (by simp; omega) (by simp; omega) (fuel := fuel) (by omega)
    simpa only [Nat.cast_zero, Int.add_zero] using key

/-- **C127** `A(x.begin(), x.end())` is a copy of `x`, `A(x.rbegin(), x.rend())` is `x` reversed. -/
theorem C127_whole (b : Build) {mem : Nat → Flag σ α} {a : Nat} {A : Acc σ α} (ha : mem a = .index A) {s : σ}
    {l : List α} {d : Dim} (h : Elems d A s l) (hn : (l.length : Int) < 2 ^ 63) {fuel : Nat} (hf : l.length < fuel) :
    (do
      let e ← It.end mem a s
      RangeCtor.make b (fwd b mem s) (It.begin a) e fuel) = .ok (some l) ∧
    (do
      let e ← RIt.rbegin mem a s
      RangeCtor.make b (rev b mem s) e (RIt.rend a) fuel) = .ok (some l.reverse) := by
  have hz : (mem a).size s = .ok (l.length : Int) := by rw [ha]; exact Elems.size h
  constructor
  · rw [It.end, hz]
    have := C127_range b ha h hn (p := 0) (q := l.length) (by omega) (by omega) (fuel := fuel) (by omega)
    simpa [It.begin, It.mk'] using this
  · rw [RIt.rbegin, It.end, hz]
    have := C127_reverse b ha h hn (p := 0) (q := l.length) (by omega) (by omega) (fuel := fuel) (by omega)
    simpa [RIt.rend, It.begin, It.mk'] using this

end

/-! ### Examples -/

section
open Sample

/-- The array `[1, 2, 3, 4]` at every address. -/
def fourAt : Nat → Flag Unit Int := fun _ => .index (lit [1, 2, 3, 4])

theorem four_elems : Elems .one (lit [1, 2, 3, 4] : Acc Unit Int) () [1, 2, 3, 4] :=
  Shaped.elems (lit_shaped () [1, 2, 3, 4])

example : RangeCtor.make ⟨false, true, false⟩ (fwd ⟨false, true, false⟩ fourAt ()) ⟨some 7, 1⟩ ⟨some 7, 3⟩ 5 =
    .ok (some [2, 3]) :=
  C127_range _ (a := 7) rfl four_elems (by decide) (p := 1) (q := 3) (by decide) (by decide) (by decide)

example : RangeCtor.make ⟨true, true, false⟩ (rev ⟨true, true, false⟩ fourAt ()) ⟨⟨some 7, 4⟩⟩ ⟨⟨some 7, 1⟩⟩ 5 =
    .ok (some [4, 3, 2]) :=
  C127_reverse _ (a := 7) rfl four_elems (by decide) (p := 1) (q := 4) (by decide) (by decide) (by decide)

example : RangeCtor.make ⟨false, true, false⟩ (fwd ⟨false, true, false⟩ fourAt ()) ⟨some 7, 2⟩ ⟨some 7, 6⟩ 5 =
    .trap .exception :=
  C127_outcome (b := ⟨false, true, false⟩) (by decide) (a := 7) rfl four_elems (by decide) (p := 2) (q := 6)
    (by unfold IsIndex; decide) (by unfold IsIndex; decide) (by decide)

example : RangeCtor.make ⟨false, true, false⟩ (rev ⟨false, true, false⟩ fourAt ()) ⟨⟨some 7, 2⟩⟩ ⟨⟨some 7, -1⟩⟩ 5 =
    .trap .exception :=
  C127_outcome_reverse (b := ⟨false, true, false⟩) (by decide) (a := 7) rfl four_elems (by decide) (p := 2) (q := -1)
    (by unfold IsIndex; decide) (by unfold IsIndex; decide) (by unfold IsIndex; decide) (by decide)

example : RangeCtor.make ⟨false, true, false⟩ (fwd ⟨false, true, false⟩ fourAt ()) ⟨some 7, 0⟩ ⟨some 8, 4⟩ 5 =
    .trap .exception :=
  (C127_other_object (b := ⟨false, true, false⟩) (by decide) ⟨some 7, 0⟩ ⟨some 8, 4⟩ (.inr (by decide)) 5).1

example : RangeCtor.makeFixed ⟨false, true, false⟩ 3 (fwd ⟨false, true, false⟩ fourAt ()) ⟨some 7, 1⟩ ⟨some 7, 4⟩ 5 =
    .ok (some [2, 3, 4]) := by
  rw [C127_fixed (N := 3) rfl rfl (by decide)]
  exact C127_range _ (a := 7) rfl four_elems (by decide) (p := 1) (q := 4) (by decide) (by decide) (by decide)

example : RangeCtor.makeFixed ⟨false, true, false⟩ 3 (fwd ⟨false, true, false⟩ fourAt ()) ⟨some 7, 0⟩ ⟨some 7, 4⟩ 5 =
    .trap .exception :=
  C127_fixed_rejected (b := ⟨false, true, false⟩) (by decide) (N := 3) (k := 4) rfl (by decide) 5

example : RangeCtor.makeFixed ⟨true, true, false⟩ 3 (fwd ⟨true, true, false⟩ fourAt ()) ⟨some 7, 2⟩ ⟨some 7, 4⟩ 5 =
      .ok (some [3, 4, 0]) ∧
    RangeCtor.makeFixed ⟨true, true, false⟩ 3 (fwd ⟨true, true, false⟩ fourAt ()) ⟨some 7, 0⟩ ⟨some 7, 4⟩ 5 = .ub :=
  ⟨C127_fixed_release (b := ⟨true, true, false⟩) rfl (a := 7) rfl four_elems (by decide) (p := 2) (q := 4) (by decide)
      (by decide) (N := 3) (by decide) (by decide),
   C127_fixed_release (b := ⟨true, true, false⟩) rfl (a := 7) rfl four_elems (by decide) (p := 0) (q := 4) (by decide)
      (by decide) (N := 3) (by decide) (by decide)⟩

example : RangeCtor.make ⟨true, true, false⟩ (fwd ⟨true, true, false⟩ fourAt ()) ⟨some 7, 1⟩ ⟨some 7, 0⟩ 5 = .ub :=
  C127_backwards_release (b := ⟨true, true, false⟩) rfl (a := 7) rfl four_elems rfl (by decide) (p := 1) (q := 0)
    (by decide) (by decide) (by decide)

example : (do
      let e ← RIt.rbegin fourAt 7 ()
      RangeCtor.make ⟨false, true, false⟩ (rev ⟨false, true, false⟩ fourAt ()) e (RIt.rend 7) 5) =
    .ok (some [4, 3, 2, 1]) :=
  (C127_whole ⟨false, true, false⟩ (a := 7) rfl four_elems (by decide) (fuel := 5) (by decide)).2

end

end Spp.Props
