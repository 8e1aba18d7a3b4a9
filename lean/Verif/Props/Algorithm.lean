import Verif.Lemmas.Shuffle
import Verif.Lemmas.Sample
import Verif.Spec.Decide
import Verif.Props.Select

/-
C124: algorithms of the standard library on arrays, views and expressions; `shuffle`.
-/

namespace Spp.Props

open Spec

variable {σ α β : Type} {d : Dim}

theorem small_flat {γ : Type} {x : Sem γ d} (h : Small x) : (x.flat.length : Int) < 2 ^ 63 := by
  cases d with
  | one => have : (List.length x : Int) < 2 ^ 63 - 1 := h
           show (List.length x : Int) < 2 ^ 63
           omega
  | two =>
    have h1 := h.1
    have : (Sem.flat x).length = x.m * x.n := flat_length x
    omega

/-- What is needed of an assignable object. -/
theorem object {b : Build} {t : Store α} (ht : Store.Ok t) {l : Lv d} (hS : l.Sound t) (hV : l.Valid t)
    {cs : List Loc} (hp : Places l t cs) :
    ∃ A, l.build b t = .ok A ∧ (cs.length : Int) < 2 ^ 63 ∧
      (∀ s, SameSizes t s → A.size s = .ok (cs.length : Int)) ∧
      ∀ s, SameSizes t s → ∀ (i : Nat) (h : i < cs.length), A.un s i = .ok cs[i] := by
  obtain ⟨h0, A, h1, h2⟩ := l.main b ht hS hV
  refine ⟨A, h1, ?_, fun s hs => ?_, fun s hs i hi => dst_un hp h2 hs hi⟩
  · have := small_flat h0
    rwa [hp.1, List.length_map] at this
  · rw [(linDen_of (h2 s hs)).1, l.cells_same hs, hp.1, List.length_map]

/-- **C124** Any algorithm that uses the iterators of an array or view without repeated elements does with its elements
what it does with a list: the result, the final contents, and nothing else changes.  An access outside the range traps
in checked builds, at the same moment; only positions that do not fit into `long` are undefined. -/
theorem C124_run (b : Build) {t : Store α} (ht : Store.Ok t) {l : Lv d} (hS : l.Sound t) (hV : l.Valid t)
    {cs : List Loc} (hp : Places l t cs) (hn : cs.Nodup) {xs : List α} (hx : cs.map t.read = xs.map Res.ok) :
    ∃ A, l.build b t = .ok A ∧ ∀ (mem : Nat → Flag (Store α) Loc) (a : Nat), mem a = .index A →
      It.end mem a t = .ok (It.mk' a xs.length) ∧ ∀ alg : Alg α β,
      (∀ x ys, onList (-(2 ^ 63)) (2 ^ 63 - 1) alg xs = .done x ys →
        ∃ t', alg.run (Walk.forward b mem a) t = (.ok x, t') ∧ Leaves cs t t' ys) ∧
      (b.Checked → ∀ ys, onList (-(2 ^ 63)) (2 ^ 63 - 1) alg xs = .outside ys →
        ∃ t', alg.run (Walk.forward b mem a) t = (.trap b.kind, t') ∧ Leaves cs t t' ys) ∧
      (onList (-(2 ^ 63)) (2 ^ 63 - 1) alg xs = .overflow →
        ∃ t' ys, alg.run (Walk.forward b mem a) t = (.ub, t') ∧ Leaves cs t t' ys) := by
  obtain ⟨A, h1, h2, h3, h4⟩ := object (b := b) ht hS hV hp
  have hlen : cs.length = xs.length := by simpa using congrArg List.length hx
  refine ⟨A, h1, fun mem a ha => ⟨?_, fun alg => ?_⟩⟩
  · unfold It.end
    rw [ha]
    show (A.size t >>= fun n => _) = _
    rw [h3 t (SameSizes.refl t), Res.ok_bind, hlen]
    rfl
  · have key := run_ends (forward_follows (b := b) ha h3 h4) (G := b.Checked) (O := True) (e := b.kind)
      (fun hb => forward_guards hb ha h3) (fun _ => forward_overflows)
      (fun _ s _ p n h => by
        simp [Walk.forward, It.mk', It.at', iadd_ub (x := p) (y := n) (by unfold IsIndex; omega), assertDebugM]
        split <;> rfl)
      hp.2 hn alg t xs (SameSizes.refl t) hx
    refine ⟨fun x ys h => ?_, fun hb ys h => ?_, fun h => ?_⟩
    · rw [h] at key; exact ⟨_, Prod.ext key.1 rfl, key.2⟩
    · rw [h] at key; exact ⟨_, Prod.ext (key hb).1 rfl, (key hb).2⟩
    · rw [h] at key
      obtain ⟨k1, ys, k2⟩ := key trivial
      exact ⟨_, ys, Prod.ext k1 rfl, k2⟩

/-- **C124** An algorithm that is legal on an array of the language, with `begin()` and `end()`, and with `rbegin()` and
`rend()`, where it acts on the elements in the opposite order. -/
theorem C124_legal (b : Build) {t : Store α} (ht : Store.Ok t) {l : Lv d} (hS : l.Sound t) (hV : l.Valid t)
    {cs : List Loc} (hp : Places l t cs) (hn : cs.Nodup) {xs : List α} (hx : cs.map t.read = xs.map Res.ok) :
    ∃ A, l.build b t = .ok A ∧ ∀ (mem : Nat → Flag (Store α) Loc) (a : Nat), mem a = .index A →
      It.end mem a t = .ok (It.mk' a xs.length) ∧ RIt.rbegin mem a t = .ok ⟨It.mk' a (xs.length - 0)⟩ ∧
      RIt.rend a = ⟨It.mk' a (xs.length - xs.length)⟩ ∧ ∀ (alg : Alg α β) x ys,
      (Legal alg xs x ys → ∃ t', alg.run (Walk.forward b mem a) t = (.ok x, t') ∧ Leaves cs t t' ys) ∧
      (Legal alg xs.reverse x ys →
        ∃ t', alg.run (Walk.backward b mem a xs.length) t = (.ok x, t') ∧ Leaves cs t t' ys.reverse) := by
  obtain ⟨A, h1, h2, h3, h4⟩ := object (b := b) ht hS hV hp
  obtain ⟨A', h1', hr⟩ := C124_run (β := β) b ht hS hV hp hn hx
  rw [h1] at h1'
  cases h1'
  have hlen : cs.length = xs.length := by simpa using congrArg List.length hx
  refine ⟨A, h1, fun mem a ha => ⟨(hr mem a ha).1, ?_, ?_, fun alg x ys => ⟨fun h => ?_, fun h => ?_⟩⟩⟩
  · unfold RIt.rbegin
    rw [(hr mem a ha).1, Int.sub_zero]; rfl
  · rw [Int.sub_self]; rfl
  · refine ((hr mem a ha).2 alg).1 x ys ?_
    rw [onList_mono (lo := 0) (hi := xs.length) (by decide) (by omega) alg xs (by rw [h]; simp)]
    exact h
  · have key := run_ends (backward_follows (b := b) ha h2 h3 h4) (G := False) (O := False) (e := b.kind)
      False.elim False.elim False.elim (fun c hc => hp.2 c (List.mem_reverse.1 hc)) (List.nodup_reverse.2 hn) alg t
      xs.reverse (SameSizes.refl t) (by rw [List.map_reverse, hx, List.map_reverse])
    unfold Legal at h
    rw [List.length_reverse] at h
    rw [hlen, h] at key
    obtain ⟨k1, k2, k3, k4⟩ := key
    refine ⟨_, Prod.ext k1 rfl, k2, ?_, fun c hc => k4 c (fun h => hc (List.mem_reverse.1 h))⟩
    have := congrArg List.reverse k3
    rwa [← List.map_reverse, ← List.map_reverse, List.reverse_reverse] at this

/-- **C124** An algorithm that only reads gives the same result on an array, view or expression of any kind as on the
list of its elements. -/
theorem C124_read (b : Build) {mem : Nat → Flag σ α} {a : Nat} {A : Acc σ α} (ha : mem a = .index A) {s : σ}
    {xs : List α} (h : Elems d A s xs) (hz : (xs.length : Int) < 2 ^ 63) (alg : Alg α β) (hr : ReadOnly alg) :
    (∀ x ys, onList (-(2 ^ 63)) (2 ^ 63 - 1) alg xs = .done x ys →
      ys = xs ∧ alg.look (Walk.forward b mem a) s = .ok x) ∧
    (b.Checked → ∀ ys, onList (-(2 ^ 63)) (2 ^ 63 - 1) alg xs = .outside ys →
      ys = xs ∧ alg.look (Walk.forward b mem a) s = .trap b.kind) ∧
    (onList (-(2 ^ 63)) (2 ^ 63 - 1) alg xs = .overflow → alg.look (Walk.forward b mem a) s = .ub) ∧
    (∀ x ys, Legal alg xs x ys → ys = xs ∧ alg.look (Walk.forward b mem a) s = .ok x) ∧
    (∀ x ys, Legal alg xs.reverse x ys →
      ys = xs.reverse ∧ alg.look (Walk.backward b mem a xs.length) s = .ok x) := by
  have h3 : ∀ s', s' = s → A.size s' = .ok (xs.length : Int) := fun s' e => e ▸ Elems.size h
  have h4 : ∀ s', s' = s → ∀ (i : Nat) (h : i < xs.length), A.un s' i = .ok xs[i] :=
    fun s' e i hi => e ▸ Elems.un h hi
  obtain ⟨k1, k2, k3⟩ := look_ends (forward_follows (b := b) ha h3 h4) (e := b.kind) alg hr
  refine ⟨k1, fun hb => k2 (forward_guards hb ha h3), fun ho => k3 forward_overflows (fun p n h => ?_) ho,
    fun x ys hl => k1 x ys ?_, fun x ys hl => ?_⟩
  · simp [Walk.forward, It.mk', It.at', iadd_ub (x := p) (y := n) (by unfold IsIndex; omega), assertDebugM]
    split <;> rfl
  · rw [onList_mono (lo := 0) (hi := xs.length) (by decide) (by omega) alg xs (by rw [hl]; simp)]
    exact hl
  · unfold Legal at hl
    rw [List.length_reverse] at hl
    exact (look_ends (backward_follows (b := b) ha hz h3 h4) (e := b.kind) alg hr).1 x ys hl

/-- **C124** `std::accumulate(A.begin(), A.end(), x, f)` and the like on any array, view or expression. -/
theorem C124_accumulate (b : Build) {mem : Nat → Flag σ α} {a : Nat} {A : Acc σ α} (ha : mem a = .index A) {s : σ}
    {xs : List α} (h : Elems d A s xs) (hz : (xs.length : Int) < 2 ^ 63) (f : β → α → β) (x : β) :
    (Alg.accumulate f x 0 xs.length).look (Walk.forward b mem a) s = .ok (xs.foldl f x) ∧
    (Alg.accumulate f x 0 xs.length).look (Walk.backward b mem a xs.length) s = .ok (xs.reverse.foldl f x) := by
  obtain ⟨-, -, -, h1, h2⟩ := C124_read (β := β) b ha h hz (Alg.accumulate f x 0 xs.length) (accumulate_readOnly f x 0 _)
  refine ⟨(h1 _ _ (accumulate_legal hz f x)).2, (h2 _ xs.reverse ?_).2⟩
  have := accumulate_legal (xs := xs.reverse) (by simpa using hz) f x
  rwa [List.length_reverse] at this

/-- **C124** `std::reverse(A.begin(), A.end())` on an array or view without repeated elements. -/
theorem C124_reverse (b : Build) {t : Store α} (ht : Store.Ok t) {l : Lv d} (hS : l.Sound t) (hV : l.Valid t)
    {cs : List Loc} (hp : Places l t cs) (hn : cs.Nodup) {xs : List α} (hx : cs.map t.read = xs.map Res.ok) :
    ∃ A t', l.build b t = .ok A ∧
      (Alg.reverse 0 xs.length).run (Walk.forward b (fun _ => .index A) 0) t = (.ok (), t') ∧
      Leaves cs t t' xs.reverse := by
  obtain ⟨A, h1, h2⟩ := C124_legal (β := Unit) b ht hS hV hp hn hx
  have hz : (xs.length : Int) < 2 ^ 63 := by
    obtain ⟨_, _, h, _⟩ := object (b := b) ht hS hV hp
    have hlen : cs.length = xs.length := by simpa using congrArg List.length hx
    omega
  obtain ⟨t', h3, h4⟩ := ((h2 (fun _ => .index A) 0 rfl).2.2.2 _ _ _).1 (reverse_legal hz)
  exact ⟨A, t', h1, h3, h4⟩

/-- **C124** Any implementation of `std::sort` that is correct on arrays of the language sorts an array or view without
repeated elements, and in the opposite order if it gets `rbegin()` and `rend()`. -/
theorem C124_sort (b : Build) {f : α → α → Bool} {srt : Int → Int → Alg α Unit}
    (hs : ∀ xs, (xs.length : Int) < 2 ^ 63 → StrictWeak f xs → ∃ ys, Legal (srt 0 xs.length) xs () ys ∧ ys.Perm xs ∧
      ys.Pairwise (fun x y => f y x = false))
    {t : Store α} (ht : Store.Ok t) {l : Lv d} (hS : l.Sound t) (hV : l.Valid t)
    {cs : List Loc} (hp : Places l t cs) (hn : cs.Nodup) {xs : List α} (hx : cs.map t.read = xs.map Res.ok)
    (hf : StrictWeak f xs) :
    ∃ A, l.build b t = .ok A ∧
      (∃ t' ys, (srt 0 xs.length).run (Walk.forward b (fun _ => .index A) 0) t = (.ok (), t') ∧ Leaves cs t t' ys ∧
        ys.Perm xs ∧ ys.Pairwise (fun x y => f y x = false)) ∧
      (∃ t' ys, (srt 0 xs.length).run (Walk.backward b (fun _ => .index A) 0 xs.length) t = (.ok (), t') ∧
        Leaves cs t t' ys ∧ ys.Perm xs ∧ ys.Pairwise (fun x y => f x y = false)) := by
  obtain ⟨A, h1, h2⟩ := C124_legal (β := Unit) b ht hS hV hp hn hx
  have hz : (xs.length : Int) < 2 ^ 63 := by
    obtain ⟨_, _, h, _⟩ := object (b := b) ht hS hV hp
    have hlen : cs.length = xs.length := by simpa using congrArg List.length hx
    omega
  refine ⟨A, h1, ?_, ?_⟩
  · obtain ⟨ys, g1, g2, g3⟩ := hs xs hz hf
    obtain ⟨t', h3, h4⟩ := ((h2 (fun _ => .index A) 0 rfl).2.2.2 _ _ _).1 g1
    exact ⟨t', ys, h3, h4, g2, g3⟩
  · obtain ⟨ys, g1, g2, g3⟩ := hs xs.reverse (by simpa using hz) (by
      refine ⟨fun x hx => ?_, fun x hx y hy z hz => ?_, fun x hx y hy z hz => ?_⟩
      · exact hf.irrefl x (List.mem_reverse.1 hx)
      · exact hf.trans x (List.mem_reverse.1 hx) y (List.mem_reverse.1 hy) z (List.mem_reverse.1 hz)
      · exact hf.incomp x (List.mem_reverse.1 hx) y (List.mem_reverse.1 hy) z (List.mem_reverse.1 hz))
    rw [List.length_reverse] at g1
    obtain ⟨t', h3, h4⟩ := ((h2 (fun _ => .index A) 0 rfl).2.2.2 _ _ _).2 g1
    exact ⟨t', ys.reverse, h3, h4, ys.reverse_perm.trans (g2.trans xs.reverse_perm), List.pairwise_reverse.2 g3⟩

/-- **C124** `shuffle(A)`, for all random numbers: it succeeds, the elements are exchanged as drawn, so they are the same
in another order, and nothing else changes. -/
theorem C124_shuffle (b : Build) {t : Store α} (ht : Store.Ok t) {l : Lv d} (hS : l.Sound t) (hV : l.Valid t)
    {cs : List Loc} (hp : Places l t cs) (hn : cs.Nodup) {xs : List α} (hx : cs.map t.read = xs.map Res.ok)
    {draw : Nat → Nat} (hd : DrawsBelow xs.length draw) :
    ∃ A t', l.build b t = .ok A ∧ Ops.shuffle b draw A t = (.ok (), t') ∧
      Leaves cs t t' (shuffled draw (xs.length - 1) xs) ∧ (shuffled draw (xs.length - 1) xs).Perm xs := by
  obtain ⟨A, h1, h2, h3, h4⟩ := object (b := b) ht hS hV hp
  obtain ⟨A', h1', hr⟩ := C124_legal (β := Unit) b ht hS hV hp hn hx
  rw [h1] at h1'
  cases h1'
  have hlen : cs.length = xs.length := by simpa using congrArg List.length hx
  obtain ⟨t', h5, h6⟩ := ((hr (fun _ => .index A) 0 rfl).2.2.2 _ _ _).1 (shuffle_legal hd (by omega))
  refine ⟨A, t', h1, ?_, h6, shuffled_perm _ _ _⟩
  simp only [Ops.shuffle, Op.get_bind, h3 t (SameSizes.refl t), Op.lift_ok_bind, hlen]
  exact h5

/-- **C124** Every order of different elements is the result of exactly one sequence of random numbers: if these are
equally likely, so are the orders. -/
theorem C124_uniform {xs ys : List α} (hn : xs.Nodup) (hp : ys.Perm xs) :
    ∃ draw, DrawsBelow xs.length draw ∧ shuffled draw (xs.length - 1) xs = ys ∧
      ∀ draw', DrawsBelow xs.length draw' → shuffled draw' (xs.length - 1) xs = ys →
        ∀ j, 1 ≤ j → j < xs.length → draw' j = draw j := by
  rcases Nat.eq_zero_or_pos xs.length with h0 | h0
  · have : xs = [] := List.length_eq_zero_iff.1 h0
    subst this
    exact ⟨fun _ => 0, fun j _ h => by simp at h, (List.perm_nil.1 hp).symm, fun _ _ _ j _ h => by simp at h⟩
  · obtain ⟨draw, h1, h2⟩ := shuffled_surj rfl hn (m := xs.length - 1) (by omega) hp (by
      intro k hk
      rw [List.getElem?_eq_none (by have := hp.length_eq; omega), List.getElem?_eq_none (by omega)])
    refine ⟨draw, h1, h2, fun draw' h3 h4 j h5 h6 => ?_⟩
    exact shuffled_inj h3 h1 rfl hn (m := xs.length - 1) (by omega) (h4.trans h2.symm) j h5 (by omega)

/-- **C124** The iterators of owning arrays point to consecutive elements, as contiguous iterators have to; but the
address of the end (`std::to_address`, `operator->`), which the standard also requires, traps in checked builds. -/
theorem C124_address (b : Build) (t : Store α) (id : Nat) {mem : Nat → Flag (Store α) Loc} {a : Nat}
    (ha : mem a = .index (Lv.acc1 α id)) :
    (∀ p : Nat, p < (t.a1 id).length → It.deref b mem (It.mk' a p) t = .ok (.one id p)) ∧
    (b.Checked → It.deref b mem (It.mk' a (t.a1 id).length) t = .trap b.kind) := by
  have hs : (mem a).size t = .ok ((t.a1 id).length : Int) := by rw [ha]; rfl
  refine ⟨fun p hp => ?_, fun hb => It.deref_out hb hs (by omega)⟩
  rw [It.mk', It.deref_ok b hs (by omega), ha]
  show (if (0 : Int) ≤ p ∧ (p : Int) < len (t.a1 id) then Res.ok (Loc.one id (p : Int).toNat) else .ub) = _
  rw [if_pos ⟨by omega, by unfold len; omega⟩]
  simp

/-! ## Examples

A sort that copies the elements, sorts the copy and writes it back. -/

namespace Copying

/-- Reading `m` elements. -/
def gather : Nat → Int → List α → (List α → Alg α β) → Alg α β
  | 0, _, acc, k => k acc
  | m + 1, p, acc, k => .read p fun x => .inc p fun q => gather m q (acc ++ [x]) k

/-- Writing the elements of a list. -/
def scatter : Int → List α → Alg α Unit
  | _, [] => .ret ()
  | p, x :: l => .write p x (.inc p fun q => scatter q l)

/-- Sorting a copy. -/
def sort (f : α → α → Bool) (first last : Int) : Alg α Unit :=
  .diff last first fun n => gather n.toNat first [] fun l => scatter first (l.mergeSort (fun x y => !f y x))

theorem gather_onList {l : List α} (k : List α → Alg α β) : ∀ (m i : Nat), i + m = l.length →
    onList 0 l.length (gather m i (l.take i) k) l = onList 0 l.length (k l) l := by
  intro m
  induction m with
  | zero => intro i h; simp [gather, List.take_of_length_le (show l.length ≤ i by omega)]
  | succ m ih =>
    intro i h
    simp only [gather, onList]
    rw [dif_pos (by omega), if_pos (by omega), ← ih (i + 1) (by omega), List.take_succ_eq_append_getElem (by omega)]
    simp

theorem scatter_onList {n : Nat} : ∀ (ys l : List α) (i : Nat), l.length = n → i + ys.length = n →
    onList 0 n (scatter i ys) l = .done () (l.take i ++ ys) := by
  intro ys
  induction ys with
  | nil =>
    intro l i h1 h2
    simp only [List.length_nil] at h2
    simp [scatter, onList, List.take_of_length_le (show l.length ≤ i by omega)]
  | cons y ys ih =>
    intro l i h1 h2
    simp only [List.length_cons] at h2
    simp only [scatter, onList]
    rw [if_pos (by omega), if_pos (by omega)]
    have := ih (l.set i y) (i + 1) (by simpa using h1) (by omega)
    rw [show ((i : Int) + 1) = ((i + 1 : Nat) : Int) by omega, Int.toNat_natCast, this,
      List.take_succ_eq_append_getElem (by simp; omega)]
    simp [List.take_set_of_le]

theorem sort_legal {f : α → α → Bool} {xs : List α} (hz : (xs.length : Int) < 2 ^ 63) :
    Legal (sort f 0 xs.length) xs () (xs.mergeSort (fun x y => !f y x)) := by
  unfold Legal sort
  simp only [onList]
  rw [if_pos (by unfold IsIndex; omega)]
  have h1 := gather_onList (l := xs) (fun l => scatter 0 (l.mergeSort (fun x y => !f y x))) xs.length 0 (by omega)
  have h2 := scatter_onList (xs.mergeSort (fun x y => !f y x)) xs 0 rfl (by simp)
  simpa using h1.trans h2

end Copying

section

open Sample

/-- The implementation is correct on arrays of the language. -/
theorem copying_sorts (f : α → α → Bool) (xs : List α) (hz : (xs.length : Int) < 2 ^ 63) (hf : StrictWeak f xs) :
    ∃ ys, Legal (Copying.sort f 0 xs.length) xs () ys ∧ ys.Perm xs ∧ ys.Pairwise (fun x y => f y x = false) :=
  ⟨_, Copying.sort_legal hz, stdSort_mergeSort f xs hf⟩

/-- Sorting the last row of the matrix in decreasing order, through `rbegin()` and `rend()`. -/
example : ∃ A t' ys, (Lv.view (.row (.at 1)) (.arr2 0)).build ⟨false, true, false⟩ store = .ok A ∧
    (Copying.sort (fun x y => decide (x < y)) 0 3).run
      (Walk.backward ⟨false, true, false⟩ (fun _ => .index A) 0 3) store = (.ok (), t') ∧
    Leaves [.two 0 3, .two 0 4, .two 0 5] store t' ys ∧ ys.Perm [4, 5, 6] ∧
    ys.Pairwise (fun x y => decide (x < y) = false) := by
  obtain ⟨A, h1, -, t', ys, h2⟩ := C124_sort ⟨false, true, false⟩ (copying_sorts (fun x y => decide (x < y)))
    store_ok (l := .view (.row (.at 1)) (.arr2 0)) (by decide) (by decide) (cs := [.two 0 3, .two 0 4, .two 0 5])
    ⟨rfl, by decide⟩ (by decide) (xs := [4, 5, 6]) rfl
    ⟨fun x _ => by simp, fun x _ y _ z _ h1 h2 => by simp at *; omega, fun x _ y _ z _ h1 h2 h3 h4 => by simp at *; omega⟩
  exact ⟨A, t', ys, h1, h2⟩

/-- A reversed view, shuffled with two random numbers. -/
example : ∃ A t', (Lv.view (.slice .reverse) (.arr1 0)).build ⟨false, true, false⟩ store = .ok A ∧
    Ops.shuffle ⟨false, true, false⟩ (fun j => if j = 1 then 0 else 2) A store = (.ok (), t') ∧
    Leaves [.one 0 2, .one 0 1, .one 0 0] store t' [2, 3, 1] ∧ [2, 3, 1].Perm [(3 : Int), 2, 1] :=
  C124_shuffle _ store_ok (l := .view (.slice .reverse) (.arr1 0)) (by decide) (by decide) (xs := [3, 2, 1])
    ⟨rfl, by decide⟩ (by decide) rfl (draw := fun j => if j = 1 then 0 else 2) (fun j h1 h2 => by
      have : j = 1 ∨ j = 2 := by simp at h2; omega
      rcases this with rfl | rfl <;> decide)

example : ∃ draw, DrawsBelow 3 draw ∧ shuffled draw 2 [1, 2, 3] = [3, 1, 2] ∧
    ∀ draw', DrawsBelow 3 draw' → shuffled draw' 2 [1, 2, 3] = [3, 1, 2] → ∀ j, 1 ≤ j → j < 3 → draw' j = draw j :=
  C124_uniform (xs := [1, 2, 3]) (by decide) (by decide)

example : ∃ A t', (Lv.view .diag (.arr2 0)).build ⟨false, true, false⟩ store = .ok A ∧
    (Alg.reverse 0 2).run (Walk.forward ⟨false, true, false⟩ (fun _ => .index A) 0) store = (.ok (), t') ∧
    Leaves [.two 0 0, .two 0 4] store t' [5, 1] :=
  C124_reverse _ store_ok (l := .view .diag (.arr2 0)) (by decide) (by decide) (xs := [1, 5])
    ⟨rfl, by decide⟩ (by decide) rfl

/-- A program that writes twice and then reads past the end: it traps, with both elements assigned. -/
example : ∃ A, (Lv.arr1 0).build ⟨false, true, false⟩ store = .ok A ∧ ∃ t',
    (Alg.write (β := Int) 0 7 (.writeAt 1 1 8 (.read 3 .ret))).run
      (Walk.forward ⟨false, true, false⟩ (fun _ => .index A) 0) store = (.trap .exception, t') ∧
    Leaves [.one 0 0, .one 0 1, .one 0 2] store t' [7, 2, 8] := by
  obtain ⟨A, h1, h2⟩ := C124_run (β := Int) ⟨false, true, false⟩ store_ok (l := .arr1 0) (by decide) (by decide)
    (cs := [.one 0 0, .one 0 1, .one 0 2]) ⟨rfl, by decide⟩ (by decide) (xs := [1, 2, 3]) rfl
  exact ⟨A, h1, ((h2 (fun _ => .index A) 0 rfl).2 _).2.1 (by decide) _ (by simp [onList])⟩

example : (Alg.accumulate (fun t x => t * 10 + x) 0 0 3).look
    (Walk.forward ⟨false, true, false⟩ (fun _ => .index (lit [1, 2, 3])) 0) () = .ok 123 ∧
    (Alg.accumulate (fun t x => t * 10 + x) 0 0 3).look
    (Walk.backward ⟨false, true, false⟩ (fun _ => .index (lit [1, 2, 3])) 0 3) () = .ok 321 :=
  C124_accumulate _ rfl (Shaped.elems (lit_shaped () [1, 2, 3])) (by decide) _ _

/-- The end of an array with three elements has no address in checked builds. -/
example : It.deref ⟨false, true, false⟩ (fun _ => .index (Lv.acc1 Int 0)) (It.mk' 0 3) store = .trap .exception :=
  (C124_address ⟨false, true, false⟩ store 0 rfl).2 (by decide)

end

end Spp.Props
