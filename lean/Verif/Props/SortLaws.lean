import Verif.Model.SortStmt
import Verif.Spec.SortLaws
import Verif.Props.Algorithm
import Verif.Props.Select
import Verif.Lemmas.Alias
import Mathlib.Data.List.Sort

/- Laws of sorting (C131): what the elements come to does not depend on the order in which they were. -/

set_option linter.unusedSectionVars false

namespace Spp.Props
open Spec

variable {α : Type} {d : Dim}

theorem ok_list_inj {xs ys : List α} (h : xs.map (Res.ok : α → Res α) = ys.map Res.ok) : xs = ys :=
  List.map_inj_right (fun _ _ h => Res.ok.inj h) |>.1 h

/-- Two states that come from the same state, or from states that differ in the order of some elements only, and hold
the same values at these places, are equal. -/
theorem leaves_unique {cs : List Loc} {t u v w : Store α} {ys : List α} (hs : SameSizes t u)
    (ho : ∀ c, c ∉ cs → t.read c = u.read c) (h1 : Leaves cs t v ys) (h2 : Leaves cs u w ys) : v = w := by
  refine store_ext (SameSizes.trans (SameSizes.symm h1.1) (SameSizes.trans hs h2.1)) fun c => ?_
  by_cases hc : c ∈ cs
  · have e : cs.map v.read = cs.map w.read := h1.2.1.trans h2.2.1.symm
    exact List.map_inj_left.1 e c hc
  · rw [h1.2.2 c hc, h2.2.2 c hc, ho c hc]

theorem places_of_same {l : Lv d} {t u : Store α} {cs : List Loc} (h : SameSizes t u) (hp : Places l t cs) :
    Places l u cs := by
  refine ⟨by rw [l.cells_same h]; exact hp.1, fun c hc => ?_⟩
  have := hp.2 c hc
  cases c with
  | one id k =>
    have h1 := h.1 id
    simp only [Loc.Valid] at this ⊢
    omega
  | two id k =>
    have h1 := (h.2 id).2.2
    simp only [Loc.Valid] at this ⊢
    omega

theorem op_then {p q : Op (Store α) Unit} {t t' : Store α} (h : p t = (.ok (), t')) :
    (do p; q : Op (Store α) Unit) t = q t' := by
  rw [Op.bind_run, h]

section

variable [LinearOrder α] {sc : Scalar α} {srt : (α → α → Bool) → List α → List α} {t : Store α} {l : Lv d}
  {cs : List Loc} {xs : List α}

theorem sortUp_leaves (ho : Ordered sc) (b : Build) (hs : StdSort srt) (ht : Store.Ok t)
    (hS : l.Sound t) (hV : l.Valid t) (hp : Places l t cs) (hn : cs.Nodup) (hx : cs.map t.read = xs.map Res.ok) :
    ∃ ys t', sortUp b srt sc l t = (.ok (), t') ∧ Leaves cs t t' ys ∧ ys.Perm xs ∧ ys.Pairwise (· ≤ ·) := by
  obtain ⟨a, ys, t', h1, h2, h3, h4, h5, h6, h7⟩ := (C57_increasing ho b hs ht hS hV hp hn hx).1
  refine ⟨ys, t', ?_, ⟨h3, h4, h7⟩, h5, h6⟩
  simp only [sortUp, Op.get_bind, h1, Op.lift_ok_bind, h2]

theorem sortDown_leaves (ho : Ordered sc) (b : Build) (hs : StdSort srt) (ht : Store.Ok t)
    (hS : l.Sound t) (hV : l.Valid t) (hp : Places l t cs) (hn : cs.Nodup) (hx : cs.map t.read = xs.map Res.ok) :
    ∃ ys t', sortDown b srt sc l t = (.ok (), t') ∧ Leaves cs t t' ys ∧ ys.Perm xs ∧ ys.Pairwise (· ≥ ·) := by
  obtain ⟨a, ys, t', h1, h2, h3, h4, h5, h6, h7⟩ := (C57_increasing ho b hs ht hS hV hp hn hx).2
  refine ⟨ys, t', ?_, ⟨h3, h4, h7⟩, h5, h6⟩
  simp only [sortDown, Op.get_bind, h1, Op.lift_ok_bind, h2]

/-- C131: `sort_increasing` of an array or view without repeated elements gives the same state for any two orders of
the elements, in any two builds and with any two implementations of `std::sort`; so does `sort_decreasing`. -/
theorem C131_canonical (ho : Ordered sc) (b b' : Build) {srt' : (α → α → Bool) → List α → List α} (hs : StdSort srt)
    (hs' : StdSort srt') (ht : Store.Ok t) (hS : l.Sound t) (hV : l.Valid t) (hp : Places l t cs) (hn : cs.Nodup)
    {u : Store α} (hr : Rearranged cs t u) :
    sortUp b srt sc l t = sortUp b' srt' sc l u ∧ sortDown b srt sc l t = sortDown b' srt' sc l u := by
  obtain ⟨r1, ⟨xs, ys, r2, r3, r4⟩, r5⟩ := hr
  have hp' : Places l u cs := places_of_same r1 hp
  have hu := ok_same r1 ht
  have hS' := Lv.sound_same r1 hS
  have hV' := Lv.valid_same r1 hV
  constructor
  · obtain ⟨zs, v, e1, h1, h2, h3⟩ := sortUp_leaves ho b hs ht hS hV hp hn r2
    obtain ⟨ws, w, e2, k1, k2, k3⟩ := sortUp_leaves ho b' hs' hu hS' hV' hp' hn r3
    have : zs = ws := (h2.trans (r4.trans k2.symm)).eq_of_pairwise' h3 k3
    subst this
    rw [e1, e2, leaves_unique r1 r5 h1 k1]
  · obtain ⟨zs, v, e1, h1, h2, h3⟩ := sortDown_leaves ho b hs ht hS hV hp hn r2
    obtain ⟨ws, w, e2, k1, k2, k3⟩ := sortDown_leaves ho b' hs' hu hS' hV' hp' hn r3
    have : zs = ws := (h2.trans (r4.trans k2.symm)).eq_of_pairwise' h3 k3
    subst this
    rw [e1, e2, leaves_unique r1 r5 h1 k1]

/-- C131: sorting what is in order already changes nothing. -/
theorem C131_in_order (ho : Ordered sc) (b : Build) (hs : StdSort srt) (ht : Store.Ok t) (hS : l.Sound t)
    (hV : l.Valid t) (hp : Places l t cs) (hn : cs.Nodup) (hx : cs.map t.read = xs.map Res.ok) :
    (xs.Pairwise (· ≤ ·) → sortUp b srt sc l t = (.ok (), t)) ∧
    (xs.Pairwise (· ≥ ·) → sortDown b srt sc l t = (.ok (), t)) := by
  have ht0 : Leaves cs t t xs := ⟨SameSizes.refl t, hx, fun _ _ => rfl⟩
  constructor
  · intro h
    obtain ⟨zs, v, e1, h1, h2, h3⟩ := sortUp_leaves ho b hs ht hS hV hp hn hx
    have : zs = xs := h2.eq_of_pairwise' h3 h
    subst this
    rw [e1, leaves_unique (SameSizes.refl t) (fun _ _ => rfl) h1 ht0]
  · intro h
    obtain ⟨zs, v, e1, h1, h2, h3⟩ := sortDown_leaves ho b hs ht hS hV hp hn hx
    have : zs = xs := h2.eq_of_pairwise' h3 h
    subst this
    rw [e1, leaves_unique (SameSizes.refl t) (fun _ _ => rfl) h1 ht0]

theorem rearranged_of_leaves {v : Store α} {ys : List α} (hx : cs.map t.read = xs.map Res.ok) (h : Leaves cs t v ys)
    (hp : ys.Perm xs) : Rearranged cs t v :=
  ⟨h.1, ⟨xs, ys, hx, h.2.1, hp.symm⟩, fun c hc => (h.2.2 c hc).symm⟩

/-- C131: `sort_increasing` after `shuffle`, `sort_decreasing` or `sort_increasing` of the same array or view does
what it does without. -/
theorem C131_after (ho : Ordered sc) (b : Build) (hs : StdSort srt) (ht : Store.Ok t) (hS : l.Sound t)
    (hV : l.Valid t) (hp : Places l t cs) (hn : cs.Nodup) (hx : cs.map t.read = xs.map Res.ok) :
    (∀ draw, DrawsBelow xs.length draw →
      (do shuffleView b draw l; sortUp b srt sc l : Op (Store α) Unit) t = sortUp b srt sc l t) ∧
    (do sortDown b srt sc l; sortUp b srt sc l : Op (Store α) Unit) t = sortUp b srt sc l t ∧
    (do sortUp b srt sc l; sortUp b srt sc l : Op (Store α) Unit) t = sortUp b srt sc l t := by
  refine ⟨fun draw hd => ?_, ?_, ?_⟩
  · obtain ⟨A, t', e1, e2, e3, e4⟩ := C124_shuffle b ht hS hV hp hn hx hd
    have e : shuffleView b draw l t = (.ok (), t') := by
      simp only [shuffleView, Op.get_bind, e1, Op.lift_ok_bind, e2]
    refine (op_then e).trans ?_
    exact ((C131_canonical ho b b hs hs ht hS hV hp hn (rearranged_of_leaves hx e3 e4)).1).symm
  · obtain ⟨ys, t', e, e3, e4, _⟩ := sortDown_leaves ho b hs ht hS hV hp hn hx
    refine (op_then e).trans ?_
    exact ((C131_canonical ho b b hs hs ht hS hV hp hn (rearranged_of_leaves hx e3 e4)).1).symm
  · obtain ⟨ys, t', e, e3, e4, _⟩ := sortUp_leaves ho b hs ht hS hV hp hn hx
    refine (op_then e).trans ?_
    exact ((C131_canonical ho b b hs hs ht hS hV hp hn (rearranged_of_leaves hx e3 e4)).1).symm

/-- C131: `sort_decreasing` leaves the elements in the opposite order of `sort_increasing`. -/
theorem C131_opposite (ho : Ordered sc) (b : Build) (hs : StdSort srt) (ht : Store.Ok t) (hS : l.Sound t)
    (hV : l.Valid t) (hp : Places l t cs) (hn : cs.Nodup) (hx : cs.map t.read = xs.map Res.ok) :
    ∃ ys : List α, cs.map (sortUp b srt sc l t).2.read = ys.map Res.ok ∧
      cs.map (sortDown b srt sc l t).2.read = ys.reverse.map Res.ok := by
  obtain ⟨ys, v, e1, h1, h2, h3⟩ := sortUp_leaves ho b hs ht hS hV hp hn hx
  obtain ⟨zs, w, e2, k1, k2, k3⟩ := sortDown_leaves ho b hs ht hS hV hp hn hx
  have : zs = ys.reverse :=
    (k2.trans (h2.symm.trans ys.reverse_perm.symm)).eq_of_pairwise' k3 (List.pairwise_reverse.2 h3)
  refine ⟨ys, ?_, ?_⟩
  · rw [e1]; exact h1.2.1
  · rw [e2, ← this]; exact k1.2.1

/-- C131: after `sort_increasing` element `k` is the one with at most `k` smaller ones among the elements and more than
`k` that are not greater: element 0 is the minimum, the last one the maximum, the middle one the median. -/
theorem C131_rank (ho : Ordered sc) (b : Build) (hs : StdSort srt) (ht : Store.Ok t) (hS : l.Sound t)
    (hV : l.Valid t) (hp : Places l t cs) (hn : cs.Nodup) (hx : cs.map t.read = xs.map Res.ok)
    {k : Nat} (hk : k < cs.length) :
    ∃ y ∈ xs, (sortUp b srt sc l t).2.read cs[k] = .ok y ∧
      xs.countP (· < y) ≤ k ∧ k < xs.countP (· ≤ y) := by
  obtain ⟨ys, v, e1, h1, h2, h3⟩ := sortUp_leaves ho b hs ht hS hV hp hn hx
  have hl : ys.length = cs.length := by simpa using (congrArg List.length h1.2.1).symm
  have hk' : k < ys.length := by omega
  have er : (sortUp b srt sc l t).2.read cs[k] = .ok ys[k] := by
    rw [e1]
    have := congrArg (fun l => l[k]?) h1.2.1
    simp only [List.getElem?_map, List.getElem?_eq_getElem hk, List.getElem?_eq_getElem hk', Option.map_some,
      Option.some.injEq] at this
    exact this
  have hsp : ys = ys.take k ++ ys[k] :: ys.drop (k + 1) := by
    rw [List.getElem_cons_drop, List.take_append_drop]
  have hpw := h3
  rw [hsp, List.pairwise_append] at hpw
  obtain ⟨q1, q2, q3⟩ := hpw
  rw [List.pairwise_cons] at q2
  refine ⟨ys[k], h2.mem_iff.1 (List.getElem_mem hk'), er, ?_, ?_⟩
  · rw [← h2.countP_eq]
    generalize hy : ys[k] = y at *
    rw [hsp, List.countP_append, List.countP_cons]
    have z : (ys.drop (k + 1)).countP (· < y) = 0 := List.countP_eq_zero.2 fun x hx => by simpa using q2.1 x hx
    have : (ys.take k).countP (· < y) ≤ (ys.take k).length := List.countP_le_length
    rw [List.length_take] at this
    simp only [z, lt_self_iff_false, decide_false, Bool.false_eq_true, if_false]
    omega
  · rw [← h2.countP_eq]
    generalize hy : ys[k] = y at *
    rw [hsp, List.countP_append, List.countP_cons]
    have z : (ys.take k).countP (· ≤ y) = (ys.take k).length :=
      List.countP_eq_length.2 fun x hx => by simpa using q3 x hx y (by simp)
    rw [z, List.length_take]
    simp only [le_refl, decide_true, if_true]
    omega

end

/-! ### Non-vacuity -/

section
open Sample

private theorem ints_ordered : Ordered intScalar :=
  ⟨fun _ _ => decide_eq_true_iff, fun _ _ => decide_eq_true_iff, fun _ _ => decide_eq_true_iff⟩

/-- The one-dimensional array in the opposite order: 3, 2, 1. -/
private def turned : Store Int := ⟨fun i => if i = 0 then [3, 2, 1] else store.a1 i, store.a2⟩

private theorem turned_same : SameSizes store turned := by
  refine ⟨fun id => ?_, fun id => ⟨rfl, rfl, rfl⟩⟩
  by_cases h : id = 0
  · subst h; rfl
  · simp [turned, h]

private theorem turned_rearranged : Rearranged [.one 0 2, .one 0 1, .one 0 0] store turned := by
  refine ⟨turned_same, ⟨[3, 2, 1], [1, 2, 3], rfl, rfl, by decide⟩, fun c hc => ?_⟩
  cases c with
  | two id k => rfl
  | one id k =>
    by_cases h : id = 0
    · subst h
      have hk : 3 ≤ k := by
        rcases k with _ | _ | _ | k
        · simp at hc
        · simp at hc
        · simp at hc
        · omega
      have e1 : (store.a1 0)[k]? = none := List.getElem?_eq_none hk
      have e2 : (turned.a1 0)[k]? = none := List.getElem?_eq_none hk
      simp only [Store.read, rd, Int.toNat_natCast, e1, e2]
    · simp [Store.read, turned, h]

/-- Sorting the reversed array gives the same from 1, 2, 3 and from 3, 2, 1, in a checked and in a release build. -/
example : sortUp ⟨false, true, false⟩ (fun f l => l.mergeSort (fun x y => !f y x)) intScalar
      (.view (.slice .reverse) (.arr1 0)) store =
    sortUp ⟨true, true, false⟩ (fun f l => l.mergeSort (fun x y => !f y x)) intScalar
      (.view (.slice .reverse) (.arr1 0)) turned :=
  (C131_canonical ints_ordered _ _ stdSort_mergeSort stdSort_mergeSort store_ok (by decide) (by decide)
    ⟨rfl, by decide⟩ (by decide) turned_rearranged).1

/-- The diagonal 1, 5 of the matrix is in increasing order. -/
example : sortUp ⟨false, true, false⟩ (fun f l => l.mergeSort (fun x y => !f y x)) intScalar
    (.view .diag (.arr2 0)) store = (.ok (), store) :=
  (C131_in_order (xs := [1, 5]) ints_ordered _ stdSort_mergeSort store_ok (by decide) (by decide)
    ⟨rfl, by decide⟩ (cs := [.two 0 0, .two 0 4]) (by decide) rfl).1 (by decide)

/-- Shuffling the reversed array before it is sorted makes no difference. -/
example : (do
      shuffleView ⟨false, true, false⟩ (fun j => if j = 1 then 0 else 2) (.view (.slice .reverse) (.arr1 0))
      sortUp ⟨false, true, false⟩ (fun f l => l.mergeSort (fun x y => !f y x)) intScalar
        (.view (.slice .reverse) (.arr1 0)) : Op (Store Int) Unit) store =
    sortUp ⟨false, true, false⟩ (fun f l => l.mergeSort (fun x y => !f y x)) intScalar
      (.view (.slice .reverse) (.arr1 0)) store :=
  (C131_after (xs := [3, 2, 1]) ints_ordered _ stdSort_mergeSort store_ok (by decide) (by decide)
    ⟨rfl, by decide⟩ (cs := [.one 0 2, .one 0 1, .one 0 0]) (by decide) rfl).1 _ (fun j h1 h2 => by
      have : j = 1 ∨ j = 2 := by simp at h2; omega
      rcases this with rfl | rfl <;> decide)

example : ∃ ys : List Int, [Loc.two 0 3, .two 0 4, .two 0 5].map (sortUp ⟨false, true, false⟩
      (fun f l => l.mergeSort (fun x y => !f y x)) intScalar (.view (.row (.at 1)) (.arr2 0)) store).2.read =
        ys.map Res.ok ∧
    [Loc.two 0 3, .two 0 4, .two 0 5].map (sortDown ⟨false, true, false⟩
      (fun f l => l.mergeSort (fun x y => !f y x)) intScalar (.view (.row (.at 1)) (.arr2 0)) store).2.read =
        ys.reverse.map Res.ok :=
  C131_opposite (xs := [4, 5, 6]) ints_ordered _ stdSort_mergeSort store_ok (by decide) (by decide)
    ⟨rfl, by decide⟩ (by decide) rfl

/-- The middle one of the three elements of the reversed array is the median. -/
example : ∃ y ∈ [(3 : Int), 2, 1], (sortUp ⟨false, true, false⟩ (fun f l => l.mergeSort (fun x y => !f y x))
      intScalar (.view (.slice .reverse) (.arr1 0)) store).2.read (.one 0 1) = .ok y ∧
    [(3 : Int), 2, 1].countP (· < y) ≤ 1 ∧ 1 < [(3 : Int), 2, 1].countP (· ≤ y) :=
  C131_rank (xs := [3, 2, 1]) ints_ordered _ stdSort_mergeSort store_ok (by decide) (by decide)
    ⟨rfl, by decide⟩ (cs := [.one 0 2, .one 0 1, .one 0 0]) (by decide) rfl (k := 1) (by decide)

end

end Spp.Props
