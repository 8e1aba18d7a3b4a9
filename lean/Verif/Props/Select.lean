import Verif.Props.Extrema
import Verif.Props.Assign

/-
Selecting the elements in an interval (C09), sorting (C57), visiting every element (C71), copying out
(C72).
-/

set_option linter.unusedSectionVars false

namespace Spp.Props
open Spec

variable {σ α β : Type} {d : Dim} {s : σ}

/-! ### Selections -/

/-- The loop that collects the indexes. -/
theorem collect_eq {value : Acc σ α} {l : List α} (h : Elems .one value s l) (f : α → Bool) (n : Nat)
    (hn : n ≤ l.length) :
    foldN n (fun i (idx : List Int) => do
      let x ← value.un s i
      pure (if f x then idx ++ [(i : Int)] else idx)) [] =
    .ok (((List.range n).filter (fun i => match l[i]? with | some x => f x | none => false)).map
      (fun i : Nat => (i : Int))) := by
  induction n with
  | zero => rfl
  | succ n ih =>
    rw [foldN_succ, ih (by omega), Res.ok_bind, Elems.un h (by omega), Res.ok_bind, List.range_succ,
      List.filter_append, List.map_append]
    have e : l[n]? = some l[n] := List.getElem?_eq_getElem (by omega)
    show Res.ok (if f l[n] = true then _ else _) = _
    cases hf : f l[n] with
    | true => simp [List.filter_cons, e, hf]
    | false => simp [List.filter_cons, e, hf]

theorem filter_pick {γ : Type} (ps : List γ) (l : List α) (hlen : ps.length = l.length) (f : α → Bool)
    (m : Nat) (g : Nat → Res γ) (hg : ∀ i, g (m + i) = match ps[i]? with | some x => .ok x | none => .ub) :
    ((List.range' m l.length).filter (fun i => match l[i - m]? with | some x => f x | none => false)).map g =
      (((ps.zip l).filter (fun q => f q.2)).map (·.1)).map Res.ok := by
  induction l generalizing ps m with
  | nil => simp
  | cons x xs ih => cases ps with
    | nil => simp at hlen
    | cons p ps =>
      have h0 : g m = .ok p := by have := hg 0; simpa using this
      have hrest := ih ps (by simpa using hlen) (m + 1) (fun i => by
        have := hg (i + 1)
        rw [List.getElem?_cons_succ] at this
        rw [← this]; congr 1; omega)
      have hcong : (List.range' (m + 1) xs.length).filter (fun i =>
          match (x :: xs)[i - m]? with | some x => f x | none => false) =
          (List.range' (m + 1) xs.length).filter (fun i =>
            match xs[i - (m + 1)]? with | some x => f x | none => false) := by
        refine List.filter_congr fun i hi => ?_
        rw [List.mem_range'_1] at hi
        have : i - m = (i - (m + 1)) + 1 := by omega
        rw [this, List.getElem?_cons_succ]
      rw [List.length_cons, List.range'_succ, List.filter_cons, List.zip_cons_cons, List.filter_cons]
      simp only [Nat.sub_self, List.getElem?_cons_zero]
      rw [hcong]
      cases f x with
      | true => simp only [if_true, List.map_cons, h0, hrest]
      | false => simpa using hrest

/-- C09: `in_cond_range(A, f)` is never rejected and refers to exactly the elements that satisfy `f`,
in their order.  `place` is `A` and `ps` what its elements are (places for an assignable object, values
for an expression), `l` their values. -/
theorem C09_in_cond_range (b : Build) {place : Acc σ β} {value : Acc σ α} {ps : List β} {l : List α}
    (hp : Elems .one place s ps) (hv : Elems .one value s l) (hlen : ps.length = l.length)
    (hsmall : (l.length : Int) < 2 ^ 63 - 1) (f : α → Bool) :
    ∃ v, Ops.inCondRange b f place value s = .ok v ∧
      Elems .one v s (((ps.zip l).filter (fun q => f q.2)).map (·.1)) := by
  unfold Ops.inCondRange
  have hr : place.rows s = (ps.length : Int) := Elems.rows hp
  rw [hr, Int.toNat_natCast, hlen, collect_eq hv f _ (Nat.le_refl _), Res.ok_bind]
  obtain ⟨X, hX, hXf⟩ := hp
  change X = ps.map Res.ok at hXf
  subst hXf
  obtain ⟨v, h1, h2⟩ := mkSlice1_ok b (a := place) (s0 := s) (n := l.length)
    (r := .vec (((List.range l.length).filter
      (fun i => match l[i]? with | some x => f x | none => false)).map (fun i : Nat => (i : Int))))
    (by rw [hr, hlen]) hsmall
    (by
      intro i hi
      rw [List.mem_map] at hi
      obtain ⟨k, hk, rfl⟩ := hi
      have := List.mem_range.1 (List.mem_filter.1 hk).1
      unfold IsIndex; omega)
    (by
      intro i hi
      rw [List.mem_map] at hi
      obtain ⟨k, hk, rfl⟩ := hi
      have := List.mem_range.1 (List.mem_filter.1 hk).1
      constructor <;> omega)
  refine ⟨v, h1, _, h2 s (ps.map Res.ok) (by rw [List.length_map, hlen]) (linDen_of (d := .one) hX), ?_⟩
  have key := filter_pick ps l hlen f 0 (fun i => pick (ps.map Res.ok) (i : Int)) (fun i => by
    rw [Nat.zero_add, pick_nat, List.getD_eq_getElem?_getD, List.getElem?_map]
    cases ps[i]? <;> rfl)
  rw [← key]
  show List.map _ (List.map _ _) = _
  rw [List.map_map, List.range_eq_range']
  rfl

/-- C09: `in_open_range` and `in_closed_range` refer to exactly the elements strictly (weakly) between
the bounds, in their order; bounds in the wrong order are rejected by checked builds. -/
theorem C09_ranges [LinearOrder α] {sc : Scalar α} (ho : Ordered sc) (b : Build) {place : Acc σ β}
    {value : Acc σ α} {ps : List β} {l : List α} (hp : Elems .one place s ps)
    (hv : Elems .one value s l) (hlen : ps.length = l.length) (hsmall : (l.length : Int) < 2 ^ 63 - 1)
    (low high : α) :
    (low ≤ high →
      (∃ v, Ops.inOpenRange b sc low high place value s = .ok v ∧
        Elems .one v s (((ps.zip l).filter (fun q => low < q.2 ∧ q.2 < high)).map (·.1))) ∧
      ∃ v, Ops.inClosedRange b sc low high place value s = .ok v ∧
        Elems .one v s (((ps.zip l).filter (fun q => low ≤ q.2 ∧ q.2 ≤ high)).map (·.1))) ∧
    (b.Checked → ¬ low ≤ high →
      Ops.inOpenRange b sc low high place value s = .trap b.kind ∧
      Ops.inClosedRange b sc low high place value s = .trap b.kind) := by
  have elt : ∀ u v, sc.lt u v = decide (u < v) := fun u v => by
    rw [Bool.eq_iff_iff, ho.lt, decide_eq_true_iff]
  have ele : ∀ u v, sc.le u v = decide (u ≤ v) := fun u v => by
    rw [Bool.eq_iff_iff, ho.le, decide_eq_true_iff]
  unfold Ops.inOpenRange Ops.inClosedRange
  rw [ele]
  refine ⟨fun h => ?_, fun hb h => ?_⟩
  · rw [decide_eq_true h, assertDebug_true]
    simp only [Res.ok_bind, elt, ele, Bool.decide_and]
    exact ⟨C09_in_cond_range b hp hv hlen hsmall _, C09_in_cond_range b hp hv hlen hsmall _⟩
  · rw [decide_eq_false h, assertDebug_false hb]
    exact ⟨rfl, rfl⟩

/-- C09: for an expression, whose elements are values: `filter`. -/
theorem C09_values (b : Build) {a : Acc σ α} {l : List α} (h : Elems .one a s l)
    (hsmall : (l.length : Int) < 2 ^ 63 - 1) (f : α → Bool) :
    ∃ v, Ops.inCondRange b f a a s = .ok v ∧ Elems .one v s (l.filter f) := by
  obtain ⟨v, h1, h2⟩ := C09_in_cond_range b h h rfl hsmall f
  have e : ((l.zip l).filter (fun q => f q.2)).map (·.1) = l.filter f := by
    clear h h1 h2 hsmall
    induction l with
    | nil => rfl
    | cons x xs ih =>
      rw [List.zip_cons_cons, List.filter_cons, List.filter_cons]
      cases f x with
      | true => simp only [if_true, List.map_cons]; rw [ih]
      | false => simpa using ih
  rw [e] at h2
  exact ⟨v, h1, h2⟩

/-! ### Sorting -/

theorem lastWrite_zip {cs : List Loc} {ys : List α} (hn : cs.Nodup) (hl : cs.length = ys.length) {i : Nat}
    (hi : i < cs.length) : lastWrite (cs.zip ys) cs[i] = some (ys[i]'(by omega)) := by
  induction cs generalizing ys i with
  | nil => simp at hi
  | cons c cs ih => cases ys with
    | nil => simp at hl
    | cons y ys =>
      rw [List.nodup_cons] at hn
      cases i with
      | zero =>
        show (match lastWrite (cs.zip ys) c with | some y => some y | none => if c = c then some y else none) = _
        rw [lastWrite_none (fun q hq e => hn.1 (by rw [← e]; exact (List.of_mem_zip hq).1)), if_pos rfl]
        rfl
      | succ i =>
        have hi' : i < cs.length := by simpa using hi
        show (match lastWrite (cs.zip ys) cs[i] with | some y => some y | none => _) = _
        rw [ih hn.2 (by simpa using hl) hi']
        rfl

theorem readAll_eq {t : Store α} {a : Acc (Store α) Loc} {cs : List Loc} {xs : List α}
    (h : Elems d a t cs) (hx : cs.map t.read = xs.map Res.ok) :
    foldN cs.length (fun i (l : List α) => do
      let p ← a.un t i
      let x ← t.read p
      pure (l ++ [x])) [] = .ok xs := by
  have hlen : cs.length = xs.length := by simpa using congrArg List.length hx
  have key : ∀ n, n ≤ cs.length → foldN n (fun i (l : List α) => do
      let p ← a.un t i
      let x ← t.read p
      pure (l ++ [x])) [] = .ok (xs.take n) := by
    intro n
    induction n with
    | zero => intro _; rfl
    | succ n ih =>
      intro hn
      rw [foldN_succ, ih (by omega), Res.ok_bind, Elems.un h (by omega), Res.ok_bind]
      have hr : t.read cs[n] = .ok xs[n] := by
        have := congrArg (fun l => l[n]?) hx
        simp only [List.getElem?_map, List.getElem?_eq_getElem (show n < cs.length by omega),
          List.getElem?_eq_getElem (show n < xs.length by omega), Option.map_some] at this
        exact Option.some.inj this
      rw [hr, Res.ok_bind, List.take_succ_eq_append_getElem (by omega)]
      rfl
  rw [key _ (Nat.le_refl _), hlen, List.take_length]

/-- C57: `sort(A, f)` for a strict weak order on the elements, on an object whose elements are different places (any
array, any view without repeated indexes): the elements become a sorted rearrangement of what they
were, and nothing else changes. -/
theorem C57_sort (b : Build) {srt : (α → α → Bool) → List α → List α} (hs : StdSort srt)
    {f : α → α → Bool} {t : Store α} (ht : Store.Ok t) {l : Lv d} (hS : l.Sound t)
    (hV : l.Valid t) {cs : List Loc} (hp : Places l t cs) (hn : cs.Nodup) {xs : List α}
    (hx : cs.map t.read = xs.map Res.ok) (hf : StrictWeak f xs) :
    ∃ (a : Acc (Store α) Loc) (ys : List α) (t' : Store α), l.build b t = .ok a ∧ Ops.sort srt f a t = (.ok (), t') ∧ SameSizes t t' ∧
      cs.map t'.read = ys.map Res.ok ∧ ys.Perm xs ∧ ys.Pairwise (fun x y => f y x = false) ∧
      ∀ c, c ∉ cs → t'.read c = t.read c := by
  obtain ⟨_, a, h1, h2⟩ := l.main b ht hS hV
  have hE : Elems d a t cs := ⟨_, h2 t (SameSizes.refl t), hp.1⟩
  have hlen : cs.length = xs.length := by simpa using congrArg List.length hx
  obtain ⟨p1, p2⟩ := hs f xs hf
  have hl : (srt f xs).length = cs.length := by rw [p1.length_eq, hlen]
  obtain ⟨w1, w2⟩ := writes_ok (copyList_writes hp h2 hl)
  refine ⟨a, srt f xs, (copyList a (srt f xs) t).2, h1, ?_, w2.1, ?_, p1, p2, ?_⟩
  · unfold Ops.sort
    simp only [Op.get_bind, Elems.size hE, Op.lift_ok_bind, Int.toNat_natCast, readAll_eq hE hx]
    exact Prod.ext w1 rfl
  · apply List.ext_getElem
    · simp [hl]
    · intro i hi1 hi2
      simp only [List.length_map] at hi1 hi2
      simp only [List.getElem_map]
      rw [w2.2, lastWrite_zip hn hl.symm hi1]
  · intro c hc
    rw [w2.2, lastWrite_none (fun q hq e => hc (by
      have := List.of_mem_zip hq
      rw [← e]; exact this.1))]

theorem strictWeak_lt [LinearOrder α] {sc : Scalar α} (ho : Ordered sc) :
    ∀ l, StrictWeak (fun x y => sc.lt x y) l ∧ StrictWeak (fun x y => sc.lt y x) l := by
  intro l
  have elt : ∀ u v, sc.lt u v = decide (u < v) := fun u v => by
    rw [Bool.eq_iff_iff, ho.lt, decide_eq_true_iff]
  refine ⟨⟨fun x _ => ?_, fun x _ y _ z _ => ?_, fun x _ y _ z _ => ?_⟩,
    ⟨fun x _ => ?_, fun x _ y _ z _ => ?_, fun x _ y _ z _ => ?_⟩⟩ <;>
    simp only [elt, decide_eq_true_iff, decide_eq_false_iff_not, not_lt]
  · exact le_refl x
  · exact lt_trans
  · exact fun h1 _ h3 _ => le_trans h3 h1
  · exact le_refl x
  · exact fun h1 h2 => lt_trans h2 h1
  · exact fun h1 _ h3 _ => le_trans h1 h3

/-- C57: `sort_increasing` and `sort_decreasing` of a type without NaN leave the elements in weakly
increasing (decreasing) order. -/
theorem C57_increasing [LinearOrder α] {sc : Scalar α} (ho : Ordered sc) (b : Build)
    {srt : (α → α → Bool) → List α → List α} (hs : StdSort srt) {t : Store α} (ht : Store.Ok t) {l : Lv d}
    (hS : l.Sound t) (hV : l.Valid t) {cs : List Loc} (hp : Places l t cs) (hn : cs.Nodup) {xs : List α}
    (hx : cs.map t.read = xs.map Res.ok) :
    (∃ (a : Acc (Store α) Loc) (ys : List α) (t' : Store α), l.build b t = .ok a ∧
      Ops.sortIncreasing srt sc a t = (.ok (), t') ∧ SameSizes t t' ∧ cs.map t'.read = ys.map Res.ok ∧
      ys.Perm xs ∧ ys.Pairwise (· ≤ ·) ∧ ∀ c, c ∉ cs → t'.read c = t.read c) ∧
    (∃ (a : Acc (Store α) Loc) (ys : List α) (t' : Store α), l.build b t = .ok a ∧
      Ops.sortDecreasing srt sc a t = (.ok (), t') ∧ SameSizes t t' ∧ cs.map t'.read = ys.map Res.ok ∧
      ys.Perm xs ∧ ys.Pairwise (· ≥ ·) ∧ ∀ c, c ∉ cs → t'.read c = t.read c) := by
  have elt : ∀ u v, sc.lt u v = false ↔ v ≤ u := fun u v => by
    rw [Bool.eq_false_iff, ne_eq, ho.lt, not_lt]
  obtain ⟨s1, s2⟩ := strictWeak_lt ho xs
  constructor
  · obtain ⟨a, ys, t', h1, h2, h3, h4, h5, h6, h7⟩ := C57_sort b hs ht hS hV hp hn hx s1
    exact ⟨a, ys, t', h1, h2, h3, h4, h5, h6.imp (fun h => (elt _ _).1 h), h7⟩
  · obtain ⟨a, ys, t', h1, h2, h3, h4, h5, h6, h7⟩ := C57_sort b hs ht hS hV hp hn hx s2
    exact ⟨a, ys, t', h1, h2, h3, h4, h5, h6.imp (fun h => (elt _ _).1 h), h7⟩

/-- Merge sort is such a function. -/
theorem stdSort_mergeSort : StdSort (α := α) (fun f l => l.mergeSort (fun x y => !f y x)) := by
  intro f l hf
  refine ⟨List.mergeSort_perm l _, ?_⟩
  have e : l.mergeSort (fun x y => !f y x) =
      (l.attach.mergeSort (fun x y => !f y.1 x.1)).map Subtype.val := by
    rw [List.map_mergeSort (s := fun x y => !f y x) (fun _ _ _ _ => rfl), List.attach_map_subtype_val]
  show List.Pairwise _ (l.mergeSort fun x y => !f y x)
  rw [e, List.pairwise_map]
  have h := List.pairwise_mergeSort (le := fun (x y : {x // x ∈ l}) => !f y.1 x.1)
    (fun x y z => ?_) (fun x y => ?_) l.attach
  · exact h.imp (fun h => by simpa using h)
  · -- negative transitivity from the three laws
    obtain ⟨x, hx⟩ := x
    obtain ⟨y, hy⟩ := y
    obtain ⟨z, hz⟩ := z
    simp only [Bool.not_eq_true']
    intro h1 h2
    by_contra hc
    rw [Bool.not_eq_false] at hc
    cases h3 : f x y with
    | true =>
      have := hf.trans _ hz _ hx _ hy hc h3
      rw [this] at h2; cases h2
    | false =>
      cases h4 : f y z with
      | true =>
        have := hf.trans _ hy _ hz _ hx h4 hc
        rw [this] at h1; cases h1
      | false =>
        have := hf.incomp z hz y hy x hx h2 h4 h1 h3
        rw [this] at hc; cases hc
  · obtain ⟨x, hx⟩ := x
    obtain ⟨y, hy⟩ := y
    simp only
    cases h1 : f y x with
    | false => rfl
    | true =>
      cases h2 : f x y with
      | false => rfl
      | true =>
        have := hf.trans _ hy _ hx _ hy h1 h2
        rw [hf.irrefl _ hy] at this; cases this

/-! ### for_each and blas_array -/

/-- C71: `for_each(A, f)` with a function that changes its argument replaces every element by its image,
once each and in order, up to the first that fails; nothing else changes. -/
theorem C71_for_each (b : Build) (f : α → Res α) {t : Store α} (ht : Store.Ok t) {l : Lv d}
    (hS : l.Sound t) (hV : l.Valid t) {cs : List Loc} (hp : Places l t cs) (hn : cs.Nodup) :
    ∃ a : Acc (Store α) Loc, l.build b t = .ok a ∧
      Writes cs (cs.map (fun c => do let x ← t.read c; f x)) t (Ops.forEach f a t) := by
  obtain ⟨_, a, h1, h2⟩ := l.main b ht hS hV
  refine ⟨a, h1, ?_⟩
  unfold Ops.forEach
  refine updateAll_writes hp hn h2 (by simp) ?_
  intro k u hk hu hr
  simp only [List.getElem_map]
  rw [hr _ (nodup_take hn hk)]

/-- C71: `for_each(A, f)` with a function that looks at its argument calls it once for every element,
from the first to the last. -/
theorem C71_for_each_in {τ : Type} (f : α → τ → Res τ) {a : Acc σ α} {l : List α} (h : Elems d a s l)
    (t : τ) : Ops.forEachIn f a s t = l.foldlM (fun t x => f x t) t := by
  unfold Ops.forEachIn
  rw [Elems.size h, Res.ok_bind, Int.toNat_natCast]
  exact foldN_list (l := l) (p := fun i => a.un s i) (fun i hi => Elems.un h hi) (fun t x => f x t) t

/-- C72: `blas_array(A)` is a new buffer with the elements in linear order, a null pointer when there are
none. -/
theorem C72_blas_array {a : Acc σ α} {l : List α} (h : Elems d a s l) :
    Ops.blasArray a s = .ok (if l = [] then none else some l) := by
  unfold Ops.blasArray
  rw [Elems.empty h]
  cases l with
  | nil => rfl
  | cons x xs =>
    simp only [List.isEmpty_cons, Bool.false_eq_true, if_false, Res.ok_bind, Elems.size h, Int.toNat_natCast]
    rw [foldN_list (l := x :: xs) (p := fun i => a.un s i) (fun i hi => Elems.un h hi)
      (fun acc y => pure (acc ++ [y])) [], foldlM_pure (f := fun (acc : List α) (y : α) => (pure (acc ++ [y]) : Res (List α)))
        (g := fun acc y => acc ++ [y]) _ _ (fun _ _ _ => rfl)]
    have : ∀ (acc ys : List α), ys.foldl (fun acc y => acc ++ [y]) acc = acc ++ ys := by
      intro acc ys
      induction ys generalizing acc with
      | nil => simp
      | cons y ys ih => rw [List.foldl_cons, ih]; simp
    rw [this]
    rfl

/-! ### Cases that meet the hypotheses -/

section
open Sample

/-- The elements of `[1, 2, 3]` in `(1, 5)` are the places 1 and 2. -/
example : ∃ v, Ops.inOpenRange ⟨false, true, false⟩ intScalar 1 5 (Lv.acc1 Int 0)
      (lit [1, 2, 3]) store = .ok v ∧ Elems .one v store [Loc.one 0 1, Loc.one 0 2] := by
  have hp : Elems .one (Lv.acc1 Int 0) store [Loc.one 0 0, Loc.one 0 1, Loc.one 0 2] :=
    ⟨_, acc1_den store 0, rfl⟩
  have h := ((C09_ranges (sc := intScalar)
    ⟨fun _ _ => decide_eq_true_iff, fun _ _ => decide_eq_true_iff, fun _ _ => decide_eq_true_iff⟩
    ⟨false, true, false⟩ hp (Shaped.elems (lit_shaped store [1, 2, 3])) rfl (by decide) 1 5).1 (by decide)).1
  exact h

example : Ops.inClosedRange ⟨false, true, false⟩ intScalar 5 1 (Lv.acc1 Int 0) (lit [1, 2, 3]) store =
    .trap (Build.kind ⟨false, true, false⟩) := by
  have hp : Elems .one (Lv.acc1 Int 0) store [Loc.one 0 0, Loc.one 0 1, Loc.one 0 2] :=
    ⟨_, acc1_den store 0, rfl⟩
  exact ((C09_ranges (sc := intScalar)
    ⟨fun _ _ => decide_eq_true_iff, fun _ _ => decide_eq_true_iff, fun _ _ => decide_eq_true_iff⟩
    ⟨false, true, false⟩ hp (Shaped.elems (lit_shaped store [1, 2, 3])) rfl (by decide) 5 1).2
    (by decide) (by decide)).2

example : ∃ a v, (Tm.binary ints.add x y).build ⟨false, true, false⟩ store = .ok a ∧
    Ops.inCondRange ⟨false, true, false⟩ (fun v => decide (v ≠ 7)) a a store = .ok v ∧
    Elems .one v store [5, 9] := by
  obtain ⟨a, h1, h2⟩ := sum_xy
  obtain ⟨v, h3, h4⟩ := C09_values ⟨false, true, false⟩ (Shaped.elems h2) (by decide) (fun v => decide (v ≠ 7))
  exact ⟨a, v, h1, h3, h4⟩

/-- Sorting the diagonal of the matrix in decreasing order. -/
example : ∃ (a : Acc (Store Int) Loc) (ys : List Int) (t' : Store Int),
    (Lv.view .diag (.arr2 0)).build ⟨false, true, false⟩ store = .ok a ∧
    Ops.sortDecreasing (fun f l => l.mergeSort (fun x y => !f y x)) intScalar a store = (.ok (), t') ∧
    SameSizes store t' ∧ [Loc.two 0 0, Loc.two 0 4].map t'.read = ys.map Res.ok ∧ ys.Perm [1, 5] ∧
    ys.Pairwise (· ≥ ·) ∧ ∀ c, c ∉ [Loc.two 0 0, Loc.two 0 4] → t'.read c = store.read c :=
  (C57_increasing (sc := intScalar)
    ⟨fun _ _ => decide_eq_true_iff, fun _ _ => decide_eq_true_iff, fun _ _ => decide_eq_true_iff⟩
    ⟨false, true, false⟩ stdSort_mergeSort store_ok (l := .view .diag (.arr2 0)) (by decide) (by decide)
    ⟨rfl, by decide⟩ (by decide) rfl).2

example : ∃ a : Acc (Store Int) Loc, (Lv.view (.slice .reverse) (.arr1 0)).build ⟨false, true, false⟩ store = .ok a ∧
    Writes [.one 0 2, .one 0 1, .one 0 0] [.ok 30, .ok 20, .ok 10] store
      (Ops.forEach (fun x => .ok (x * 10)) a store) :=
  C71_for_each _ (fun x => .ok (x * 10)) store_ok (l := .view (.slice .reverse) (.arr1 0)) (by decide) (by decide)
    ⟨rfl, by decide⟩ (by decide)

example : Ops.forEachIn (fun x t => .ok (t * 10 + x)) (lit [1, 2, 3]) () 0 = .ok 123 := by
  rw [C71_for_each_in _ (Shaped.elems (lit_shaped () [1, 2, 3]))]; rfl

example : ∃ a, (Tm.transpose A).build ⟨false, true, false⟩ store = .ok a ∧
    Ops.blasArray a store = .ok (some [1, 4, 2, 5, 3, 6]) := by
  obtain ⟨a, h1, h2⟩ := transposed
  exact ⟨a, h1, by rw [C72_blas_array (Shaped.elems h2)]; rfl⟩

end

end Spp.Props
