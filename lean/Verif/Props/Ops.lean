import Verif.Lemmas.Ops
import Verif.Props.Expr
import Verif.Lemmas.Sample
import Mathlib.Algebra.BigOperators.Group.List.Basic
import Mathlib.Algebra.Order.Field.Basic
import Mathlib.Tactic.Ring
import Mathlib.Tactic.FieldSimp
import Mathlib.Tactic.NormNum

/-
Properties of equality (C51), sums, products, means and inner products (C52), extrema (C53) and
quantifiers (C54) over arrays, slices and expressions of any shape.
-/

set_option linter.unusedSectionVars false

namespace Spp.Props
open Spec

variable {σ α : Type} {d : Dim} {s : σ}

/-- Where the objects come from: the text of any valid expression whose elements can be computed gives
an object with these elements. -/
theorem elems_of_expression [Inhabited α] (b : Build) {s0 : Store α} (hs : Store.Ok s0) {t : Tm α d} (hS : t.Sound s0)
    (hV : t.Valid s0) {l : List α} (hl : (t.meaning s0).flat = l.map Res.ok) :
    ∃ a, t.build b s0 = .ok a ∧ Shaped d a s0 (t.meaning s0).dims l ∧ Elems d a s0 l := by
  obtain ⟨_, _, a, h1, h2⟩ := C43_reads b hs hS hV
  exact ⟨a, h1, ⟨_, h2 s0 (SameSizes.refl s0), rfl, hl⟩, ⟨_, h2 s0 (SameSizes.refl s0), hl⟩⟩

theorem Shaped.elems {a : Acc σ α} {sh : Nat × Nat} {l : List α} (h : Shaped d a s sh l) :
    Elems d a s l := by
  obtain ⟨X, h1, _, h2⟩ := h
  exact ⟨X, h1, h2⟩

theorem Shaped.len {a : Acc σ α} {sh : Nat × Nat} {l : List α} (h : Shaped d a s sh l) :
    l.length = sh.1 * sh.2 := by
  obtain ⟨X, _, h1, h2⟩ := h
  rw [← h1, ← flat_dims, h2, List.length_map]

theorem Shaped.same {β : Type} {a1 : Acc σ α} {a2 : Acc σ β} {sh1 sh2 : Nat × Nat} {l1 : List α}
    {l2 : List β} (h1 : Shaped d a1 s sh1 l1) (h2 : Shaped d a2 s sh2 l2) :
    Acc.sameSize d a1 a2 s = decide (sh1 = sh2) := by
  obtain ⟨X, x1, rfl, _⟩ := h1
  obtain ⟨Y, y1, rfl, _⟩ := h2
  have := sameSize_iff x1 y1
  by_cases h : X.dims = Y.dims
  · rw [this.2 h, decide_eq_true h]
  · rw [decide_eq_false h, Bool.eq_false_iff]; exact fun e => h (this.1 e)

/-! ### Equality -/

theorem allLoop_two {a1 a2 : Acc σ α} {l1 l2 : List α} (h1 : Elems d a1 s l1) (h2 : Elems d a2 s l2)
    (hl : l1.length = l2.length) (f : α → α → Res Bool) :
    Ops.allLoop (fun i => do let x ← a1.un s i; let y ← a2.un s i; f x y) l1.length 0 =
      (List.zip l1 l2).allM (fun p => f p.1 p.2) := by
  have e : l1.length = (List.zip l1 l2).length := by rw [List.length_zip]; omega
  rw [e]
  refine allLoop_eq (l := List.zip l1 l2) 0 fun k hk => ?_
  rw [List.length_zip] at hk
  rw [Nat.zero_add, Elems.un h1 (by omega), Elems.un h2 (by omega), Res.ok_bind, Res.ok_bind,
    List.getElem_zip]

theorem anyLoop_two {a1 a2 : Acc σ α} {l1 l2 : List α} (h1 : Elems d a1 s l1) (h2 : Elems d a2 s l2)
    (hl : l1.length = l2.length) (f : α → α → Res Bool) :
    Ops.anyLoop (fun i => do let x ← a1.un s i; let y ← a2.un s i; f x y) l1.length 0 =
      (List.zip l1 l2).anyM (fun p => f p.1 p.2) := by
  have e : l1.length = (List.zip l1 l2).length := by rw [List.length_zip]; omega
  rw [e]
  refine anyLoop_eq (l := List.zip l1 l2) 0 fun k hk => ?_
  rw [List.length_zip] at hk
  rw [Nat.zero_add, Elems.un h1 (by omega), Elems.un h2 (by omega), Res.ok_bind, Res.ok_bind,
    List.getElem_zip]

/-- C51: `A == B` says whether the shapes are equal and no pair of corresponding elements differs, in
the sense of `!=` of the element type. -/
theorem C51_equal {a1 a2 : Acc σ α} {sh1 sh2 : Nat × Nat} {l1 l2 : List α}
    (h1 : Shaped d a1 s sh1 l1) (h2 : Shaped d a2 s sh2 l2) (ne : α → α → Bool) :
    Ops.equal d ne a1 a2 s =
      .ok (decide (sh1 = sh2) && (List.zip l1 l2).all (fun p => !ne p.1 p.2)) := by
  unfold Ops.equal
  rw [Shaped.same h1 h2]
  by_cases h : sh1 = sh2
  · have hl : l1.length = l2.length := by rw [Shaped.len h1, Shaped.len h2, h]
    rw [decide_eq_true h]
    simp only [Bool.not_true, Bool.false_eq_true, if_false, Elems.size (Shaped.elems h1), Res.ok_bind,
      Bool.true_and, Int.toNat_natCast]
    rw [allLoop_two (Shaped.elems h1) (Shaped.elems h2) hl (fun x y => pure (!ne x y))]
    exact allM_ok fun p _ => rfl
  · rw [decide_eq_false h]; rfl

/-- C51: for element types where `!=` is the negation of identity, that is equality of shapes and of
all elements. -/
theorem C51_equal_exact [DecidableEq α] {a1 a2 : Acc σ α} {sh1 sh2 : Nat × Nat} {l1 l2 : List α}
    (h1 : Shaped d a1 s sh1 l1) (h2 : Shaped d a2 s sh2 l2) :
    Ops.equal d (fun x y => decide (x ≠ y)) a1 a2 s = .ok (decide (sh1 = sh2 ∧ l1 = l2)) := by
  rw [C51_equal h1 h2]
  congr 1
  by_cases h : sh1 = sh2
  · have hl : l1.length = l2.length := by rw [Shaped.len h1, Shaped.len h2, h]
    have : (List.zip l1 l2).all (fun p => !decide (p.1 ≠ p.2)) = decide (l1 = l2) := by
      clear h1 h2
      induction l1 generalizing l2 with
      | nil => cases l2 with
        | nil => rfl
        | cons y ys => simp at hl
      | cons x xs ih => cases l2 with
        | nil => simp at hl
        | cons y ys =>
          have := ih (l2 := ys) (by simpa using hl)
          rw [List.zip_cons_cons, List.all_cons, this]
          by_cases e : x = y <;> simp [e]
    rw [this]
    simp [h]
  · simp [h]

/-- C51: `!=` is the negation of `==`. -/
theorem C51_not_equal {a1 a2 : Acc σ α} (ne : α → α → Bool) {r : Bool}
    (h : Ops.equal d ne a1 a2 s = .ok r) : Ops.notEqual d ne a1 a2 s = .ok (!r) := by
  unfold Ops.notEqual
  rw [h]; rfl

/-- C51: if equality of elements is reflexive, symmetric or transitive, so is equality of arrays. -/
theorem C51_equivalence (ne : α → α → Bool) {a1 a2 a3 : Acc σ α} {sh1 sh2 sh3 : Nat × Nat}
    {l1 l2 l3 : List α} (h1 : Shaped d a1 s sh1 l1) (h2 : Shaped d a2 s sh2 l2)
    (h3 : Shaped d a3 s sh3 l3) :
    ((∀ x, ne x x = false) → Ops.equal d ne a1 a1 s = .ok true) ∧
    ((∀ x y, ne x y = ne y x) → Ops.equal d ne a1 a2 s = Ops.equal d ne a2 a1 s) ∧
    ((∀ x y z, ne x y = false → ne y z = false → ne x z = false) →
      Ops.equal d ne a1 a2 s = .ok true → Ops.equal d ne a2 a3 s = .ok true →
      Ops.equal d ne a1 a3 s = .ok true) := by
  refine ⟨fun h => ?_, fun h => ?_, fun h e12 e23 => ?_⟩
  · rw [C51_equal h1 h1, decide_eq_true rfl, Bool.true_and]
    congr 1
    rw [List.all_eq_true]
    intro p hp
    have : p.1 = p.2 := by
      clear h1
      induction l1 with
      | nil => simp at hp
      | cons x xs ih =>
        rw [List.zip_cons_cons, List.mem_cons] at hp
        rcases hp with rfl | hp
        · rfl
        · exact ih hp
    rw [this, h]; rfl
  · rw [C51_equal h1 h2, C51_equal h2 h1]
    congr 2
    · exact decide_eq_decide.2 eq_comm
    · rw [Bool.eq_iff_iff, List.all_eq_true, List.all_eq_true]
      have sw : ∀ (a b : List α) (p : α × α), p ∈ List.zip a b → (p.2, p.1) ∈ List.zip b a := by
        intro a
        induction a with
        | nil => intro b p hp; simp at hp
        | cons x xs ih =>
          intro b p hp
          cases b with
          | nil => simp at hp
          | cons y ys =>
            rw [List.zip_cons_cons, List.mem_cons] at hp ⊢
            rcases hp with rfl | hp
            · exact Or.inl rfl
            · exact Or.inr (ih ys p hp)
      constructor <;> intro hh p hp <;> have := hh _ (sw _ _ p hp) <;> rw [h] <;> exact this
  · rw [C51_equal h1 h2, Res.ok.injEq, Bool.and_eq_true, decide_eq_true_iff, List.all_eq_true] at e12
    rw [C51_equal h2 h3, Res.ok.injEq, Bool.and_eq_true, decide_eq_true_iff, List.all_eq_true] at e23
    rw [C51_equal h1 h3, Res.ok.injEq, Bool.and_eq_true, decide_eq_true_iff, List.all_eq_true]
    refine ⟨e12.1.trans e23.1, ?_⟩
    have hl12 : l1.length = l2.length := by rw [Shaped.len h1, Shaped.len h2, e12.1]
    have hl23 : l2.length = l3.length := by rw [Shaped.len h2, Shaped.len h3, e23.1]
    intro p hp
    obtain ⟨k, hk, rfl⟩ := List.getElem_of_mem hp
    rw [List.length_zip] at hk
    have m1 := e12.2 (l1[k]'(by omega), l2[k]'(by omega))
      (by rw [← List.getElem_zip (i := k) (h := by rw [List.length_zip]; omega)]; exact List.getElem_mem _)
    have m2 := e23.2 (l2[k]'(by omega), l3[k]'(by omega))
      (by rw [← List.getElem_zip (i := k) (h := by rw [List.length_zip]; omega)]; exact List.getElem_mem _)
    rw [Bool.not_eq_true'] at m1 m2 ⊢
    rw [List.getElem_zip]
    exact h _ _ _ m1 m2

/-! ### Sums, products, means, inner products -/

/-- C52: `sum`, `prod`: the elements are combined from left to right, starting with the first; without
elements the result is the default. -/
theorem C52_left_to_right {a : Acc σ α} {l : List α} (h : Elems d a s l) (ar : Arith α) (dflt : α) :
    (l = [] → Ops.sum ar a s dflt = .ok dflt ∧ Ops.prod ar a s dflt = .ok dflt) ∧
    ∀ x xs, l = x :: xs →
      Ops.sum ar a s dflt = xs.foldlM (fun acc y => ar.add acc y) x ∧
      Ops.prod ar a s dflt = xs.foldlM (fun acc y => ar.mul acc y) x := by
  refine ⟨fun e => ?_, fun x xs e => ?_⟩ <;> subst e
  · exact ⟨foldElems_eq h _ _, foldElems_eq h _ _⟩
  · exact ⟨foldElems_eq h _ _, foldElems_eq h _ _⟩

theorem foldl_add {R : Type} [CommRing R] (xs : List R) (x : R) : xs.foldl (· + ·) x = x + xs.sum := by
  induction xs generalizing x with
  | nil => simp
  | cons y ys ih => rw [List.foldl_cons, ih, List.sum_cons, add_assoc]

theorem foldl_mul {R : Type} [CommRing R] (xs : List R) (x : R) : xs.foldl (· * ·) x = x * xs.prod := by
  induction xs generalizing x with
  | nil => simp
  | cons y ys ih => rw [List.foldl_cons, ih, List.prod_cons, mul_assoc]

section exact

variable {K : Type} [Field K] [LinearOrder K] {pow : K → K → K} {sqrt : K → K}

/-- C52: in exact arithmetic `sum`, `prod` and `mean` are the sum, the product and the sum divided by
the number of elements. -/
theorem C52_exact {a : Acc σ K} {l : List K} (h : Elems d a s l) (hne : l ≠ []) (dflt : K) :
    Ops.sum (exactS K pow sqrt).toArith a s dflt = .ok l.sum ∧
    Ops.prod (exactS K pow sqrt).toArith a s dflt = .ok l.prod ∧
    Ops.mean (exactS K pow sqrt).toArith a s dflt = .ok (l.sum / l.length) := by
  have key : ∀ dflt, Ops.sum (exactS K pow sqrt).toArith a s dflt = .ok l.sum := by
    intro dflt
    cases l with
    | nil => exact absurd rfl hne
    | cons x xs =>
      rw [((C52_left_to_right h _ dflt).2 x xs rfl).1,
        foldlM_pure (f := fun acc y => (exactS K pow sqrt).add acc y) xs x (g := (· + ·)) (fun _ _ _ => rfl), foldl_add, List.sum_cons]
  refine ⟨key dflt, ?_, ?_⟩
  · cases l with
    | nil => exact absurd rfl hne
    | cons x xs =>
      rw [((C52_left_to_right h _ dflt).2 x xs rfl).2,
        foldlM_pure (f := fun acc y => (exactS K pow sqrt).mul acc y) xs x (g := (· * ·)) (fun _ _ _ => rfl), foldl_mul, List.prod_cons]
  · unfold Ops.mean
    rw [Elems.empty h, key, Elems.size h]
    cases l with
    | nil => exact absurd rfl hne
    | cons x xs =>
      show Res.ok ((x :: xs).sum / (((x :: xs).length : Int) : K)) = _
      rw [Int.cast_natCast]

end exact

/-- C52: the mean of nothing is the default. -/
theorem C52_mean_empty {a : Acc σ α} (h : Elems d a s []) (ar : Arith α) (dflt : α) :
    Ops.mean ar a s dflt = .ok dflt := by
  unfold Ops.mean
  rw [Elems.empty h]; rfl

theorem foldlM_faithful {R : Type} {f : R → R → Res R} {g : R → R → R}
    (hf : ∀ x y z, f x y = .ok z → z = g x y) (xs : List R) (x v : R) (h : xs.foldlM f x = .ok v) :
    v = xs.foldl g x := by
  induction xs generalizing x with
  | nil => cases h; rfl
  | cons y ys ih =>
    rw [List.foldlM_cons, Res.bind_eq_ok] at h
    obtain ⟨w, h1, h2⟩ := h
    rw [List.foldl_cons, ← hf _ _ _ h1]
    exact ih w h2

/-- C52: where an operation that overflows has no result (signed integers), `sum` and `prod` never
return a wrong value. -/
theorem C52_no_wrong_result {R : Type} [CommRing R] {ar : Arith R} (hf : Faithful ar) {a : Acc σ R}
    {l : List R} (h : Elems d a s l) (hne : l ≠ []) (dflt : R) {v : R} :
    (Ops.sum ar a s dflt = .ok v → v = l.sum) ∧ (Ops.prod ar a s dflt = .ok v → v = l.prod) := by
  cases l with
  | nil => exact absurd rfl hne
  | cons x xs =>
    rw [((C52_left_to_right h ar dflt).2 x xs rfl).1, ((C52_left_to_right h ar dflt).2 x xs rfl).2]
    refine ⟨fun e => ?_, fun e => ?_⟩
    · rw [foldlM_faithful (g := (· + ·)) hf.add xs x v e, foldl_add, List.sum_cons]
    · rw [foldlM_faithful (g := (· * ·)) hf.mul xs x v e, foldl_mul, List.prod_cons]

/-- Signed integers of every width are such a type. -/
theorem faithful_signed (b : Build) {t : IntTy} (ht : t.signed = true) : Faithful (signedInts b t) where
  zero := rfl
  add x y z h := by
    change SInt.add t x y = _ at h
    unfold SInt.add IntTy.arith at h
    rw [if_pos ht] at h
    split at h <;> cases h
    rfl
  mul x y z h := by
    change SInt.mul t x y = _ at h
    unfold SInt.mul IntTy.arith at h
    rw [if_pos ht] at h
    split at h <;> cases h
    rfl

/-- C52: the sum of signed integers is computed without undefined behaviour exactly when no partial
sum overflows. -/
theorem C52_sum_signed (b : Build) {t : IntTy} (ht : t.signed = true) {a : Acc σ Int} {l : List Int}
    (h : Elems d a s l) (hl : ∀ x ∈ l, t.Holds x) (hne : l ≠ []) (dflt : Int) :
    (Ops.sum (signedInts b t) a s dflt = .ok l.sum ↔ ∀ k, 0 < k → k ≤ l.length → t.Holds (l.take k).sum) ∧
    (Ops.sum (signedInts b t) a s dflt ≠ .ok l.sum → Ops.sum (signedInts b t) a s dflt = .ub) := by
  cases l with
  | nil => exact absurd rfl hne
  | cons x xs =>
    rw [((C52_left_to_right h (signedInts b t) dflt).2 x xs rfl).1]
    have hx := hl x (List.mem_cons_self ..)
    clear h hl hne
    have step : ∀ u y : Int, (signedInts b t).add u y = if t.Holds (u + y) then .ok (u + y) else .ub := by
      intro u y
      show SInt.add t u y = _
      unfold SInt.add IntTy.arith
      rw [if_pos ht]
    induction xs generalizing x with
    | nil =>
      refine ⟨⟨fun _ k h1 h2 => ?_, fun _ => by simp⟩, fun hn => absurd (by simp) hn⟩
      have : k = 1 := by simp at h2; omega
      subst this
      simpa using hx
    | cons y ys ih =>
      rw [List.foldlM_cons, step]
      by_cases hy : t.Holds (x + y)
      · rw [if_pos hy, Res.ok_bind]
        have := ih (x := x + y) hy
        have es : (x :: y :: ys).sum = ((x + y) :: ys).sum := by
          simp only [List.sum_cons]; ring
        rw [es]
        refine ⟨this.1.trans ⟨fun hh k h1 h2 => ?_, fun hh k h1 h2 => ?_⟩, this.2⟩
        · match k, h1 with
          | 1, _ => simpa using hx
          | k + 2, _ =>
            have := hh (k + 1) (by omega) (by simp at h2 ⊢; omega)
            simp only [List.take_succ_cons, List.sum_cons] at this ⊢
            rwa [← add_assoc]
        · have := hh (k + 1) (by omega) (by simp at h2 ⊢; omega)
          match k, h1 with
          | k + 1, _ =>
            simp only [List.take_succ_cons, List.sum_cons] at this ⊢
            rwa [add_assoc]
      · rw [if_neg hy, Res.ub_bind]
        refine ⟨⟨fun e => (by cases e), fun hh => ?_⟩, fun _ => rfl⟩
        have := hh 2 (by omega) (by simp)
        simp at this
        exact absurd this hy

theorem unsigned_fold (t : IntTy) (ht : t.signed = false) (xs : List Int) (x : Int) :
    ∃ v, xs.foldlM (fun acc y => SInt.add t acc y) x = .ok v ∧
      v % 2 ^ t.bits = (x + xs.sum) % 2 ^ t.bits ∧ (xs ≠ [] → 0 ≤ v ∧ v < 2 ^ t.bits) := by
  induction xs generalizing x with
  | nil => exact ⟨x, rfl, by simp, by simp⟩
  | cons y ys ih =>
    have e : SInt.add t x y = .ok ((x + y) % 2 ^ t.bits) := by
      unfold SInt.add IntTy.arith; rw [ht]; rfl
    obtain ⟨v, h1, h2, h3⟩ := ih ((x + y) % 2 ^ t.bits)
    refine ⟨v, by rw [List.foldlM_cons, e, Res.ok_bind, h1], ?_, fun _ => ?_⟩
    · rw [h2, List.sum_cons, Int.emod_add_emod, add_assoc]
    · cases ys with
      | nil =>
        cases h1
        exact ⟨Int.emod_nonneg _ (by have := Int.pow_pos (n := 2) (m := t.bits) (by decide); omega),
          Int.emod_lt_of_pos _ (Int.pow_pos (by decide))⟩
      | cons z zs => exact h3 (by simp)

/-- C52: the sum of unsigned integers is the sum modulo 2^bits, never undefined. -/
theorem C52_sum_unsigned (b : Build) {t : IntTy} (ht : t.signed = false) {a : Acc σ Int} {l : List Int}
    (h : Elems d a s l) (hl : ∀ x ∈ l, t.Holds x) (hne : l ≠ []) (dflt : Int) :
    Ops.sum (signedInts b t) a s dflt = .ok (l.sum % 2 ^ t.bits) := by
  cases l with
  | nil => exact absurd rfl hne
  | cons x xs =>
    rw [((C52_left_to_right h (signedInts b t) dflt).2 x xs rfl).1]
    obtain ⟨v, h1, h2, h3⟩ := unsigned_fold t ht xs x
    have hx := hl x (List.mem_cons_self ..)
    have r : 0 ≤ v ∧ v < 2 ^ t.bits := by
      cases xs with
      | nil =>
        cases h1
        unfold IntTy.Holds IntTy.lo IntTy.hi at hx
        rw [ht] at hx
        simp only [Bool.false_eq_true, if_false] at hx
        exact ⟨hx.1, by omega⟩
      | cons y ys => exact h3 (by simp)
    rw [List.sum_cons, ← h2, Int.emod_eq_of_lt r.1 r.2]
    exact h1

theorem dot_elems {a1 a2 : Acc σ α} {sh : Nat × Nat} {l1 l2 : List α} (h1 : Shaped d a1 s sh l1)
    (h2 : Shaped d a2 s sh l2) {f : α → α → Res α} {g : α → α → α}
    (hf : ∀ p ∈ List.zip l1 l2, f p.1 p.2 = .ok (g p.1 p.2)) :
    Elems d (Acc.binary f a1 a2) s (List.zipWith g l1 l2) := by
  obtain ⟨X, x1, x2, x3⟩ := h1
  obtain ⟨Y, y1, y2, y3⟩ := h2
  refine ⟨Sem.zip f X Y, den_binary f x1 y1 (x2.trans y2.symm), ?_⟩
  rw [flat_zip f (x2.trans y2.symm), x3, y3]
  clear x1 y1 x2 y2 x3 y3
  induction l1 generalizing l2 with
  | nil => rfl
  | cons x xs ih => cases l2 with
    | nil => rfl
    | cons y ys =>
      simp only [List.map_cons, List.zipWith_cons_cons, Res.ok_bind]
      rw [hf (x, y) (by simp), ih (fun p hp => hf p (by simp [hp]))]

/-- C52: `dot_prod` of objects of the same shape multiplies corresponding elements and sums the
products from left to right. -/
theorem C52_dot (b : Build) {a1 a2 : Acc σ α} {sh : Nat × Nat} {l1 l2 : List α}
    (h1 : Shaped d a1 s sh l1) (h2 : Shaped d a2 s sh l2) (ar : Arith α) {mul : α → α → α}
    (hm : ∀ p ∈ List.zip l1 l2, ar.mul p.1 p.2 = .ok (mul p.1 p.2)) (dflt : α) :
    (l1 = [] → Ops.dotProd b d ar a1 a2 s dflt = .ok dflt) ∧
    ∀ p ps, List.zipWith mul l1 l2 = p :: ps →
      Ops.dotProd b d ar a1 a2 s dflt = ps.foldlM (fun acc y => ar.add acc y) p := by
  have hsame := Shaped.same h1 h2
  rw [decide_eq_true rfl] at hsame
  have hl : l1.length = l2.length := by rw [Shaped.len h1, Shaped.len h2]
  unfold Ops.dotProd
  rw [hsame, assertDebug_true, Res.ok_bind, Elems.empty (Shaped.elems h1), Res.ok_bind]
  refine ⟨fun e => by subst e; rfl, fun p ps e => ?_⟩
  have hne : l1.isEmpty = false := by
    cases l1 with
    | nil => simp at e
    | cons => rfl
  rw [hne]
  unfold Tm.mkBinary
  rw [hsame, assertDebug_true]
  exact ((C52_left_to_right (dot_elems h1 h2 hm) ar _).2 p ps e).1

/-- C52: in exact arithmetic that is the inner product. -/
theorem C52_dot_exact {K : Type} [Field K] [LinearOrder K] {pow : K → K → K} {sqrt : K → K} (b : Build)
    {a1 a2 : Acc σ K} {sh : Nat × Nat} {l1 l2 : List K} (h1 : Shaped d a1 s sh l1)
    (h2 : Shaped d a2 s sh l2) (hne : l1 ≠ []) (dflt : K) :
    Ops.dotProd b d (exactS K pow sqrt).toArith a1 a2 s dflt =
      .ok (List.zipWith (· * ·) l1 l2).sum := by
  have hl : l1.length = l2.length := by rw [Shaped.len h1, Shaped.len h2]
  cases l1 with
  | nil => exact absurd rfl hne
  | cons x xs => cases l2 with
    | nil => simp at hl
    | cons y ys =>
      rw [(C52_dot b h1 h2 (exactS K pow sqrt).toArith (mul := (· * ·)) (fun _ _ => rfl) dflt).2
        _ _ List.zipWith_cons_cons, foldlM_pure (f := fun acc y => (exactS K pow sqrt).add acc y) _ _ (g := (· + ·)) (fun _ _ _ => rfl), foldl_add,
        List.zipWith_cons_cons, List.sum_cons]

/-- C52: `dot_prod` of objects of different shapes is rejected by checked builds. -/
theorem C52_dot_mismatch {b : Build} (hb : b.Checked) {a1 a2 : Acc σ α} {sh1 sh2 : Nat × Nat}
    {l1 l2 : List α} (h1 : Shaped d a1 s sh1 l1) (h2 : Shaped d a2 s sh2 l2) (h : sh1 ≠ sh2)
    (ar : Arith α) (dflt : α) : Ops.dotProd b d ar a1 a2 s dflt = .trap b.kind := by
  unfold Ops.dotProd
  rw [Shaped.same h1 h2, decide_eq_false h, assertDebug_false hb]; rfl

/-! ### Quantifiers -/

/-- C54: `any_of`, `all_of` and `none_of` decide whether some, every or no element satisfies the
predicate; without elements they return the default, which the library sets to false for all three. -/
theorem C54_quantifiers {a : Acc σ α} {l : List α} (h : Elems d a s l) {f : α → Res Bool}
    {p : α → Prop} [DecidablePred p] (hf : ∀ x ∈ l, f x = .ok (decide (p x))) (dflt : Bool) :
    (l = [] → Ops.anyOf f a s dflt = .ok dflt ∧ Ops.allOf f a s dflt = .ok dflt ∧
      Ops.noneOf f a s dflt = .ok dflt) ∧
    (l ≠ [] → Ops.anyOf f a s dflt = .ok (decide (∃ x ∈ l, p x)) ∧
      Ops.allOf f a s dflt = .ok (decide (∀ x ∈ l, p x)) ∧
      Ops.noneOf f a s dflt = .ok (decide (¬ ∃ x ∈ l, p x))) := by
  have any : ∀ dflt, l ≠ [] → Ops.anyOf f a s dflt = .ok (decide (∃ x ∈ l, p x)) := by
    intro dflt hne
    rw [anyOf_eq h, if_neg hne, anyM_ok hf]
    congr 1
    rw [Bool.eq_iff_iff, List.any_eq_true, decide_eq_true_iff]
    simp only [decide_eq_true_iff]
  refine ⟨fun e => ?_, fun hne => ⟨any _ hne, ?_, ?_⟩⟩
  · refine ⟨by rw [anyOf_eq h, if_pos e], by rw [allOf_eq h, if_pos e], ?_⟩
    unfold Ops.noneOf
    rw [Elems.empty h, e]; rfl
  · rw [allOf_eq h, if_neg hne, allM_ok hf]
    congr 1
    rw [Bool.eq_iff_iff, List.all_eq_true, decide_eq_true_iff]
    simp only [decide_eq_true_iff]
  · unfold Ops.noneOf
    rw [Elems.empty h, any _ hne]
    cases l with
    | nil => exact absurd rfl hne
    | cons x xs =>
      simp only [Res.ok_bind, List.isEmpty_cons, Bool.false_eq_true, if_false, Res.pure_eq, decide_not]

/-- C54: `any_of` stops at the first element that satisfies the predicate, `all_of` at the first that
does not: what the predicate does on later elements (a trap, say) has no effect. -/
theorem C54_short_circuit {a : Acc σ α} {xs ys : List α} {x : α} (h : Elems d a s (xs ++ x :: ys))
    {f : α → Res Bool} (dflt : Bool) :
    ((∀ y ∈ xs, f y = .ok false) → f x = .ok true → Ops.anyOf f a s dflt = .ok true) ∧
    ((∀ y ∈ xs, f y = .ok true) → f x = .ok false → Ops.allOf f a s dflt = .ok false) := by
  refine ⟨fun h1 h2 => ?_, fun h1 h2 => ?_⟩
  · rw [anyOf_eq h, if_neg (by simp)]
    clear h
    induction xs with
    | nil => rw [List.nil_append, List.anyM_cons, h2]; rfl
    | cons z zs ih =>
      rw [List.cons_append, List.anyM_cons, h1 z (by simp)]
      exact ih fun y hy => h1 y (by simp [hy])
  · rw [allOf_eq h, if_neg (by simp)]
    clear h
    induction xs with
    | nil => rw [List.nil_append, List.allM_cons, h2]; rfl
    | cons z zs ih =>
      rw [List.cons_append, List.allM_cons, h1 z (by simp)]
      exact ih fun y hy => h1 y (by simp [hy])

/-- C54: the same for pairs of corresponding elements of two objects of the same shape. -/
theorem C54_pairwise (b : Build) {a1 a2 : Acc σ α} {sh : Nat × Nat} {l1 l2 : List α}
    (h1 : Shaped d a1 s sh l1) (h2 : Shaped d a2 s sh l2) {f : α → α → Res Bool} {p : α → α → Prop}
    [∀ x y, Decidable (p x y)] (hf : ∀ q ∈ List.zip l1 l2, f q.1 q.2 = .ok (decide (p q.1 q.2)))
    (dflt : Bool) :
    (l1 = [] → Ops.anyOf2 b d f a1 a2 s dflt = .ok dflt ∧ Ops.allOf2 b d f a1 a2 s dflt = .ok dflt ∧
      Ops.noneOf2 b d f a1 a2 s dflt = .ok dflt) ∧
    (l1 ≠ [] → Ops.anyOf2 b d f a1 a2 s dflt = .ok (decide (∃ q ∈ List.zip l1 l2, p q.1 q.2)) ∧
      Ops.allOf2 b d f a1 a2 s dflt = .ok (decide (∀ q ∈ List.zip l1 l2, p q.1 q.2)) ∧
      Ops.noneOf2 b d f a1 a2 s dflt = .ok (decide (¬ ∃ q ∈ List.zip l1 l2, p q.1 q.2))) := by
  have hsame := Shaped.same h1 h2
  rw [decide_eq_true rfl] at hsame
  have hl : l1.length = l2.length := by rw [Shaped.len h1, Shaped.len h2]
  have e1 := Elems.empty (Shaped.elems h1)
  have z1 := Elems.size (Shaped.elems h1)
  have any : ∀ dflt, l1 ≠ [] →
      Ops.anyOf2 b d f a1 a2 s dflt = .ok (decide (∃ q ∈ List.zip l1 l2, p q.1 q.2)) := by
    intro dflt hne
    unfold Ops.anyOf2
    have hne' : l1.isEmpty = false := by simpa using hne
    rw [hsame, assertDebug_true, Res.ok_bind, e1, hne', Res.ok_bind, z1]
    simp only [Bool.false_eq_true, if_false, Res.ok_bind, Int.toNat_natCast]
    rw [anyLoop_two (Shaped.elems h1) (Shaped.elems h2) hl, anyM_ok (p := fun q => decide (p q.1 q.2)) hf]
    congr 1
    rw [Bool.eq_iff_iff, List.any_eq_true, decide_eq_true_iff]
    simp only [decide_eq_true_iff]
  refine ⟨fun e => ?_, fun hne => ⟨any _ hne, ?_, ?_⟩⟩
  · unfold Ops.anyOf2 Ops.allOf2 Ops.noneOf2
    rw [hsame, assertDebug_true, e1, e]
    exact ⟨rfl, rfl, rfl⟩
  · unfold Ops.allOf2
    have hne' : l1.isEmpty = false := by simpa using hne
    rw [hsame, assertDebug_true, Res.ok_bind, e1, hne', Res.ok_bind, z1]
    simp only [Bool.false_eq_true, if_false, Res.ok_bind, Int.toNat_natCast]
    rw [allLoop_two (Shaped.elems h1) (Shaped.elems h2) hl, allM_ok (p := fun q => decide (p q.1 q.2)) hf]
    congr 1
    rw [Bool.eq_iff_iff, List.all_eq_true, decide_eq_true_iff]
    simp only [decide_eq_true_iff]
  · unfold Ops.noneOf2
    have hne' : l1.isEmpty = false := by simpa using hne
    rw [hsame, assertDebug_true, Res.ok_bind, e1, hne', Res.ok_bind, any _ hne]
    simp only [Bool.false_eq_true, if_false, Res.ok_bind, Res.pure_eq, decide_not]

/-- C54: objects of different shapes are rejected by checked builds. -/
theorem C54_mismatch {b : Build} (hb : b.Checked) {a1 a2 : Acc σ α} {sh1 sh2 : Nat × Nat}
    {l1 l2 : List α} (h1 : Shaped d a1 s sh1 l1) (h2 : Shaped d a2 s sh2 l2) (h : sh1 ≠ sh2)
    (f : α → α → Res Bool) (dflt : Bool) :
    Ops.anyOf2 b d f a1 a2 s dflt = .trap b.kind ∧ Ops.allOf2 b d f a1 a2 s dflt = .trap b.kind ∧
    Ops.noneOf2 b d f a1 a2 s dflt = .trap b.kind := by
  unfold Ops.anyOf2 Ops.allOf2 Ops.noneOf2
  rw [Shaped.same h1 h2, decide_eq_false h, assertDebug_false hb]
  exact ⟨rfl, rfl, rfl⟩

/-- C54: `any_of(A, x)`, `all_of(A, x)`, `none_of(A, x)` and the tests for zeros and signs, when there
are elements (and no NaN). -/
theorem C54_tests [LinearOrder α] {sc : Scalar α} (ho : Ordered sc) {a : Acc σ α} {l : List α}
    (h : Elems d a s l) (hne : l ≠ []) (dflt : Bool) (x : α) :
    Ops.anyOf (Ops.isValue sc x) a s dflt = .ok (decide (x ∈ l)) ∧
    Ops.allOf (Ops.isValue sc x) a s dflt = .ok (decide (∀ y ∈ l, y = x)) ∧
    Ops.noneOf (Ops.isValue sc x) a s dflt = .ok (decide (x ∉ l)) ∧
    Ops.hasZero sc a s dflt = .ok (decide (sc.zero ∈ l)) ∧
    Ops.allZeros sc a s dflt = .ok (decide (∀ y ∈ l, y = sc.zero)) ∧
    Ops.allPos sc a s dflt = .ok (decide (∀ y ∈ l, sc.zero < y)) ∧
    Ops.allNeg sc a s dflt = .ok (decide (∀ y ∈ l, y < sc.zero)) ∧
    Ops.allNonPos sc a s dflt = .ok (decide (∀ y ∈ l, y ≤ sc.zero)) ∧
    Ops.allNonNeg sc a s dflt = .ok (decide (∀ y ∈ l, sc.zero ≤ y)) := by
  have elt : ∀ u v, sc.lt u v = decide (u < v) := fun u v => by
    rw [Bool.eq_iff_iff, ho.lt, decide_eq_true_iff]
  have ele : ∀ u v, sc.le u v = decide (u ≤ v) := fun u v => by
    rw [Bool.eq_iff_iff, ho.le, decide_eq_true_iff]
  have eeq : ∀ u v, sc.eq u v = decide (u = v) := fun u v => by
    rw [Bool.eq_iff_iff, ho.eq, decide_eq_true_iff]
  have q1 := (C54_quantifiers h (f := Ops.isValue sc x) (p := fun y => y = x)
    (fun y _ => by unfold Ops.isValue; rw [eeq]) dflt).2 hne
  have q2 := (C54_quantifiers h (f := fun y => .ok (sc.eq y sc.zero)) (p := fun y => y = sc.zero)
    (fun y _ => by rw [eeq]) dflt).2 hne
  have ex : ∀ z, (∃ y ∈ l, y = z) ↔ z ∈ l := fun z => by simp
  refine ⟨?_, q1.2.1, ?_, ?_, q2.2.1, ?_, ?_, ?_, ?_⟩
  · rw [q1.1]; congr 1; exact decide_eq_decide.2 (ex x)
  · rw [q1.2.2]; congr 1; exact decide_eq_decide.2 (not_congr (ex x))
  · unfold Ops.hasZero; rw [q2.1]; congr 1; exact decide_eq_decide.2 (ex _)
  · exact ((C54_quantifiers h (f := fun y => .ok (sc.lt sc.zero y)) (p := fun y => sc.zero < y)
      (fun y _ => by rw [elt]) dflt).2 hne).2.1
  · exact ((C54_quantifiers h (f := fun y => .ok (sc.lt y sc.zero)) (p := fun y => y < sc.zero)
      (fun y _ => by rw [elt]) dflt).2 hne).2.1
  · exact ((C54_quantifiers h (f := fun y => .ok (sc.le y sc.zero)) (p := fun y => y ≤ sc.zero)
      (fun y _ => by rw [ele]) dflt).2 hne).2.1
  · exact ((C54_quantifiers h (f := fun y => .ok (sc.le sc.zero y)) (p := fun y => sc.zero ≤ y)
      (fun y _ => by rw [ele]) dflt).2 hne).2.1

/-- C54: `all_finite`, `has_inf` and `has_nan`. -/
theorem C54_finite {a : Acc σ α} {l : List α} (h : Elems d a s l) (is : α → Bool) (dflt : Bool) :
    (l = [] → Ops.allFinite is a s dflt = .ok dflt ∧ Ops.hasSuch is a s dflt = .ok dflt) ∧
    (l ≠ [] → Ops.allFinite is a s dflt = .ok (decide (∀ x ∈ l, is x = true)) ∧
      Ops.hasSuch is a s dflt = .ok (decide (∃ x ∈ l, is x = true))) := by
  have q := C54_quantifiers h (f := fun y => .ok (is y)) (p := fun y => is y = true)
    (fun y _ => by rw [Bool.decide_eq_true]) false
  unfold Ops.allFinite Ops.hasSuch
  rw [Elems.empty h]
  refine ⟨fun e => by rw [e]; exact ⟨rfl, rfl⟩, fun hne => ?_⟩
  have hne' : l.isEmpty = false := by simpa using hne
  rw [hne']
  exact ⟨(q.2 hne).2.1, (q.2 hne).1⟩

/-! ### Cases that meet the hypotheses -/

end Spp.Props

namespace Spp.Sample
open Spec Props

/-- `x + y`, that is `[5, 7, 9]`. -/
theorem sum_xy : ∃ a, (Tm.binary ints.add x y).build ⟨false, true, false⟩ store = .ok a ∧
    Shaped .one a store (3, 1) [5, 7, 9] := by
  obtain ⟨a, h1, h2, _⟩ := elems_of_expression (α := Int) (l := [5, 7, 9]) ⟨false, true, false⟩ store_ok
    (t := Tm.binary ints.add x y) (by decide) (by decide) rfl
  exact ⟨a, h1, h2⟩

/-- `transpose(A)`. -/
theorem transposed : ∃ a, (Tm.transpose A).build ⟨false, true, false⟩ store = .ok a ∧
    Shaped .two a store (3, 2) [1, 4, 2, 5, 3, 6] := by
  obtain ⟨a, h1, h2, _⟩ := elems_of_expression (α := Int) (l := [1, 4, 2, 5, 3, 6]) ⟨false, true, false⟩
    store_ok (t := Tm.transpose A) (by decide) (by decide) rfl
  exact ⟨a, h1, h2⟩

/-- `A * 10`. -/
theorem scaled : ∃ a, (Tm.scalarR ints.mul A 10).build ⟨false, true, false⟩ store = .ok a ∧
    Shaped .two a store (2, 3) [10, 20, 30, 40, 50, 60] := by
  obtain ⟨a, h1, h2, _⟩ := elems_of_expression (α := Int) (l := [10, 20, 30, 40, 50, 60])
    ⟨false, true, false⟩ store_ok (t := Tm.scalarR ints.mul A 10) (by decide) (by decide) rfl
  exact ⟨a, h1, h2⟩

/-- Rational numbers `[1/2, -3/4, 2]`. -/
def rats : Store ℚ where
  a1 := fun id => if id = 0 then [1 / 2, -3 / 4, 2] else []
  a2 := fun _ => ⟨0, 0, []⟩

theorem rats_ok : Store.Ok rats := by
  constructor
  · intro id
    by_cases h0 : id = 0 <;> simp [rats, h0]
  · intro id
    have : Shape (⟨0, 0, []⟩ : Arr2 ℚ) ∧ (([] : List ℚ).length : Int) < 2 ^ 63 - 1 :=
      ⟨⟨by decide, by decide, by decide, by decide⟩, by decide⟩
    exact this

theorem rats_x : ∃ a, (Tm.lv (.arr1 0)).build ⟨false, true, false⟩ rats = .ok a ∧
    Shaped .one a rats (3, 1) [1 / 2, -3 / 4, 2] := by
  obtain ⟨a, h1, h2, _⟩ := elems_of_expression (α := ℚ) (l := [1 / 2, -3 / 4, 2])
    ⟨false, true, false⟩ rats_ok (t := Tm.lv (.arr1 0)) trivial trivial rfl
  exact ⟨a, h1, h2⟩

/-- A one-dimensional object with given elements, for examples that need several element types. -/
def lit {σ β : Type} (l : List β) : Acc σ β :=
  Acc.oneD (fun _ => l.length) (fun _ i => match l[i.toNat]? with | some x => .ok x | none => .ub)

theorem lit_shaped {σ β : Type} (s : σ) (l : List β) : Shaped .one (lit l) s (l.length, 1) l := by
  refine ⟨l.map Res.ok, ⟨by rw [List.length_map]; rfl, by rw [List.length_map]; rfl, fun i hi => ?_⟩,
    by show (List.length _, 1) = _; rw [List.length_map], rfl⟩
  rw [List.length_map] at hi
  show (match l[(i : Int).toNat]? with | some x => Res.ok x | none => .ub) = _
  simp [List.getD, hi]

end Spp.Sample

namespace Spp.Props
open Spec Sample

/-- `transpose(A) == A * 10` has operands of different shapes; `A * 10 == A * 10`. -/
example : ∃ a c, (Tm.transpose A).build ⟨false, true, false⟩ store = .ok a ∧
    (Tm.scalarR ints.mul A 10).build ⟨false, true, false⟩ store = .ok c ∧
    Ops.equal .two (fun x y => x != y) a c store = .ok false ∧
    Ops.equal .two (fun x y => x != y) c c store = .ok true := by
  obtain ⟨a, h1, h2⟩ := transposed
  obtain ⟨c, k1, k2⟩ := scaled
  exact ⟨a, c, h1, k1, by rw [C51_equal h2 k2]; rfl, by rw [C51_equal k2 k2]; decide⟩

/-- The sum of `[5, 7, 9]` fits in an `int`; the product of `A * 1000` does not. -/
example : ∃ a, (Tm.binary ints.add x y).build ⟨false, true, false⟩ store = .ok a ∧
    Ops.sum (signedInts ⟨false, true, false⟩ .int) a store 0 = .ok 21 := by
  obtain ⟨a, h1, h2⟩ := sum_xy
  refine ⟨a, h1, ((C52_sum_signed _ rfl (Shaped.elems h2) (by decide) (by simp) 0).1).2 ?_⟩
  intro k _ hk
  have : k = 1 ∨ k = 2 ∨ k = 3 := by simp at hk; omega
  rcases this with rfl | rfl | rfl <;> decide

/-- Unsigned elements: the products and the sum wrap. -/
example : ∃ a, (Tm.scalarR (signedInts ⟨false, true, false⟩ .uint).mul A 1000000000).build
      ⟨false, true, false⟩ store = .ok a ∧
    Ops.sum (signedInts ⟨false, true, false⟩ .uint) a store 0 = .ok 3820130816 ∧
    Ops.prod (signedInts ⟨false, true, false⟩ .int) a store 0 = .ub := by
  obtain ⟨a, h1, _, h2⟩ := elems_of_expression (α := Int)
    (l := [1000000000, 2000000000, 3000000000, 4000000000, 705032704, 1705032704])
    ⟨false, true, false⟩ store_ok
    (t := Tm.scalarR (signedInts ⟨false, true, false⟩ .uint).mul A 1000000000) (by decide) (by decide) rfl
  refine ⟨a, h1, C52_sum_unsigned _ rfl h2 (by decide) (by simp) 0, ?_⟩
  rw [((C52_left_to_right h2 _ 0).2 _ _ rfl).2]; rfl

example : ∃ a, (Tm.lv (.arr1 0)).build ⟨false, true, false⟩ rats = .ok a ∧
    Ops.sum (exactS ℚ (fun x _ => x) id).toArith a rats 0 = .ok (7 / 4) ∧
    Ops.mean (exactS ℚ (fun x _ => x) id).toArith a rats 0 = .ok (7 / 12) ∧
    Ops.dotProd ⟨false, true, false⟩ .one (exactS ℚ (fun x _ => x) id).toArith a a rats 0 =
      .ok (77 / 16) := by
  obtain ⟨a, h1, h2⟩ := rats_x
  have h := C52_exact (pow := fun x _ => x) (sqrt := id) (Shaped.elems h2) (by simp) 0
  exact ⟨a, h1, by rw [h.1]; norm_num, by rw [h.2.2]; norm_num,
    by rw [C52_dot_exact _ h2 h2 (by simp)]; norm_num⟩

/-- A whole matrix against a transposed one. -/
example : ∃ a c, (Tm.transpose A).build ⟨false, true, false⟩ store = .ok a ∧
    (Tm.scalarR ints.mul A 10).build ⟨false, true, false⟩ store = .ok c ∧
    Ops.dotProd ⟨false, true, false⟩ .two ints a c store 0 = .trap (Build.kind ⟨false, true, false⟩) ∧
    Ops.anyOf2 ⟨false, true, false⟩ .two (fun x y => .ok (x == y)) a c store false =
      .trap (Build.kind ⟨false, true, false⟩) ∧
    Ops.dotProd ⟨false, true, false⟩ .two ints c c store 0 = .ok 9100 := by
  obtain ⟨a, h1, h2⟩ := transposed
  obtain ⟨c, k1, k2⟩ := scaled
  refine ⟨a, c, h1, k1, C52_dot_mismatch (by decide) h2 k2 (by decide) _ _,
    (C54_mismatch (by decide) h2 k2 (by decide) _ _).1, ?_⟩
  rw [(C52_dot _ k2 k2 ints (mul := (· * ·)) (fun _ _ => rfl) 0).2 100 _ rfl]
  rfl

example : ∃ a, (Tm.binary ints.add x y).build ⟨false, true, false⟩ store = .ok a ∧
    Ops.anyOf (fun v => .ok (decide (v > 8))) a store false = .ok true ∧
    Ops.allOf (fun v => .ok (decide (v > 8))) a store false = .ok false ∧
    -- the predicate would trap on the last element
    Ops.anyOf (fun v => if v = 9 then .trap .abort else .ok (decide (v > 6))) a store false = .ok true := by
  obtain ⟨a, h1, h2⟩ := sum_xy
  have q := (C54_quantifiers (Shaped.elems h2) (f := fun v => .ok (decide (v > 8))) (p := fun v => v > 8)
    (fun _ _ => rfl) false).2 (by simp)
  refine ⟨a, h1, by rw [q.1]; decide, by rw [q.2.1]; decide, ?_⟩
  exact (C54_short_circuit (xs := [5]) (x := 7) (ys := [9]) (Shaped.elems h2) false).1 (by decide) (by decide)

example : ∃ a, (Tm.binary ints.add x y).build ⟨false, true, false⟩ store = .ok a ∧
    Ops.allOf2 ⟨false, true, false⟩ .one (fun u v => .ok (decide (u ≤ v))) a a store false = .ok true := by
  obtain ⟨a, h1, h2⟩ := sum_xy
  refine ⟨a, h1, ?_⟩
  rw [((C54_pairwise _ h2 h2 (p := fun u v => u ≤ v) (fun _ _ => rfl) false).2 (by simp)).2.1]
  decide

example : Ordered (exactS ℚ (fun x _ => x) id) where
  lt _ _ := decide_eq_true_iff
  le _ _ := decide_eq_true_iff
  eq _ _ := decide_eq_true_iff

example : ∃ a, (Tm.lv (.arr1 0)).build ⟨false, true, false⟩ rats = .ok a ∧
    Ops.allPos (exactS ℚ (fun x _ => x) id) a rats false = .ok false ∧
    Ops.hasZero (exactS ℚ (fun x _ => x) id) a rats false = .ok false := by
  obtain ⟨a, h1, h2⟩ := rats_x
  obtain ⟨_, _, _, h3, _, h4, _⟩ := C54_tests (sc := exactS ℚ (fun x _ => x) id)
    ⟨fun _ _ => decide_eq_true_iff, fun _ _ => decide_eq_true_iff, fun _ _ => decide_eq_true_iff⟩
    (Shaped.elems h2) (by simp) false 0
  refine ⟨a, h1, ?_, ?_⟩
  · rw [h4]; congr 1; rw [decide_eq_false_iff_not]
    intro h; have := h (-3 / 4) (by simp); exact absurd this (by show ¬ (0 : ℚ) < _; norm_num)
  · rw [h3]; congr 1; rw [decide_eq_false_iff_not]
    show ¬ (0 : ℚ) ∈ _
    norm_num

end Spp.Props
