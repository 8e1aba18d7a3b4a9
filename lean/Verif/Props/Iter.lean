import Verif.Lemmas.Iter
import Verif.Props.Select
import Verif.Props.View
import Verif.Lemmas.Alias
import Mathlib.Data.Multiset.Bind

/-
C63, C64, C65: iterators.
-/

set_option linter.unusedSectionVars false

namespace Spp.Props

open Spec

section
variable {σ ρ α β : Type}

/-- C63: `for(auto&& x : A) body(x)` is the index loop `for(i = 0; i < A.size(); ++i) body(A.un(i))`: it ends
(whenever it is given more than `size` steps), and leaves the same state and outcome - whatever the body
does to the elements or to other objects, as long as the size of `A` stays the same (`I` may say more). -/
theorem C63_loop (b : Build) {mem : Nat → Flag σ β} {a n : Nat} {A : Acc σ β} (ha : mem a = .index A)
    {I : σ → Prop} {body : β → Op σ Unit} (hn : (n : Int) < 2 ^ 63)
    (hz : ∀ t, I t → A.size t = .ok (n : Int)) (hb : ∀ x t, I t → I (body x t).2) {s : σ} (hs : I s)
    {fuel : Nat} (hf : n < fuel) :
    Completes (It.each b mem a body fuel s) (indexLoop n A.un body s) ∧
    Completes (RIt.each b mem a body fuel s) (indexLoopDown n A.un body s) := by
  have e : (mem a).get = A.un := by rw [ha]; rfl
  have hz' : ∀ t, I t → (mem a).size t = .ok (n : Int) := by rw [ha]; exact hz
  rw [← e]
  exact ⟨each_loop b hn hz' hb hs hf, reach_loop b hn hz' hb hs hf⟩

theorem visited (b : Build) {mem : Nat → Flag σ ρ} {a n : Nat} {s : σ}
    (hn : (n : Int) < 2 ^ 63) (hz : (mem a).size s = .ok (n : Int)) (v : Nat → ρ)
    (hv : ∀ k : Nat, k < n → (mem a).get s k = .ok (v k)) {fuel : Nat} (hf : n < fuel) :
    It.each b (fun k => watched (mem k)) a record fuel (s, []) =
      (.ok (some ()), s, (List.range n).map v) ∧
    RIt.each b (fun k => watched (mem k)) a record fuel (s, []) =
      (.ok (some ()), s, ((List.range n).map v).reverse) := by
  have hI : ∀ (x : ρ) (t : σ × List ρ), t.1 = s → (record x t).2.1 = s := fun x t h => h
  have hz' : ∀ t : σ × List ρ, t.1 = s → (watched (mem a)).size t = .ok (n : Int) := by
    intro t h; subst h; exact hz
  constructor
  · have h := each_loop b (mem := fun k => watched (mem k)) (a := a) (I := fun t => t.1 = s) hn hz' hI
      (s := (s, [])) rfl hf
    unfold Completes indexLoop at h
    rw [h, record_loop (F := mem a) (f := fun i => (i : Int)) v hv]
    rfl
  · have h := reach_loop b (mem := fun k => watched (mem k)) (a := a) (I := fun t => t.1 = s) hn hz' hI
      (s := (s, [])) rfl hf
    unfold Completes indexLoopDown at h
    rw [h, record_loop (F := mem a) (f := fun i => ((n - 1 - i : Nat) : Int)) (fun k => v (n - 1 - k))
      (fun k hk => hv (n - 1 - k) (by omega))]
    have e : (List.range n).map (fun k => v (n - 1 - k)) = ((List.range n).map v).reverse := by
      apply List.ext_getElem
      · simp
      · intro i h1 h2
        simp
    rw [e]
    rfl

/-- C63: going from `begin()` to `end()` visits the elements once each in order, and going from
`rbegin()` to `rend()` visits them in the opposite order. -/
theorem C63_visits (b : Build) {mem : Nat → Flag σ β} {a : Nat} {A : Acc σ β} (ha : mem a = .index A)
    {s : σ} {l : List β} {d : Dim} (h : Elems d A s l) (hn : (l.length : Int) < 2 ^ 63) {fuel : Nat}
    (hf : l.length < fuel) :
    It.each b (fun k => watched (mem k)) a record fuel (s, []) = (.ok (some ()), s, l) ∧
    RIt.each b (fun k => watched (mem k)) a record fuel (s, []) = (.ok (some ()), s, l.reverse) := by
  rcases Nat.eq_zero_or_pos l.length with h0 | h0
  · have hl : l = [] := List.length_eq_zero_iff.1 h0
    subst hl
    have hz : (watched (mem a)).size (s, []) = .ok 0 := by rw [ha]; exact Elems.size h
    obtain ⟨f, rfl⟩ : ∃ f, fuel = f + 1 := ⟨fuel - 1, by omega⟩
    constructor
    · simp [It.each, It.end, hz, rangeFor, It.begin, It.mk', It.ne, It.compare_ok]
    · simp [RIt.each, RIt.rbegin, RIt.rend, It.end, hz, rangeFor, It.begin, It.mk', It.ne, RIt.ne, It.compare_ok]
  · have : Nonempty β := ⟨l[0]⟩
    have hx : β := l[0]
    obtain ⟨h1, h2⟩ := visited b (mem := mem) (a := a) (s := s) hn (by rw [ha]; exact Elems.size h)
      (fun k => l.getD k hx) (by
        intro k hk
        rw [ha]
        show A.un s k = _
        rw [Elems.un h hk]
        simp [List.getD, hk]) hf
    have e : (List.range l.length).map (fun k => l.getD k hx) = l := by
      apply List.ext_getElem
      · simp
      · intro i h1 h2
        simp [List.getD, h2]
    rw [e] at h1 h2
    exact ⟨h1, h2⟩

theorem put_sameSizes (p : Loc) (v : α) (t : Store α) : SameSizes t (put p v t).2 := by
  simp only [put, Op.get_bind]
  cases h : t.write p v with
  | trap k => exact SameSizes.refl t
  | ub => exact SameSizes.refl t
  | ok t' => exact write_sizes h

/-- C63: `for(auto& x : A) x = f(x)` on an array, slice or view whose places are distinct stores `f(x)` in
every place in order (and stops at the first `f(x)` that traps). -/
theorem C63_assigns [Inhabited α] (b : Build) (f : α → Res α) {t : Store α} (ht : Store.Ok t) {d : Dim}
    {l : Lv d} (hS : l.Sound t) (hV : l.Valid t) {cs : List Loc} (hp : Places l t cs) (hn : cs.Nodup)
    (hz : (cs.length : Int) < 2 ^ 63) {A : Acc (Store α) Loc} (hA : l.build b t = .ok A)
    {mem : Nat → Flag (Store α) Loc} {a : Nat} (ha : mem a = .index A) {fuel : Nat}
    (hf : cs.length < fuel) :
    ∃ r, Completes (It.each b mem a (fun p => do
        let s : Store α ← Op.get
        let v ← Op.lift (do let x ← s.read p; f x)
        put p v) fuel t) r ∧
      Writes cs (cs.map (fun c => do let x ← t.read c; f x)) t r := by
  obtain ⟨A', h1, h2⟩ := C71_for_each b f ht hS hV hp hn
  rw [hA] at h1
  cases h1
  obtain ⟨_, A', h3, h4⟩ := l.main b ht hS hV
  rw [hA] at h3
  cases h3
  refine ⟨_, ?_, h2⟩
  have hlen : ∀ t', SameSizes t t' → A.size t' = .ok (cs.length : Int) := by
    intro t' h
    have hfl : (l.cells t').flat.length = cs.length := by
      rw [l.cells_same h, hp.1, List.length_map]
    rw [(linDen_of (h4 t' h)).1, hfl]
  have key := (C63_loop b ha (n := cs.length) (I := fun t' => SameSizes t t')
    (body := fun p => do
        let s : Store α ← Op.get
        let v ← Op.lift (do let x ← s.read p; f x)
        put p v) hz hlen (by
      intro p t' h
      simp only [Op.get_bind]
      cases hr : (do let x ← t'.read p; f x) with
      | trap k => exact h
      | ub => exact h
      | ok v => exact SameSizes.trans h (put_sameSizes p v t')) (SameSizes.refl t) hf).1
  have e : Ops.forEach f A t = indexLoop cs.length A.un (fun p => do
        let s : Store α ← Op.get
        let v ← Op.lift (do let x ← s.read p; f x)
        put p v) t := by
    simp only [Ops.forEach, updateAll, Op.get_bind, hlen t (SameSizes.refl t), Op.lift_ok_bind,
      Int.toNat_natCast, indexLoop]
    refine congrFun (Op.forN_congr fun k _ => ?_) _
    funext u
    simp only [Op.get_bind]
    cases A.un u k <;> rfl
  rw [e]
  exact key

/-- C63: what the operators of an iterator at position `p` of an object do, as long as the resulting
positions are representable: they move by one, by `n`, give the distance, and compare positions. -/
theorem C63_arithmetic (b : Build) (a : Nat) (p q n : Int) :
    (IsIndex (p + 1) → It.inc b ⟨some a, p⟩ = .ok ⟨some a, p + 1⟩ ∧
      It.postInc b ⟨some a, p⟩ = .ok (⟨some a, p⟩, ⟨some a, p + 1⟩)) ∧
    (IsIndex (p - 1) → It.dec b ⟨some a, p⟩ = .ok ⟨some a, p - 1⟩ ∧
      It.postDec b ⟨some a, p⟩ = .ok (⟨some a, p⟩, ⟨some a, p - 1⟩)) ∧
    (IsIndex (p + n) → It.addAssign b ⟨some a, p⟩ n = .ok ⟨some a, p + n⟩ ∧
      It.plus b ⟨some a, p⟩ n = .ok ⟨some a, p + n⟩ ∧ It.plusLeft b n ⟨some a, p⟩ = .ok ⟨some a, p + n⟩) ∧
    (IsIndex (p - n) → It.subAssign b ⟨some a, p⟩ n = .ok ⟨some a, p - n⟩ ∧
      It.minus b ⟨some a, p⟩ n = .ok ⟨some a, p - n⟩) ∧
    (IsIndex (p - q) → It.diff b ⟨some a, p⟩ ⟨some a, q⟩ = .ok (p - q)) ∧
    It.eq b ⟨some a, p⟩ ⟨some a, q⟩ = .ok (decide (p = q)) ∧
    It.ne b ⟨some a, p⟩ ⟨some a, q⟩ = .ok (decide (p ≠ q)) ∧
    It.lt b ⟨some a, p⟩ ⟨some a, q⟩ = .ok (decide (p < q)) ∧
    It.le b ⟨some a, p⟩ ⟨some a, q⟩ = .ok (decide (p ≤ q)) ∧
    It.gt b ⟨some a, p⟩ ⟨some a, q⟩ = .ok (decide (p > q)) ∧
    It.ge b ⟨some a, p⟩ ⟨some a, q⟩ = .ok (decide (p ≥ q)) := by
  refine ⟨fun h => ⟨It.inc_ok b a h, ?_⟩, fun h => ⟨It.dec_ok b a h, ?_⟩,
    fun h => ⟨It.addAssign_ok b a h, It.plus_ok b a h, ?_⟩, fun h => ⟨It.subAssign_ok b a h, It.minus_ok b a h⟩,
    fun h => It.diff_ok b a h, It.compare_ok .., It.compare_ok .., It.compare_ok .., It.compare_ok ..,
    It.compare_ok .., It.compare_ok ..⟩
  · simp [It.postInc, It.inc_ok b a h]
  · simp [It.postDec, It.dec_ok b a h]
  · simp [It.plusLeft, It.plus_ok b a h]

/-- C63: the laws of random-access iterators, for iterators `x`, `y` into the same object whose positions, and
the positions reached on the way, are representable: `(x + n) + m` is `x + (n + m)`, `(x + n) - n` is `x`,
`(x + n) - x` is `n`, `x + (y - x)` is `y`, `--(++x)` is `x`, `x[n]` is `*(x + n)`, and `x < y` holds exactly
when `y - x` is positive. -/
theorem C63_laws (b : Build) (mem : Nat → Flag σ ρ) (s : σ) (a : Nat) (p q n m : Int) :
    (IsIndex (p + n) → IsIndex (n + m) → IsIndex (p + n + m) →
      (do let y ← It.plus b ⟨some a, p⟩ n; It.plus b y m) =
        (do let k ← iadd n m; It.plus b ⟨some a, p⟩ k)) ∧
    (IsIndex p → IsIndex (p + n) →
      (do let y ← It.plus b ⟨some a, p⟩ n; It.minus b y n) = .ok ⟨some a, p⟩) ∧
    (IsIndex n → IsIndex (p + n) →
      (do let y ← It.plus b ⟨some a, p⟩ n; It.diff b y ⟨some a, p⟩) = .ok n) ∧
    (IsIndex q → IsIndex (q - p) →
      (do let k ← It.diff b ⟨some a, q⟩ ⟨some a, p⟩; It.plus b ⟨some a, p⟩ k) = .ok ⟨some a, q⟩) ∧
    (IsIndex p → IsIndex (p + 1) →
      (do let y ← It.inc b ⟨some a, p⟩; It.dec b y) = .ok ⟨some a, p⟩) ∧
    (∀ N : Nat, (mem a).size s = .ok (N : Int) → b.Checked ∨ (0 ≤ p + n ∧ p + n < N) → IsIndex (p + n) →
      It.at' b mem ⟨some a, p⟩ n s = (do let y ← It.plus b ⟨some a, p⟩ n; It.deref b mem y s)) ∧
    (IsIndex (q - p) → It.lt b ⟨some a, p⟩ ⟨some a, q⟩ =
      (do let k ← It.diff b ⟨some a, q⟩ ⟨some a, p⟩; .ok (decide (0 < k)))) := by
  refine ⟨?_, ?_, ?_, ?_, ?_, ?_, ?_⟩
  · intro h1 h2 h3
    rw [It.plus_ok b a h1, iadd_ok h2, Res.ok_bind, Res.ok_bind, It.plus_ok b a h3,
      It.plus_ok b a (by rw [← Int.add_assoc]; exact h3), Int.add_assoc]
  · intro h1 h2
    have e : p + n - n = p := by omega
    rw [It.plus_ok b a h2, Res.ok_bind, It.minus_ok b a (by rw [e]; exact h1), e]
  · intro h1 h2
    have e : p + n - p = n := by omega
    rw [It.plus_ok b a h2, Res.ok_bind, It.diff_ok b a (by rw [e]; exact h1), e]
  · intro h1 h2
    have e : p + (q - p) = q := by omega
    rw [It.diff_ok b a h2, Res.ok_bind, It.plus_ok b a (by rw [e]; exact h1), e]
  · intro h1 h2
    have e : p + 1 - 1 = p := by omega
    rw [It.inc_ok b a h2, Res.ok_bind, It.dec_ok b a (by rw [e]; exact h1), e]
  · intro N hN hc hi
    rw [It.plus_ok b a hi, Res.ok_bind]
    by_cases h : 0 ≤ p + n ∧ p + n < N
    · rw [It.at_ok b hi hN h, It.deref_ok b hN h]
    · rcases hc with hc | hc
      · rw [It.at_out hc hi hN h, It.deref_out hc hN h]
      · exact absurd hc h
  · intro h
    rw [It.diff_ok b a h, Res.ok_bind]
    simp only [It.lt, It.compare_ok]
    congr 1
    simp only [decide_eq_decide]
    omega

/-- C63: dereferencing an iterator at position `p` of an object with `N` elements gives the element `p` the
object has at that moment; at a position outside `0 .. N-1` it traps in checked builds; likewise `it[n]`
for the position `p + n`.  Reverse iterators give the element before. -/
theorem C63_access (b : Build) {mem : Nat → Flag σ β} {a : Nat} {A : Acc σ β} (ha : mem a = .index A)
    {s : σ} {N : Nat} (hN : A.size s = .ok (N : Int)) (p n : Int) :
    (0 ≤ p → p < N → It.deref b mem ⟨some a, p⟩ s = A.un s p) ∧
    (b.Checked → ¬ (0 ≤ p ∧ p < N) → It.deref b mem ⟨some a, p⟩ s = .trap b.kind) ∧
    (IsIndex (p + n) → 0 ≤ p + n → p + n < N → It.at' b mem ⟨some a, p⟩ n s = A.un s (p + n)) ∧
    (b.Checked → IsIndex (p + n) → ¬ (0 ≤ p + n ∧ p + n < N) →
      It.at' b mem ⟨some a, p⟩ n s = .trap b.kind) ∧
    (IsIndex (p - 1) → 1 ≤ p → p ≤ N → RIt.deref b mem ⟨⟨some a, p⟩⟩ s = A.un s (p - 1)) ∧
    (b.Checked → IsIndex (p - 1) → ¬ (1 ≤ p ∧ p ≤ N) →
      RIt.deref b mem ⟨⟨some a, p⟩⟩ s = .trap b.kind) := by
  have hz : (mem a).size s = .ok (N : Int) := by rw [ha]; exact hN
  have hg : (mem a).get = A.un := by rw [ha]; rfl
  refine ⟨fun h1 h2 => ?_, fun hb h => It.deref_out hb hz h, fun hi h1 h2 => ?_,
    fun hb hi h => It.at_out hb hi hz h, fun hi h1 h2 => ?_, fun hb hi h => ?_⟩
  · rw [It.deref_ok b hz ⟨h1, h2⟩, hg]
  · rw [It.at_ok b hi hz ⟨h1, h2⟩, hg]
  · simp only [RIt.deref]
    rw [It.dec_ok b a hi, Res.ok_bind, It.deref_ok b hz (by omega), hg]
  · simp only [RIt.deref]
    rw [It.dec_ok b a hi, Res.ok_bind, It.deref_out hb hz (by omega)]

/-- C63: reverse iterators move in the opposite direction and order the positions the other way round, and
`r[n]` is the element `n` places further towards the front. -/
theorem C63_reverse (b : Build) {mem : Nat → Flag σ β} {a : Nat} {A : Acc σ β} (ha : mem a = .index A)
    {s : σ} {N : Nat} (hN : A.size s = .ok (N : Int)) (p q n : Int) :
    (IsIndex (p - 1) → RIt.inc b ⟨⟨some a, p⟩⟩ = .ok ⟨⟨some a, p - 1⟩⟩) ∧
    (IsIndex (p + 1) → RIt.dec b ⟨⟨some a, p⟩⟩ = .ok ⟨⟨some a, p + 1⟩⟩) ∧
    (IsIndex (p - n) → RIt.plus b ⟨⟨some a, p⟩⟩ n = .ok ⟨⟨some a, p - n⟩⟩) ∧
    (IsIndex (p + n) → RIt.minus b ⟨⟨some a, p⟩⟩ n = .ok ⟨⟨some a, p + n⟩⟩) ∧
    (IsIndex (q - p) → RIt.diff b ⟨⟨some a, p⟩⟩ ⟨⟨some a, q⟩⟩ = .ok (q - p)) ∧
    RIt.ne b ⟨⟨some a, p⟩⟩ ⟨⟨some a, q⟩⟩ = .ok (decide (p ≠ q)) ∧
    RIt.lt b ⟨⟨some a, p⟩⟩ ⟨⟨some a, q⟩⟩ = .ok (decide (q < p)) ∧
    (IsIndex (p - n) → 1 ≤ p - n → p - n ≤ N → RIt.at' b mem ⟨⟨some a, p⟩⟩ n s = A.un s (p - n - 1)) := by
  refine ⟨fun h => ?_, fun h => ?_, fun h => ?_, fun h => ?_, fun h => It.diff_ok b a h, ?_,
    ?_, fun hi h1 h2 => ?_⟩
  · simp [RIt.inc, It.dec_ok b a h]
  · simp [RIt.dec, It.inc_ok b a h]
  · simp [RIt.plus, It.minus_ok b a h]
  · simp [RIt.minus, It.plus_ok b a h]
  · simp only [RIt.ne, It.ne, It.compare_ok]
  · simp only [RIt.lt, It.gt, It.compare_ok, gt_iff_lt]
  · have hj : IsIndex (p - n - 1) := by unfold IsIndex at *; omega
    simp only [RIt.at', RIt.plus, It.minus_ok b a hi, Res.ok_bind, Res.pure_eq]
    exact (C63_access b ha hN (p - n) 0).2.2.2.2.1 hj h1 h2

/-- C63: in checked builds, a default-constructed iterator traps whatever is done with it, and so do the
distance and the comparisons of iterators into different objects. -/
theorem C63_rejected {b : Build} (hb : b.Checked) (mem : Nat → Flag σ ρ) (s : σ) (n : Int) (y : It) :
    (It.inc b .default = .trap b.kind ∧ It.dec b .default = .trap b.kind ∧
      It.postInc b .default = .trap b.kind ∧ It.postDec b .default = .trap b.kind ∧
      It.addAssign b .default n = .trap b.kind ∧ It.subAssign b .default n = .trap b.kind ∧
      It.plus b .default n = .trap b.kind ∧ It.plusLeft b n .default = .trap b.kind ∧
      It.minus b .default n = .trap b.kind ∧ It.diff b .default y = .trap b.kind ∧
      It.at' b mem .default n s = .trap b.kind ∧ It.deref b mem .default s = .trap b.kind ∧
      (∀ cmp ∈ [It.eq b, It.ne b, It.lt b, It.le b, It.gt b, It.ge b], cmp .default y = .trap b.kind)) ∧
    (∀ (a : Nat) (p : Int), y.ptr ≠ some a → It.diff b ⟨some a, p⟩ y = .trap b.kind ∧
      ∀ cmp ∈ [It.eq b, It.ne b, It.lt b, It.le b, It.gt b, It.ge b], cmp ⟨some a, p⟩ y = .trap b.kind) := by
  have hd : It.default.points = false := rfl
  have ht := assertDebug_false hb
  refine ⟨?_, fun a p hy => ?_⟩
  · refine ⟨?_, ?_, ?_, ?_, ?_, ?_, ?_, ?_, ?_, ?_, ?_, ?_, ?_⟩
    all_goals first
      | simp only [It.inc, It.dec, It.postInc, It.postDec, It.addAssign, It.subAssign, It.plus, It.plusLeft,
          It.minus, It.diff, It.at', It.deref, hd, ht, Res.trap_bind]
      | skip
    intro cmp hc
    simp only [List.mem_cons, List.not_mem_nil, or_false] at hc
    rcases hc with rfl | rfl | rfl | rfl | rfl | rfl <;>
      simp only [It.eq, It.ne, It.lt, It.le, It.gt, It.ge, It.compare, hd, ht, Res.trap_bind]
  · have hp : ((some a : Option Nat) == y.ptr) = false := beq_eq_false_iff_ne.2 (fun h => hy h.symm)
    refine ⟨?_, ?_⟩
    · simp only [It.diff, It.points_some, assertDebug_true, Res.ok_bind, hp, ht, Res.trap_bind]
    · intro cmp hc
      simp only [List.mem_cons, List.not_mem_nil, or_false] at hc
      rcases hc with rfl | rfl | rfl | rfl | rfl | rfl <;>
        simp only [It.eq, It.ne, It.lt, It.le, It.gt, It.ge, It.compare, It.points_some, assertDebug_true,
          Res.ok_bind, hp, ht, Res.trap_bind]

/-! ### C64 -/

/-- C64: `for(auto [i, j] : IndexRange2D{m, n}) body(i, j)` runs the body on the pairs in row-major order, and
ends, whenever neither or both of `m` and `n` are zero.  (`m * n` need not be representable.) -/
theorem C64_loop (b : Build) {m n : Nat} (h : m = 0 ↔ n = 0) (hm : (m : Int) < 2 ^ 63)
    (hn : (n : Int) < 2 ^ 63) (body : Int × Int → Op σ Unit) (s : σ) {fuel : Nat} (hf : m * n < fuel) :
    Completes (IndexRange2D.each b m n body fuel s) (eachOf body (rowMajor m n) s) :=
  plane_loop b h hm hn body s hf

/-- C64: the pairs in row-major order are all pairs, each once, and in lexicographic order. -/
theorem C64_pairs (m n : Nat) :
    (∀ i j : Int, (i, j) ∈ rowMajor m n ↔ 0 ≤ i ∧ i < m ∧ 0 ≤ j ∧ j < n) ∧
    (rowMajor m n).length = m * n ∧
    (rowMajor m n).Pairwise (fun x y => x.1 < y.1 ∨ x.1 = y.1 ∧ x.2 < y.2) ∧ (rowMajor m n).Nodup := by
  have hp : (rowMajor m n).Pairwise (fun x y => x.1 < y.1 ∨ x.1 = y.1 ∧ x.2 < y.2) := by
    induction m with
    | zero => simp [rowMajor]
    | succ m ih =>
      have e : rowMajor (m + 1) n =
          rowMajor m n ++ (List.range n).map (fun j : Nat => ((m : Int), (j : Int))) := by
        simp [rowMajor, List.range_succ]
      rw [e, List.pairwise_append]
      refine ⟨ih, ?_, ?_⟩
      · rw [List.pairwise_map]
        refine List.Pairwise.imp ?_ List.pairwise_lt_range
        intro x y hxy
        exact .inr ⟨rfl, by simpa using hxy⟩
      · intro x hx y hy
        simp only [rowMajor, List.mem_flatMap, List.mem_range, List.mem_map] at hx hy
        obtain ⟨i, hi, j, hj, rfl⟩ := hx
        obtain ⟨j', hj', rfl⟩ := hy
        left
        simpa using hi
  refine ⟨fun i j => ?_, ?_, hp, ?_⟩
  · simp only [rowMajor, List.mem_flatMap, List.mem_range, List.mem_map, Prod.mk.injEq]
    constructor
    · rintro ⟨i', hi, j', hj, rfl, rfl⟩
      omega
    · rintro ⟨h1, h2, h3, h4⟩
      exact ⟨i.toNat, by omega, j.toNat, by omega, by omega, by omega⟩
  · rw [rowMajor_range]; simp
  · refine hp.imp ?_
    rintro x y h rfl
    omega

/-- C64: in checked builds extents below zero, and a zero extent beside a non-zero one, are rejected. -/
theorem C64_rejected {b : Build} (hb : b.Checked) {m n : Int} (h : ¬ (0 ≤ m ∧ 0 ≤ n ∧ (m = 0 ↔ n = 0)))
    (body : Int × Int → Op σ Unit) (fuel : Nat) (s : σ) :
    IndexRange2D.each b m n body fuel s = (.trap b.kind, s) := by
  have ht := assertDebug_false hb
  have e : IndexRange2D.mk' b m n = .trap b.kind := by
    unfold IndexRange2D.mk'
    by_cases h1 : m > -1
    · by_cases h2 : n > -1
      · have h3 : semiValid m n = false := by
          rw [Bool.eq_false_iff, ne_eq, semiValid_iff]
          omega
        simp only [h1, h2, decide_true, assertDebug_true, Res.ok_bind, h3, ht, Res.trap_bind]
      · simp only [h1, h2, decide_true, decide_false, assertDebug_true, Res.ok_bind, ht, Res.trap_bind]
    · simp only [h1, decide_false, ht, Res.trap_bind]
  simp only [IndexRange2D.each, e, Op.lift_trap_bind]

/-- C64: why the extents must both be zero or not: without debug checks, traversing `m` by 0 with `m > 0`
runs the body on `(0, 0)`, which is no position, and then divides by zero. -/
theorem C64_degenerate {b : Build} (hb : b.Release) {m : Nat} (h0 : 0 < m) (hm : (m : Int) < 2 ^ 63)
    (body : Int × Int → Op σ Unit) {fuel : Nat} (s s' : σ) (hbody : body (0, 0) s = (.ok (), s')) :
    IndexRange2D.each b m 0 body (fuel + 1) s = (.ub, s') := by
  have hr := fun c => assertDebug_release hb c
  have i1 : isub (m : Int) 1 = .ok (m - 1 : Int) := isub_ok (isIndex_of_le (n := m) (by omega) (by omega) hm)
  have i2 : isub 0 1 = .ok (0 - 1 : Int) := isub_ok (by unfold IsIndex; omega)
  have i3 : iadd 0 1 = .ok (0 + 1 : Int) := iadd_ok (by unfold IsIndex; omega)
  have i4 : iadd 0 0 = .ok (0 + 0 : Int) := iadd_ok (by unfold IsIndex; omega)
  have i6 : irem b (0 + 1) 0 = .ub := by
    have hd : b.debugOff = true := hb
    rcases b with ⟨_ | _, _ | _, _ | _⟩ <;> first | rfl | cases hd
  have hne : PlaneIt.ne b ⟨0, 0, m, 0⟩ ⟨m, 0, m, 0⟩ = .ok true := by
    simp only [PlaneIt.ne, PlaneIt.eq, hr, Res.ok_bind, Res.pure_eq]
    rw [decide_eq_false (by omega)]
    rfl
  have hinc : PlaneIt.inc b ⟨0, 0, m, 0⟩ = .ub := by
    simp only [PlaneIt.inc, hr, Res.ok_bind, i1, i2]
    rw [if_neg (by omega)]
    simp only [i3, Res.ok_bind]
    rw [if_neg (by omega)]
    simp only [i4, i6, Res.ok_bind, Res.ub_bind]
  simp only [IndexRange2D.each, IndexRange2D.mk', IndexRange2D.begin, IndexRange2D.end, PlaneIt.mk', hr,
    Res.ok_bind, Res.pure_eq, Op.lift_ok_bind, rangeFor, hne]
  rw [if_pos trivial, Op.get_bind]
  simp only [PlaneIt.deref, hr, Res.ok_bind, Res.pure_eq, Op.lift_ok_bind]
  rw [Op.bind_run, hbody]
  simp only [hinc, Op.lift_ub_bind]

/-- C64: `IndexRange2D{A}` ranges over the positions of `A`; the default range is empty. -/
theorem C64_ranges (b : Build) {A : Acc σ β} {s : σ} {M : Mat (Res β)} (h : Den .two A s M)
    (hs : Small (d := .two) M) :
    IndexRange2D.ofArray b A s = .ok ⟨M.m, M.n⟩ ∧ IndexRange2D.default = ⟨0, 0⟩ := by
  have h1 : semiValid (M.m : Int) (M.n : Int) = true := semiValid_iff.2 (by have := hs.2; omega)
  refine ⟨?_, rfl⟩
  simp only [IndexRange2D.ofArray, h.1, h.2.1, IndexRange2D.mk', h1]
  rw [decide_eq_true (by omega), decide_eq_true (by omega)]
  simp

/-- C64: comparing positions of ranges with different extents, dereferencing or moving past the end, and
positions outside the extents, are rejected in checked builds; the postfix form returns the old
position. -/
theorem C64_positions {b : Build} (hb : b.Checked) (x y : PlaneIt) :
    ((x.rows ≠ y.rows ∨ x.cols ≠ y.cols) → PlaneIt.eq b x y = .trap b.kind ∧
      PlaneIt.ne b x y = .trap b.kind ∧ PlaneIt.assign b x y = .trap b.kind) ∧
    (x.rows = y.rows → x.cols = y.cols → PlaneIt.eq b x y = .ok (decide (x = y)) ∧
      PlaneIt.ne b x y = .ok (decide (x ≠ y)) ∧ PlaneIt.assign b x y = .ok y) ∧
    ((x.i ≥ x.rows ∨ x.j ≥ x.cols) → PlaneIt.deref b x = .trap b.kind ∧ PlaneIt.inc b x = .trap b.kind ∧
      PlaneIt.postInc b x = .trap b.kind) ∧
    (∀ x', PlaneIt.inc b x = .ok x' → PlaneIt.postInc b x = .ok (x, x')) ∧
    (∀ i j m n : Int, PlaneIt.mk' b i j m n =
      if 0 ≤ i ∧ 0 ≤ j ∧ i ≤ m ∧ j ≤ n then .ok ⟨i, j, m, n⟩ else .trap b.kind) := by
  have ht := assertDebug_false hb
  refine ⟨fun h => ?_, fun h1 h2 => ?_, fun h => ?_, fun x' h => ?_, fun i j m n => ?_⟩
  · by_cases h1 : x.rows = y.rows
    · have h2 : ¬ x.cols = y.cols := by tauto
      simp only [PlaneIt.eq, PlaneIt.ne, PlaneIt.assign, h1, h2, decide_true, decide_false, assertDebug_true,
        Res.ok_bind, ht, Res.trap_bind, and_self]
    · simp only [PlaneIt.eq, PlaneIt.ne, PlaneIt.assign, h1, decide_false, ht, Res.trap_bind, and_self]
  · rcases x with ⟨xi, xj, m, n⟩
    rcases y with ⟨yi, yj, m', n'⟩
    cases h1
    cases h2
    have e : (decide (xi = yi) && decide (xj = yj)) = decide (PlaneIt.mk xi xj m n = ⟨yi, yj, m, n⟩) := by
      by_cases a1 : xi = yi <;> by_cases a2 : xj = yj <;> simp [a1, a2]
    refine ⟨?_, ?_, ?_⟩
    · simp only [PlaneIt.eq, decide_true, assertDebug_true, Res.ok_bind, Res.pure_eq, e]
    · simp only [PlaneIt.ne, PlaneIt.eq, decide_true, assertDebug_true, Res.ok_bind, Res.pure_eq, e,
        decide_not, ne_eq]
    · simp only [PlaneIt.assign, decide_true, assertDebug_true, Res.ok_bind, Res.pure_eq]
  · have e : PlaneIt.inc b x = .trap b.kind := by
      unfold PlaneIt.inc
      by_cases h1 : x.i < x.rows
      · have h2 : ¬ x.j < x.cols := by omega
        simp only [h1, h2, decide_true, decide_false, assertDebug_true, Res.ok_bind, ht, Res.trap_bind]
      · simp only [h1, decide_false, ht, Res.trap_bind]
    refine ⟨?_, e, ?_⟩
    · unfold PlaneIt.deref
      by_cases h1 : x.i < x.rows
      · have h2 : ¬ x.j < x.cols := by omega
        simp only [h1, h2, decide_true, decide_false, assertDebug_true, Res.ok_bind, ht, Res.trap_bind]
      · simp only [h1, decide_false, ht, Res.trap_bind]
    · simp only [PlaneIt.postInc, e, Res.trap_bind]
  · simp only [PlaneIt.postInc, h, Res.ok_bind, Res.pure_eq]
  · unfold PlaneIt.mk'
    by_cases h1 : i ≥ 0 <;> by_cases h2 : j ≥ 0 <;> by_cases h3 : m ≥ i <;> by_cases h4 : n ≥ j <;>
      simp [h1, h2, h3, h4, ht]

/-! ### C65 -/

/-- The list of elements of a one-dimensional object, read from front to back. -/
def elementsOf {σ β : Type} (a : Acc σ β) (s : σ) : List (Res β) :=
  (List.range (a.rows s).toNat).map (fun j : Nat => a.un s j)

theorem lines_aux {vs : List (Acc σ β)} {s : σ} {m : Nat} {row : Nat → List (Res β)}
    (hl : vs.length = m) (h : ∀ k (hk : k < vs.length), elementsOf vs[k] s = row k) :
    vs.map (fun v => elementsOf v s) = (List.range m).map row := by
  apply List.ext_getElem
  · simp [hl]
  · intro i h1 h2
    simp only [List.getElem_map, List.getElem_range]
    exact h i (by simpa using h1)

/-- C65: `for(auto&& r : RowIt(A))` visits the rows of `A` from the first to the last: as many as there are,
the `k`-th visited is `A.row(k)` with the elements of row `k`.  Together they are the elements of `A` in
row-major order, each exactly once.  In the opposite direction they are visited from the last. -/
theorem C65_rows (b : Build) {A : Acc σ β} {s : σ} {M : Mat (Res β)} (h : Den .two A s M)
    (hs : Small (d := .two) M) {mem : Nat → Flag σ (Acc σ β)} {a : Nat} (ha : mem a = .row b A)
    {fuel : Nat} (hf : M.m < fuel) :
    ∃ vs : List (Acc σ β),
      It.each b (fun k => watched (mem k)) a record fuel (s, []) = (.ok (some ()), s, vs) ∧
      RIt.each b (fun k => watched (mem k)) a record fuel (s, []) = (.ok (some ()), s, vs.reverse) ∧
      vs.length = M.m ∧
      (∀ (k : Nat) (hk : k < vs.length), View.mk b A s (.row (.at k)) = .ok vs[k] ∧
        elementsOf vs[k] s = M.row k) ∧
      vs.flatMap (fun v => elementsOf v s) = M.flat := by
  obtain ⟨b1, b2⟩ := two_of_m hs
  have hz : (mem a).size s = .ok (M.m : Int) := by rw [ha]; simp only [Flag.row, h.1]
  have hv : ∀ k : Nat, ∃ v, k < M.m → View.mk b A s (.row (.at k)) = .ok v ∧ elementsOf v s = M.row k := by
    intro k
    by_cases hk : k < M.m
    · obtain ⟨v, h1, h2, h3⟩ := C40_row b h hs (p := .at k) (by simp only [target, InRange]; omega)
      refine ⟨v, fun _ => ⟨h1, ?_⟩⟩
      simp only [elementsOf, h2, Int.toNat_natCast, Mat.row]
      refine List.map_congr_left fun j hj => ?_
      rw [h3 j (List.mem_range.1 hj)]
      simp [target]
    · exact ⟨A, fun h => absurd h hk⟩
  choose v hv using hv
  obtain ⟨h1, h2⟩ := visited b (mem := mem) (a := a) (s := s) (n := M.m) (by omega) hz v
    (by intro k hk; rw [ha]; exact (hv k hk).1) hf
  have hk' : ∀ (k : Nat) (hk : k < ((List.range M.m).map v).length),
      View.mk b A s (.row (.at k)) = .ok ((List.range M.m).map v)[k] ∧
        elementsOf ((List.range M.m).map v)[k] s = M.row k := by
    intro k hk
    have : k < M.m := by simpa using hk
    simpa using hv k this
  refine ⟨(List.range M.m).map v, h1, h2, by simp, hk', ?_⟩
  rw [List.flatMap_def, lines_aux (m := M.m) (row := M.row) (by simp) (fun k hk => (hk' k hk).2), Mat.flat, List.flatMap_def]

/-- C65: `for(auto&& c : ColIt(A))` visits the columns of `A` from the first to the last: as many as there
are, the `k`-th visited is `A.col(k)` with the elements of column `k`.  Together they are the elements of
`A`, each exactly once, column after column. -/
theorem C65_cols (b : Build) {A : Acc σ β} {s : σ} {M : Mat (Res β)} (h : Den .two A s M)
    (hs : Small (d := .two) M) {mem : Nat → Flag σ (Acc σ β)} {a : Nat} (ha : mem a = .col b A)
    {fuel : Nat} (hf : M.n < fuel) :
    ∃ vs : List (Acc σ β),
      It.each b (fun k => watched (mem k)) a record fuel (s, []) = (.ok (some ()), s, vs) ∧
      RIt.each b (fun k => watched (mem k)) a record fuel (s, []) = (.ok (some ()), s, vs.reverse) ∧
      vs.length = M.n ∧
      (∀ (k : Nat) (hk : k < vs.length), View.mk b A s (.col (.at k)) = .ok vs[k] ∧
        elementsOf vs[k] s = M.col k) ∧
      (vs.flatMap (fun v => elementsOf v s)).Perm M.flat := by
  obtain ⟨b1, b2⟩ := two_of_m hs
  have hz : (mem a).size s = .ok (M.n : Int) := by rw [ha]; simp only [Flag.col, h.2.1]
  have hv : ∀ k : Nat, ∃ v, k < M.n → View.mk b A s (.col (.at k)) = .ok v ∧ elementsOf v s = M.col k := by
    intro k
    by_cases hk : k < M.n
    · obtain ⟨v, h1, h2, h3⟩ := C40_col b h hs (p := .at k) (by simp only [target, InRange]; omega)
      refine ⟨v, fun _ => ⟨h1, ?_⟩⟩
      simp only [elementsOf, h2, Int.toNat_natCast, Mat.col]
      refine List.map_congr_left fun j hj => ?_
      rw [h3 j (List.mem_range.1 hj)]
      simp [target]
    · exact ⟨A, fun h => absurd h hk⟩
  choose v hv using hv
  obtain ⟨h1, h2⟩ := visited b (mem := mem) (a := a) (s := s) (n := M.n) (by omega) hz v
    (by intro k hk; rw [ha]; exact (hv k hk).1) hf
  have hk' : ∀ (k : Nat) (hk : k < ((List.range M.n).map v).length),
      View.mk b A s (.col (.at k)) = .ok ((List.range M.n).map v)[k] ∧
        elementsOf ((List.range M.n).map v)[k] s = M.col k := by
    intro k hk
    have : k < M.n := by simpa using hk
    simpa using hv k this
  refine ⟨(List.range M.n).map v, h1, h2, by simp, hk', ?_⟩
  rw [List.flatMap_def, lines_aux (m := M.n) (row := M.col) (by simp) (fun k hk => (hk' k hk).2), ← List.flatMap_def,
    Mat.flat, ← Multiset.coe_eq_coe]
  have key := Multiset.bind_bind (f := fun j i => ({M.el i j} : Multiset (Res β)))
    (Multiset.ofList (List.range M.n)) (Multiset.ofList (List.range M.m))
  simpa [Mat.col, Mat.row, ← Multiset.coe_bind, Multiset.bind_singleton] using key

/-- C65: traversing rows (columns) while the body changes elements: the loop is the index loop over
`A.row(i)` (`A.col(j)`), whatever the body does, as long as the extents stay the same. -/
theorem C65_loop (b : Build) {mem : Nat → Flag σ (Acc σ β)} {a n : Nat} {A : Acc σ β}
    {I : σ → Prop} {body : Acc σ β → Op σ Unit} (hn : (n : Int) < 2 ^ 63)
    (hb : ∀ x t, I t → I (body x t).2) {s : σ} (hs : I s) {fuel : Nat} (hf : n < fuel) :
    (mem a = .row b A → (∀ t, I t → A.rows t = n) →
      Completes (It.each b mem a body fuel s)
        (indexLoop n (fun t i => View.mk b A t (.row (.at i))) body s)) ∧
    (mem a = .col b A → (∀ t, I t → A.cols t = n) →
      Completes (It.each b mem a body fuel s)
        (indexLoop n (fun t i => View.mk b A t (.col (.at i))) body s)) := by
  constructor
  · intro ha hz
    have e : (mem a).get = (fun t i => View.mk b A t (.row (.at i))) := by rw [ha]; rfl
    rw [← e]
    exact each_loop b hn (by intro t ht; rw [ha]; simp only [Flag.row, hz t ht]) hb hs hf
  · intro ha hz
    have e : (mem a).get = (fun t i => View.mk b A t (.col (.at i))) := by rw [ha]; rfl
    rw [← e]
    exact each_loop b hn (by intro t ht; rw [ha]; simp only [Flag.col, hz t ht]) hb hs hf

end

/-! ### Examples -/

section
open Sample

/-- The addresses: the array `[1,2,3]` at 7, the matrix at 8, its rows at 9. -/
def addresses : Nat → Flag (Store Int) Loc
  | 7 => .index (Lv.acc1 Int 0)
  | _ => .index (Lv.acc2 Int 0)

example : It.each ⟨false, true, false⟩ (fun k => watched (addresses k)) 8 record 10 (store, []) =
      (.ok (some ()), store, [.two 0 0, .two 0 1, .two 0 2, .two 0 3, .two 0 4, .two 0 5]) ∧
    RIt.each ⟨false, true, false⟩ (fun k => watched (addresses k)) 8 record 10 (store, []) =
      (.ok (some ()), store, [.two 0 5, .two 0 4, .two 0 3, .two 0 2, .two 0 1, .two 0 0]) :=
  C63_visits _ (mem := addresses) (a := 8) (A := Lv.acc2 Int 0) rfl (d := .two) (s := store)
    (l := [.two 0 0, .two 0 1, .two 0 2, .two 0 3, .two 0 4, .two 0 5])
    ⟨_, acc2_den store_ok 0, rfl⟩ (by decide) (by decide)

example : ∃ r, Completes (It.each ⟨false, true, false⟩ addresses 7 (fun p => do
        let s : Store Int ← Op.get
        let v ← Op.lift (do let x ← s.read p; ints.mul x 10)
        put p v) 10 store) r ∧
      Writes [.one 0 0, .one 0 1, .one 0 2] [.ok 10, .ok 20, .ok 30] store r :=
  C63_assigns ⟨false, true, false⟩ (fun x => ints.mul x 10) store_ok (l := .arr1 0) (by decide) (by decide)
    (cs := [.one 0 0, .one 0 1, .one 0 2]) ⟨rfl, by decide⟩ (by decide) (by decide) rfl rfl (by decide)

example : It.deref ⟨false, true, false⟩ addresses ⟨some 7, 3⟩ store = .trap .exception :=
  (C63_access ⟨false, true, false⟩ (mem := addresses) (a := 7) (A := Lv.acc1 Int 0) rfl (s := store) (N := 3)
    rfl 3 0).2.1 (by decide) (by decide)

example : It.at' ⟨false, true, false⟩ addresses ⟨some 7, 4⟩ (-2) store = .ok (.one 0 2) :=
  (C63_access ⟨false, true, false⟩ (mem := addresses) (a := 7) (A := Lv.acc1 Int 0) rfl (s := store) (N := 3)
    rfl 4 (-2)).2.2.1 (by unfold IsIndex; decide) (by decide) (by decide)

example : RIt.at' ⟨false, true, false⟩ addresses ⟨⟨some 7, 3⟩⟩ 1 store = .ok (.one 0 1) :=
  (C63_reverse ⟨false, true, false⟩ (mem := addresses) (a := 7) (A := Lv.acc1 Int 0) rfl (s := store) (N := 3)
    rfl 3 0 1).2.2.2.2.2.2.2 (by unfold IsIndex; decide) (by decide) (by decide)

example : It.diff ⟨false, true, false⟩ ⟨some 7, 3⟩ ⟨some 7, 1⟩ = .ok 2 :=
  (C63_arithmetic ⟨false, true, false⟩ 7 3 1 0).2.2.2.2.1 (by unfold IsIndex; decide)

example : It.lt ⟨false, true, false⟩ ⟨some 7, 0⟩ ⟨some 8, 1⟩ = .trap .exception :=
  ((C63_rejected (b := ⟨false, true, false⟩) (by decide) addresses store 0 ⟨some 8, 1⟩).2 7 0 (by decide)).2
    _ (by simp)

example : Completes (IndexRange2D.each ⟨false, true, false⟩ 2 3
      (fun p => (fun l => (.ok (), l ++ [p]) : Op (List (Int × Int)) Unit)) 7 [])
    (.ok (), [(0, 0), (0, 1), (0, 2), (1, 0), (1, 1), (1, 2)]) :=
  C64_loop ⟨false, true, false⟩ (m := 2) (n := 3) (by decide) (by decide) (by decide) _ _ (by decide)

example : IndexRange2D.each ⟨false, true, false⟩ 2 0 (fun _ => (pure () : Op Unit Unit)) 7 () =
    (.trap .exception, ()) :=
  C64_rejected (b := ⟨false, true, false⟩) (by decide) (by decide) _ _ _

example : IndexRange2D.each ⟨true, true, false⟩ 2 0 (fun _ => (pure () : Op Unit Unit)) 1 () = (.ub, ()) :=
  C64_degenerate (b := ⟨true, true, false⟩) rfl (m := 2) (by decide) (by decide) _ (fuel := 0) () () rfl

example : ∃ vs : List (Acc (Store Int) Loc),
    It.each ⟨false, true, false⟩ (fun _ => watched (.row ⟨false, true, false⟩ (Lv.acc2 Int 0))) 0 record 5
      (store, []) = (.ok (some ()), store, vs) ∧ vs.length = 2 ∧
    vs.flatMap (fun v => elementsOf v store) =
      [.ok (.two 0 0), .ok (.two 0 1), .ok (.two 0 2), .ok (.two 0 3), .ok (.two 0 4), .ok (.two 0 5)] := by
  obtain ⟨vs, h1, _, h2, _, h3⟩ := C65_rows ⟨false, true, false⟩ A_den A_small
    (mem := fun _ => .row ⟨false, true, false⟩ (Lv.acc2 Int 0)) (a := 0) rfl (fuel := 5) (by decide)
  exact ⟨vs, h1, h2, h3⟩

example : ∃ vs : List (Acc (Store Int) Loc),
    It.each ⟨false, true, false⟩ (fun _ => watched (.col ⟨false, true, false⟩ (Lv.acc2 Int 0))) 0 record 5
      (store, []) = (.ok (some ()), store, vs) ∧ ∃ h : vs.length = 3,
    elementsOf vs[1] store = [.ok (.two 0 1), .ok (.two 0 4)] := by
  obtain ⟨vs, h1, _, h2, h3, _⟩ := C65_cols ⟨false, true, false⟩ A_den A_small
    (mem := fun _ => .col ⟨false, true, false⟩ (Lv.acc2 Int 0)) (a := 0) rfl (fuel := 5) (by decide)
  have h2' : vs.length = 3 := h2
  exact ⟨vs, h1, h2', (h3 1 (by omega)).2⟩

end

end Spp.Props
