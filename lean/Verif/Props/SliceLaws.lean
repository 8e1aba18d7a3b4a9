import Verif.Lemmas.Idioms
import Verif.Lemmas.Sample
import Verif.Spec.Decide

/-
Laws of slicing (C109): chains of slices and the single slices they are equal to.  `a` is any
one-dimensional object: with places as elements (`β = Loc`) for an array or a slice of one, with values
for an expression.
-/

namespace Spp.Props
open Spec Idioms

variable {σ β : Type} {a : Acc σ β} {s : σ} {l : List (Res β)}

/-- Two chains with the same selection. -/
theorem same_one_one (b : Build) (h : Den .one a s l) (hn : (l.length : Int) < 2 ^ 63 - 1)
    {r q : SliceReq} (ha : r.Args) (hv : r.Valid l.length) (ha' : q.Args) (hv' : q.Valid l.length)
    (e : selection l.length r = selection l.length q) : SameSlices b a s [r] [q] := by
  obtain ⟨v, h1, h2⟩ := chain_one b h hn ha hv
  obtain ⟨w, h3, h4⟩ := chain_one b h hn ha' hv'
  rw [← e] at h4
  exact ⟨v, w, _, h1, h3, h2, h4⟩

theorem same_two_one (b : Build) (h : Den .one a s l) (hn : (l.length : Int) < 2 ^ 63 - 1)
    {r q p : SliceReq} (ha : r.Args) (hv : r.Valid l.length)
    (hm : ((selection l.length r).length : Int) < 2 ^ 63 - 1)
    (ha' : q.Args) (hv' : q.Valid (selection l.length r).length) (hap : p.Args) (hvp : p.Valid l.length)
    (e : compose (selection l.length r) (selection (selection l.length r).length q) =
      selection l.length p) : SameSlices b a s [r, q] [p] := by
  obtain ⟨v, h1, h2⟩ := chain_two b h hn ha hv hm ha' hv'
  obtain ⟨w, h3, h4⟩ := chain_one b h hn hap hvp
  rw [e] at h2
  exact ⟨v, w, _, h1, h3, h2, h4⟩

theorem same_two_two (b : Build) (h : Den .one a s l) (hn : (l.length : Int) < 2 ^ 63 - 1)
    {r q p t : SliceReq} (ha : r.Args) (hv : r.Valid l.length)
    (hm : ((selection l.length r).length : Int) < 2 ^ 63 - 1)
    (ha' : q.Args) (hv' : q.Valid (selection l.length r).length) (hap : p.Args) (hvp : p.Valid l.length)
    (hm' : ((selection l.length p).length : Int) < 2 ^ 63 - 1)
    (hat : t.Args) (hvt : t.Valid (selection l.length p).length)
    (e : compose (selection l.length r) (selection (selection l.length r).length q) =
      compose (selection l.length p) (selection (selection l.length p).length t)) :
    SameSlices b a s [r, q] [p, t] := by
  obtain ⟨v, h1, h2⟩ := chain_two b h hn ha hv hm ha' hv'
  obtain ⟨w, h3, h4⟩ := chain_two b h hn hap hvp hm' hat hvt
  rw [e] at h2
  exact ⟨v, w, _, h1, h3, h2, h4⟩

theorem skipN_mem {n k : Nat} {x : Int} (hx : x ∈ progression 0 k ((n + k - 1) / k)) (hk : 0 < k) :
    InRange n x := by
  rw [← sel_skipN (n := n) hk] at hx
  exact mem_upto.1 (List.mem_filter.1 hx).1

/-- Rounding up twice is rounding up once. -/
theorem ceil_ceil (n j k : Nat) (hj : 0 < j) (hk : 0 < k) :
    ((n + j - 1) / j + k - 1) / k = (n + j * k - 1) / (j * k) := by
  rw [← Nat.div_div_eq_div_mul]
  congr 1
  have e : n + j * k - 1 = (n + j - 1) + (k - 1) * j := by
    obtain ⟨k, rfl⟩ : ∃ m, k = m + 1 := ⟨k - 1, by omega⟩
    rw [Nat.mul_add, Nat.mul_one, Nat.add_sub_cancel, Nat.mul_comm k j]
    omega
  rw [e, Nat.add_mul_div_right _ _ hj]
  generalize (n + j - 1) / j = q
  omega

/-- C109: every `k`-th element of every `j`-th element is every `jk`-th element. -/
theorem C109_skip_skip (b : Build) (h : Den .one a s l) {j k : Nat} (hj : 0 < j) (hk : 0 < k)
    (hn : (l.length : Int) + j * k < 2 ^ 63) :
    SameSlices b a s [.skipN j, .skipN k] [.skipN (j * k : Nat)] := by
  have h1 : 1 * k ≤ j * k := Nat.mul_le_mul_right k hj
  have h2 : j * 1 ≤ j * k := Nat.mul_le_mul_left j hk
  have h3 : ((j * k : Nat) : Int) = j * k := Int.natCast_mul j k
  have h4 : (selection l.length (.skipN j)).length = (l.length + j - 1) / j := by
    rw [sel_skipN hj, progression_length]
  have h5 : (l.length + j - 1) / j ≤ l.length := by
    rw [Nat.div_le_iff_le_mul_add_pred hj]
    have : 1 * l.length ≤ j * l.length := Nat.mul_le_mul_right _ hj
    omega
  refine same_two_one b h (by omega) ?_ ?_ (by rw [h4]; omega) ?_ ?_ ?_ ?_ ?_
  · show IsIndex j; constructor <;> omega
  · exact ⟨by omega, by omega⟩
  · show IsIndex k; constructor <;> omega
  · rw [h4]; exact ⟨by omega, by omega⟩
  · show IsIndex (j * k : Nat); constructor <;> omega
  · exact ⟨by omega, by omega⟩
  · rw [h4, sel_skipN hj, sel_skipN hk, sel_skipN (Nat.mul_pos hj hk),
      compose_progression (fun x hx => skipN_mem hx hk), ceil_ceil _ _ _ hj hk, h3]
    rw [Int.zero_mul, Int.add_zero, Int.mul_comm (k : Int)]

/-- C109: `A(even)` is `A(skipN(2))`, `A(even)(even)` is `A(skipN(4))` (example2.cpp:18-19). -/
theorem C109_even_even (b : Build) (h : Den .one a s l) (hn : (l.length : Int) + 4 < 2 ^ 63) :
    SameSlices b a s [.even] [.skipN 2] ∧ SameSlices b a s [.even, .even] [.skipN 4] := by
  have e2 : ∀ n : Nat, selection n .even = selection n (.skipN 2) := fun n => by
    rw [sel_even, show (2 : Int) = ((2 : Nat) : Int) by rfl, sel_skipN (by omega)]
    rfl
  constructor
  · refine same_one_one b h (by omega) trivial trivial ?_ ?_ (e2 _)
    · show IsIndex 2; constructor <;> omega
    · exact ⟨by omega, by omega⟩
  · have h4 : (selection l.length .even).length = (l.length + 1) / 2 := by rw [sel_even, progression_length]
    refine same_two_one b h (by omega) trivial trivial (by rw [h4]; omega) trivial trivial ?_ ?_ ?_
    · show IsIndex 4; constructor <;> omega
    · exact ⟨by omega, by omega⟩
    · rw [h4, sel_even, sel_even, show (4 : Int) = ((4 : Nat) : Int) by rfl, sel_skipN (by omega),
        compose_progression (fun x hx => by
          rw [← sel_even] at hx; exact mem_upto.1 (List.mem_filter.1 hx).1)]
      congr 1
      have := ceil_ceil l.length 2 2 (by omega) (by omega)
      simpa using this

/-- C109: `A(reverse)(reverse)` and `A(all)` are `A`, element by element. -/
theorem C109_reverse_reverse (b : Build) (h : Den .one a s l) (hn : (l.length : Int) < 2 ^ 63 - 1) :
    SameSlices b a s [.reverse, .reverse] [] ∧ SameSlices b a s [.all] [] := by
  have h4 : (selection l.length .reverse).length = l.length := by rw [sel_reverse, progression_length]
  constructor
  · obtain ⟨v, h1, h2⟩ := chain_two b h hn (r := .reverse) (q := .reverse) trivial trivial
      (by rw [h4]; exact hn) trivial trivial
    refine ⟨v, a, l, h1, rfl, ?_, h⟩
    rw [h4, sel_reverse, compose_progression (fun x hx => by
      rw [← sel_reverse] at hx; exact mem_upto.1 (List.mem_reverse.1 hx))] at h2
    have e : progression ((l.length : Int) - 1 + (l.length - 1) * -1) (-1 * -1) l.length = upto l.length := by
      rw [upto_eq_progression, Int.toNat_natCast]
      congr 1
      omega
    rw [e, map_pick_upto rfl] at h2
    exact h2
  · obtain ⟨v, h1, h2⟩ := chain_one b h hn (r := .all) trivial trivial
    refine ⟨v, a, l, h1, rfl, ?_, h⟩
    have e : selection l.length .all = upto l.length := rfl
    rw [e, map_pick_upto rfl] at h2
    exact h2

/-- C109: the first `j` of the first `k` elements are the first `j` elements; likewise the last. -/
theorem C109_first_first (b : Build) (h : Den .one a s l) (hn : (l.length : Int) < 2 ^ 63 - 1) {j k : Nat}
    (hj : j ≤ k) (hk : k ≤ l.length) :
    SameSlices b a s [.firstN k, .firstN j] [.firstN j] ∧ SameSlices b a s [.lastN k, .lastN j] [.lastN j] := by
  have ij : IsIndex j := by constructor <;> omega
  have ik : IsIndex k := by constructor <;> omega
  have h4 : (selection l.length (.firstN k)).length = k := by rw [sel_firstN hk, progression_length]
  have h5 : (selection l.length (.lastN k)).length = k := by rw [sel_lastN hk, progression_length]
  constructor
  · refine same_two_one b h hn ik ⟨by omega, by omega⟩ (by rw [h4]; omega) ij
      (by rw [h4]; exact ⟨by omega, by omega⟩) ij ⟨by omega, by omega⟩ ?_
    rw [h4, sel_firstN hk, sel_firstN hj, sel_firstN (by omega), compose_progression (fun x hx => by
      obtain ⟨i, h1, rfl⟩ := mem_progression.1 hx
      constructor <;> omega)]
    congr 1
  · refine same_two_one b h hn ik ⟨by omega, by omega⟩ (by rw [h5]; omega) ij
      (by rw [h5]; exact ⟨by omega, by omega⟩) ij ⟨by omega, by omega⟩ ?_
    rw [h5, sel_lastN hk, sel_lastN hj, sel_lastN (by omega), compose_progression (fun x hx => by
      obtain ⟨i, h1, rfl⟩ := mem_progression.1 hx
      constructor <;> omega)]
    congr 1
    omega

/-- C109: the first `k` elements of the reversed object are its last `k` elements reversed, and vice
versa. -/
theorem C109_reverse_first (b : Build) (h : Den .one a s l) (hn : (l.length : Int) < 2 ^ 63 - 1) {k : Nat}
    (hk : k ≤ l.length) :
    SameSlices b a s [.reverse, .firstN k] [.lastN k, .reverse] ∧
    SameSlices b a s [.reverse, .lastN k] [.firstN k, .reverse] := by
  have ik : IsIndex k := by constructor <;> omega
  have hr : (selection l.length .reverse).length = l.length := by rw [sel_reverse, progression_length]
  have h4 : (selection l.length (.firstN k)).length = k := by rw [sel_firstN hk, progression_length]
  have h5 : (selection l.length (.lastN k)).length = k := by rw [sel_lastN hk, progression_length]
  constructor
  · refine same_two_two b h hn trivial trivial (by rw [hr]; omega) ik
      (by rw [hr]; exact ⟨by omega, by omega⟩) ik ⟨by omega, by omega⟩ (by rw [h5]; omega) trivial trivial ?_
    rw [hr, h5, sel_reverse, sel_reverse, sel_firstN hk, sel_lastN hk, compose_progression (fun x hx => by
      obtain ⟨i, h1, rfl⟩ := mem_progression.1 hx
      constructor <;> omega), compose_progression (fun x hx => by
      obtain ⟨i, h1, rfl⟩ := mem_progression.1 hx
      constructor <;> omega)]
    congr 1
    omega
  · refine same_two_two b h hn trivial trivial (by rw [hr]; omega) ik
      (by rw [hr]; exact ⟨by omega, by omega⟩) ik ⟨by omega, by omega⟩ (by rw [h4]; omega) trivial trivial ?_
    rw [hr, h4, sel_reverse, sel_reverse, sel_firstN hk, sel_lastN hk, compose_progression (fun x hx => by
      obtain ⟨i, h1, rfl⟩ := mem_progression.1 hx
      constructor <;> omega), compose_progression (fun x hx => by
      obtain ⟨i, h1, rfl⟩ := mem_progression.1 hx
      constructor <;> omega)]
    congr 1
    omega

/-- C109: the odd elements are the even elements of what remains without the first one. -/
theorem C109_odd (b : Build) (h : Den .one a s l) (hn : (l.length : Int) < 2 ^ 63 - 1) (h0 : 0 < l.length) :
    SameSlices b a s [.lastN ((l.length : Int) - 1), .even] [.odd] := by
  have e1 : (l.length : Int) - 1 = ((l.length - 1 : Nat) : Int) := by omega
  rw [e1]
  have ik : IsIndex ((l.length - 1 : Nat) : Int) := by constructor <;> omega
  have h5 : (selection l.length (.lastN ((l.length - 1 : Nat) : Int))).length = l.length - 1 := by
    rw [sel_lastN (by omega), progression_length]
  refine same_two_one b h hn ik ⟨by omega, by omega⟩ (by rw [h5]; omega) trivial trivial trivial trivial ?_
  rw [h5, sel_lastN (by omega), sel_even, sel_odd, compose_progression (fun x hx => by
      obtain ⟨i, h1, rfl⟩ := mem_progression.1 hx
      constructor <;> omega)]
  have e2 : (l.length - 1 + 1) / 2 = l.length / 2 := by congr 1; omega
  rw [e2]
  congr 1
  omega

/-- C109: a slice with a start, a size and a stride of another one is such a slice again. -/
theorem C109_seqN_seqN (b : Build) (h : Den .one a s l) (hn : (l.length : Int) < 2 ^ 63 - 1)
    {s1 t1 s2 t2 : Int} {m1 m2 : Nat} (hv1 : (SliceReq.seqN s1 m1 t1).Valid l.length) (i1 : IsIndex t1)
    (hm1 : (m1 : Int) < 2 ^ 63 - 1) (hv2 : (SliceReq.seqN s2 m2 t2).Valid m1) (i2 : IsIndex t2)
    (h0 : 0 < m2) (hm2 : (m2 : Int) < 2 ^ 63) (i3 : IsIndex (t2 * t1)) :
    SameSlices b a s [.seqN s1 m1 t1, .seqN s2 m2 t2] [.seqN (s1 + s2 * t1) m2 (t2 * t1)] := by
  have h4 : (selection l.length (.seqN s1 m1 t1)).length = m1 := by rw [sel_seqN, progression_length]
  have hr2 : ∀ i : Int, 0 ≤ i → i < m2 → InRange m1 (s2 + i * t2) := hv2.2.2
  have hr1 : ∀ i : Int, 0 ≤ i → i < m1 → InRange l.length (s1 + i * t1) := hv1.2.2
  have f2 := hr2 0 (by omega) (by omega)
  rw [Int.zero_mul, Int.add_zero] at f2
  have f1 := hr1 0 (by omega) (by have := f2.1; have := f2.2; omega)
  rw [Int.zero_mul, Int.add_zero] at f1
  have f3 := hr1 s2 f2.1 f2.2
  have a1 : (SliceReq.seqN s1 m1 t1).Args := ⟨by have := f1.1; have := f1.2; constructor <;> omega,
    by constructor <;> omega, i1⟩
  have a2 : (SliceReq.seqN s2 m2 t2).Args := ⟨by have := f2.1; have := f2.2; constructor <;> omega,
    by constructor <;> omega, i2⟩
  have a3 : (SliceReq.seqN (s1 + s2 * t1) m2 (t2 * t1)).Args :=
    ⟨by have := f3.1; have := f3.2; constructor <;> omega, by constructor <;> omega, i3⟩
  have v3 : (SliceReq.seqN (s1 + s2 * t1) m2 (t2 * t1)).Valid l.length := by
    refine ⟨f3.1, by omega, fun i hi0 hi1 => ?_⟩
    have := hr2 i hi0 hi1
    have := hr1 _ this.1 this.2
    rw [Int.add_mul, Int.mul_assoc, ← Int.add_assoc] at this
    exact this
  refine same_two_one b h hn a1 hv1 (by rw [h4]; exact hm1) a2 (by rw [h4]; exact hv2) a3 v3 ?_
  rw [h4, sel_seqN, sel_seqN, sel_seqN, compose_progression (fun x hx => by
    obtain ⟨i, h1, rfl⟩ := mem_progression.1 hx
    exact hr2 i (by omega) (by omega))]

/-- C109: `seq(first, last)` is `seqN(first, last - first + 1)` (example2.cpp:12-16); `firstN(k)` and
`lastN(k)` are the slices of `k` elements from the start and from position `n - k`. -/
theorem C109_seq_seqN (b : Build) (h : Den .one a s l) (hn : (l.length : Int) < 2 ^ 63 - 1) {f e : Nat}
    (hf : f ≤ e) (he : e < l.length) {k : Nat} (hk : k ≤ l.length) :
    SameSlices b a s [.seq f e 1] [.seqN f ((e : Int) - f + 1) 1] ∧
    SameSlices b a s [.firstN k] [.seqN 0 k 1] ∧
    SameSlices b a s [.lastN k] [.seqN ((l.length : Int) - k) k 1] := by
  have i1 : IsIndex 1 := by constructor <;> omega
  have ik : IsIndex k := by constructor <;> omega
  refine ⟨?_, ?_, ?_⟩
  · refine same_one_one b h hn ⟨by constructor <;> omega, by constructor <;> omega, i1⟩
      ⟨by constructor <;> omega, by constructor <;> omega, Or.inl ⟨by omega, by omega⟩⟩
      ⟨by constructor <;> omega, by constructor <;> omega, i1⟩
      ⟨by omega, by omega, fun i h1 h2 => by constructor <;> omega⟩ ?_
    rw [seq1_selection]
    rfl
  · refine same_one_one b h hn ik ⟨by omega, by omega⟩ ⟨by constructor <;> omega, ik, i1⟩
      ⟨by omega, by omega, fun i h1 h2 => by constructor <;> omega⟩ ?_
    rw [sel_firstN hk, sel_seqN]
  · refine same_one_one b h hn ik ⟨by omega, by omega⟩ ⟨by constructor <;> omega, ik, i1⟩
      ⟨by omega, by omega, fun i h1 h2 => by constructor <;> omega⟩ ?_
    rw [sel_lastN hk, sel_seqN]

/-- C109: what remains without what remains without `idx` is `A(idx)`. -/
theorem C109_complement (b : Build) (h : Den .one a s l) (hn : (l.length : Int) < 2 ^ 63 - 1) {idx : List Int}
    (hi : Increasing idx) (hr : ∀ i ∈ idx, InRange l.length i) :
    SameSlices b a s [.complement ((upto l.length).filter (fun i => i ∉ idx))] [.vec idx] := by
  have hidx : ∀ i ∈ idx, IsIndex i := fun i h1 => by
    have h2 := hr i h1; have := h2.1; have := h2.2; constructor <;> omega
  have hin : ∀ i ∈ (upto l.length).filter (fun i => i ∉ idx), InRange l.length i := fun i h1 =>
    mem_upto.1 (List.mem_filter.1 h1).1
  refine same_one_one b h hn ?_ ⟨?_, hin⟩ hidx hr ?_
  · intro i h1
    have h2 := hin i h1; have := h2.1; have := h2.2; constructor <;> omega
  · exact List.Pairwise.sublist List.filter_sublist (upto_increasing _)
  · show (upto l.length).filter _ = idx
    refine sorted_ext (List.Pairwise.sublist List.filter_sublist (upto_increasing _)) hi fun x => ?_
    simp only [List.mem_filter, mem_upto, decide_eq_true_eq]
    constructor
    · rintro ⟨h1, h2⟩
      exact Classical.byContradiction fun h3 => h2 ⟨h1, h3⟩
    · intro h1
      refine ⟨hr x h1, ?_⟩
      rintro ⟨_, h3⟩
      exact h3 h1

section
open Sample

theorem store_x_den : Den .one (Lv.acc1 Int 0) store
    [.ok (.one 0 0), .ok (.one 0 1), .ok (.one 0 2)] :=
  ⟨rfl, rfl, fun i hi => by
    have : i < 3 := hi
    rcases i with _ | _ | _ | i
    · rfl
    · rfl
    · rfl
    · omega⟩

example : SameSlices ⟨false, true, false⟩ (Lv.acc1 Int 0) store [.even, .even] [.skipN 4] :=
  (C109_even_even _ store_x_den (by decide)).2

example : SameSlices ⟨false, true, false⟩ (Lv.acc1 Int 0) store [.skipN 2, .skipN 3] [.skipN 6] :=
  C109_skip_skip (j := 2) (k := 3) _ store_x_den (by decide) (by decide) (by decide)

example : SameSlices ⟨false, true, false⟩ (Lv.acc1 Int 0) store [.reverse, .firstN 2] [.lastN 2, .reverse] :=
  (C109_reverse_first (k := 2) _ store_x_den (by decide) (by decide)).1

example : SameSlices ⟨false, true, false⟩ (Lv.acc1 Int 0) store [.reverse, .reverse] [] :=
  (C109_reverse_reverse _ store_x_den (by decide)).1

example : SameSlices ⟨false, true, false⟩ (Lv.acc1 Int 0) store [.firstN 2, .firstN 1] [.firstN 1] :=
  (C109_first_first (j := 1) (k := 2) _ store_x_den (by decide) (by decide) (by decide)).1

example : SameSlices ⟨false, true, false⟩ (Lv.acc1 Int 0) store [.lastN 2, .even] [.odd] :=
  C109_odd _ store_x_den (by decide) (by decide)

example : SameSlices ⟨false, true, false⟩ (Lv.acc1 Int 0) store [.seqN 2 3 (-1), .seqN 1 2 1] [.seqN 1 2 (-1)] :=
  C109_seqN_seqN (m1 := 3) (m2 := 2) _ store_x_den (by decide)
    ⟨by decide, by decide, fun i h1 h2 => by constructor <;> simp <;> omega⟩ (by constructor <;> decide) (by decide)
    ⟨by decide, by decide, fun i h1 h2 => by constructor <;> simp <;> omega⟩ (by constructor <;> decide)
    (by decide) (by decide) (by constructor <;> decide)

example : SameSlices ⟨false, true, false⟩ (Lv.acc1 Int 0) store [.seq 1 2 1] [.seqN 1 2 1] :=
  (C109_seq_seqN (f := 1) (e := 2) (k := 2) _ store_x_den (by decide) (by decide) (by decide) (by decide)).1

example : SameSlices ⟨false, true, false⟩ (Lv.acc1 Int 0) store [.complement [0, 2]] [.vec [1]] :=
  C109_complement (idx := [1]) _ store_x_den (by decide) (by simp [Increasing])
    (by simp [InRange])

end

end Spp.Props
