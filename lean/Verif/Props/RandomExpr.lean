import Verif.Spec.RandomExpr
import Verif.Props.StdRandom
import Verif.Lemmas.Array2D
import Verif.Lemmas.StableSemi
import Verif.Props.Random

/- C103: random expressions. -/

set_option linter.unusedSectionVars false

namespace Spp.Props

open Spec Semi StdRandom RandExpr

variable {α G : Type}

/-! ### Sequences of accesses -/

theorem next_some {β γ : Type} (x : β) (f : β → Res (Option γ)) : next (.ok (some x)) f = f x := rfl

theorem next_none {β γ : Type} (f : β → Res (Option γ)) : next (.ok none) f = .ok none := rfl

theorem next_assoc {β γ δ : Type} (r : Res (Option β)) (f : β → Res (Option γ)) (k : γ → Res (Option δ)) :
    next (next r f) k = next r fun x => next (f x) k := by
  rcases r with (_ | x) | _ | _ <;> rfl

/-- `k` accesses, one after the other. -/
def accesses (access : G → Res (Option (α × G))) : Nat → G → Res (Option (List α × G))
  | 0, g => .ok (some ([], g))
  | k + 1, g => next (accesses access k g) fun x => next (access x.2) fun r => .ok (some (x.1 ++ [r.1], r.2))

theorem accesses_length {access : G → Res (Option (α × G))} (k : Nat) {g : G} {x : List α × G}
    (h : accesses access k g = .ok (some x)) : x.1.length = k := by
  induction k generalizing x with
  | zero => cases h; rfl
  | succ k ih =>
    rw [accesses] at h
    generalize e : accesses access k g = z at h
    rcases z with (_ | y) | _ | _
    · cases h
    · rw [next_some] at h
      generalize access y.2 = w at h
      rcases w with (_ | r) | _ | _
      · cases h
      · cases h
        simp [ih e]
      · cases h
      · cases h
    · cases h
    · cases h

theorem accesses_add (access : G → Res (Option (α × G))) (j k : Nat) (g : G) :
    accesses access (j + k) g =
      next (accesses access j g) fun x => next (accesses access k x.2) fun y => .ok (some (x.1 ++ y.1, y.2)) := by
  induction k with
  | zero =>
    rw [Nat.add_zero]
    rcases accesses access j g with (_ | x) | _ | _ <;> simp [accesses, next_some, next_none, next]
  | succ k ih =>
    rw [← Nat.add_assoc, accesses, ih]
    rcases accesses access j g with (_ | x) | _ | _
    · rfl
    · rw [next_some, next_some, accesses]
      rcases accesses access k x.2 with (_ | y) | _ | _
      · rfl
      · rw [next_some, next_some, next_some]
        rcases access y.2 with (_ | r) | _ | _
        · rfl
        · simp only [next_some, List.append_assoc]
        · rfl
        · rfl
      · rfl
      · rfl
    · rfl
    · rfl

/-- The copy loop stores the numbers one after the other. -/
theorem copyFrom_eq (access : G → Res (Option (α × G))) (o k : Nat) (t : List α) (g : G) (h : o + k ≤ t.length) :
    copyFrom access o k (t, g) =
      next (accesses access k g) fun x => .ok (some (t.take o ++ x.1 ++ t.drop (o + k), x.2)) := by
  induction k with
  | zero => simp [copyFrom, loop, accesses, next_some]
  | succ k ih =>
    have e : copyFrom access o (k + 1) (t, g) = next (copyFrom access o k (t, g)) fun x =>
        next (access x.2) fun r => (wr x.1 ((o + k : Nat) : Int) r.1 >>= fun t => pure (some (t, r.2))) := rfl
    rw [e, ih (by omega), accesses]
    generalize hz : accesses access k g = z
    rcases z with (_ | y) | _ | _
    · rfl
    · rw [next_some, next_some, next_some]
      rcases access y.2 with (_ | r) | _ | _
      · rfl
      · have hl := accesses_length k hz
        rw [next_some, next_some, next_some]
        have hlt : o + k < t.length := by omega
        have ht : (t.take o ++ y.1).length = o + k := by simp [hl]; omega
        rw [List.drop_eq_getElem_cons hlt, Spp.Lemmas.wr_append _ _ _ _ (by rw [ht])]
        simp [Nat.add_assoc]
      · rfl
      · rfl
    · rfl
    · rfl

theorem copyRows_eq (access : G → Res (Option (α × G))) (m c : Nat) (t : List α) (g : G) (h : m * c ≤ t.length) :
    copyRows access m c (t, g) =
      next (accesses access (m * c) g) fun x => .ok (some (x.1 ++ t.drop (m * c), x.2)) := by
  induction m with
  | zero => simp [copyRows, loop, accesses, next_some]
  | succ m ih =>
    have hm : (m + 1) * c = m * c + c := Nat.succ_mul m c
    have e : copyRows access (m + 1) c (t, g) = next (copyRows access m c (t, g)) fun x => copyFrom access (m * c) c x :=
      rfl
    rw [e, ih (by omega), hm, accesses_add]
    generalize hz : accesses access (m * c) g = z
    rcases z with (_ | y) | _ | _
    · rfl
    · have hl := accesses_length _ hz
      rw [next_some, next_some, next_some, copyFrom_eq _ _ _ _ _ (by simp [hl]; omega)]
      rcases accesses access c y.2 with (_ | r) | _ | _
      · rfl
      · simp only [next_some]
        have e1 : (y.1 ++ t.drop (m * c)).take (m * c) = y.1 := by rw [List.take_append_of_le_length (by omega), ← hl, List.take_length]
        have e2 : (y.1 ++ t.drop (m * c)).drop (m * c + c) = t.drop (m * c + c) := by
          rw [List.drop_append, hl, List.drop_drop]
          have : y.1.drop (m * c + c) = [] := List.drop_eq_nil_of_le (by omega)
          rw [this]; simp
        rw [e1, e2]
      · rfl
      · rfl
    · rfl
    · rfl

/-- Without a condition on the numbers, the accesses are the draws. -/
theorem accesses_plain {draw : G → Res (α × G)} {f : G → α × G} (h : ∀ g, draw g = .ok (f g)) (k : Nat) (g : G) :
    accesses (RandExpr.plain draw) k g = .ok (some (firstValues f g k, stateAt f g k)) := by
  induction k with
  | zero => rfl
  | succ k ih =>
    rw [accesses, ih, next_some, RandExpr.plain, h]
    simp only [Res.ok_bind, Res.pure_eq, next_some]
    rw [firstValues, firstValues, List.range_succ, List.map_append]
    rfl

/-! ### Arrays made from expressions -/

/-- C103: an array of `n` elements made from a random expression holds the next `n` numbers, in order. -/
theorem C103_construct [Inhabited α] (b : Build) {draw : G → Res (α × G)} {f : G → α × G} (h : ∀ g, draw g = .ok (f g))
    (n : Nat) (g : G) :
    construct1 b (RandExpr.plain draw) n g = .ok (some (firstValues f g n, stateAt f g n)) := by
  rw [construct1, Arr1.make_ok b (by omega), Res.ok_bind, Int.toNat_natCast, copyFrom_eq _ _ _ _ _ (by simp),
    accesses_plain h, next_some]
  simp

theorem construct2_eq [Inhabited α] (b : Build) (access : G → Res (Option (α × G))) {m n : Nat} (hz : m = 0 ↔ n = 0)
    (hs : (m : Int) * n < 2 ^ 63) (g : G) :
    construct2 b access m n g =
      next (accesses access (m * n) g) fun x => .ok (some (⟨m, n, x.1⟩, x.2)) := by
  have h1 : imul (m : Int) n = .ok ((m * n : Nat) : Int) := by
    rw [Nat.cast_mul]; exact imul_ok (by unfold IsIndex; constructor <;> nlinarith)
  have h2 : semiValid (m : Int) n = true := semiValid_iff.2 (by omega)
  have hm : Arr2.make (α := α) b m n = .ok ⟨m, n, List.replicate (m * n) default⟩ := by
    unfold Arr2.make
    rw [h1, Res.ok_bind, Arr1.make_ok b (by omega), Res.ok_bind, h2, decide_eq_true (show (m : Int) ≥ 0 by omega),
      decide_eq_true (show (n : Int) ≥ 0 by omega), assertDebug_true, Res.ok_bind, Int.toNat_natCast]
    rfl
  rw [construct2, hm, Res.ok_bind, Int.toNat_natCast, Int.toNat_natCast, copyRows_eq _ _ _ _ _ (by simp), next_assoc]
  simp [next_some]

/-- C103: a two-dimensional array made from a random expression holds the next `m * n` numbers, row by row. -/
theorem C103_construct_2D [Inhabited α] (b : Build) {draw : G → Res (α × G)} {f : G → α × G}
    (h : ∀ g, draw g = .ok (f g)) {m n : Nat} (hz : m = 0 ↔ n = 0) (hs : (m : Int) * n < 2 ^ 63) (g : G) :
    construct2 b (RandExpr.plain draw) m n g = .ok (some (⟨m, n, firstValues f g (m * n)⟩, stateAt f g (m * n))) := by
  rw [construct2_eq b _ hz hs, accesses_plain h, next_some]

/-- C103: assignment replaces all elements by the next numbers; with the wrong number of elements it traps in checked
builds, and no number is drawn. -/
theorem C103_assign (b : Build) {draw : G → Res (α × G)} {f : G → α × G} (h : ∀ g, draw g = .ok (f g)) (l : List α)
    (n : Nat) (g : G) :
    (l.length = n → assign1 b (RandExpr.plain draw) n l g = .ok (some (firstValues f g n, stateAt f g n))) ∧
    (l.length ≠ n → b.Checked → assign1 b (RandExpr.plain draw) n l g = .trap b.kind) := by
  constructor
  · rintro rfl
    rw [assign1, show (len l == (l.length : Int)) = true by simp [len], assertDebug_true, Res.ok_bind,
      Int.toNat_natCast, copyFrom_eq _ _ _ _ _ (by simp), accesses_plain h, next_some]
    simp
  · intro hn hb
    rw [assign1, show (len l == (n : Int)) = false by simp [len]; omega, assertDebug_false hb]
    rfl

/-- C103: the same for two-dimensional arrays. -/
theorem C103_assign_2D (b : Build) {draw : G → Res (α × G)} {f : G → α × G} (h : ∀ g, draw g = .ok (f g)) {r c : Nat}
    {data : List α} (hd : data.length = r * c) (m n : Nat) (g : G) :
    (r = m → c = n → assign2 b (RandExpr.plain draw) m n ⟨r, c, data⟩ g =
      .ok (some (⟨m, n, firstValues f g (m * n)⟩, stateAt f g (m * n)))) ∧
    (¬ (r = m ∧ c = n) → b.Checked → assign2 b (RandExpr.plain draw) m n ⟨r, c, data⟩ g = .trap b.kind) := by
  constructor
  · rintro rfl rfl
    rw [assign2, show (((r : Int) == (r : Int)) && ((c : Int) == (c : Int))) = true by simp, assertDebug_true, Res.ok_bind,
      Int.toNat_natCast, Int.toNat_natCast, copyRows_eq _ _ _ _ _ (by simp [hd]), next_assoc, accesses_plain h]
    simp only [next_some]
    rw [List.drop_eq_nil_of_le (by omega), List.append_nil]
  · intro hn hb
    rw [assign2, show (((r : Int) == (m : Int)) && ((c : Int) == (n : Int))) = false by
      rw [Bool.and_eq_false_iff]; simp only [beq_eq_false_iff_ne, ne_eq, Int.natCast_inj]; omega, assertDebug_false hb]
    rfl

/-- C103: `e[i]` is the next number, whatever the index; outside the range it traps in checked builds. -/
theorem C103_element (b : Build) {draw : G → Res (α × G)} {f : G → α × G} (h : ∀ g, draw g = .ok (f g)) (n : Nat)
    (i : Int) (g : G) :
    (0 ≤ i → i < n → elem b (RandExpr.plain draw) n i g = .ok (some (f g))) ∧
    (¬ (0 ≤ i ∧ i < n) → b.Checked → elem b (RandExpr.plain draw) n i g = .trap b.kind) := by
  constructor
  · intro h0 h1
    rw [elem, show validIndex n i = true by simp [validIndex]; omega, assertDebug_true, Res.ok_bind, RandExpr.plain, h]
    rfl
  · intro hn hb
    rw [elem, show validIndex n i = false by simp [validIndex]; omega, assertDebug_false hb]
    rfl

/-- C103: the same for `e(i, j)`. -/
theorem C103_element_2D (b : Build) {draw : G → Res (α × G)} {f : G → α × G} (h : ∀ g, draw g = .ok (f g)) (m n : Nat)
    (i j : Int) (g : G) :
    (0 ≤ i → i < m → 0 ≤ j → j < n → elem2 b (RandExpr.plain draw) m n i j g = .ok (some (f g))) ∧
    (¬ (0 ≤ i ∧ i < m ∧ 0 ≤ j ∧ j < n) → b.Checked → elem2 b (RandExpr.plain draw) m n i j g = .trap b.kind) := by
  constructor
  · intro h0 h1 h2 h3
    rw [elem2, show (validIndex m i && validIndex n j) = true by simp [validIndex]; omega, assertDebug_true, Res.ok_bind,
      RandExpr.plain, h]
    rfl
  · intro hn hb
    rw [elem2, show (validIndex m i && validIndex n j) = false by
      rw [← Bool.not_eq_true]; simp only [validIndex, Bool.and_eq_true, decide_eq_true_eq]; omega, assertDebug_false hb]
    rfl

/-- C103: so an expression read twice gives different numbers: two arrays made from the same expression hold the first
and the second `n` numbers. -/
theorem C103_twice [Inhabited α] (b : Build) {draw : G → Res (α × G)} {f : G → α × G} (h : ∀ g, draw g = .ok (f g))
    (n : Nat) (g : G) :
    ∃ (A B : List α) (g' : G), construct1 b (RandExpr.plain draw) n g = .ok (some (A, g')) ∧
      (construct1 b (RandExpr.plain draw) n g' = .ok (some (B, stateAt f g (2 * n)))) ∧ A ++ B = firstValues f g (2 * n) := by
  have hst : ∀ k, stateAt f (stateAt f g n) k = stateAt f g (n + k) := by
    intro k
    induction k with
    | zero => rfl
    | succ k ih => rw [stateAt, ih]; rfl
  refine ⟨_, firstValues f (stateAt f g n) n, _, C103_construct b h n g, ?_, ?_⟩
  · rw [C103_construct b h, hst, two_mul]
  · rw [firstValues, firstValues, firstValues, two_mul, List.range_add, List.map_append, List.map_map]
    congr 1
    refine List.map_congr_left fun k _ => ?_
    show (f (stateAt f (stateAt f g n) k)).1 = (f (stateAt f g (n + k))).1
    rw [hst]

/-! ### Excluding zero -/

theorem firstValues_add (f : G → α × G) (g : G) (j k : Nat) :
    firstValues f g (j + k) = firstValues f g j ++ firstValues f (stateAt f g j) k ∧
    stateAt f g (j + k) = stateAt f (stateAt f g j) k := by
  have hst : ∀ k, stateAt f (stateAt f g j) k = stateAt f g (j + k) := by
    intro k
    induction k with
    | zero => rfl
    | succ k ih => rw [stateAt, ih]; rfl
  refine ⟨?_, (hst k).symm⟩
  rw [firstValues, firstValues, firstValues, List.range_add, List.map_append, List.map_map]
  congr 1
  refine List.map_congr_left fun i _ => ?_
  show (f (stateAt f g (j + i))).1 = (f (stateAt f (stateAt f g j) i)).1
  rw [hst]

variable [LinearOrder α]

theorem nonZero_block {f : G → α × G} {z : α → Bool} {g : G} {k : Nat} (h2 : z (valueAt f g k) = false)
    (h3 : ∀ j, j < k → z (valueAt f g j) = true) : nonZero f z g (k + 1) = [valueAt f g k] := by
  rw [nonZero, firstValues, List.range_succ, List.map_append, List.filter_append]
  have : ((List.range k).map (valueAt f g)).filter (fun x => !z x) = [] := by
    rw [List.filter_eq_nil_iff]
    intro x hx
    obtain ⟨j, hj, rfl⟩ := List.mem_map.1 hx
    simp [h3 j (List.mem_range.1 hj)]
  rw [this]
  simp [h2]

/-- The accesses to an expression without zeros: they end exactly when, each within the given number of draws, there
are enough numbers that are not zero, and they give these. -/
theorem accesses_not0 {draw : G → Res (α × G)} {f : G → α × G} (h : ∀ g, draw g = .ok (f g)) (z : α → Bool) (fuel k : Nat)
    (g : G) :
    (∃ N, accesses (untilNot0 draw z fuel) k g = .ok (some (nonZero f z g N, stateAt f g N)) ∧
      (nonZero f z g N).length = k ∧ N ≤ k * fuel) ∨
    (accesses (untilNot0 draw z fuel) k g = .ok none ∧ (nonZero f z g fuel).length < k) := by
  induction k with
  | zero => exact .inl ⟨0, rfl, rfl, by simp⟩
  | succ k ih =>
    rw [accesses]
    rcases ih with ⟨N, h1, h2, h3⟩ | ⟨h1, h2⟩
    · rw [h1, next_some]
      rcases untilNot0_iff h z fuel (stateAt f g N) with ⟨j, k1, k2, k3, k4⟩ | ⟨k1, k2⟩
      · left
        have e := firstValues_add f g N (j + 1)
        have e1 : nonZero f z g (N + (j + 1)) = nonZero f z g N ++ [valueAt f (stateAt f g N) j] := by
          have := nonZero_block k2 k3
          rw [nonZero, e.1, List.filter_append]
          rw [nonZero] at this
          rw [this]; rfl
        refine ⟨N + (j + 1), ?_, by rw [e1]; simp [h2], by rw [Nat.succ_mul]; omega⟩
        rw [k4, next_some, e1, e.2]
      · right
        rw [k2, next_none]
        refine ⟨rfl, ?_⟩
        by_cases hN : fuel ≤ N
        · have e := firstValues_add f g fuel (N - fuel)
          rw [show fuel + (N - fuel) = N by omega] at e
          have : (nonZero f z g fuel).length ≤ (nonZero f z g N).length := by
            rw [nonZero, nonZero, e.1, List.filter_append]; simp
          omega
        · have e := firstValues_add f g N (fuel - N)
          rw [show N + (fuel - N) = fuel by omega] at e
          have e0 : (firstValues f (stateAt f g N) (fuel - N)).filter (fun x => !z x) = [] := by
            rw [List.filter_eq_nil_iff]
            intro x hx
            obtain ⟨i, hi, rfl⟩ := List.mem_map.1 hx
            simp [k1 i (by have := List.mem_range.1 hi; omega)]
          rw [nonZero, e.1, List.filter_append, e0, List.append_nil]
          rw [nonZero] at h2
          omega
    · right
      rw [h1, next_none]
      exact ⟨rfl, by omega⟩

/-- C103: an array made from an expression without zeros holds the first `n` draws that are not zero; if it is not made
(with at most `fuel` draws for each element), there are fewer of them among the first `fuel` draws. -/
theorem C103_not0 [Inhabited α] (b : Build) {draw : G → Res (α × G)} {f : G → α × G} (h : ∀ g, draw g = .ok (f g))
    (z : α → Bool) (fuel n : Nat) (g : G) :
    (∃ N, construct1 b (untilNot0 draw z fuel) n g = .ok (some (nonZero f z g N, stateAt f g N)) ∧
      (nonZero f z g N).length = n) ∨
    (construct1 b (untilNot0 draw z fuel) n g = .ok none ∧ (nonZero f z g fuel).length < n) := by
  have e : construct1 b (untilNot0 draw z fuel) n g = accesses (untilNot0 draw z fuel) n g := by
    rw [construct1, Arr1.make_ok b (by omega), Res.ok_bind, Int.toNat_natCast, copyFrom_eq _ _ _ _ _ (by simp)]
    rcases accesses (untilNot0 draw z fuel) n g with (_ | x) | _ | _ <;> simp [next]
  rw [e]
  rcases accesses_not0 h z fuel n g with ⟨N, h1, h2, -⟩ | h1
  · exact .inl ⟨N, h1, h2⟩
  · exact .inr h1

/-- C103: the same for two-dimensional arrays, row by row. -/
theorem C103_not0_2D [Inhabited α] (b : Build) {draw : G → Res (α × G)} {f : G → α × G} (h : ∀ g, draw g = .ok (f g))
    (z : α → Bool) (fuel : Nat) {m n : Nat} (hz : m = 0 ↔ n = 0) (hs : (m : Int) * n < 2 ^ 63) (g : G) :
    (∃ N, construct2 b (untilNot0 draw z fuel) m n g = .ok (some (⟨m, n, nonZero f z g N⟩, stateAt f g N)) ∧
      (nonZero f z g N).length = m * n) ∨
    (construct2 b (untilNot0 draw z fuel) m n g = .ok none ∧ (nonZero f z g fuel).length < m * n) := by
  rw [construct2_eq b _ hz hs]
  rcases accesses_not0 h z fuel (m * n) g with ⟨N, h1, h2, -⟩ | ⟨h1, h2⟩
  · exact .inl ⟨N, by rw [h1, next_some], h2⟩
  · exact .inr ⟨by rw [h1, next_none], h2⟩

/-- C103: the draws decide whether the array is made: with enough draws for each element to reach the `n`-th number
that is not zero, it is. -/
theorem C103_not0_ends [Inhabited α] (b : Build) {draw : G → Res (α × G)} {f : G → α × G} (h : ∀ g, draw g = .ok (f g))
    (z : α → Bool) (n : Nat) (g : G) {N : Nat} (hN : n ≤ (nonZero f z g N).length) :
    ∃ l g', construct1 b (untilNot0 draw z N) n g = .ok (some (l, g')) ∧ l = (nonZero f z g N).take n := by
  rcases C103_not0 b h z N n g with ⟨M, h1, h2⟩ | ⟨-, h2⟩
  · refine ⟨_, _, h1, ?_⟩
    rcases Nat.le_total M N with hle | hle
    · have e := firstValues_add f g M (N - M)
      rw [show M + (N - M) = N by omega] at e
      rw [nonZero, nonZero, e.1, List.filter_append, List.take_append_of_le_length (by rw [nonZero] at h2; omega),
        List.take_of_length_le (by rw [nonZero] at h2; omega)]
    · have e := firstValues_add f g N (M - N)
      rw [show N + (M - N) = M by omega] at e
      have e2 : nonZero f z g M = nonZero f z g N ++ (firstValues f (stateAt f g N) (M - N)).filter (fun x => !z x) := by
        rw [nonZero, nonZero, e.1, List.filter_append]
      have h3 := congrArg List.length e2
      rw [List.length_append] at h3
      have h4 : (firstValues f (stateAt f g N) (M - N)).filter (fun x => !z x) = [] := List.length_eq_zero_iff.1 (by omega)
      rw [e2, h4, List.append_nil, List.take_of_length_le (by omega)]
  · omega

/-! ### Expressions of pseudo-random numbers -/

/-- The draws of the library's own generator. -/
theorem semi_serves (b : Build) {t : IntTy} {low high : Int} (h : GoodRange t low high) :
    ∃ f : Int → Int × Int, (∀ p, randomInt b t low high p = .ok (f p)) ∧ ∀ p, low ≤ (f p).1 ∧ (f p).1 ≤ high := by
  have : ∀ p, ∃ r : Int × Int, randomInt b t low high p = .ok r ∧ low ≤ r.1 ∧ r.1 ≤ high := by
    intro p
    obtain ⟨v, p', h1, h2, h3, -⟩ := randomInt_range b h p
    exact ⟨(v, p'), h1, h2, h3⟩
  choose f hf using this
  exact ⟨f, fun p => (hf p).1, fun p => (hf p).2⟩

theorem semi1_ok (b : Build) {t : IntTy} {low high : Int} (h : GoodRange t low high) (clock seed : Int) (n : Nat) :
    semi1 b clock low high n seed = seeded clock (seed + n) := by
  rw [semi1, exprState, decide_eq_true h.le, assertDebug_true, Res.ok_bind, array_seed, Res.ok_bind,
    mkConst1D_ok b _ (by omega), Res.ok_bind, seeded_ok]
  rfl

theorem semi2_ok (b : Build) {t : IntTy} {low high : Int} (h : GoodRange t low high) (clock seed : Int) {m n : Nat}
    (hz : m = 0 ↔ n = 0) : semi2 b clock low high m n seed = seeded clock (seed + n) := by
  rw [semi2, exprState, decide_eq_true h.le, assertDebug_true, Res.ok_bind, array_seed, Res.ok_bind,
    mkConst2D_ok b _ (by omega) (by omega) (by omega), Res.ok_bind, seeded_ok]
  rfl

/-- C103: `Array1D A = semi_random<T>(n, low, high, seed)` holds the numbers `semi_random(A, low, high, seed)` gives to
an array of `n` elements (`C68_array`): the first `n` draws after the seed `seed + n`, all between `low` and `high`. -/
theorem C103_semi (b : Build) {t : IntTy} {low high : Int} (h : GoodRange t low high) (clock seed : Int) (n : Nat) :
    ∃ (vs : List Int) (p' : Int),
      (do let p ← seeded clock (seed + n); draws (randomInt b t low high) n p) = .ok (vs, p') ∧
      (do let p ← semi1 b clock low high n seed; construct1 b (RandExpr.plain (randomInt b t low high)) n p) =
        .ok (some (vs, p')) ∧
      vs.length = n ∧ ∀ v ∈ vs, low ≤ v ∧ v ≤ high := by
  obtain ⟨f, hf, hr⟩ := semi_serves b h
  refine ⟨firstValues f (((clock + (seed + n)) * 100000) % 2 ^ 32) n, stateAt f (((clock + (seed + n)) * 100000) % 2 ^ 32) n,
    ?_, ?_, by simp [firstValues], ?_⟩
  · rw [seeded_ok, Res.ok_bind, draws_firstValues hf]
  · rw [semi1_ok b h, seeded_ok, Res.ok_bind, C103_construct b hf]
  · intro v hv
    obtain ⟨k, -, rfl⟩ := List.mem_map.1 hv
    exact hr _

/-- C103: `Array2D A = semi_random<T>(m, n, low, high, seed)` holds `m * n` draws, row by row; but the generator is
seeded with `seed + n`. -/
theorem C103_semi_2D (b : Build) {t : IntTy} {low high : Int} (h : GoodRange t low high) (clock seed : Int) {m n : Nat}
    (hz : m = 0 ↔ n = 0) (hs : (m : Int) * n < 2 ^ 63) :
    ∃ (vs : List Int) (p' : Int),
      (do let p ← seeded clock (seed + n); draws (randomInt b t low high) (m * n) p) = .ok (vs, p') ∧
      (do let p ← semi2 b clock low high m n seed; construct2 b (RandExpr.plain (randomInt b t low high)) m n p) =
        .ok (some (⟨m, n, vs⟩, p')) ∧
      vs.length = m * n ∧ ∀ v ∈ vs, low ≤ v ∧ v ≤ high := by
  obtain ⟨f, hf, hr⟩ := semi_serves b h
  refine ⟨firstValues f (((clock + (seed + n)) * 100000) % 2 ^ 32) (m * n),
    stateAt f (((clock + (seed + n)) * 100000) % 2 ^ 32) (m * n), ?_, ?_, by simp [firstValues], ?_⟩
  · rw [seeded_ok, Res.ok_bind, draws_firstValues hf]
  · rw [semi2_ok b h _ _ hz, seeded_ok, Res.ok_bind, C103_construct_2D b hf hz hs]
  · intro v hv
    obtain ⟨k, -, rfl⟩ := List.mem_map.1 hv
    exact hr _

/-- C103, found of the code: so a two-dimensional array made from an expression need not hold the numbers that
`semi_random(A, low, high, seed)` gives to an array of that size, whose generator is seeded with `seed + m * n`. -/
theorem C103_semi_2D_differs :
    ∃ (clock seed : Int) (vs ws : List Int) (p q : Int),
      (do let p ← semi2 ⟨false, true, false⟩ clock 0 98 2 2 seed
          construct2 ⟨false, true, false⟩ (RandExpr.plain (randomInt ⟨false, true, false⟩ .int 0 98)) 2 2 p) =
        .ok (some (⟨2, 2, vs⟩, p)) ∧
      (do let p ← seeded clock (seed + (2 * 2 : Nat)); draws (randomInt ⟨false, true, false⟩ .int 0 98) (2 * 2) p) =
        .ok (ws, q) ∧ vs ≠ ws :=
  ⟨1000, 0, _, _, _, _, rfl, rfl, by decide⟩

theorem not0State_ok (b : Build) {low high : Int} (hle : low ≤ high) (h0 : ¬ (low = 0 ∧ high = 0)) (clock seed : Int)
    (n : Nat) : not0State b clock low high n seed = seeded clock (seed + n) := by
  have e : (!(decide (low = 0) && decide (high = 0))) = true := by
    rw [Bool.not_eq_true', ← Bool.not_eq_true, Bool.and_eq_true, decide_eq_true_eq, decide_eq_true_eq]; exact h0
  rw [not0State, decide_eq_true hle, e, assertDebug_true, Res.ok_bind, Res.ok_bind, array_seed, seeded_ok]

/-- C103: what an array made from `semi_random_not0<T>(n, low, high, seed)` holds, if it is made, is the first `n` numbers
after the seed `seed + n` that are not zero; they lie between `low` and `high`. -/
theorem C103_semi_not0 (b : Build) {t : IntTy} {low high : Int} (h : GoodRange t low high) (h0 : ¬ (low = 0 ∧ high = 0))
    (clock seed : Int) (n fuel : Nat) {vs : List Int} {p' : Int}
    (hr : (do let p ← semiNot01 b clock low high n seed
              construct1 b (untilNot0 (randomInt b t low high) (fun x => decide (x = 0)) fuel) n p) =
      .ok (some (vs, p'))) :
    vs.length = n ∧ (∀ v ∈ vs, low ≤ v ∧ v ≤ high ∧ v ≠ 0) ∧
    ∃ N ws, (do let p ← seeded clock (seed + n); draws (randomInt b t low high) N p) = .ok (ws, p') ∧
      vs = ws.filter (fun x => decide (x ≠ 0)) := by
  obtain ⟨f, hf, hg⟩ := semi_serves b h
  have e1 : semiNot01 b clock low high n seed = seeded clock (seed + n) := by
    rw [semiNot01, not0State_ok b h.le h0, seeded_ok, Res.ok_bind, mkConst1D_ok b _ (by omega)]; rfl
  rw [e1, seeded_ok, Res.ok_bind] at hr
  rcases C103_not0 b hf (fun x => decide (x = 0)) fuel n (((clock + (seed + n)) * 100000) % 2 ^ 32) with
    ⟨N, h1, h2⟩ | ⟨h1, -⟩
  · rw [h1] at hr
    cases hr
    refine ⟨h2, fun v hv => ?_, N, firstValues f (((clock + (seed + n)) * 100000) % 2 ^ 32) N, ?_, ?_⟩
    · obtain ⟨hv1, hv2⟩ := List.mem_filter.1 hv
      obtain ⟨k, -, rfl⟩ := List.mem_map.1 hv1
      exact ⟨(hg _).1, (hg _).2, by simpa using hv2⟩
    · rw [seeded_ok, Res.ok_bind, draws_firstValues hf]
    · simp [nonZero]
  · rw [h1] at hr
    cases hr

/-- C103: the same for `semi_random_not0<T>(m, n, low, high, seed)`, row by row, with the seed `seed + n`. -/
theorem C103_semi_not0_2D (b : Build) {t : IntTy} {low high : Int} (h : GoodRange t low high)
    (h0 : ¬ (low = 0 ∧ high = 0)) (clock seed : Int) {m n : Nat} (hz : m = 0 ↔ n = 0) (hs : (m : Int) * n < 2 ^ 63)
    (fuel : Nat) {A : Arr2 Int} {p' : Int}
    (hr : (do let p ← semiNot02 b clock low high m n seed
              construct2 b (untilNot0 (randomInt b t low high) (fun x => decide (x = 0)) fuel) m n p) =
      .ok (some (A, p'))) :
    A.rows = m ∧ A.cols = n ∧ A.data.length = m * n ∧ (∀ v ∈ A.data, low ≤ v ∧ v ≤ high ∧ v ≠ 0) ∧
    ∃ N ws, (do let p ← seeded clock (seed + n); draws (randomInt b t low high) N p) = .ok (ws, p') ∧
      A.data = ws.filter (fun x => decide (x ≠ 0)) := by
  obtain ⟨f, hf, hg⟩ := semi_serves b h
  have e1 : semiNot02 b clock low high m n seed = seeded clock (seed + n) := by
    rw [semiNot02, not0State_ok b h.le h0, seeded_ok, Res.ok_bind, mkConst2D_ok b _ (by omega) (by omega) (by omega)]; rfl
  rw [e1, seeded_ok, Res.ok_bind] at hr
  rcases C103_not0_2D b hf (fun x => decide (x = 0)) fuel hz hs (((clock + (seed + n)) * 100000) % 2 ^ 32) with
    ⟨N, h1, h2⟩ | ⟨h1, -⟩
  · rw [h1] at hr
    cases hr
    refine ⟨rfl, rfl, h2, fun v hv => ?_, N, firstValues f (((clock + (seed + n)) * 100000) % 2 ^ 32) N, ?_, ?_⟩
    · obtain ⟨hv1, hv2⟩ := List.mem_filter.1 hv
      obtain ⟨k, -, rfl⟩ := List.mem_map.1 hv1
      exact ⟨(hg _).1, (hg _).2, by simpa using hv2⟩
    · rw [seeded_ok, Res.ok_bind, draws_firstValues hf]
    · simp [nonZero]
  · rw [h1] at hr
    cases hr

theorem const1_rejected {b : Build} (hb : b.Checked) {n : Int} (h : n < 0) :
    Tm.mkConst1D (σ := Unit) b n (0 : Int) = .trap b.kind := by
  rw [Tm.mkConst1D, decide_eq_false (by omega), assertDebug_false hb]; rfl

theorem const2_rejected {b : Build} (hb : b.Checked) {m n : Int} (h : m < 0 ∨ n < 0 ∨ ¬ (m = 0 ↔ n = 0)) :
    Tm.mkConst2D (σ := Unit) b m n (0 : Int) = .trap b.kind := by
  rw [Tm.mkConst2D]
  by_cases hm : m < 0
  · rw [decide_eq_false (show ¬ m > -1 by omega), assertDebug_false hb]; rfl
  · rw [decide_eq_true (show m > -1 by omega), assertDebug_true, Res.ok_bind]
    by_cases hn : n < 0
    · rw [decide_eq_false (show ¬ n > -1 by omega), assertDebug_false hb]; rfl
    · rw [decide_eq_true (show n > -1 by omega), assertDebug_true, Res.ok_bind,
        show semiValid m n = false by rw [← Bool.not_eq_true, semiValid_iff]; omega, assertDebug_false hb]; rfl

/-- C103: in checked builds the expressions cannot be made with bounds in the wrong order, with a negative size, with a
single size of zero, or, without zeros, if both bounds are zero. -/
theorem C103_rejected {b : Build} (hb : b.Checked) (clock low high m n seed : Int) :
    (high < low ∨ n < 0 → semi1 b clock low high n seed = .trap b.kind) ∧
    (high < low ∨ m < 0 ∨ n < 0 ∨ ¬ (m = 0 ↔ n = 0) → semi2 b clock low high m n seed = .trap b.kind) ∧
    (high < low ∨ (low = 0 ∧ high = 0) ∨ n < 0 → semiNot01 b clock low high n seed = .trap b.kind) ∧
    (high < low ∨ (low = 0 ∧ high = 0) ∨ m < 0 ∨ n < 0 ∨ ¬ (m = 0 ↔ n = 0) →
      semiNot02 b clock low high m n seed = .trap b.kind) := by
  have hseed : ∀ k : Int, ∃ p, (do let sd ← SInt.add .uint seed (SInt.cast .uint k); seeded clock sd) = (.ok p : Res Int) := by
    intro k
    have e : SInt.cast .uint k = k % 4294967296 := rfl
    rw [e, uadd, Res.ok_bind, seeded_ok]
    exact ⟨_, rfl⟩
  have hx : ∀ k : Int, (high < low → exprState b clock low high k seed = .trap b.kind) ∧
      (¬ high < low → ∃ p, exprState b clock low high k seed = .ok p) := by
    intro k
    refine ⟨fun h => ?_, fun h => ?_⟩
    · rw [exprState, decide_eq_false (by omega), assertDebug_false hb]; rfl
    · rw [exprState, decide_eq_true (by omega), assertDebug_true]
      exact hseed k
  have hx0 : ∀ k : Int, (high < low ∨ (low = 0 ∧ high = 0) → not0State b clock low high k seed = .trap b.kind) ∧
      (¬ (high < low ∨ (low = 0 ∧ high = 0)) → ∃ p, not0State b clock low high k seed = .ok p) := by
    intro k
    refine ⟨fun h => ?_, fun h => ?_⟩
    · by_cases hc : high < low
      · rw [not0State, decide_eq_false (by omega), assertDebug_false hb]; rfl
      · obtain ⟨rfl, rfl⟩ := h.resolve_left hc
        rw [not0State, show decide ((0 : Int) ≤ 0) = true from rfl, assertDebug_true, Res.ok_bind,
          show (!(decide ((0 : Int) = 0) && decide ((0 : Int) = 0))) = false from rfl, assertDebug_false hb]; rfl
    · have e : (!(decide (low = 0) && decide (high = 0))) = true := by
        rw [Bool.not_eq_true', ← Bool.not_eq_true, Bool.and_eq_true, decide_eq_true_eq, decide_eq_true_eq]; tauto
      rw [not0State, decide_eq_true (by omega), e, assertDebug_true]
      exact hseed k
  refine ⟨fun h => ?_, fun h => ?_, fun h => ?_, fun h => ?_⟩
  · by_cases hc : high < low
    · rw [semi1, (hx n).1 hc]; rfl
    · obtain ⟨p, hp⟩ := (hx n).2 hc
      rw [semi1, hp, Res.ok_bind, const1_rejected hb (h.resolve_left hc)]; rfl
  · by_cases hc : high < low
    · rw [semi2, (hx n).1 hc]; rfl
    · obtain ⟨p, hp⟩ := (hx n).2 hc
      rw [semi2, hp, Res.ok_bind, const2_rejected hb (h.resolve_left hc)]; rfl
  · by_cases hc : high < low ∨ (low = 0 ∧ high = 0)
    · rw [semiNot01, (hx0 n).1 hc]; rfl
    · obtain ⟨p, hp⟩ := (hx0 n).2 hc
      rw [semiNot01, hp, Res.ok_bind, const1_rejected hb (by tauto)]; rfl
  · by_cases hc : high < low ∨ (low = 0 ∧ high = 0)
    · rw [semiNot02, (hx0 n).1 hc]; rfl
    · obtain ⟨p, hp⟩ := (hx0 n).2 hc
      rw [semiNot02, hp, Res.ok_bind, const2_rejected hb (by tauto)]; rfl

/-! ### Expressions of numbers from the standard library -/

/-- C103: an array made from `random<T>(n, low, high)` holds the first `n` draws. -/
theorem C103_std [Inhabited α] (b : Build) {gen : Gen α G} {low high : α} {f : G → α × G} {P : α → Prop}
    (hle : low ≤ high) (h : Serves gen low high f P) (n : Nat) (g : G) :
    std1 b gen low high n = .ok () ∧
    construct1 b (RandExpr.plain (gen.random low high)) n g = .ok (some (firstValues f g n, stateAt f g n)) ∧
    ∀ v ∈ firstValues f g n, P v := by
  refine ⟨?_, C103_construct b h.draws n g, firstValues_good h g n⟩
  rw [std1, (C83_expression b hle h g 0).1, Res.ok_bind, mkConst1D_ok b _ (by omega)]
  rfl

/-- C103: one made from `random<T>(m, n, low, high)` holds the first `m * n` draws, row by row. -/
theorem C103_std_2D [Inhabited α] (b : Build) {gen : Gen α G} {low high : α} {f : G → α × G} {P : α → Prop}
    (hle : low ≤ high) (h : Serves gen low high f P) {m n : Nat} (hz : m = 0 ↔ n = 0) (hs : (m : Int) * n < 2 ^ 63)
    (g : G) :
    std2 b gen low high m n = .ok () ∧
    construct2 b (RandExpr.plain (gen.random low high)) m n g =
      .ok (some (⟨m, n, firstValues f g (m * n)⟩, stateAt f g (m * n))) ∧
    ∀ v ∈ firstValues f g (m * n), P v := by
  refine ⟨?_, C103_construct_2D b h.draws hz hs g, firstValues_good h g _⟩
  rw [std2, (C83_expression b hle h g 0).1, Res.ok_bind, mkConst2D_ok b _ (by omega) (by omega) (by omega)]
  rfl

/-- C103: expressions without zeros can be made if the bounds are in order and not both zero; what an array made from one
holds are the first draws that are not zero. -/
theorem C103_std_not0 [Inhabited α] (b : Build) (zero : α) {gen : Gen α G} {low high : α} {f : G → α × G} {P : α → Prop}
    (hle : low ≤ high) (h0 : ¬ (low = zero ∧ high = zero)) (h : Serves gen low high f P) {m n : Nat} (fuel : Nat) (g : G) :
    stdNot01 b zero gen low high n = .ok () ∧
    ((m = 0 ↔ n = 0) → stdNot02 b zero gen low high m n = .ok ()) ∧
    (∀ vs g', construct1 b (untilNot0 (gen.random low high) (fun x => decide (x = zero)) fuel) n g = .ok (some (vs, g')) →
      vs.length = n ∧ (∀ v ∈ vs, v ≠ zero ∧ P v) ∧
      ∃ N, vs = (firstValues f g N).filter (fun x => decide (x ≠ zero)) ∧ g' = stateAt f g N) ∧
    ((m = 0 ↔ n = 0) → (m : Int) * n < 2 ^ 63 → ∀ A g',
      construct2 b (untilNot0 (gen.random low high) (fun x => decide (x = zero)) fuel) m n g = .ok (some (A, g')) →
      A.rows = m ∧ A.cols = n ∧ A.data.length = m * n ∧ (∀ v ∈ A.data, v ≠ zero ∧ P v) ∧
      ∃ N, A.data = (firstValues f g N).filter (fun x => decide (x ≠ zero)) ∧ g' = stateAt f g N) := by
  have e : (!(decide (low = zero) && decide (high = zero))) = true := by
    rw [Bool.not_eq_true', ← Bool.not_eq_true, Bool.and_eq_true, decide_eq_true_eq, decide_eq_true_eq]; exact h0
  have e1 : stdNot0 b zero gen low high = .ok () := by
    rw [stdNot0, decide_eq_true hle, e, assertDebug_true, Res.ok_bind, Res.ok_bind, h.makes]
  have hn : ∀ N, ∀ v ∈ nonZero f (fun x => decide (x = zero)) g N, v ≠ zero ∧ P v := by
    intro N v hv
    obtain ⟨h1, h2⟩ := List.mem_filter.1 hv
    exact ⟨by simpa using h2, firstValues_good h g N v h1⟩
  have he : ∀ N, nonZero f (fun x => decide (x = zero)) g N = (firstValues f g N).filter (fun x => decide (x ≠ zero)) := by
    intro N; simp [nonZero]
  refine ⟨?_, fun hz => ?_, ?_, ?_⟩
  · rw [stdNot01, e1, Res.ok_bind, mkConst1D_ok b _ (by omega)]; rfl
  · rw [stdNot02, e1, Res.ok_bind, mkConst2D_ok b _ (by omega) (by omega) (by omega)]; rfl
  · intro vs g' hr
    rcases C103_not0 b h.draws (fun x => decide (x = zero)) fuel n g with ⟨N, h1, h2⟩ | ⟨h1, -⟩
    · rw [h1] at hr
      cases hr
      exact ⟨h2, hn N, N, he N, rfl⟩
    · rw [h1] at hr
      cases hr
  · intro hz hs A g' hr
    rcases C103_not0_2D b h.draws (fun x => decide (x = zero)) fuel hz hs g with ⟨N, h1, h2⟩ | ⟨h1, -⟩
    · rw [h1] at hr
      cases hr
      exact ⟨rfl, rfl, h2, hn N, N, he N, rfl⟩
    · rw [h1] at hr
      cases hr

/-- C103: expressions of numbers from the standard library are rejected in the same cases. -/
theorem C103_std_rejected {b : Build} (hb : b.Checked) (zero : α) (gen : Gen α G) (low high : α)
    (hok : low ≤ high → gen.make low high = .ok ()) (m n : Int) :
    (high < low ∨ n < 0 → std1 b gen low high n = .trap b.kind) ∧
    (high < low ∨ m < 0 ∨ n < 0 ∨ ¬ (m = 0 ↔ n = 0) → std2 b gen low high m n = .trap b.kind) ∧
    (high < low ∨ (low = zero ∧ high = zero) ∨ n < 0 → stdNot01 b zero gen low high n = .trap b.kind) ∧
    (high < low ∨ (low = zero ∧ high = zero) ∨ m < 0 ∨ n < 0 ∨ ¬ (m = 0 ↔ n = 0) →
      stdNot02 b zero gen low high m n = .trap b.kind) := by
  have hx : (high < low → randomExpr b gen low high = .trap b.kind) ∧
      (¬ high < low → randomExpr b gen low high = .ok ()) := by
    refine ⟨fun h => ?_, fun h => ?_⟩
    · rw [randomExpr, decide_eq_false (not_le.2 h), assertDebug_false hb]; rfl
    · rw [randomExpr, decide_eq_true (not_lt.1 h), assertDebug_true, Res.ok_bind, hok (not_lt.1 h)]
  have hx0 : (high < low ∨ (low = zero ∧ high = zero) → stdNot0 b zero gen low high = .trap b.kind) ∧
      (¬ (high < low ∨ (low = zero ∧ high = zero)) → stdNot0 b zero gen low high = .ok ()) := by
    refine ⟨fun h => ?_, fun h => ?_⟩
    · by_cases hc : high < low
      · rw [stdNot0, decide_eq_false (not_le.2 hc), assertDebug_false hb]; rfl
      · obtain ⟨rfl, rfl⟩ := h.resolve_left hc
        rw [stdNot0, decide_eq_true le_rfl, assertDebug_true, Res.ok_bind, decide_eq_true rfl, Bool.and_self, Bool.not_true,
          assertDebug_false hb]; rfl
    · have hle : low ≤ high := not_lt.1 fun hc => h (.inl hc)
      have e : (!(decide (low = zero) && decide (high = zero))) = true := by
        rw [Bool.not_eq_true', ← Bool.not_eq_true, Bool.and_eq_true, decide_eq_true_eq, decide_eq_true_eq]; tauto
      rw [stdNot0, decide_eq_true hle, e, assertDebug_true, Res.ok_bind, Res.ok_bind, hok hle]
  refine ⟨fun h => ?_, fun h => ?_, fun h => ?_, fun h => ?_⟩
  · by_cases hc : high < low
    · rw [std1, hx.1 hc]; rfl
    · rw [std1, hx.2 hc, Res.ok_bind, const1_rejected hb (h.resolve_left hc)]; rfl
  · by_cases hc : high < low
    · rw [std2, hx.1 hc]; rfl
    · rw [std2, hx.2 hc, Res.ok_bind, const2_rejected hb (h.resolve_left hc)]; rfl
  · by_cases hc : high < low ∨ (low = zero ∧ high = zero)
    · rw [stdNot01, hx0.1 hc]; rfl
    · rw [stdNot01, hx0.2 hc, Res.ok_bind, const1_rejected hb (by tauto)]; rfl
  · by_cases hc : high < low ∨ (low = zero ∧ high = zero)
    · rw [stdNot02, hx0.1 hc]; rfl
    · rw [stdNot02, hx0.2 hc, Res.ok_bind, const2_rejected hb (by tauto)]; rfl

/-! ### Examples -/

example : Serves (StdRandom.plain counting) 0 2 (counting.draw 0 2) (fun x => 0 ≤ x ∧ x ≤ 2) :=
  C83_generator counting_contract rfl
example : construct1 ⟨false, true, false⟩ (RandExpr.plain ((StdRandom.plain counting).random 0 2)) 4 0 =
    .ok (some ([0, 1, 2, 0], 4)) := rfl
example : construct1 ⟨false, true, false⟩ (untilNot0 ((StdRandom.plain counting).random 0 2) (fun x => decide (x = 0)) 2) 4 0 =
    .ok (some ([1, 2, 1, 2], 6)) := by decide
example : construct1 ⟨false, true, false⟩ (untilNot0 ((StdRandom.plain counting).random 0 2) (fun x => decide (x = 0)) 1) 4 0 =
    .ok none := by decide
example : construct2 ⟨false, true, false⟩ (RandExpr.plain ((StdRandom.plain counting).random 0 2)) 2 2 1 =
    .ok (some (⟨2, 2, [1, 2, 0, 1]⟩, 5)) := rfl
example : assign1 ⟨false, true, false⟩ (RandExpr.plain ((StdRandom.plain counting).random 0 2)) 2 [7, 8] 2 =
    .ok (some ([2, 0], 4)) := rfl
example : assign1 ⟨false, true, false⟩ (RandExpr.plain ((StdRandom.plain counting).random 0 2)) 2 [7] 2 =
    .trap .exception := rfl
example : (4 : Nat) ≤ (nonZero (counting.draw 0 2) (fun x => decide (x = 0)) 0 6).length := by decide
example : GoodRange .int 0 98 := by constructor <;> (try unfold Fits) <;> decide
example : semi1 ⟨false, true, false⟩ 1000 3 2 5 1 = .trap .exception := rfl
example : semiNot01 ⟨false, true, false⟩ 1000 0 0 5 1 = .trap .exception := rfl
example : semi2 ⟨false, true, false⟩ 1000 0 2 5 0 1 = .trap .exception := rfl

end Spp.Props
