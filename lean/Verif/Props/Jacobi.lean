import Verif.Lemmas.Dominant
import Verif.Lemmas.Sample
import Mathlib.Tactic.LinearCombination
import Mathlib.Tactic.FinCases
import Mathlib.Algebra.Order.Ring.Rat

/-
C106: the Jacobi solver of examples/example6.cpp.
-/

set_option linter.unusedSectionVars false

namespace Spp.Props

open Spec Examples Lemmas

variable {α : Type}

/-- C106: in every arithmetic whose operations have results (floating-point numbers with rounding, infinities and NaN
included), for every square system and every build, with dynamic or fixed arrays, `jacobi` succeeds and returns the first
of the iterates number 0, ..., 100 N that passes the residual test, with its number; if none of them does, it returns
nothing. -/
theorem C106_outcome (b : Build) (P : TotalArith α) (dynamic : Bool) {M : List (List α)} {rhs : List α}
    (hM : Square M rhs) (hne : M ≠ []) {tol nz : α} (ht : P.le P.zero tol = true) (hz : P.le P.zero nz = true) :
    jacobi b P.scalar dynamic (matrixOf M) rhs tol nz = .ok (P.firstSolution M rhs tol nz) := by
  have : Inhabited α := ⟨P.zero⟩
  have hb := hM.small
  have hle : M.length ≤ M.length * M.length := Nat.le_mul_of_pos_left _ (List.length_pos_iff.2 hne)
  have hN : (M.length : Int) ≤ 2 ^ 32 := by
    rcases Nat.lt_or_ge (2 ^ 32) M.length with h | h
    · have : 2 ^ 32 * 2 ^ 32 ≤ M.length * M.length := Nat.mul_le_mul h.le h.le
      omega
    · exact_mod_cast h
  have hc : (b.ndebug || ((matrixOf M).rows == (matrixOf M).cols && (matrixOf M).cols == len rhs)) = true := by
    simp [matrixOf, len, hM.rhs]
  have e1 : imul 100 (M.length : Int) = .ok (100 * (M.length : Int)) :=
    imul_ok (by unfold IsIndex; constructor <;> omega)
  have e2 : iadd (100 * (M.length : Int)) 1 = .ok (100 * (M.length : Int) + 1) :=
    iadd_ok (by unfold IsIndex; constructor <;> omega)
  unfold jacobi
  rw [if_pos hc, Res.ok_bind]
  show (imul 100 (M.length : Int) >>= fun maxIts => (do
    let xprev ← zeros b P.scalar dynamic rhs.length (M.length : Int)
    let xnext ← zeros b P.scalar dynamic rhs.length (M.length : Int)
    let n ← iadd maxIts 1
    assertDebug b (decide (n > -1))
    (jacobiLoop b P.scalar tol nz (M.length : Int).toNat n.toNat 0 (vars (matrixOf M) rhs xprev xnext)).1)) = _
  rw [e1, Res.ok_bind, hM.rhs, zeros_eq, Res.ok_bind, Res.ok_bind, e2, Res.ok_bind,
    decide_eq_true (show (100 * (M.length : Int) + 1 > -1) by omega), assertDebug_true, Res.ok_bind, Int.toNat_natCast,
    show (100 * (M.length : Int) + 1).toNat = 100 * M.length + 1 by omega]
  have := loop_eq P b hM hne ht hz (100 * M.length + 1) 0
  rw [show P.iterate M rhs 0 = List.replicate M.length P.zero from rfl] at this
  rw [this, ← List.range_eq_range']
  rfl

/-- The system `4 x + y = 1`, `x + 3 y = 2`, in exact arithmetic. -/
def sys : List (List Rat) := [[4, 1], [1, 3]]

theorem sys_square : Square sys [1, 2] := ⟨by simp [sys], rfl, by decide⟩

example (b : Build) : jacobi b (exactN Rat (fun x _ => x) id).scalar true (matrixOf sys) [1, 2] (1 / 10) (1 / 1000) =
    .ok ((exactN Rat (fun x _ => x) id).firstSolution sys [1, 2] (1 / 10) (1 / 1000)) :=
  C106_outcome b _ true sys_square (by decide) (by decide +kernel) (by decide +kernel)

/-- Here the iterate number 2 is the first to pass. -/
example : (exactN Rat (fun x _ => x) id).firstSolution sys [1, 2] (1 / 10) (1 / 1000) =
    some ([1 / 12, 7 / 12], 2) := by decide +kernel

/-- C106: the system without equations is reported as not solved. -/
theorem C106_empty (b : Build) (P : TotalArith α) (dynamic : Bool) {tol nz : α} (ht : P.le P.zero tol = true)
    (hz : P.le P.zero nz = true) : jacobi b P.scalar dynamic (matrixOf []) [] tol nz = .ok none := by
  have : Inhabited α := ⟨P.zero⟩
  have hM : Square ([] : List (List α)) [] := ⟨by simp, rfl, by simp⟩
  have e1 : imul 100 (0 : Int) = .ok 0 := imul_ok (by decide)
  have e2 : iadd 0 1 = .ok 1 := iadd_ok (by decide)
  unfold jacobi
  rw [if_pos (by simp [matrixOf, len]), Res.ok_bind]
  show (imul 100 (0 : Int) >>= fun maxIts => (do
    let xprev ← zeros b P.scalar dynamic 0 ((0 : Nat) : Int)
    let xnext ← zeros b P.scalar dynamic 0 ((0 : Nat) : Int)
    let n ← iadd maxIts 1
    assertDebug b (decide (n > -1))
    (jacobiLoop b P.scalar tol nz 0 n.toNat 0 (vars (matrixOf []) [] xprev xnext)).1)) = _
  rw [e1, Res.ok_bind, zeros_eq, Res.ok_bind, Res.ok_bind, e2, Res.ok_bind, decide_eq_true (by decide),
    assertDebug_true, Res.ok_bind]
  show (jacobiLoop b P.scalar tol nz 0 1 0 _).1 = _
  rw [jacobiLoop, Op.get_bind, passes_eq P b hM rfl rfl ht hz, Op.lift_ok_bind]
  simp only [List.isEmpty_nil, Bool.not_true, Bool.false_and, Bool.false_eq_true, if_false]
  have hs := sweep_eq P b hM (p := []) (q := []) rfl rfl
  rw [show ([] : List (List α)).length = 0 from rfl] at hs
  rw [Op.bind_run, show (List.replicate 0 P.zero) = [] from rfl, hs]
  dsimp only
  rw [Op.bind_run, show P.step [] [] [] = [] from rfl, copy_vars b (M := []) rfl rfl]
  rfl

example (b : Build) : jacobi b (exactN Rat (fun x _ => x) id).scalar false (matrixOf []) [] (1 / 10) (1 / 1000) =
    .ok none := C106_empty b _ false (by decide +kernel) (by decide +kernel)

/-- C106: without `NDEBUG` a matrix that is not square, or a right side of another length, ends the program. -/
theorem C106_rejected {b : Build} (hb : b.ndebug = false) (sc : Scalar α) (dynamic : Bool) {A : Arr2 α} {rhs : List α}
    (h : ¬ (A.rows = A.cols ∧ A.cols = len rhs)) (tol nz : α) :
    jacobi b sc dynamic A rhs tol nz = .trap .abort := by
  unfold jacobi
  have : (b.ndebug || (A.rows == A.cols && A.cols == len rhs)) = false := by
    rw [hb, Bool.false_or, Bool.eq_false_iff]
    simpa using h
  rw [this]
  rfl

example : jacobi ⟨false, true, false⟩ (exactN Rat (fun x _ => x) id).scalar true (matrixOf sys) [1, 2, 3] (1 / 10)
    (1 / 1000) = .trap .abort := C106_rejected rfl _ _ (by decide) _ _

/-! ### Making the matrix dominant -/

/-- C106: the statement `A.diag() += 2 * row_reduce(A, sum)` reads the rows it changes, but every diagonal element is
increased by twice the sum of its row before the statement, and nothing else changes. -/
theorem C106_raised (b : Build) (P : TotalArith α) (two : α) {M : List (List α)} {rhs p q : List α} (hM : Square M rhs)
    (hp : p.length = M.length) (hq : q.length = M.length) :
    makeDominant b P.scalar.toArith two (vars (matrixOf M) rhs p q) =
      (.ok (), vars (matrixOf (P.raised two M)) rhs p q) := by
  have : Inhabited α := ⟨P.zero⟩
  exact makeDominant_eq P b two hM hp hq

example (b : Build) : makeDominant b (exactN Rat (fun x _ => x) id).scalar.toArith 2
    (vars (matrixOf [[4, 1], [1, 3]]) [1, 2] [0, 0] [0, 0]) =
      (.ok (), vars (matrixOf [[14, 1], [1, 11]]) [1, 2] [0, 0] [0, 0]) := by
  have h : (exactN Rat (fun x _ => x) id).raised 2 sys = [[14, 1], [1, 11]] := by decide +kernel
  rw [← h]
  exact C106_raised b _ 2 sys_square rfl rfl

/-! ### Exact arithmetic -/

section exact

variable {K : Type} [Field K] [LinearOrder K] [IsStrictOrderedRing K] {pow : K → K → K} {sqrt : K → K} {n : Nat}

theorem square_rows (a : Fin n → Fin n → K) (c : Fin n → K) (hn : ((n * n : Nat) : Int) < 2 ^ 63 - 1) :
    Square (rowsOf a) (List.ofFn c) := by
  refine ⟨fun r hr => ?_, by simp [rowsOf], by simpa [rowsOf] using hn⟩
  obtain ⟨i, rfl⟩ := List.mem_ofFn.1 hr
  simp [rowsOf]

theorem solves_exact (a : Fin n → Fin n → K) (c : Fin n → K) {tol nz : K} (ht : 0 ≤ tol) (hz : 0 ≤ nz)
    (x : Fin n → K) :
    (exactN K pow sqrt).solves (rowsOf a) (List.ofFn c) tol nz (List.ofFn x) = true ↔ Residual a c tol nz x := by
  unfold TotalArith.solves Residual
  have hzip : List.zip (rowsOf a) (List.ofFn c) = List.ofFn (fun i => (List.ofFn (a i), c i)) := by
    refine List.ext_getElem (by simp [rowsOf]) (fun i h1 h2 => by simp [rowsOf])
  rw [hzip, List.all_eq_true, List.forall_mem_ofFn_iff]
  refine forall_congr' fun i => ?_
  rw [dot0_exact, close_exact ht hz, decide_eq_true_iff]

/-- C106: in exact arithmetic either the vector returned is the first Jacobi iterate that passes the residual test, and
its number is at most 100 n, or no iterate up to number 100 n passes it and nothing is returned.  The `i`-th component of
the next iterate is `(c i - sum of a i j * x j over j ≠ i) / a i i`. -/
theorem C106_exact (b : Build) (dynamic : Bool) (a : Fin n → Fin n → K) (c : Fin n → K) (h0 : 0 < n)
    (hn : ((n * n : Nat) : Int) < 2 ^ 63 - 1) {tol nz : K} (ht : 0 ≤ tol) (hz : 0 ≤ nz) :
    let run := jacobi b (exactS K pow sqrt) dynamic (matrixOf (rowsOf a)) (List.ofFn c) tol nz
    (∃ k ≤ 100 * n, Residual a c tol nz (jacobiX a c k) ∧ (∀ j < k, ¬ Residual a c tol nz (jacobiX a c j)) ∧
      run = .ok (some (List.ofFn (jacobiX a c k), k))) ∨
    ((∀ k ≤ 100 * n, ¬ Residual a c tol nz (jacobiX a c k)) ∧ run = .ok none) := by
  intro run
  have hrun : run = .ok ((exactN K pow sqrt).firstSolution (rowsOf a) (List.ofFn c) tol nz) :=
    C106_outcome b (exactN K pow sqrt) dynamic (square_rows a c hn)
      (by intro e; have := congrArg List.length e; simp [rowsOf] at this; omega) (decide_eq_true ht) (decide_eq_true hz)
  have hl : (rowsOf a).length = n := by simp [rowsOf]
  rw [hrun]
  unfold TotalArith.firstSolution
  rw [hl]
  have key : ∀ k, (exactN K pow sqrt).solves (rowsOf a) (List.ofFn c) tol nz
      ((exactN K pow sqrt).iterate (rowsOf a) (List.ofFn c) k) = true ↔ Residual a c tol nz (jacobiX a c k) := by
    intro k
    rw [iterate_exact, solves_exact a c ht hz]
  cases hf : (List.range (100 * n + 1)).find? (fun k => (exactN K pow sqrt).solves (rowsOf a) (List.ofFn c) tol nz
      ((exactN K pow sqrt).iterate (rowsOf a) (List.ofFn c) k)) with
  | none =>
    right
    refine ⟨fun k hk => ?_, rfl⟩
    rw [List.find?_eq_none] at hf
    have := hf k (List.mem_range.2 (by omega))
    rwa [key] at this
  | some k =>
    left
    rw [List.find?_range_eq_some] at hf
    obtain ⟨h1, h2, h3⟩ := hf
    refine ⟨k, by rw [List.mem_range] at h2; omega, (key k).1 h1, fun j hj => ?_, ?_⟩
    · have := h3 j hj
      intro hr
      rw [(key j).2 hr] at this
      simp at this
    · simp only [Option.map_some, iterate_exact]

/-- The system of the examples. -/
def sa : Fin 2 → Fin 2 → Rat := ![![4, 1], ![1, 3]]
/-- Its right sides. -/
def sc : Fin 2 → Rat := ![1, 2]
/-- Its solution. -/
def sx : Fin 2 → Rat := ![1 / 11, 7 / 11]

theorem sx_solves : ∀ i, ∑ j, sa i j * sx j = sc i := by decide +kernel

theorem sa_dominant : Dominant (1 / 3) sa := by
  intro i
  refine ⟨?_, ?_⟩ <;> revert i <;> decide +kernel

example (b : Build) :
    let run := jacobi b (exactS Rat (fun x _ => x) id) true (matrixOf (rowsOf sa)) (List.ofFn sc) (1 / 10) (1 / 1000)
    (∃ k ≤ 100 * 2, Residual sa sc (1 / 10) (1 / 1000) (jacobiX sa sc k) ∧
      (∀ j < k, ¬ Residual sa sc (1 / 10) (1 / 1000) (jacobiX sa sc j)) ∧
      run = .ok (some (List.ofFn (jacobiX sa sc k), k))) ∨
    ((∀ k ≤ 100 * 2, ¬ Residual sa sc (1 / 10) (1 / 1000) (jacobiX sa sc k)) ∧ run = .ok none) :=
  C106_exact b true sa sc (by decide) (by decide) (by decide +kernel) (by decide +kernel)

/-- C106: if every diagonal entry dominates its row by the factor `ρ`, the iterates approach the solution at least as
fast as the powers of `ρ` go to zero. -/
theorem C106_converges {a : Fin n → Fin n → K} {c x : Fin n → K} {ρ B : K} (hd : Dominant ρ a)
    (hx : ∀ i, ∑ j, a i j * x j = c i) (hB : ∀ i, |x i| ≤ B) (k : Nat) (i : Fin n) :
    |jacobiX a c k i - x i| ≤ ρ ^ k * B := by
  induction k generalizing i with
  | zero => simpa [jacobiX] using hB i
  | succ k ih =>
    obtain ⟨h1, h2⟩ := hd i
    have hpos : 0 < |a i i| := abs_pos.2 h1
    have hsplit : ∑ j with j ≠ i, a i j * x j = c i - a i i * x i := by
      have h := Finset.add_sum_erase Finset.univ (fun j => a i j * x j) (Finset.mem_univ i)
      have e : Finset.univ.filter (fun j => j ≠ i) = Finset.univ.erase i := by ext; simp
      rw [e, ← hx i, ← h]; ring
    have hdiff : a i i * (jacobiX a c (k + 1) i - x i) = - ∑ j with j ≠ i, a i j * (jacobiX a c k j - x j) := by
      show a i i * ((c i - ∑ j with j ≠ i, a i j * jacobiX a c k j) / a i i - x i) = _
      have e : ∑ j with j ≠ i, a i j * (jacobiX a c k j - x j) =
          ∑ j with j ≠ i, a i j * jacobiX a c k j - ∑ j with j ≠ i, a i j * x j := by
        rw [← Finset.sum_sub_distrib]
        exact Finset.sum_congr rfl fun j _ => by ring
      rw [e, hsplit, mul_sub, mul_div_cancel₀ _ h1]
      ring
    have hb : |a i i| * |jacobiX a c (k + 1) i - x i| ≤ |a i i| * (ρ ^ (k + 1) * B) := by
      rw [← abs_mul, hdiff, abs_neg]
      have hB0 : 0 ≤ ρ ^ k * B := (abs_nonneg _).trans (ih i)
      calc |∑ j with j ≠ i, a i j * (jacobiX a c k j - x j)|
          ≤ ∑ j with j ≠ i, |a i j * (jacobiX a c k j - x j)| := Finset.abs_sum_le_sum_abs _ _
        _ ≤ ∑ j with j ≠ i, |a i j| * (ρ ^ k * B) :=
            Finset.sum_le_sum fun j _ => by rw [abs_mul]; exact mul_le_mul_of_nonneg_left (ih j) (abs_nonneg _)
        _ = (∑ j with j ≠ i, |a i j|) * (ρ ^ k * B) := (Finset.sum_mul _ _ _).symm
        _ ≤ (ρ * |a i i|) * (ρ ^ k * B) := mul_le_mul_of_nonneg_right h2 hB0
        _ = |a i i| * (ρ ^ (k + 1) * B) := by ring
    exact le_of_mul_le_mul_left hb hpos

example (k : Nat) (i : Fin 2) : |jacobiX sa sc k i - sx i| ≤ (1 / 3) ^ k * (7 / 11) :=
  C106_converges sa_dominant sx_solves (by decide +kernel) k i

/-- C106: so `jacobi` does return a vector, after at most `k` steps, if the error left after `k` steps is small against
the right sides. -/
theorem C106_returns (b : Build) (dynamic : Bool) {a : Fin n → Fin n → K} {c x : Fin n → K} {ρ B : K} (h0 : 0 < n)
    (hn : ((n * n : Nat) : Int) < 2 ^ 63 - 1) (hd : Dominant ρ a) (hx : ∀ i, ∑ j, a i j * x j = c i)
    (hB : ∀ i, |x i| ≤ B) {tol nz : K} (ht : 0 ≤ tol) (hz : 0 ≤ nz) {k : Nat} (hk : k ≤ 100 * n)
    (hs : ∀ i, (∑ j, |a i j|) * (ρ ^ k * B) ≤ tol * |c i|) :
    ∃ m ≤ k, jacobi b (exactS K pow sqrt) dynamic (matrixOf (rowsOf a)) (List.ofFn c) tol nz =
        .ok (some (List.ofFn (jacobiX a c m), m)) ∧ Residual a c tol nz (jacobiX a c m) := by
  have hr : Residual a c tol nz (jacobiX a c k) := by
    intro i
    right
    have e : ∑ j, a i j * jacobiX a c k j - c i = ∑ j, a i j * (jacobiX a c k j - x j) := by
      rw [← hx i, ← Finset.sum_sub_distrib]
      exact Finset.sum_congr rfl fun j _ => by ring
    rw [e]
    calc |∑ j, a i j * (jacobiX a c k j - x j)|
        ≤ ∑ j, |a i j * (jacobiX a c k j - x j)| := Finset.abs_sum_le_sum_abs _ _
      _ ≤ ∑ j, |a i j| * (ρ ^ k * B) :=
          Finset.sum_le_sum fun j _ => by
            rw [abs_mul]
            exact mul_le_mul_of_nonneg_left (C106_converges hd hx hB k j) (abs_nonneg _)
      _ = (∑ j, |a i j|) * (ρ ^ k * B) := (Finset.sum_mul _ _ _).symm
      _ ≤ tol * |c i| := hs i
      _ ≤ tol * Max.max |∑ j, a i j * jacobiX a c k j| |c i| := mul_le_mul_of_nonneg_left (le_max_right _ _) ht
  rcases C106_exact (pow := pow) (sqrt := sqrt) b dynamic a c h0 hn ht hz with ⟨m, h1, h2, h3, h4⟩ | ⟨h1, _⟩
  · refine ⟨m, ?_, h4, h2⟩
    by_contra hm
    exact h3 k (by omega) hr
  · exact absurd hr (h1 k hk)

example (b : Build) : ∃ m ≤ 4, jacobi b (exactS Rat (fun x _ => x) id) true (matrixOf (rowsOf sa)) (List.ofFn sc) (1 / 10)
      (1 / 1000) = .ok (some (List.ofFn (jacobiX sa sc m), m)) ∧ Residual sa sc (1 / 10) (1 / 1000) (jacobiX sa sc m) :=
  C106_returns b true (B := 7 / 11) (by decide) (by decide) sa_dominant sx_solves (by decide +kernel)
    (by decide +kernel) (by decide +kernel) (k := 4) (by decide) (by decide +kernel)

/-- C106: a vector that satisfies the equations up to `R` is close to the solution, if `ρ < 1`: no component is off by
more than `R / (δ (1 - ρ))`, where `δ` is a lower bound of the diagonal. -/
theorem C106_accuracy {a : Fin n → Fin n → K} {c x y : Fin n → K} {ρ R δ : K} (hρ1 : ρ < 1) (hδ : 0 < δ)
    (hd : Dominant ρ a) (hdiag : ∀ i, δ ≤ |a i i|) (hx : ∀ i, ∑ j, a i j * x j = c i)
    (hy : ∀ i, |∑ j, a i j * y j - c i| ≤ R) (i : Fin n) : |y i - x i| ≤ R / (δ * (1 - ρ)) := by
  obtain ⟨m, _, hm⟩ := Finset.exists_max_image Finset.univ (fun i => |y i - x i|) ⟨i, Finset.mem_univ i⟩
  have hmax : ∀ j, |y j - x j| ≤ |y m - x m| := fun j => hm j (Finset.mem_univ j)
  refine (hmax i).trans ?_
  have h1 : 0 < 1 - ρ := sub_pos.2 hρ1
  rw [le_div_iff₀ (mul_pos hδ h1)]
  have hsum : ∑ j, a m j * y j - c m = a m m * (y m - x m) + ∑ j with j ≠ m, a m j * (y j - x j) := by
    have h := Finset.add_sum_erase Finset.univ (fun j => a m j * (y j - x j)) (Finset.mem_univ m)
    have e : Finset.univ.filter (fun j => j ≠ m) = Finset.univ.erase m := by ext; simp
    rw [e, h, ← hx m, ← Finset.sum_sub_distrib]
    exact Finset.sum_congr rfl fun j _ => by ring
  have hoff : |∑ j with j ≠ m, a m j * (y j - x j)| ≤ ρ * |a m m| * |y m - x m| := by
    calc |∑ j with j ≠ m, a m j * (y j - x j)|
        ≤ ∑ j with j ≠ m, |a m j * (y j - x j)| := Finset.abs_sum_le_sum_abs _ _
      _ ≤ ∑ j with j ≠ m, |a m j| * |y m - x m| :=
          Finset.sum_le_sum fun j _ => by rw [abs_mul]; exact mul_le_mul_of_nonneg_left (hmax j) (abs_nonneg _)
      _ = (∑ j with j ≠ m, |a m j|) * |y m - x m| := (Finset.sum_mul _ _ _).symm
      _ ≤ ρ * |a m m| * |y m - x m| := mul_le_mul_of_nonneg_right (hd m).2 (abs_nonneg _)
  have hr := hy m
  rw [hsum] at hr
  have ht : |a m m| * |y m - x m| ≤ R + ρ * |a m m| * |y m - x m| := by
    rw [← abs_mul]
    calc |a m m * (y m - x m)|
        = |(a m m * (y m - x m) + ∑ j with j ≠ m, a m j * (y j - x j)) - ∑ j with j ≠ m, a m j * (y j - x j)| := by
          rw [add_sub_cancel_right]
      _ ≤ _ := (abs_sub _ _).trans (add_le_add hr hoff)
  have h2 : δ * (1 - ρ) * |y m - x m| ≤ |a m m| * (1 - ρ) * |y m - x m| :=
    mul_le_mul_of_nonneg_right (mul_le_mul_of_nonneg_right (hdiag m) h1.le) (abs_nonneg _)
  linarith [h2, ht]

example (i : Fin 2) : |(![0, 1] : Fin 2 → Rat) i - sx i| ≤ 1 / (3 * (1 - 1 / 3)) :=
  C106_accuracy (R := 1) (by decide +kernel) (by decide +kernel) sa_dominant (δ := 3) (by decide +kernel) sx_solves
    (by decide +kernel) i

/-- C106: if the elements of a matrix are not negative and every row has a positive sum, as for the random matrix of
the example, then raising the diagonal as the example does makes every diagonal element at least twice as large as the
rest of its row. -/
theorem C106_dominant (a : Fin n → Fin n → K) (ha : ∀ i j, 0 ≤ a i j) (hs : ∀ i, 0 < ∑ j, a i j) :
    ∃ a' : Fin n → Fin n → K, (exactN K pow sqrt).raised 2 (rowsOf a) = rowsOf a' ∧ Dominant (1 / 2) a' ∧
      (∀ i, a' i i = a i i + 2 * ∑ j, a i j) ∧ ∀ i j, j ≠ i → a' i j = a i j := by
  refine ⟨fun i j => if j = i then a i i + 2 * ∑ j, a i j else a i j, ?_, fun i => ?_, fun i => if_pos rfl,
    fun i j h => if_neg h⟩
  · refine List.ext_getElem (by simp [TotalArith.raised, rowsOf]) (fun i h1 h2 => ?_)
    have hi : i < n := by simpa [rowsOf] using h2
    simp only [TotalArith.raised, rowsOf, List.getElem_mapIdx, List.getElem_ofFn]
    refine List.ext_getElem (by simp) (fun j h3 h4 => ?_)
    have hj : j < n := by simpa using h4
    rw [List.getElem_set, List.getElem_ofFn, List.getElem_ofFn]
    by_cases e : i = j
    · subst e
      rw [if_pos rfl, if_pos rfl, total_exact, getD_lt (by simpa using hi), List.getElem_ofFn, List.sum_ofFn]
      rfl
    · rw [if_neg e, if_neg (by intro h; exact e (Fin.mk.inj h).symm)]
  · have h := Finset.add_sum_erase Finset.univ (fun j => a i j) (Finset.mem_univ i)
    have e : Finset.univ.filter (fun j => j ≠ i) = Finset.univ.erase i := by ext; simp
    have hii := ha i i
    have hsi := hs i
    have hpos : 0 < a i i + 2 * ∑ j, a i j := by linarith
    have e2 : ∑ j with j ≠ i, |(if j = i then a i i + 2 * ∑ j, a i j else a i j)| = ∑ j ∈ Finset.univ.erase i, a i j := by
      rw [e]
      refine Finset.sum_congr rfl fun j hj => ?_
      rw [if_neg (Finset.ne_of_mem_erase hj), abs_of_nonneg (ha i j)]
    refine ⟨by simpa using hpos.ne', ?_⟩
    rw [e2]
    show _ ≤ 1 / 2 * |if i = i then a i i + 2 * ∑ j, a i j else a i i|
    rw [if_pos rfl, abs_of_pos hpos]
    linarith

example : ∃ a' : Fin 2 → Fin 2 → Rat, (exactN Rat (fun x _ => x) id).raised 2 (rowsOf sa) = rowsOf a' ∧
    Dominant (1 / 2) a' ∧ (∀ i, a' i i = sa i i + 2 * ∑ j, sa i j) ∧ ∀ i j, j ≠ i → a' i j = sa i j :=
  C106_dominant sa (by decide +kernel) (by decide +kernel)

end exact

end Spp.Props
