import Verif.Lemmas.StableDot

/-
Lemmas for blocked sums and compensated products.
-/

set_option linter.unusedSectionVars false

namespace Spp.Lemmas

open Spp.Spec

variable {σ : Type} {G : ℚ → Prop} {u : ℚ} {rn : ℚ → ℚ} {pow : ℚ → ℚ → ℚ} {sqrt : ℚ → ℚ}

theorem rd_append {α : Type} (A B : List α) (x : α) {i : Int} (hi : i = A.length) :
    rd (A ++ x :: B) i = .ok x := by
  subst hi
  rw [rd_nat (by simp)]; simp

theorem wr_append {α : Type} (A B : List α) (x y : α) {i : Int} (hi : i = A.length) :
    wr (A ++ x :: B) i y = .ok (A ++ y :: B) := by
  subst hi
  rw [wr_ok ⟨by omega, by simp⟩]; simp

theorem blocks_length {α : Type} (k : Nat) (l : List α) : (blocks k l).length = l.length / k := by
  simp [blocks]

theorem foldN_one {β : Type} (f : Nat → β → Res β) (x : β) : foldN 1 f x = f 0 x := rfl

/-- The blocks and what follows them make up the list. -/
theorem blocks_flatten {α : Type} {k : Nat} (l : List α) :
    (blocks k l).flatten ++ afterBlocks k l = l := by
  have key : ∀ n, n ≤ l.length / k →
      ((List.range n).map fun i => (l.drop (k * i)).take k).flatten = l.take (k * n) := by
    intro n
    induction n with
    | zero => simp
    | succ n ih =>
      intro hn
      rw [List.range_succ, List.map_append, List.flatten_append, ih (by omega), Nat.mul_succ,
        List.take_add]
      simp
  rw [blocks, key _ le_rfl, afterBlocks, List.take_append_drop]

theorem block_len {α : Type} {k : Nat} {l B : List α} (h : B ∈ blocks k l) : B.length = k := by
  rw [blocks, List.mem_map] at h
  obtain ⟨i, hi, rfl⟩ := h
  rw [List.mem_range] at hi
  have h1 : k * (i + 1) ≤ l.length :=
    (Nat.mul_le_mul_left k hi).trans (Nat.mul_div_le _ _)
  rw [Nat.mul_succ] at h1
  rw [List.length_take, List.length_drop]; omega

theorem afterBlocks_len {α : Type} (k : Nat) (l : List α) :
    (afterBlocks k l).length = l.length % k := by
  rw [afterBlocks, List.length_drop]
  have := Nat.div_add_mod l.length k
  omega

theorem semiSum_eq {α : Type} {d : Dim} (b : Build) (fs : FScalar α) {g : α → α → α}
    (hg : ∀ x y, fs.add x y = .ok (g x y)) {a : Acc σ α} {s : σ} {l : List α}
    (h : Elems d a s l) (hne : l ≠ []) (hl : l.length < 2 ^ 63) (dflt : α) :
    Stable.semiSum b fs a s dflt =
      if l.length < 64 then .ok (l.reverse.foldl g fs.zero)
      else (do
        let r ← ((blocks 64 l).map fun B => B.foldl g fs.zero).foldlM
          (fun sc x => Stable.sumStep fs x sc) (fs.zero, fs.zero)
        let t ← fs.add r.1 r.2
        fs.add t ((afterBlocks 64 l).reverse.foldl g fs.zero)) := by
  have hne' : l.isEmpty = false := by simpa using hne
  have hI : IsIndex (l.length : Int) := by unfold IsIndex; omega
  unfold Stable.semiSum
  rw [Elems.empty h, hne', Elems.size h]
  simp only [Res.ok_bind, Bool.false_eq_true, if_false, Stable.blockSize]
  rw [idiv_ok b (by omega) hI (by omega), irem_ok b (by omega) hI (by omega), Res.ok_bind, Res.ok_bind]
  have e1 : ((l.length : Int) / 64).toNat = l.length / 64 := by omega
  have e2 : ((l.length : Int) % 64).toNat = l.length % 64 := by omega
  rw [e1, e2]
  -- the blocks
  set nb := l.length / 64 with hnb
  let blk : Nat → List α := fun i => (l.drop (64 * i)).take 64
  have hsb : foldN nb (fun i sb => foldN (64 : Int).toNat (fun j sb => do
        let k ← imul i 64
        let k ← iadd k j
        let x ← a.un s k
        let old ← rd sb i
        let new ← fs.add old x
        wr sb i new) sb) (List.replicate nb fs.zero) =
      .ok ((List.range nb).map (fun i => (blk i).foldl g fs.zero)) := by
    rw [foldN_ok (fun i => (List.range i).map (fun i => (blk i).foldl g fs.zero) ++
      List.replicate (nb - i) fs.zero) nb (by simp)]
    · simp
    · intro i hi
      have hi64 : 64 * i + 64 ≤ l.length := by omega
      have hbl : (blk i).length = 64 := by
        show ((l.drop (64 * i)).take 64).length = 64
        rw [List.length_take, List.length_drop]; omega
      have hrep : List.replicate (nb - i) fs.zero =
          fs.zero :: List.replicate (nb - (i + 1)) fs.zero := by
        rw [show nb - i = nb - (i + 1) + 1 by omega, List.replicate_succ]
      rw [hrep, foldN_ok (fun j => (List.range i).map (fun i => (blk i).foldl g fs.zero) ++
        ((blk i).take j).foldl g fs.zero :: List.replicate (nb - (i + 1)) fs.zero) _ (by simp)]
      · rw [List.range_succ, List.map_append]
        have : (blk i).take (64 : Int).toNat = blk i := List.take_of_length_le (by rw [hbl]; decide)
        rw [this]; simp
      · intro j hj
        have hj' : j < 64 := by simpa using hj
        rw [imul_ok (by unfold IsIndex; omega), Res.ok_bind, iadd_ok (by unfold IsIndex; omega),
          Res.ok_bind]
        have ek : (i : Int) * 64 + j = ((64 * i + j : Nat) : Int) := by push_cast; ring
        rw [ek, Elems.un h (by omega), Res.ok_bind, rd_append _ _ _ (by simp), Res.ok_bind, hg,
          Res.ok_bind, wr_append _ _ _ _ (by simp)]
        have hjb : j < (blk i).length := by omega
        have eb : (blk i)[j] = l[64 * i + j]'(by omega) := by
          show ((l.drop (64 * i)).take 64)[j]'_ = _
          rw [List.getElem_take, List.getElem_drop]
        rw [List.take_succ_eq_append_getElem hjb, List.foldl_append, eb]
        rfl
  rw [hsb, Res.ok_bind]
  -- the remaining elements
  have hrem : (afterBlocks 64 l).length = l.length % 64 := afterBlocks_len 64 l
  have hr : foldN (l.length % 64) (fun i r => do
        let k ← isub (l.length : Int) 1
        let k ← isub k i
        let x ← a.un s k
        fs.add r x) fs.zero = .ok ((afterBlocks 64 l).reverse.foldl g fs.zero) := by
    rw [foldN_ok (fun i => ((afterBlocks 64 l).reverse.take i).foldl g fs.zero) _ (by simp)]
    · rw [List.take_of_length_le]; simp [hrem]
    · intro i hi
      rw [isub_ok (by unfold IsIndex; omega), Res.ok_bind, isub_ok (by unfold IsIndex; omega),
        Res.ok_bind]
      have ek : (l.length : Int) - 1 - i = ((l.length - 1 - i : Nat) : Int) := by omega
      rw [ek, Elems.un h (by omega), Res.ok_bind, hg]
      have hi' : i < (afterBlocks 64 l).reverse.length := by rw [List.length_reverse, hrem]; exact hi
      rw [List.take_succ_eq_append_getElem hi', List.foldl_append, List.getElem_reverse]
      have : (afterBlocks 64 l)[(afterBlocks 64 l).length - 1 - i]'(by omega) =
          l[l.length - 1 - i]'(by omega) := by
        unfold afterBlocks
        rw [List.getElem_drop]
        congr 1
        rw [List.length_drop]; omega
      rw [this]; rfl
  rw [hr, Res.ok_bind]
  by_cases hlt : l.length < 64
  · have h0 : (l.length : Int) / 64 = 0 := by omega
    rw [if_pos h0, if_pos hlt]
    have : afterBlocks 64 l = l := by
      unfold afterBlocks
      rw [show l.length / 64 = 0 by omega]; simp
    rw [this]; rfl
  · have h0 : ¬ (l.length : Int) / 64 = 0 := by omega
    rw [if_neg h0, if_neg hlt]
    have hbs : (blocks 64 l).map (fun B => B.foldl g fs.zero) =
        (List.range nb).map (fun i => (blk i).foldl g fs.zero) := by
      rw [blocks, List.map_map]; rfl
    rw [hbs]
    rw [sumLoop_list fs (q := fun i => rd ((List.range nb).map
      (fun i => (blk i).foldl g fs.zero)) i) rfl (fun i hi => rd_nat hi)]
    simp only [bind_assoc]

theorem runningSum_foldl (rn : ℚ → ℚ) (a : ℚ) (l : List ℚ) :
    runningSum rn a l = l.foldl (fun x y => rn (x + y)) a := by
  induction l generalizing a with
  | nil => rfl
  | cons x l ih => exact ih _

theorem sum_reverse_abs (l : List ℚ) : (l.reverse.map abs).sum = (l.map abs).sum := by
  rw [List.map_reverse, List.sum_reverse]

/-- Sums of blocks of at most 64 elements. -/
theorem block_sums (h : Fl G u rn) (Bs : List (List ℚ)) (hB : ∀ B ∈ Bs, B.length ≤ 64)
    (hG : ∀ x ∈ Bs.flatten, G x) :
    |(Bs.map (runningSum rn 0)).sum - Bs.flatten.sum| ≤ ((1 + u) ^ 63 - 1) * (Bs.flatten.map abs).sum ∧
    ((Bs.map (runningSum rn 0)).map abs).sum ≤ (1 + u) ^ 63 * (Bs.flatten.map abs).sum := by
  induction Bs with
  | nil => simp
  | cons B Bs ih =>
    obtain ⟨i1, i2⟩ := ih (fun C hC => hB C (List.mem_cons_of_mem _ hC))
      (fun x hx => hG x (by rw [List.flatten_cons]; exact List.mem_append_right _ hx))
    have e := runningSum_zero_err h (l := B)
      (fun x hx => hG x (by rw [List.flatten_cons]; exact List.mem_append_left _ hx))
    have hl := hB B (List.mem_cons_self ..)
    have hm := growth_mono h.pos (show B.length - 1 ≤ 63 by omega)
    have hX := sum_abs_nonneg B
    have e' := e.trans (mul_le_mul_of_nonneg_right hm hX)
    have ea : |runningSum rn 0 B| ≤ (1 + u) ^ 63 * (B.map abs).sum := by
      have e1 : runningSum rn 0 B = B.sum + (runningSum rn 0 B - B.sum) := by ring
      have e2 : |runningSum rn 0 B| ≤ |B.sum| + |runningSum rn 0 B - B.sum| := by
        calc |runningSum rn 0 B| = |B.sum + (runningSum rn 0 B - B.sum)| := by rw [← e1]
          _ ≤ _ := abs_add_le _ _
      have e3 := abs_sum_le B
      linarith
    simp only [List.map_cons, List.sum_cons, List.flatten_cons, List.sum_append, List.map_append]
    constructor
    · have e1 : runningSum rn 0 B + (Bs.map (runningSum rn 0)).sum - (B.sum + Bs.flatten.sum) =
        (runningSum rn 0 B - B.sum) + ((Bs.map (runningSum rn 0)).sum - Bs.flatten.sum) := by ring
      rw [e1]
      refine (abs_add_le _ _).trans ?_
      linarith
    · linarith

theorem runningSum_block (h : Fl G u rn) {l : List ℚ} (hl : ∀ x ∈ l, G x) (hn : l.length ≤ 64) :
    |runningSum rn 0 l - l.sum| ≤ ((1 + u) ^ 63 - 1) * (l.map abs).sum :=
  (runningSum_zero_err h hl).trans (mul_le_mul_of_nonneg_right (growth_mono h.pos (by omega))
    (sum_abs_nonneg l))

/-- `semi_stable_sum` in floating-point arithmetic. -/
theorem semiSum_fl (h : Fl G u rn) {d : Dim} (b : Build) {a : Acc σ ℚ} {s : σ} {l : List ℚ}
    (he : Elems d a s l) (hne : l ≠ []) (hl : l.length < 2 ^ 63) (dflt : ℚ) :
    Stable.semiSum b (rounded rn pow sqrt) a s dflt = .ok
      (if l.length < 64 then runningSum rn 0 l.reverse
      else
        rn (rn (runningSum rn 0 ((blocks 64 l).map (runningSum rn 0)) +
            runningSum rn 0 (sumErrors rn 0 ((blocks 64 l).map (runningSum rn 0)))) +
          runningSum rn 0 (afterBlocks 64 l).reverse)) := by
  rw [semiSum_eq b (rounded rn pow sqrt) (g := fun x y => rn (x + y)) (fun _ _ => rfl) he hne hl]
  split
  · rw [runningSum_foldl]; rfl
  · have e : (blocks 64 l).map (fun B => B.foldl (fun x y => rn (x + y)) (rounded rn pow sqrt).zero) =
        (blocks 64 l).map (runningSum rn 0) := by
      refine List.map_congr_left fun B _ => ?_
      rw [runningSum_foldl]; rfl
    rw [e]
    have hb : ∀ x ∈ (blocks 64 l).map (runningSum rn 0), G x := by
      intro x hx
      rw [List.mem_map] at hx
      obtain ⟨B, -, rfl⟩ := hx
      exact runningSum_rep h h.zero B
    have hf := sumStep_fold (pow := pow) (sqrt := sqrt) h hb (a := 0) (c := 0) h.zero
    change List.foldlM _ ((rounded rn pow sqrt).zero, (rounded rn pow sqrt).zero) _ = _ at hf
    rw [hf, runningSum_foldl rn 0 (afterBlocks 64 l).reverse]
    rfl

theorem semi_err (h : Fl G u rn) {l : List ℚ} (hl : ∀ x ∈ l, G x) :
    |(if l.length < 64 then runningSum rn 0 l.reverse
      else
        rn (rn (runningSum rn 0 ((blocks 64 l).map (runningSum rn 0)) +
            runningSum rn 0 (sumErrors rn 0 ((blocks 64 l).map (runningSum rn 0)))) +
          runningSum rn 0 (afterBlocks 64 l).reverse)) - l.sum| ≤
      ((1 + u) ^ 65 * (1 + ((1 + u) ^ (l.length / 64 - 1) - 1) ^ 2) - 1) * (l.map abs).sum := by
  have hu := h.pos
  have hp : (0 : ℚ) ≤ (1 + u) ^ 63 := by positivity
  generalize hH : ((1 + u) ^ (l.length / 64 - 1) - 1) ^ 2 = H
  have hH0 : 0 ≤ H := by rw [← hH]; positivity
  have hbig : (1 + u) ^ 63 - 1 ≤ (1 + u) ^ 64 * (1 + H) - 1 := by
    have h1 : (1 + u) ^ 64 = (1 + u) ^ 63 * (1 + u) := by rw [← pow_succ]
    have h2 : (1 + u) ^ 63 ≤ (1 + u) ^ 64 := by rw [h1]; nlinarith
    have h3 : 0 ≤ (1 + u) ^ 64 * H := by positivity
    linarith
  have hX := sum_abs_nonneg l
  split
  next hlt =>
    have e := runningSum_block h (l := l.reverse) (fun x hx => hl x (List.mem_reverse.1 hx))
      (by rw [List.length_reverse]; omega)
    rw [List.sum_reverse, sum_reverse_abs] at e
    refine e.trans (mul_le_mul_of_nonneg_right (hbig.trans ?_) hX)
    have h1 : (1 + u) ^ 65 = (1 + u) ^ 64 * (1 + u) := by rw [← pow_succ]
    have h2 : 0 ≤ (1 + u) ^ 64 * (1 + H) := by positivity
    rw [h1]
    nlinarith
  next hge =>
    have hfl := blocks_flatten (k := 64) l
    have hGb : ∀ x ∈ (blocks 64 l).flatten, G x := fun x hx => hl x (by
      rw [← hfl]; exact List.mem_append_left _ hx)
    have hGr : ∀ x ∈ (afterBlocks 64 l).reverse, G x := fun x hx => hl x (by
      rw [← hfl]; exact List.mem_append_right _ (List.mem_reverse.1 hx))
    obtain ⟨b1, b2⟩ := block_sums h (blocks 64 l) (fun B hB => (block_len hB).le) hGb
    have hb : ∀ x ∈ (blocks 64 l).map (runningSum rn 0), G x := by
      intro x hx
      rw [List.mem_map] at hx
      obtain ⟨B, -, rfl⟩ := hx
      exact runningSum_rep h h.zero B
    have c := compensated_err h hb
    have hr := runningSum_block h hGr (by
      rw [List.length_reverse, afterBlocks_len]; omega)
    rw [List.sum_reverse, sum_reverse_abs] at hr
    rw [List.length_map, blocks_length, mul_assoc, hH] at c
    have hs : l.sum = (blocks 64 l).flatten.sum + (afterBlocks 64 l).sum := by
      rw [← List.sum_append, hfl]
    have hsa : (l.map abs).sum =
        ((blocks 64 l).flatten.map abs).sum + ((afterBlocks 64 l).map abs).sum := by
      rw [← List.sum_append, ← List.map_append, hfl]
    have hXb := sum_abs_nonneg (blocks 64 l).flatten
    have hXr := sum_abs_nonneg (afterBlocks 64 l)
    have hab := abs_sum_le ((blocks 64 l).map (runningSum rn 0))
    generalize (blocks 64 l).map (runningSum rn 0) = bs at *
    generalize ((blocks 64 l).flatten.map abs).sum = Xb at *
    generalize ((afterBlocks 64 l).map abs).sum = Xr at *
    have hD : |rn (runningSum rn 0 bs + runningSum rn 0 (sumErrors rn 0 bs)) +
        runningSum rn 0 (afterBlocks 64 l).reverse - l.sum| ≤
        ((1 + u) ^ 64 * (1 + H) - 1) * (l.map abs).sum := by
      generalize rn (runningSum rn 0 bs + runningSum rn 0 (sumErrors rn 0 bs)) = t at *
      generalize runningSum rn 0 (afterBlocks 64 l).reverse = r at *
      have e1 : t + r - l.sum = (t - bs.sum) + (bs.sum - (blocks 64 l).flatten.sum) +
          (r - (afterBlocks 64 l).sum) := by rw [hs]; ring
      rw [e1]
      have t1 := abs_add_le ((t - bs.sum) + (bs.sum - (blocks 64 l).flatten.sum))
        (r - (afterBlocks 64 l).sum)
      have t2 := abs_add_le (t - bs.sum) (bs.sum - (blocks 64 l).flatten.sum)
      have t3 : |t - bs.sum| ≤ (u + (1 + u) * H) * ((1 + u) ^ 63 * Xb) := by
        have q1 : u * |bs.sum| ≤ u * ((1 + u) ^ 63 * Xb) :=
          mul_le_mul_of_nonneg_left (hab.trans b2) hu.le
        have q2 : (1 + u) * (H * (bs.map abs).sum) ≤ (1 + u) * (H * ((1 + u) ^ 63 * Xb)) :=
          mul_le_mul_of_nonneg_left (mul_le_mul_of_nonneg_left b2 hH0) (by linarith)
        have q3 : (u + (1 + u) * H) * ((1 + u) ^ 63 * Xb) =
            u * ((1 + u) ^ 63 * Xb) + (1 + u) * (H * ((1 + u) ^ 63 * Xb)) := by ring
        rw [q3]
        exact c.trans (add_le_add q1 q2)
      have t4 : ((1 + u) ^ 63 - 1) * Xr ≤ ((1 + u) ^ 64 * (1 + H) - 1) * Xr :=
        mul_le_mul_of_nonneg_right hbig hXr
      have t5 : (u + (1 + u) * H) * ((1 + u) ^ 63 * Xb) + ((1 + u) ^ 63 - 1) * Xb =
          ((1 + u) ^ 64 * (1 + H) - 1) * Xb := by
        rw [show (1 + u) ^ 64 = (1 + u) ^ 63 * (1 + u) by rw [← pow_succ]]
        generalize (1 + u) ^ 63 = Q
        ring
      rw [hsa]
      generalize ((1 + u) ^ 64 * (1 + H) - 1) = Q1 at *
      generalize (u + (1 + u) * H) * ((1 + u) ^ 63 * Xb) = Q2 at *
      generalize ((1 + u) ^ 63 - 1) = Q3 at *
      linarith
    have f := final_add_err h (h.good _) (runningSum_rep h h.zero _) hD
    refine f.trans ?_
    have f1 : u * |l.sum| ≤ u * (l.map abs).sum := mul_le_mul_of_nonneg_left (abs_sum_le l) hu.le
    have f2 : u * (l.map abs).sum + (1 + u) * (((1 + u) ^ 64 * (1 + H) - 1) * (l.map abs).sum) =
        ((1 + u) ^ 65 * (1 + H) - 1) * (l.map abs).sum := by
      rw [show (1 + u) ^ 65 = (1 + u) ^ 64 * (1 + u) by rw [← pow_succ]]
      generalize (1 + u) ^ 64 = Q
      ring
    rw [← f2]
    exact add_le_add f1 le_rfl

theorem semiSum_exact {K : Type} [Field K] [LinearOrder K] [IsStrictOrderedRing K]
    {powK : K → K → K} {sqrtK : K → K} {d : Dim} (b : Build) {a : Acc σ K} {s : σ} {l : List K}
    (he : Elems d a s l) (hne : l ≠ []) (hl : l.length < 2 ^ 63) (dflt : K) :
    Stable.semiSum b (exactF K powK sqrtK) a s dflt = .ok l.sum := by
  have hz : (exactF K powK sqrtK).zero = 0 := rfl
  have hs : ∀ l : List K, l.foldl (fun x y => x + y) 0 = l.sum := fun l => by
    rw [← List.sum_eq_foldl]
  rw [semiSum_eq b (exactF K powK sqrtK) (g := fun x y => x + y) (fun _ _ => rfl) he hne hl, hz,
    sumStep_fold_exact, hs, hs, List.sum_reverse, List.sum_reverse]
  split
  · rfl
  · show (Res.ok (0 + ((blocks 64 l).map fun B => B.foldl (fun x y => x + y) 0).sum + 0 +
      (afterBlocks 64 l).sum) : Res K) = _
    have e : ((blocks 64 l).map fun B => B.foldl (fun x y => x + y) 0).sum =
        (blocks 64 l).flatten.sum := by
      rw [List.sum_flatten]
      congr 1
      exact List.map_congr_left fun B _ => hs B
    rw [e, zero_add, add_zero, ← List.sum_append, blocks_flatten]

/-! ### Compensated products -/

def errsG {α : Type} (g e : α → α → α) (acc : α) : List α → List α
  | [] => []
  | x :: l => e acc x :: errsG g e (g acc x) l

def offG {α : Type} (g : α → α → α) (w : α) : List (α × α) → List α
  | [] => []
  | q :: l => g w q.1 :: offG g (g w q.2) l

theorem errsG_append {α : Type} (g e : α → α → α) (acc : α) (l : List α) (x : α) :
    errsG g e acc (l ++ [x]) = errsG g e acc l ++ [e (l.foldl g acc) x] := by
  induction l generalizing acc with
  | nil => rfl
  | cons y l ih => simp [errsG, ih]

theorem errsG_length {α : Type} (g e : α → α → α) (acc : α) (l : List α) :
    (errsG g e acc l).length = l.length := by
  induction l generalizing acc with
  | nil => rfl
  | cons y l ih => simp [errsG, ih]

/-- The loop of `stable_sum` on the closure of `stable_prod`. -/
theorem sumLoop_off {α : Type} (fs : FScalar α) (g : α → α → α) {qs : List (α × α)} {n : Nat}
    {next : Nat → α → Res (α × α)} (hn : n = qs.length)
    (hq : ∀ i (h : i < qs.length) w, next i w = .ok (g w qs[i].1, g w qs[i].2)) (w : α) :
    Stable.sumLoop fs n next w = (do
      let r ← (offG g w qs).foldlM (fun sc x => Stable.sumStep fs x sc) (fs.zero, fs.zero)
      fs.add r.1 r.2) := by
  unfold Stable.sumLoop
  subst hn
  have e : foldN qs.length (fun i (r : (α × α) × α) => do
        let x ← next i r.2
        let sc ← Stable.sumStep fs x.1 r.1
        pure (sc, x.2)) ((fs.zero, fs.zero), w) =
      qs.foldlM (fun (r : (α × α) × α) q => do
        let sc ← Stable.sumStep fs (g r.2 q.1) r.1
        pure (sc, g r.2 q.2)) ((fs.zero, fs.zero), w) := by
    rw [← foldN_list (p := fun i => match qs[i]? with | some q => .ok q | none => .ub)
      (fun i h => by simp [h])]
    refine foldN_congr _ fun i r hi => ?_
    rw [hq i hi, List.getElem?_eq_getElem hi]; rfl
  rw [e]
  have key : ∀ (l : List (α × α)) (a : α × α) (w : α) (k : α × α → Res α),
      (do
        let r ← l.foldlM (fun (r : (α × α) × α) q => do
          let sc ← Stable.sumStep fs (g r.2 q.1) r.1
          pure (sc, g r.2 q.2)) (a, w)
        k r.1) = (do
        let r ← (offG g w l).foldlM (fun sc x => Stable.sumStep fs x sc) a
        k r) := by
    intro l
    induction l with
    | nil => intro a w k; rfl
    | cons q l ih =>
      intro a w k
      rw [List.foldlM_cons, offG, List.foldlM_cons]
      show (((Stable.sumStep fs (g w q.1) a >>= fun sc => pure (sc, g w q.2)) >>= _) >>= _) = _
      cases hx : Stable.sumStep fs (g w q.1) a with
      | ok v => exact ih v (g w q.2) k
      | trap k => rfl
      | ub => rfl
  exact key qs (fs.zero, fs.zero) w (fun r => fs.add r.1 r.2)

theorem stableProd_eq {α : Type} {d : Dim} (fs : FScalar α) {g e : α → α → α}
    (hg : ∀ x y, fs.mul x y = .ok (g x y)) (he : ∀ x y, fs.twoProds x y = .ok (g x y, e x y))
    {a : Acc σ α} {s : σ} {x : α} {l : List α} (h : Elems d a s (x :: l))
    (hl : l.length + 1 < 2 ^ 63) (dflt : α) :
    Stable.prod fs a s dflt = (do
      let t ← (if l = [] then .ok fs.zero else (do
        let r ← (offG g fs.one (List.zip (errsG g e x l).reverse l.reverse)).foldlM
          (fun sc x => Stable.sumStep fs x sc) (fs.zero, fs.zero)
        fs.add r.1 r.2))
      fs.add (l.foldl g x) t) := by
  have u0 : a.un s 0 = .ok x := Elems.un (i := 0) h (by simp)
  unfold Stable.prod
  rw [Elems.empty h, Elems.size h]
  simp only [Res.ok_bind, List.isEmpty_cons, Bool.false_eq_true, if_false]
  have el : ((List.length (x :: l) : Nat) : Int) = l.length + 1 := by simp
  have em : ((List.length (x :: l) : Nat) : Int) - 1 = l.length := by omega
  rw [isub_ok (by rw [em]; unfold IsIndex; omega), Res.ok_bind, em, u0, Res.ok_bind, Int.toNat_natCast]
  rw [foldN_ok (fun k => ((l.take k).foldl g x, errsG g e x (l.take k) ++
    List.replicate (l.length - k) fs.zero)) l.length (by simp [errsG])]
  · rw [List.take_length, Nat.sub_self, List.replicate_zero, List.append_nil, Res.ok_bind]
    congr 1
    by_cases hl0 : l = []
    · subst hl0; simp
    · have hl1 : (l.length : Int) ≠ 0 := by
        have := List.length_pos_iff.2 hl0
        omega
      rw [if_neg hl1, if_neg hl0]
      refine sumLoop_off fs g ?_ ?_ _
      · simp [errsG_length]
      · intro i hi w
        have hi' : i < l.length := by simpa [errsG_length] using hi
        rw [isub_ok (by unfold IsIndex; omega), Res.ok_bind, isub_ok (by unfold IsIndex; omega),
          Res.ok_bind, show (l.length : Int) - 1 - i = ((l.length - 1 - i : Nat) : Int) by omega,
          rd_nat (by rw [errsG_length]; omega), Res.ok_bind, hg, Res.ok_bind, Res.ok_bind,
          isub_ok (by unfold IsIndex; omega), Res.ok_bind,
          show (l.length : Int) - i = ((l.length - i : Nat) : Int) by omega,
          Elems.un h (by simp), Res.ok_bind, hg, Res.ok_bind]
        rw [List.getElem_zip, List.getElem_reverse, List.getElem_reverse]
        have e1 : (x :: l)[l.length - i]'(by simp) = l[l.length - 1 - i]'(by omega) := by
          rw [List.getElem_cons]
          rw [dif_neg (by omega)]
          congr 1; omega
        rw [e1]
        simp only [errsG_length]
        rfl
  · intro k hk
    have uk : a.un s ((k : Int) + 1) = .ok l[k] := by
      have := Elems.un (i := k + 1) h (by simp; omega)
      rw [List.getElem_cons_succ] at this
      rw [← this]; norm_cast
    have hrep : List.replicate (l.length - k) fs.zero =
        fs.zero :: List.replicate (l.length - (k + 1)) fs.zero := by
      rw [show l.length - k = l.length - (k + 1) + 1 by omega, List.replicate_succ]
    simp only [uk, Res.ok_bind, he, hg]
    rw [hrep, wr_append _ _ _ _ (by rw [errsG_length, List.length_take]; omega), Res.ok_bind,
      List.take_succ_eq_append_getElem hk, List.foldl_append, errsG_append]
    simp

end Spp.Lemmas
