import Verif.Model.RandomPrint
import Verif.Spec.RandomPrint
import Verif.Props.RandomExpr
import Verif.Props.Table

/-
C126: printing random expressions.
-/

set_option linter.unusedSectionVars false

namespace Spp.Props

open Spp.Spec Spp.IO Spp.RandExpr Spp.FVal

variable {α G : Type}

theorem loop_succ {β : Type} (n : Nat) (f : Nat → β → Res (Option β)) (x : β) :
    loop (n + 1) f x = next (loop n f x) (f n) := rfl

theorem next_bind {β γ δ : Type} (r : Res β) (k : β → Res (Option γ)) (h : γ → Res (Option δ)) :
    next (r >>= k) h = r >>= fun x => next (k x) h := by
  rcases r with _ | _ | _ <;> rfl

/-- A loop that writes a label, draws a number and writes it, written with `accesses`. -/
theorem loop_text {access : G → Res (Option (α × G))} {lab : Nat → Res (List Char)} {tail : Nat → α → List Char} (n : Nat)
    {g g' : G} {xs : List α} (h : accesses access n g = .ok (some (xs, g'))) (out : List Char) :
    loop n (fun i x => lab i >>= fun l => next (access x.2) fun r => .ok (some (x.1 ++ l ++ tail i r.1, r.2))) (out, g) =
      (foldN n (fun i o => lab i >>= fun l => rd xs i >>= fun x => .ok (o ++ l ++ tail i x)) out >>=
        fun t => .ok (some (t, g'))) := by
  induction n generalizing xs g' with
  | zero => cases h; rfl
  | succ n ih =>
    rw [accesses] at h
    generalize e : accesses access n g = z at h
    rcases z with (_ | y) | _ | _
    · cases h
    · rw [next_some] at h
      generalize e2 : access y.2 = z at h
      rcases z with (_ | r) | _ | _
      · cases h
      · cases h
        have hl := accesses_length n e
        rw [loop_succ, ih e, foldN_succ]
        have hc : foldN n (fun i o => lab i >>= fun l => rd (y.1 ++ [r.1]) i >>= fun x => .ok (o ++ l ++ tail i x)) out =
            foldN n (fun i o => lab i >>= fun l => rd y.1 i >>= fun x => .ok (o ++ l ++ tail i x)) out := by
          refine foldN_congr n fun i o hi => ?_
          rw [rd_nat (l := y.1) (by omega), rd_nat (l := y.1 ++ [r.1]) (by simp; omega), List.getElem_append_left (by omega)]
        have hlast : rd (y.1 ++ [r.1]) (n : Int) = .ok r.1 := by
          rw [rd_nat (by simp; omega), List.getElem_append_right (by omega)]
          simp [hl]
        simp only [hc, hlast, next_bind, next_some, bind_assoc, e2]
        congr 1
      · cases h
      · cases h
    · cases h
    · cases h

/-- If no number is given, the loop ends in the same way, provided the labels are fine. -/
theorem loop_text_none {access : G → Res (Option (α × G))} {lab : Nat → Res (List Char)} {tail : Nat → α → List Char}
    (n : Nat) (hlab : ∀ i, i < n → ∃ l, lab i = .ok l) (g : G) (out : List Char) :
    loop n (fun i x => lab i >>= fun l => next (access x.2) fun r => .ok (some (x.1 ++ l ++ tail i r.1, r.2))) (out, g) =
      next (accesses access n g) fun x =>
        (foldN n (fun i o => lab i >>= fun l => rd x.1 i >>= fun x => .ok (o ++ l ++ tail i x)) out >>=
        fun t => .ok (some (t, x.2))) := by
  generalize e : accesses access n g = z
  have key : ∀ k, k ≤ n → (∀ w, accesses access k g ≠ .ok (some w)) →
      loop k (fun i x => lab i >>= fun l => next (access x.2) fun r => .ok (some (x.1 ++ l ++ tail i r.1, r.2))) (out, g) =
        next (accesses access k g) fun _ => .ub := by
    intro k
    induction k with
    | zero => intro _ h; exact absurd rfl (h _)
    | succ k ih =>
      intro hk h
      rw [loop_succ, accesses]
      by_cases hs : ∃ w, accesses access k g = .ok (some w)
      · obtain ⟨⟨xs, g1⟩, hs⟩ := hs
        rw [loop_text k hs, hs, next_some]
        have hl := accesses_length k hs
        obtain ⟨t, ht⟩ : ∃ t, foldN k (fun i o => lab i >>= fun l => rd xs i >>= fun x => Res.ok (o ++ l ++ tail i x)) out = .ok t := by
          obtain ⟨t, ht, -⟩ := foldN_inv (init := out)
            (f := fun i o => lab i >>= fun l => rd xs i >>= fun x => Res.ok (o ++ l ++ tail i x)) (fun _ _ => True) k trivial
            (fun i o hi _ => by
              obtain ⟨l, hl'⟩ := hlab i (by omega)
              rw [hl', rd_nat (by simp at hl; omega)]
              exact ⟨_, rfl, trivial⟩)
          exact ⟨t, ht⟩
        obtain ⟨l, hl'⟩ := hlab k (by omega)
        rw [ht, Res.ok_bind, next_some, hl', Res.ok_bind, next_assoc]
        rw [accesses, hs, next_some] at h
        generalize access g1 = z at h ⊢
        rcases z with (_ | r) | _ | _
        · rfl
        · exact absurd rfl (h _)
        · rfl
        · rfl
      · rw [ih (by omega) (fun w hw => hs ⟨w, hw⟩)]
        generalize accesses access k g = z at hs
        rcases z with (_ | w) | _ | _
        · rfl
        · exact absurd ⟨w, rfl⟩ hs
        · rfl
        · rfl
  rcases z with (_ | x) | _ | _
  · rw [key n (Nat.le_refl _) (by rw [e]; intro w hw; cases hw), e]; rfl
  · rw [loop_text n e, next_some]
  · rw [key n (Nat.le_refl _) (by rw [e]; intro w hw; cases hw), e]; rfl
  · rw [key n (Nat.le_refl _) (by rw [e]; intro w hw; cases hw), e]; rfl

theorem construct1_accesses [Inhabited α] (b : Build) (access : G → Res (Option (α × G))) (n : Nat) (g : G) :
    construct1 b access n g = accesses access n g := by
  rw [construct1, Arr1.make_ok b (by omega), Res.ok_bind, Int.toNat_natCast, copyFrom_eq _ _ _ _ _ (by simp)]
  rcases accesses access n g with (_ | x) | _ | _ <;> simp [next]

/-- **C126** Printing a one-dimensional random expression prints what an array made from it would show: every number is
drawn once, in the order of the elements, and the next number drawn afterwards is the one that would follow. -/
theorem C126_text [Inhabited α] (b : Build) (f : Format) (digit : Int → Int) (sh : α → List Char) (name : List Char)
    (access : G → Res (Option (α × G))) (n : Nat) {g g' : G} {A : List α} (h : construct1 b access n g = .ok (some (A, g'))) :
    printRand1 f digit sh name n access g = (print1 f digit sh name n (rd A) >>= fun t => .ok (some (t, g'))) := by
  rw [construct1_accesses] at h
  have hl := accesses_length n h
  unfold printRand1 print1
  cases hr : f.rowStyle
  · simp only [Bool.not_false, if_true]
    rw [loop_text (tail := fun i x => sh x ++ ['\n']) n h]
    congr 1
    refine foldN_congr n fun i o hi => ?_
    rw [rd_nat (by simp at hl; omega)]
    simp only [Res.ok_bind, Res.pure_eq, List.append_assoc]
  · simp only [Bool.not_true, Bool.false_eq_true, if_false]
    rw [loop_text (tail := fun i x => sh x ++ (if i + 1 == n then [] else [' ', ' '])) n h, next_bind, bind_assoc]
    congr 1
    refine foldN_congr n fun i o hi => ?_
    rw [rd_nat (by simp at hl; omega)]
    simp only [Res.ok_bind, Res.pure_eq, List.append_assoc]

/-- A loop over rows of such loops. -/
theorem loop_rows {access : G → Res (Option (α × G))} {lab : Nat → Nat → Res (List Char)} {tail : Nat → α → List Char}
    (m n : Nat) {g g' : G} {xs : List α} (h : accesses access (m * n) g = .ok (some (xs, g'))) (out : List Char) :
    loop m (fun i x => next (loop n (fun j x => lab i j >>= fun l =>
        next (access x.2) fun r => .ok (some (x.1 ++ l ++ tail j r.1, r.2))) x)
        fun x => .ok (some (x.1 ++ ['\n'], x.2))) (out, g) =
      (foldN m (fun i o => foldN n (fun j o => lab i j >>= fun l => rd xs ((i * n + j : Nat) : Int) >>= fun x =>
        .ok (o ++ l ++ tail j x)) o >>= fun o => .ok (o ++ ['\n'])) out >>= fun t => .ok (some (t, g'))) := by
  induction m generalizing xs g' with
  | zero =>
    rw [Nat.zero_mul] at h
    cases h; rfl
  | succ m ih =>
    rw [Nat.succ_mul, accesses_add] at h
    generalize e : accesses access (m * n) g = z at h
    rcases z with (_ | y) | _ | _
    · cases h
    · rw [next_some] at h
      generalize e2 : accesses access n y.2 = z at h
      rcases z with (_ | r) | _ | _
      · cases h
      · cases h
        have hl := accesses_length _ e
        have hl2 := accesses_length _ e2
        rw [loop_succ, ih e, foldN_succ]
        have hc : foldN m (fun i o => foldN n (fun j o => lab i j >>= fun l =>
              rd (y.1 ++ r.1) ((i * n + j : Nat) : Int) >>= fun x => .ok (o ++ l ++ tail j x)) o >>=
              fun o => .ok (o ++ ['\n'])) out =
            foldN m (fun i o => foldN n (fun j o => lab i j >>= fun l =>
              rd y.1 ((i * n + j : Nat) : Int) >>= fun x => .ok (o ++ l ++ tail j x)) o >>=
              fun o => .ok (o ++ ['\n'])) out := by
          refine foldN_congr m fun i o hi => ?_
          congr 1
          refine foldN_congr n fun j o hj => ?_
          have hij : i * n + j < m * n := by nlinarith
          rw [rd_nat (l := y.1) (by omega), rd_nat (l := y.1 ++ r.1) (by simp; omega), List.getElem_append_left (by omega)]
        have hlast : ∀ o, foldN n (fun j o => lab m j >>= fun l =>
              rd (y.1 ++ r.1) ((m * n + j : Nat) : Int) >>= fun x => .ok (o ++ l ++ tail j x)) o =
            foldN n (fun j o => lab m j >>= fun l => rd r.1 j >>= fun x => .ok (o ++ l ++ tail j x)) o := by
          intro o
          refine foldN_congr n fun j o hj => ?_
          rw [rd_nat (l := r.1) (by omega), rd_nat (l := y.1 ++ r.1) (by simp; omega), List.getElem_append_right (by omega)]
          simp [hl]
        have hrow : ∀ o, loop n (fun j x => lab m j >>= fun l =>
              next (access x.2) fun r => .ok (some (x.1 ++ l ++ tail j r.1, r.2))) (o, y.2) = _ :=
          fun o => loop_text (lab := lab m) (tail := tail) n e2 o
        simp only [hc, hlast, next_bind, next_some, bind_assoc, hrow, Res.ok_bind]
      · cases h
      · cases h
    · cases h
    · cases h

theorem rd2_data (m n : Nat) (xs : List α) (i j : Nat) : Arr2.rd2 ⟨m, n, xs⟩ i j = rd xs ((i * n + j : Nat) : Int) := by
  unfold Arr2.rd2
  push_cast
  rfl

theorem construct2_accesses [Inhabited α] (b : Build) {access : G → Res (Option (α × G))} {m n : Nat}
    (hz : m = 0 ↔ n = 0) (hs : (m : Int) * n < 2 ^ 63) {g g' : G} {A : Arr2 α}
    (h : construct2 b access m n g = .ok (some (A, g'))) :
    ∃ xs, accesses access (m * n) g = .ok (some (xs, g')) ∧ A = ⟨m, n, xs⟩ := by
  rw [construct2_eq b _ hz hs] at h
  generalize accesses access (m * n) g = z at h
  rcases z with (_ | y) | _ | _
  · cases h
  · cases h; exact ⟨_, rfl, rfl⟩
  · cases h
  · cases h

/-- **C126** The same for two-dimensional random expressions, row by row; but the field width does not come from the
numbers. -/
theorem C126_text_2D [Inhabited α] (b : Build) (f : Format) (digit : Int → Int) (sh : α → List Char) (width : Res Int)
    (name : List Char) (access : G → Res (Option (α × G))) {m n : Nat} (hz : m = 0 ↔ n = 0) (hs : (m : Int) * n < 2 ^ 63)
    {g g' : G} {A : Arr2 α} (h : construct2 b access m n g = .ok (some (A, g'))) :
    printRand2 f digit sh width name m n access g =
      (print2 f digit sh width name A >>= fun t => .ok (some (t, g'))) := by
  obtain ⟨xs, hx, rfl⟩ := construct2_accesses b hz hs h
  have hl := accesses_length _ hx
  have h0 : (len xs == 0) = (m * n == 0) := by
    rw [Bool.eq_iff_iff]; simp only [len, beq_iff_eq]; simp only at hl; omega
  unfold printRand2 print2
  simp only [Int.toNat_natCast, h0, bind_assoc]
  congr 1
  funext w
  rw [loop_rows (lab := fun i j => if f.detailed then do
          let sp ← smartSpaces digit m i
          pure (['['] ++ digits i ++ [',', ' '] ++ digits j ++ "] =".toList ++ sp)
        else pure []) (tail := fun j x => pad w (sh x) ++ (if (j : Int) + 1 = n then [] else [' ', ' '])) m n hx]
  congr 1
  refine foldN_congr m fun i o hi => ?_
  congr 1
  refine foldN_congr n fun j o hj => ?_
  simp only [rd2_data, Res.pure_eq, List.append_assoc]

/-- The labels of printed elements, if digits are counted correctly. -/
theorem label_ok {digit : Int → Int} {m : Nat} (hd : ∀ k : Nat, k ≤ m → digit k = digitCount k) (d : Bool) {i : Nat}
    (hi : i < m) (pre : List Char) : ∃ l, (if d then do
        let sp ← smartSpaces digit m i
        pure (pre ++ sp)
      else pure [] : Res (List Char)) = .ok l := by
  cases d
  · exact ⟨_, rfl⟩
  · rw [if_pos rfl, smartSpaces_exact hd (Nat.le_of_lt hi)]
    exact ⟨_, rfl⟩

/-- **C126** Printing a one-dimensional random expression returns if and only if making an array from it does; and if a draw
is undefined, so is printing. -/
theorem C126_outcome [Inhabited α] (b : Build) (f : Format) {digit : Int → Int} (sh : α → List Char) (name : List Char)
    (access : G → Res (Option (α × G))) (n : Nat) (g : G) (hd : ∀ k : Nat, k ≤ n → digit k = digitCount k) :
    printRand1 f digit sh name n access g =
      next (construct1 b access n g) fun x => print1 f digit sh name n (rd x.1) >>= fun t => .ok (some (t, x.2)) := by
  have hs : ∀ x, construct1 b access n g = .ok (some x) → printRand1 f digit sh name n access g =
      (print1 f digit sh name n (rd x.1) >>= fun t => .ok (some (t, x.2))) :=
    fun x hx => C126_text b f digit sh name access n (g' := x.2) (A := x.1) hx
  have hn : (∀ x, construct1 b access n g ≠ .ok (some x)) →
      printRand1 f digit sh name n access g = next (construct1 b access n g) fun _ => .ub := by
    rw [construct1_accesses]
    intro h
    unfold printRand1
    cases hr : f.rowStyle
    · simp only [Bool.not_false, if_true]
      rw [loop_text_none (tail := fun i x => sh x ++ ['\n']) n (fun i hi => label_ok hd _ hi _)]
      generalize accesses access n g = z at h ⊢
      rcases z with (_ | w) | _ | _
      · rfl
      · exact absurd rfl (h w)
      · rfl
      · rfl
    · simp only [Bool.not_true, Bool.false_eq_true, if_false]
      rw [loop_text_none (lab := fun i => pure (if f.detailed then ['['] ++ digits i ++ "] = ".toList else []))
        (tail := fun i x => sh x ++ (if i + 1 == n then [] else [' ', ' '])) n (fun i _ => ⟨_, rfl⟩)]
      generalize accesses access n g = z at h ⊢
      rcases z with (_ | w) | _ | _
      · rfl
      · exact absurd rfl (h w)
      · rfl
      · rfl
  generalize construct1 b access n g = z at hs hn ⊢
  rcases z with (_ | x) | _ | _
  · rw [hn (fun x hx => by cases hx)]; rfl
  · rw [hs x rfl]; rfl
  · rw [hn (fun x hx => by cases hx)]; rfl
  · rw [hn (fun x hx => by cases hx)]; rfl

theorem loop_rows_none {access : G → Res (Option (α × G))} {lab : Nat → Nat → Res (List Char)} {tail : Nat → α → List Char}
    (m n : Nat) (hlab : ∀ i j, i < m → j < n → ∃ l, lab i j = .ok l) {g : G} (out : List Char)
    (h : ∀ x, accesses access (m * n) g ≠ .ok (some x)) :
    loop m (fun i x => next (loop n (fun j x => lab i j >>= fun l =>
        next (access x.2) fun r => .ok (some (x.1 ++ l ++ tail j r.1, r.2))) x)
        fun x => .ok (some (x.1 ++ ['\n'], x.2))) (out, g) =
      next (accesses access (m * n) g) fun _ => .ub := by
  induction m with
  | zero => rw [Nat.zero_mul] at h; exact absurd rfl (h _)
  | succ m ih =>
    rw [Nat.succ_mul, accesses_add] at h ⊢
    by_cases hs : ∃ w, accesses access (m * n) g = .ok (some w)
    · obtain ⟨⟨xs, g1⟩, hs⟩ := hs
      have hl := accesses_length _ hs
      rw [loop_succ, loop_rows m n hs, hs, next_some]
      rw [hs, next_some] at h
      obtain ⟨t, ht, -⟩ := foldN_inv (init := out)
        (f := fun i o => foldN n (fun j o => lab i j >>= fun l => rd xs ((i * n + j : Nat) : Int) >>= fun x =>
          Res.ok (o ++ l ++ tail j x)) o >>= fun o => .ok (o ++ ['\n'])) (fun _ _ => True) m trivial
        (fun i o hi _ => by
          obtain ⟨u, hu, -⟩ := foldN_inv (init := o)
            (f := fun j o => lab i j >>= fun l => rd xs ((i * n + j : Nat) : Int) >>= fun x =>
              Res.ok (o ++ l ++ tail j x)) (fun _ _ => True) n trivial
            (fun j o hj _ => by
              obtain ⟨l, hl'⟩ := hlab i j (by omega) hj
              have hij : i * n + j < m * n := by nlinarith
              rw [hl', rd_nat (by simp only at hl; omega)]
              exact ⟨_, rfl, trivial⟩)
          exact ⟨u ++ ['\n'], by rw [hu]; rfl, trivial⟩)
      rw [ht, Res.ok_bind, next_some,
        loop_text_none (lab := lab m) (tail := tail) n (fun j hj => hlab m j (by omega) hj)]
      generalize accesses access n g1 = z at h ⊢
      rcases z with (_ | r) | _ | _
      · rfl
      · exact absurd rfl (h _)
      · rfl
      · rfl
    · rw [loop_succ, ih (fun i j hi hj => hlab i j (by omega) hj) (fun w hw => hs ⟨w, hw⟩)]
      generalize accesses access (m * n) g = z at hs
      rcases z with (_ | w) | _ | _
      · rfl
      · exact absurd ⟨w, rfl⟩ hs
      · rfl
      · rfl

/-- **C126** The same for two-dimensional random expressions; the width is found before the first number is drawn. -/
theorem C126_outcome_2D [Inhabited α] (b : Build) (f : Format) {digit : Int → Int} (sh : α → List Char) (w : Int)
    (name : List Char) (access : G → Res (Option (α × G))) {m n : Nat} (hz : m = 0 ↔ n = 0) (hs : (m : Int) * n < 2 ^ 63)
    (g : G) (hd : ∀ k : Nat, k ≤ m → digit k = digitCount k) :
    printRand2 f digit sh .ub name m n access g = .ub ∧
    printRand2 f digit sh (.ok w) name m n access g =
      next (construct2 b access m n g) fun x => print2 f digit sh (.ok w) name x.1 >>= fun t => .ok (some (t, x.2)) := by
  refine ⟨rfl, ?_⟩
  by_cases h : ∃ x, construct2 b access m n g = .ok (some x)
  · obtain ⟨x, hx⟩ := h
    rw [C126_text_2D b f digit sh (.ok w) name access hz hs (g' := x.2) (A := x.1) hx, hx, next_some]
  · have h' : ∀ x, accesses access (m * n) g ≠ .ok (some x) := by
      intro x hx
      exact h ⟨_, by rw [construct2_eq b _ hz hs, hx, next_some]⟩
    rw [construct2_eq b _ hz hs]
    unfold printRand2
    simp only [Res.ok_bind]
    rw [loop_rows_none (lab := fun i j => if f.detailed then do
          let sp ← smartSpaces digit m i
          pure (['['] ++ digits i ++ [',', ' '] ++ digits j ++ "] =".toList ++ sp)
        else pure []) (tail := fun j x => pad w (sh x) ++ (if (j : Int) + 1 = n then [] else [' ', ' '])) m n
        (fun i j hi _ => label_ok hd _ hi _) _ h']
    generalize accesses access (m * n) g = z at h' ⊢
    rcases z with (_ | r) | _ | _
    · rfl
    · exact absurd rfl (h' _)
    · rfl
    · rfl

/-! ### Field widths -/

/-- **C126** The fields of a random expression of integers are as wide as the larger bound requires - unless one of the
bounds is the most negative number of the type: then printing is undefined, whatever the numbers drawn. -/
theorem C126_width {t : IntTy} (digit : Int → Int) {low high : Int} (hl : Fits t low) (hh : Fits t high) :
    (¬ (t.signed = true ∧ (low = t.lo ∨ high = t.lo)) →
      randIntWidth t digit low high = .ok (digit (max low.natAbs high.natAbs : Nat) + (if t.signed then 2 else 1))) ∧
    (t.signed = true → low = t.lo ∨ high = t.lo → randIntWidth t digit low high = .ub) := by
  constructor
  · intro h
    have hm : maxs (low.natAbs : Int) (high.natAbs : Int) = ((max low.natAbs high.natAbs : Nat) : Int) := by
      unfold maxs; split <;> omega
    rw [randIntWidth, abss_ok hl (fun hx => h ⟨hx.1, .inl hx.2⟩), Res.ok_bind, abss_ok hh (fun hx => h ⟨hx.1, .inr hx.2⟩),
      Res.ok_bind]
    simp only [hm]
    cases t.signed <;> rfl
  · intro hs h
    rw [randIntWidth]
    by_cases hx : low = t.lo
    · rw [hx, abss_min hs]; rfl
    · rw [abss_ok hl (fun h => hx h.2), Res.ok_bind, h.resolve_left hx, abss_min hs]; rfl

/-- **C126** All fields have the same length, for all numbers between the bounds. -/
theorem C126_aligned {t : IntTy} {digit : Int → Int} {low high : Int} (hl : Fits t low) (hh : Fits t high)
    (hlo : ¬ (t.signed = true ∧ (low = t.lo ∨ high = t.lo)))
    (hd : (digitCount (max low.natAbs high.natAbs) : Int) ≤ digit (max low.natAbs high.natAbs : Nat)) :
    ∃ w : Int, randIntWidth t digit low high = .ok w ∧ ∀ x, low ≤ x → x ≤ high →
      (written t x).length < w.toNat ∧ (rightAligned w.toNat (written t x)).length = w.toNat := by
  refine ⟨_, (C126_width digit hl hh).1 hlo, ?_⟩
  intro x h1 h2
  have hle : x.natAbs ≤ max low.natAbs high.natAbs := by omega
  have hc := digitCount_mono hle
  have hlen : (written t x).length = digitCount x.natAbs + (if t.signed then 1 else 0) := by
    unfold written digitCount
    cases t.signed
    · simp
    · by_cases h : x < 0 <;> simp [h]
  have h1 : (written t x).length <
      (digit (max low.natAbs high.natAbs : Nat) + (if t.signed then 2 else 1)).toNat := by
    rw [hlen]
    generalize digit (max low.natAbs high.natAbs : Nat) = k at hd ⊢
    cases t.signed <;> simp only [Bool.false_eq_true, if_false, if_true] <;> omega
  refine ⟨h1, ?_⟩
  unfold rightAligned
  simp only [List.length_append, List.length_replicate]
  omega

theorem randFloatWidth_eq (lg : ℚ → ℚ) (sci : Bool) (P : Int) {s u : Bool} {x y : ℚ} (hx : 0 ≤ x) (hy : 0 ≤ y) :
    randFloatWidth lg sci P (fin s x) (fin u y) = floatWidth lg sci P [fin s x, fin u y] := by
  obtain ⟨s', e1, h1⟩ := absVal_fin (s := s) hx
  obtain ⟨u', e2, h2⟩ := absVal_fin (s := u) hy
  have hv : ∀ {t : Bool} {m : ℚ}, 0 ≤ m → (0 < m → t = false) → (fin t m).val = m := by
    intro t m h h'
    cases t
    · rfl
    · have : m = 0 := by
        rcases h.lt_or_eq with h | h
        · exact absurd (h' h) (by simp)
        · exact h.symm
      simp [val, this]
  have hc : ∀ t t' : Bool, countDigitV lg (fin t 0) = countDigitV lg (fin t' 0) := by
    intro t t'
    have key : ∀ t : Bool, countDigitV lg (fin t 0) = .ok 1 := by
      intro t
      unfold countDigitV
      cases t <;> simp [FVal.eq, val]
    rw [key, key]
  have l1 : lt (fin u' y) (fin s' x) = decide (y < x) := by
    show decide ((fin u' y).val < (fin s' x).val) = _
    rw [hv hx h1, hv hy h2]
  have l2 : lt (fin s' x) (fin u' y) = decide (x < y) := by
    show decide ((fin s' x).val < (fin u' y).val) = _
    rw [hv hx h1, hv hy h2]
  unfold randFloatWidth floatWidth maxAbsV
  simp only [List.foldl_cons, List.foldl_nil, e1, e2, l1, l2]
  rcases lt_trichotomy x y with h | rfl | h
  · simp [h, not_lt.2 h.le]
  · simp only [lt_irrefl, decide_false, Bool.false_eq_true, if_false]
    rcases hx.lt_or_eq with h | h
    · rw [h1 h, h2 h]
    · subst h
      rw [hc u' s']
  · simp [h, not_lt.2 h.le]

/-- **C126** The fields of a random expression of floating-point numbers have no width in scientific notation; in fixed
notation with `P` digits after the point it comes from the larger bound. -/
theorem C126_float_width (lg : ℚ → ℚ) {low high : FVal} {M : ℚ} (hM : Largest [low, high] M) {P : Nat}
    (hP : P + 4 < 2 ^ 30) (hl : |lg M| < 2 ^ 30) :
    randFloatWidth lg true P low high = .ok 0 ∧
    (M = 0 → randFloatWidth lg false P low high = .ok (P + 3)) ∧
    (M ≠ 0 → randFloatWidth lg false P low high = .ok ((if 0 ≤ lg M then ⌊lg M⌋ else ⌈lg M⌉) + P + 3)) := by
  obtain ⟨s, x, rfl, hx, -⟩ := hM.1 low (by simp)
  obtain ⟨u, y, rfl, hy, -⟩ := hM.1 high (by simp)
  rw [randFloatWidth_eq lg _ _ hx hy, randFloatWidth_eq lg _ _ hx hy]
  exact C125_width lg hM hP hl

/-- **C126** If the larger bound is not rounded to more digits, all fields have the same length, for all numbers between
the bounds. -/
theorem C126_float_aligned (lg : ℚ → ℚ) {s u : Bool} {x y : ℚ} (hx : 0 ≤ x) (hy : 0 ≤ y) {P : Nat} (hP : P + 4 < 2 ^ 30)
    (hl : |lg (max x y)| < 2 ^ 30) (hlg : ∀ k : Nat, 10 ^ k ≤ max x y → k ≤ lg (max x y)) {c : Nat}
    (hc : DigitsBefore (max x y) c) (hr : max x y + 1 / 10 ^ P / 2 < 10 ^ c) :
    ∃ w, randFloatWidth lg false P (fin s x) (fin u y) = .ok w ∧
      ∀ z, InBounds (if s then -x else x) (if u then -y else y) z →
        (rightAligned w.toNat (showVal false P z)).length = max w.toNat (P + 2 + c) := by
  have hb : Largest [fin s x, fin u y] (max x y) := by
    refine ⟨fun z hz => ?_, Or.inr ?_⟩
    · simp only [List.mem_cons, List.not_mem_nil, or_false] at hz
      rcases hz with rfl | rfl
      · exact ⟨_, _, rfl, hx, le_max_left _ _⟩
      · exact ⟨_, _, rfl, hy, le_max_right _ _⟩
    · rcases le_total x y with h | h
      · exact ⟨u, by rw [max_eq_right h]; simp⟩
      · exact ⟨s, by rw [max_eq_left h]; simp⟩
  have key : ∀ z, InBounds (if s then -x else x) (if u then -y else y) z →
      Largest [fin s x, fin u y, z] (max x y) := by
    rintro z ⟨r, m, rfl, hm, h1, h2⟩
    refine ⟨fun v hv => ?_, ?_⟩
    · rw [List.mem_cons, List.mem_cons, List.mem_singleton] at hv
      rcases hv with rfl | rfl | rfl
      · exact ⟨_, _, rfl, hx, le_max_left _ _⟩
      · exact ⟨_, _, rfl, hy, le_max_right _ _⟩
      · refine ⟨_, _, rfl, hm, ?_⟩
        have a1 : -x ≤ (if s then -x else x) := by cases s <;> simp <;> linarith
        have a2 : (if u then -y else y) ≤ y := by cases u <;> simp <;> linarith
        cases r
        · simp only [Bool.false_eq_true, if_false] at h1 h2
          exact le_trans (by linarith) (le_max_right _ _)
        · simp only [if_true] at h1 h2
          exact le_trans (by linarith) (le_max_left _ _)
    · rcases hb.2 with ⟨h, -⟩ | ⟨v, hv⟩
      · cases h
      · refine Or.inr ⟨v, ?_⟩
        simp only [List.mem_cons, List.not_mem_nil, or_false] at hv ⊢
        rcases hv with h | h
        · exact .inl h
        · exact .inr (.inl h)
  obtain ⟨-, w0, w1⟩ := C126_float_width lg hb hP hl
  obtain ⟨w, hw⟩ : ∃ w, randFloatWidth lg false P (fin s x) (fin u y) = .ok w := by
    by_cases h : max x y = 0
    · exact ⟨_, w0 h⟩
    · exact ⟨_, w1 h⟩
  refine ⟨w, hw, fun z hz => ?_⟩
  obtain ⟨w', h1, -, h2⟩ := C125_aligned lg (key z hz) hP hl hlg hc hr
  obtain ⟨-, v0, v1⟩ := C125_width lg (key z hz) hP hl
  have hww : w' = w := by
    by_cases h : max x y = 0
    · rw [w0 h] at hw; rw [v0 h] at h1; cases hw; cases h1; rfl
    · rw [w1 h] at hw; rw [v1 h] at h1; cases hw; cases h1; rfl
  rw [← hww]
  exact h2 _ (by simp [fields])

/-! ### Generators -/

/-- A list of `m * n` elements, cut into `m` rows. -/
theorem rows_of [Inhabited α] {m n : Nat} (hz : m = 0 ↔ n = 0) {vs : List α} (hv : vs.length = m * n) :
    ∃ L : List (List α), L.length = m ∧ (∀ r ∈ L, r.length = n) ∧ L.flatten = vs ∧ IsMat ⟨m, n, vs⟩ (Mat.ofLists L) := by
  have hlen : ∀ i, i < m → ((vs.drop (i * n)).take n).length = n := by
    intro i hi
    have : (i + 1) * n ≤ m * n := Nat.mul_le_mul_right _ hi
    rw [Nat.succ_mul] at this
    simp only [List.length_take, List.length_drop]; omega
  have hfl : ∀ k, k ≤ m → ((List.range k).map fun i => (vs.drop (i * n)).take n).flatten = vs.take (k * n) := by
    intro k
    induction k with
    | zero => intro _; simp
    | succ k ih =>
      intro hk
      rw [List.range_succ, List.map_append, List.flatten_append, ih (by omega), Nat.succ_mul, List.take_add]
      simp
  refine ⟨(List.range m).map fun i => (vs.drop (i * n)).take n, by simp, ?_, ?_, ?_⟩
  · intro r hr
    obtain ⟨i, hi, rfl⟩ := List.mem_map.1 hr
    exact hlen i (List.mem_range.1 hi)
  · rw [hfl m (Nat.le_refl _), ← hv, List.take_length]
  · have hn : (Mat.ofLists ((List.range m).map fun i => (vs.drop (i * n)).take n)).n = n := by
      cases m with
      | zero => simp [Mat.ofLists, hz.1 rfl]
      | succ m =>
        have := hlen 0 (by omega)
        simpa [Mat.ofLists, List.range_succ_eq_map] using this
    have hm : (Mat.ofLists ((List.range m).map fun i => (vs.drop (i * n)).take n)).m = m := by simp [Mat.ofLists]
    refine ⟨by rw [hm], by rw [hn], by rw [hm, hn]; exact hv, by rw [hm, hn]; exact hz, ?_⟩
    intro i j hi hj
    rw [hm] at hi; rw [hn] at hj
    rw [hn]
    have hij : i * n + j < vs.length := by rw [hv]; nlinarith
    show vs[i * n + j]? = _
    rw [List.getElem?_eq_getElem hij]
    simp [Mat.ofLists, hi, hj, hij]

/-- **C126** Printing `semi_random<T>(m, n, low, high, seed)`: the table shows the first `m * n` numbers after the seed
`seed + n`, row by row, all between `low` and `high`; and all fields have the same length. -/
theorem C126_semi (b : Build) (rs : Bool) {t : IntTy} {low high : Int} (h : GoodRange t low high)
    (hlo : ¬ (t.signed = true ∧ (low = t.lo ∨ high = t.lo))) {digit : Int → Int}
    (hd : (digitCount (max low.natAbs high.natAbs) : Int) ≤ digit (max low.natAbs high.natAbs : Nat))
    (clock seed : Int) (name : List Char) {m n : Nat} (hz : m = 0 ↔ n = 0) (hs : (m : Int) * n < 2 ^ 63) :
    ∃ (L : List (List Int)) (w : Nat) (p' : Int), L.length = m ∧
      (∀ r ∈ L, r.length = n ∧ ∀ x ∈ r, low ≤ x ∧ x ≤ high ∧ (rightAligned w (written t x)).length = w) ∧
      (do let p ← Semi.seeded clock (seed + n); Semi.draws (Semi.randomInt b t low high) (m * n) p) = .ok (L.flatten, p') ∧
      (do let p ← semi2 b clock low high m n seed
          printRand2 ⟨false, rs⟩ digit (showInt t) (randIntWidth t digit low high) name m n
            (RandExpr.plain (Semi.randomInt b t low high)) p) =
        .ok (some (title name ++ column (L.map fun r => row (r.map fun x => rightAligned w (written t x))), p')) := by
  obtain ⟨vs, p', h1, h2, h3, h4⟩ := C103_semi_2D b h clock seed hz hs
  obtain ⟨L, l1, l2, l3, l4⟩ := rows_of hz h3
  obtain ⟨w, w1, w2⟩ := C126_aligned h.lo h.hi hlo hd
  refine ⟨L, w.toNat, p', l1, fun r hr => ⟨l2 r hr, fun x hx => ?_⟩, by rw [l3]; exact h1, ?_⟩
  · have hx' : x ∈ vs := by rw [← l3]; exact List.mem_flatten.2 ⟨r, hr, hx⟩
    obtain ⟨a, c⟩ := h4 x hx'
    exact ⟨a, c, (w2 x a c).2⟩
  · rw [semi2_ok b h _ _ hz, Semi.seeded_ok, Res.ok_bind] at h2 ⊢
    rw [C126_text_2D b _ digit (showInt t) _ name _ hz hs h2, w1, C75_table rs digit (showInt t) w name l2 l4, Res.ok_bind]
    rw [show (showInt t) = written t from funext (showInt_eq t)]

/-- **C126** Printed twice, a random expression shows different numbers: the second time those that follow. -/
theorem C126_twice (f : Format) (digit : Int → Int) (sh : α → List Char) (name : List Char) [Inhabited α]
    {draw : G → Res (α × G)} {d : G → α × G} (h : ∀ g, draw g = .ok (d g)) (n : Nat) (g : G) :
    (next (printRand1 f digit sh name n (RandExpr.plain draw) g) fun x =>
      next (printRand1 f digit sh name n (RandExpr.plain draw) x.2) fun y => .ok (some (x.1 ++ y.1, y.2))) =
    (print1 f digit sh name n (rd (firstValues d g n)) >>= fun u =>
      print1 f digit sh name n (rd ((firstValues d g (2 * n)).drop n)) >>= fun v =>
        .ok (some (u ++ v, stateAt d g (2 * n)))) := by
  have e := firstValues_add d g n n
  have hl : (firstValues d g n).length = n := by simp [firstValues]
  rw [← Nat.two_mul] at e
  rw [C126_text ⟨true, true, true⟩ f digit sh name _ n (C103_construct _ h n g), next_bind]
  congr 1
  funext u
  rw [next_some, C126_text ⟨true, true, true⟩ f digit sh name _ n (C103_construct _ h n (stateAt d g n)), next_bind,
    e.1, e.2, List.drop_left' hl]
  rfl

/-! ## Examples -/

section

/-- A generator that counts, and stops at 100. -/
def counter (g : Nat) : Res (Option (Int × Nat)) := if g < 100 then .ok (some ((g : Int), g + 1)) else .ok none

example : construct1 ⟨false, true, false⟩ counter (3 : Nat) 5 = .ok (some ([5, 6, 7], 8)) ∧
    printRand1 ⟨false, true⟩ (fun n => digitCount n.toNat) (showInt .int) ['A'] 3 counter 5 =
      .ok (some ("A:\n+5  +6  +7\n".toList, 8)) := by
  refine ⟨by rfl, ?_⟩
  rw [C126_text ⟨false, true, false⟩ _ _ _ _ counter 3 (A := [5, 6, 7]) (g' := 8) rfl]
  decide +kernel

-- the generator stops before the second row is complete
example : construct2 ⟨false, true, false⟩ counter (2 : Nat) (2 : Nat) 97 = .ok none ∧
    printRand2 ⟨true, true⟩ (fun n => digitCount n.toNat) (showInt .int) (.ok 5) [] 2 2 counter 97 = .ok none := by
  have h : construct2 ⟨false, true, false⟩ counter (2 : Nat) (2 : Nat) 97 = .ok none := by rfl
  refine ⟨h, ?_⟩
  rw [(C126_outcome_2D ⟨false, true, false⟩ _ _ 5 [] counter (by omega) (by norm_num) 97 (fun k _ => by simp)).2, h]
  rfl

-- numbers between -9 and 120
example : GoodRange .int (-9) 120 ∧ ¬ (IntTy.int.signed = true ∧ ((-9 : Int) = IntTy.int.lo ∨ (120 : Int) = IntTy.int.lo)) ∧
    ((digitCount (max (-9 : Int).natAbs (120 : Int).natAbs) : Int) ≤
      digitCount ((max (-9 : Int).natAbs (120 : Int).natAbs : Nat) : Int).toNat) ∧
    randIntWidth .int (fun n => digitCount n.toNat) (-9) 120 = .ok 5 :=
  ⟨⟨by decide, fits_int (by decide) (by decide), fits_int (by decide) (by decide), fits_int (by decide) (by decide),
    fits_int (by decide) (by decide)⟩, by decide, by decide +kernel, by decide +kernel⟩

-- bounds that cannot be printed
example (digit : Int → Int) : randIntWidth .int digit (-(2 ^ 31)) 5 = .ub :=
  (C126_width digit (fits_int (by decide) (by decide)) (fits_int (by decide) (by decide))).2 rfl (.inl rfl)

-- numbers between -25/2 and 3, two digits after the point
example : ∃ w, randFloatWidth floorLog false (2 : Nat) (fin true (25 / 2)) (fin false 3) = .ok w ∧
    ∀ z, InBounds (-(25 / 2)) 3 z → (rightAligned w.toNat (showVal false 2 z)).length = max w.toNat 6 := by
  have hm : max (25 / 2 : ℚ) 3 = 25 / 2 := by norm_num
  have hlog : Int.log 10 (25 / 2 : ℚ) = 1 := by
    have a := (Int.zpow_le_iff_le_log (b := 10) (r := (25 / 2 : ℚ)) (x := 1) (by norm_num) (by norm_num)).1 (by norm_num)
    have b := (Int.lt_zpow_iff_log_lt (b := 10) (r := (25 / 2 : ℚ)) (x := 2) (by norm_num) (by norm_num)).1 (by norm_num)
    omega
  exact C126_float_aligned floorLog (s := true) (u := false) (x := 25 / 2) (y := 3) (by norm_num) (by norm_num) (P := 2)
    (by omega) (by rw [hm, floorLog, hlog]; norm_num) (fun k h => floorLog_ok k h) (c := 2)
    (by rw [hm]; exact ⟨by omega, by norm_num, Or.inr (by norm_num)⟩) (by rw [hm]; norm_num)

example : InBounds (-(25 / 2)) 3 (fin true (1 / 4)) := ⟨true, 1 / 4, rfl, by norm_num, by norm_num, by norm_num⟩

-- two prints of one expression
example : ∀ g : Int, (fun g : Int => (.ok (g, g + 1) : Res (Int × Int))) g = .ok ((fun g => (g, g + 1)) g) := fun _ => rfl

end

end Spp.Props
