import Verif.Lemmas.View

/- Expression objects have the meaning `Tm.meaning`. -/

set_option linter.unusedSectionVars false

namespace Spp
open Spec Props

section
variable {σ β γ : Type}

/-! ### Combinators -/

theorem den_deref {d : Dim} {a : Acc σ β} {s : σ} {x : Sem β d} (f : σ → β → Res γ)
    (h : Den d a s x) : Den d (a.deref f) s (x.map (f s)) := by
  cases d with
  | one =>
    change List (Res β) at x
    refine ⟨?_, ?_, ?_⟩
    · show a.rows s = ((List.map (fun x => x >>= f s) x).length : Int)
      rw [List.length_map]; exact h.1
    · show a.size s = .ok ((List.map (fun x => x >>= f s) x).length : Int)
      rw [List.length_map]; exact h.2.1
    · intro i hi
      have hi' : i < x.length := by simpa [Sem.map] using hi
      show (a.un s i >>= fun l => f s l) = (List.map (fun x => x >>= f s) x).getD i .ub
      rw [h.2.2 i hi', getD_map_lt hi', getD_lt hi']
  | two =>
    change Mat (Res β) at x
    refine ⟨h.1, h.2.1, h.2.2.1, ?_⟩
    intro i j hi hj
    obtain ⟨u, v⟩ := h.2.2.2 i j hi hj
    constructor
    · show (a.un2 s i j >>= fun l => f s l) = (x.el i j >>= f s)
      rw [u]
    · show (a.un s ((i * x.n + j : Nat) : Int) >>= fun l => f s l) = (x.el i j >>= f s)
      rw [v]

theorem den_unary {d : Dim} {a : Acc σ β} {s : σ} {x : Sem β d} (f : β → Res β)
    (h : Den d a s x) : Den d (a.unary f) s (x.map f) := den_deref (fun _ => f) h

theorem getD_zipWith {δ ε ζ : Type} {f : δ → ε → ζ} {l1 : List δ} {l2 : List ε} {i : Nat} {d : ζ}
    (h1 : i < l1.length) (h2 : i < l2.length) :
    (List.zipWith f l1 l2).getD i d = f l1[i] l2[i] := by
  rw [getD_lt (by simp; omega)]; simp

theorem den_binary {d : Dim} {a1 a2 : Acc σ β} {s : σ} {x y : Sem β d} (f : β → β → Res β)
    (h1 : Den d a1 s x) (h2 : Den d a2 s y) (hd : x.dims = y.dims) :
    Den d (Acc.binary f a1 a2) s (Sem.zip f x y) := by
  cases d with
  | one =>
    change List (Res β) at x y
    have hl : x.length = y.length := congrArg Prod.fst hd
    have hz : (List.zipWith (fun x y : Res β => do let u ← x; let v ← y; f u v) x y).length
        = x.length := by simp; omega
    refine ⟨?_, ?_, ?_⟩
    · show a1.rows s = ((List.zipWith _ x y).length : Int)
      rw [hz]; exact h1.1
    · show a1.size s = .ok ((List.zipWith _ x y).length : Int)
      rw [hz]; exact h1.2.1
    · intro i hi
      have hi' : i < x.length := by rw [← hz]; exact hi
      have hj' : i < y.length := by omega
      show (do let u ← a1.un s i; let v ← a2.un s i; f u v) = (List.zipWith _ x y).getD i .ub
      rw [h1.2.2 i hi', h2.2.2 i hj', getD_zipWith hi' hj', getD_lt hi', getD_lt hj']
  | two =>
    change Mat (Res β) at x y
    have hm : x.m = y.m := congrArg Prod.fst hd
    have hn : x.n = y.n := congrArg Prod.snd hd
    refine ⟨h1.1, h1.2.1, h1.2.2.1, ?_⟩
    intro i j hi hj
    obtain ⟨u, v⟩ := h1.2.2.2 i j hi hj
    obtain ⟨u', v'⟩ := h2.2.2.2 i j (by rw [← hm]; exact hi) (by rw [← hn]; exact hj)
    constructor
    · show (do let u ← a1.un2 s i j; let v ← a2.un2 s i j; f u v) = _
      rw [u, u']; rfl
    · show (do let u ← a1.un s ((i * x.n + j : Nat) : Int)
               let v ← a2.un s ((i * x.n + j : Nat) : Int)
               f u v) = _
      rw [v]
      rw [hn, v']; rfl

theorem den_gen1 {n : Int} {op : σ → Int → Res β} {s : σ} {l : List (Res β)}
    (hn : n = l.length) (hs : n < 2 ^ 63) (h : ∀ i : Nat, i < l.length → op s i = l.getD i .ub) :
    Den .one (Acc.gen1 n op) s l := by
  refine ⟨hn, by rw [← hn]; rfl, ?_⟩
  intro i hi
  show (do let p ← imul 1 i; let i ← iadd 0 p; op s i) = _
  rw [imul_ok (by unfold IsIndex; omega), Res.ok_bind, iadd_ok (by unfold IsIndex; omega),
    Res.ok_bind, ← h i hi]
  congr 1; omega

theorem den_gen2 (b : Build) {m n : Int} {op : σ → Int → Res β} {s : σ} {M : Mat (Res β)}
    (hm : m = M.m) (hn : n = M.n) (hs : ((M.m * M.n : Nat) : Int) < 2 ^ 63)
    (h : ∀ i j : Nat, i < M.m → j < M.n → op s ((i * M.n + j : Nat) : Int) = M.el i j) :
    Den .two (Acc.gen2 b m n op) s M := by
  refine den_twoD b hm hn hs ?_
  intro i j hi hj
  show (Elem2.off n i j >>= fun o => op s o) = _
  rw [hn, off_nat hi hj hs, Res.ok_bind, h i j hi hj]

theorem mergeOp_ok {a1 a2 : Acc σ β} {s : σ} {l1 l2 : List (Res β)} (h1 : Den .one a1 s l1)
    (h2 : Den .one a2 s l2) (hs : ((l1.length + l2.length : Nat) : Int) < 2 ^ 63)
    (i : Nat) (hi : i < (l1 ++ l2).length) : Acc.mergeOp a1 a2 s i = (l1 ++ l2).getD i .ub := by
  have hi' : i < l1.length + l2.length := by simpa using hi
  rw [getD_lt hi]
  have e1 := h1.1
  unfold Acc.mergeOp
  rw [e1]
  by_cases h : i < l1.length
  · rw [if_pos (by omega), h1.2.2 i h, List.getElem_append_left h, getD_lt h]
  · rw [if_neg (by omega), isub_ok (by unfold IsIndex; omega), Res.ok_bind,
      List.getElem_append_right (by omega), ← getD_lt (d := Res.ub)]
    rw [← h2.2.2 (i - l1.length) (by omega)]
    congr 1; omega

theorem appendOp_ok {a : Acc σ β} {s : σ} {l : List (Res β)} {x : β} (h : Den .one a s l)
    (i : Nat) (hi : i < (l ++ [Res.ok x]).length) :
    a.appendOp x s i = (l ++ [Res.ok x]).getD i .ub := by
  have hi' : i < l.length + 1 := by simpa using hi
  rw [getD_lt hi]
  have e1 := h.1
  unfold Acc.appendOp
  rw [e1]
  by_cases hlt : i < l.length
  · rw [if_neg (by omega), h.2.2 i hlt, List.getElem_append_left hlt, getD_lt hlt]
  · have : i = l.length := by omega
    subst this
    rw [if_pos rfl]; simp

theorem prependOp_ok {a : Acc σ β} {s : σ} {l : List (Res β)} {x : β} (h : Den .one a s l)
    (hs : ((l.length + 1 : Nat) : Int) < 2 ^ 63)
    (i : Nat) (hi : i < (Res.ok x :: l).length) :
    Acc.prependOp x a s i = (Res.ok x :: l).getD i .ub := by
  have hi' : i < l.length + 1 := by simpa using hi
  unfold Acc.prependOp
  cases i with
  | zero => rw [if_pos (by omega)]; simp
  | succ k =>
    rw [if_neg (by omega), isub_ok (by unfold IsIndex; omega), Res.ok_bind]
    have := h.2.2 k (by omega)
    simp only [List.getD_cons_succ]
    rw [← this]
    congr 1; omega

theorem removed_length {δ : Type} {l : List δ} {p c : Nat} (h : p + c ≤ l.length) :
    (removed l p c).length = l.length - c := by
  simp [removed]; omega

theorem removed_getD {δ : Type} {l : List δ} {p c i : Nat} {d : δ} (h : p + c ≤ l.length)
    (hi : i < l.length - c) :
    (removed l p c).getD i d = l.getD (if i < p then i else i + c) d := by
  unfold removed
  rw [getD_lt (by simp; omega)]
  split
  · rename_i hlt
    rw [List.getElem_append_left (by simp; omega), getD_lt (by omega)]; simp
  · rename_i hge
    rw [List.getElem_append_right (by simp; omega), getD_lt (by omega)]
    simp only [List.getElem_drop, List.length_take]
    congr 1; omega

theorem excludeOp_ok {a : Acc σ β} {s : σ} {l : List (Res β)} {p c : Nat} (h : Den .one a s l)
    (hpc : p + c ≤ l.length) (hs : (l.length : Int) < 2 ^ 63)
    (i : Nat) (hi : i < (removed l p c).length) :
    a.excludeOp p c s i = (removed l p c).getD i .ub := by
  rw [removed_length hpc] at hi
  rw [removed_getD hpc hi]
  unfold Acc.excludeOp
  by_cases hlt : i < p
  · rw [if_pos (by omega), if_pos hlt, h.2.2 i (by omega)]
  · rw [if_neg (by omega), if_neg hlt, iadd_ok (by unfold IsIndex; omega), Res.ok_bind,
      ← h.2.2 (i + c) (by omega)]
    congr 1

theorem horizontalOp_ok (b : Build) {a1 a2 : Acc σ β} {s : σ} {M N : Mat (Res β)}
    (h1 : Den .two a1 s M) (h2 : Den .two a2 s N)
    (hz1 : M.m = 0 ↔ M.n = 0) (hz2 : N.m = 0 ↔ N.n = 0)
    (hmn : M.m = 0 ∨ N.m = 0 ∨ M.m = N.m)
    (hs : (((M.beside N).m * (M.beside N).n : Nat) : Int) < 2 ^ 63)
    (i j : Nat) (hi : i < (M.beside N).m) (hj : j < (M.beside N).n) :
    Acc.horizontalOp b a1 a2 s ((i * (M.beside N).n + j : Nat) : Int) = (M.beside N).el i j := by
  have hlt := flat_lt hi hj
  simp only [Mat.beside] at hi hj hs hlt ⊢
  have e1 := h1.2.1
  have e2 := h2.2.1
  have hw : M.n + N.n ≤ (if M.m = 0 then N.m else M.m) * (M.n + N.n) :=
    Nat.le_mul_of_pos_left _ (by omega)
  have hI : IsIndex (((i * (M.n + N.n) + j : Nat) : Int)) := by unfold IsIndex; omega
  have w1 : iadd (M.n : Int) (N.n : Int) = .ok ((M.n + N.n : Nat) : Int) := by
    rw [iadd_ok (by unfold IsIndex; omega)]; push_cast; rfl
  have w2 : idiv b ((i * (M.n + N.n) + j : Nat) : Int) ((M.n + N.n : Nat) : Int) = .ok (i : Int) := by
    rw [idiv_ok b (by omega) hI (by omega), ← Int.natCast_ediv, flat_div hj]
  have w3 : irem b ((i * (M.n + N.n) + j : Nat) : Int) ((M.n + N.n : Nat) : Int) = .ok (j : Int) := by
    rw [irem_ok b (by omega) hI (by omega), ← Int.natCast_emod, flat_mod hj]
  have w4 : isub (j : Int) (M.n : Int) = .ok ((j : Int) - M.n) := isub_ok (by unfold IsIndex; omega)
  simp only [Acc.horizontalOp, e1, e2, w1, w2, w3, w4, Res.ok_bind]
  by_cases hc : j < M.n
  · rw [if_pos (by omega), if_pos hc]
    have hi' : i < M.m := by
      split at hi
      · rename_i h0; have := hz1.1 h0; omega
      · exact hi
    have hl1 := flat_lt hi' hc
    have hle : i * M.n ≤ i * (M.n + N.n) := Nat.mul_le_mul_left i (by omega)
    rw [imul_ok (by rw [← Int.natCast_mul]; unfold IsIndex; omega), Res.ok_bind,
      iadd_ok (by rw [← Int.natCast_mul]; unfold IsIndex; omega), Res.ok_bind]
    have := (h1.2.2.2 i j hi' hc).2
    push_cast at this
    exact this
  · rw [if_neg (by omega), if_neg hc]
    have hi' : i < N.m := by
      split at hi
      · exact hi
      · rename_i h0
        rcases hmn with h | h | h
        · exact absurd h h0
        · have := hz2.1 h; omega
        · omega
    have hj' : j - M.n < N.n := by omega
    have hl1 := flat_lt hi' hj'
    have hle : i * N.n ≤ i * (M.n + N.n) := Nat.mul_le_mul_left i (by omega)
    rw [imul_ok (by rw [← Int.natCast_mul]; unfold IsIndex; omega), Res.ok_bind,
      iadd_ok (by rw [← Int.natCast_mul]; unfold IsIndex; omega), Res.ok_bind]
    have := (h2.2.2.2 i (j - M.n) hi' hj').2
    rw [← this]
    congr 1
    rw [Int.natCast_add, Int.natCast_mul, Int.natCast_sub (by omega)]

theorem verticalOp_ok {a1 a2 : Acc σ β} {s : σ} {M N : Mat (Res β)}
    (h1 : Den .two a1 s M) (h2 : Den .two a2 s N)
    (hz1 : M.m = 0 ↔ M.n = 0) (hz2 : N.m = 0 ↔ N.n = 0)
    (hmn : M.n = 0 ∨ N.n = 0 ∨ M.n = N.n)
    (hs : (((M.above N).m * (M.above N).n : Nat) : Int) < 2 ^ 63)
    (i j : Nat) (hi : i < (M.above N).m) (hj : j < (M.above N).n) :
    Acc.verticalOp a1 a2 s ((i * (M.above N).n + j : Nat) : Int) = (M.above N).el i j := by
  have hlt := flat_lt hi hj
  simp only [Mat.above] at hi hj hs hlt ⊢
  simp only [Acc.verticalOp, h1.2.2.1, Res.ok_bind]
  by_cases hc : i < M.m
  · have hn0 : M.n ≠ 0 := fun e => by have := hz1.2 e; omega
    rw [if_neg hn0] at hj ⊢
    have hl := flat_lt hc hj
    rw [if_pos (by omega), if_pos hc]
    exact (h1.2.2.2 i j hc hj).2
  · have hi' : i - M.m < N.m := by omega
    have hN0 : N.n ≠ 0 := fun e => by have := hz2.2 e; omega
    have hw : (if M.n = 0 then N.n else M.n) = N.n := by
      split
      · rfl
      · rename_i h0
        rcases hmn with h | h | h
        · exact absurd h h0
        · exact absurd h hN0
        · exact h
    rw [hw] at hj hs hlt ⊢
    have hmm : M.m * M.n = M.m * N.n := by
      rcases hmn with h | h | h
      · rw [h, hz1.2 h]; simp
      · exact absurd h hN0
      · rw [h]
    have hge : M.m * N.n ≤ i * N.n := Nat.mul_le_mul_right _ (by omega)
    rw [hmm, if_neg (by omega), if_neg hc, isub_ok (by unfold IsIndex; omega), Res.ok_bind]
    have := (h2.2.2.2 (i - M.m) j hi' hj).2
    rw [← this]
    congr 1
    rw [Nat.sub_mul]
    omega

/-- The elements of a one-dimensional object. -/
theorem elems_ok {a : Acc σ β} {s : σ} {l : List (Res β)} (h : Den .one a s l) :
    Tm.elems a s = l := by
  unfold Tm.elems
  rw [h.1]
  apply List.ext_getElem
  · simp
  · intro i h1 h2
    simp [h.2.2 i h2, h2]

/-- `dot` of two objects of equal length. -/
theorem dotOp_ok (b : Build) {ar : Arith β} {a1 a2 : Acc σ β} {s : σ} {l1 l2 : List (Res β)}
    (h1 : Den .one a1 s l1) (h2 : Den .one a2 s l2) (hl : l1.length = l2.length) :
    Tm.dotOp b ar a1 a2 s = inner ar l1 l2 := by
  have key : ∀ k, k ≤ l1.length →
      foldN k (fun i acc => do
        let u ← a1.sub b s i
        let v ← a2.sub b s i
        let p ← ar.mul u v
        ar.add acc p) ar.zero = inner ar (l1.take k) (l2.take k) := by
    intro k
    induction k with
    | zero => intro _; simp [inner]
    | succ k ih =>
      intro hk
      have e1 : validIndex (a1.rows s) k = true := by
        rw [validIndex_iff, h1.1]; unfold InRange; omega
      have e2 : validIndex (a2.rows s) k = true := by
        rw [validIndex_iff, h2.1]; unfold InRange; omega
      rw [foldN_succ, ih (by omega)]
      unfold inner
      rw [List.take_succ_eq_append_getElem (by omega), List.take_succ_eq_append_getElem (by omega),
        List.zip_append (by simp; omega), List.foldl_append]
      simp only [List.zip_cons_cons, List.zip_nil_right, List.foldl_cons, List.foldl_nil, Acc.sub,
        e1, e2, assertDebug_true, Res.ok_bind, h1.2.2 k (by omega), h2.2.2 k (by omega)]
      rw [getD_lt (by omega), getD_lt (by omega)]
  unfold Tm.dotOp
  rw [h1.1, Int.toNat_natCast, key _ (Nat.le_refl _), List.take_length, hl, List.take_length]

theorem den_reduce (b : Build) {rw' : Bool} {op : Acc σ β → σ → Res β} {a : Acc σ β} {s : σ}
    {M : Mat (Res β)} (f : List (Res β) → Res β) (h : Den .two a s M)
    (hs : Small (d := .two) M)
    (hop : ∀ r (l : List (Res β)), l.length = (if rw' then M.n else M.m) → Den .one r s l →
      op r s = f l) :
    Den .one (Tm.reduceAcc b rw' op a) s
      (if rw' then (List.range M.m).map (fun i => f (M.row i))
       else (List.range M.n).map (fun j => f (M.col j))) := by
  cases rw' with
  | true =>
    refine ⟨by simpa [Tm.reduceAcc, Acc.oneD] using h.1, by simpa [Tm.reduceAcc, Acc.oneD] using h.1,
      ?_⟩
    intro i hi
    have hi' : i < M.m := by simpa using hi
    obtain ⟨a', h1, h2⟩ := mkRow_ok b (ext_of h hs) (p := .at i)
      (show InRange _ (i : Int) by constructor <;> omega)
    have h3 := h2 s M rfl rfl (linDen_of h)
    have h4 := hop a' _ (by simp [Mat.row]) h3
    show (do let r ← View.mkRow b a s (.at i); op r s) = _
    rw [h1, Res.ok_bind, h4]
    exact (getD_range_map (f := fun i => f (M.row i)) hi').symm
  | false =>
    refine ⟨by simpa [Tm.reduceAcc, Acc.oneD] using h.2.1,
      by simpa [Tm.reduceAcc, Acc.oneD] using h.2.1, ?_⟩
    intro j hj
    have hj' : j < M.n := by simpa using hj
    obtain ⟨a', h1, h2⟩ := mkCol_ok b (ext_of h hs) (p := .at j)
      (show InRange _ (j : Int) by constructor <;> omega)
    have h3 := h2 s M rfl rfl (linDen_of h)
    have h4 := hop a' _ (by simp [Mat.col]) h3
    show (do let r ← View.mkCol b a s (.at j); op r s) = _
    rw [h1, Res.ok_bind, h4]
    exact (getD_range_map (f := fun j => f (M.col j)) hj').symm

end

/-! ### Sizes -/

theorem SameSizes.refl {α : Type} (s : Store α) : SameSizes s s :=
  ⟨fun _ => rfl, fun _ => ⟨rfl, rfl, rfl⟩⟩

theorem SameSizes.trans {α : Type} {s t u : Store α} (h1 : SameSizes s t) (h2 : SameSizes t u) :
    SameSizes s u :=
  ⟨fun id => (h1.1 id).trans (h2.1 id), fun id =>
    ⟨(h1.2 id).1.trans (h2.2 id).1, (h1.2 id).2.1.trans (h2.2 id).2.1,
      (h1.2 id).2.2.trans (h2.2 id).2.2⟩⟩

theorem map_dims {β γ : Type} {d : Dim} (f : β → Res γ) (x : Sem β d) : (x.map f).dims = x.dims := by
  cases d with
  | one => exact congrArg (fun k => (k, 1)) (List.length_map (as := (x : List (Res β))) _)
  | two => rfl

theorem zip_dims {β : Type} {d : Dim} (f : β → β → Res β) {x y x' y' : Sem β d}
    (h1 : x.dims = x'.dims) (h2 : y.dims = y'.dims) :
    (Sem.zip f x y).dims = (Sem.zip f x' y').dims := by
  cases d with
  | one =>
    change List (Res β) at x y x' y'
    have e1 : x.length = x'.length := congrArg Prod.fst h1
    have e2 : y.length = y'.length := congrArg Prod.fst h2
    simp [Sem.dims, Sem.zip, e1, e2]
  | two => exact h1

theorem small_congr {β γ : Type} {d : Dim} {x : Sem β d} {y : Sem γ d} (h : x.dims = y.dims)
    (hs : Small x) : Small y := by
  cases d with
  | one =>
    change List (Res β) at x
    change List (Res γ) at y
    have e1 : x.length = y.length := congrArg Prod.fst h
    change ((y.length : Nat) : Int) < 2 ^ 63 - 1
    rw [← e1]; exact hs
  | two =>
    change Mat (Res β) at x
    change Mat (Res γ) at y
    have e1 : x.m = y.m := congrArg Prod.fst h
    have e2 : x.n = y.n := congrArg Prod.snd h
    change ((y.m * y.n : Nat) : Int) < 2 ^ 63 - 1 ∧ (y.m = 0 ↔ y.n = 0)
    rw [← e1, ← e2]; exact hs

variable {α : Type}

theorem Lv.cells_dims {s0 s : Store α} (h : SameSizes s0 s) {d : Dim} (l : Lv d) :
    (l.cells s).dims = (l.cells s0).dims := by
  induction l with
  | arr1 id => simp [Lv.cells, Sem.dims, h.1 id]
  | arr2 id => simp [Lv.cells, Sem.dims, (h.2 id).1, (h.2 id).2.1]
  | view v l ih => exact v.sel_dims ih

theorem dims_one {β γ : Type} {x : List (Res β)} {y : List (Res γ)} :
    (Sem.dims (β := β) (d := .one) x = Sem.dims (β := γ) (d := .one) y) ↔ x.length = y.length := by
  simp [Sem.dims]

theorem dims_two {β γ : Type} {x : Mat (Res β)} {y : Mat (Res γ)} :
    (Sem.dims (β := β) (d := .two) x = Sem.dims (β := γ) (d := .two) y) ↔ x.m = y.m ∧ x.n = y.n := by
  simp [Sem.dims]

theorem len_append {γ : Type} {l1 l2 k1 k2 : List γ} (h1 : l1.length = k1.length)
    (h2 : l2.length = k2.length) : (List.append l1 l2).length = (List.append k1 k2).length := by
  simp [h1, h2]

theorem len_removed {γ : Type} {l k : List γ} {p c : Nat} (h : l.length = k.length) :
    (removed l p c).length = (removed k p c).length := by
  simp [removed, h]

theorem len_dropLast {γ : Type} {l k : List γ} (h : l.length = k.length) :
    l.dropLast.length = k.dropLast.length := by
  simp [h]

theorem len_range {γ : Type} {m n : Nat} {f g : Nat → γ} (h : m = n) :
    ((List.range m).map f).length = ((List.range n).map g).length := by
  simp [h]

theorem Tm.meaning_dims {s0 s : Store α} (h : SameSizes s0 s) {d : Dim} (t : Tm α d) :
    (t.meaning s).dims = (t.meaning s0).dims := by
  induction t with
  | lv l => simp only [Tm.meaning, map_dims]; exact l.cells_dims h
  | view v t ih => exact v.sel_dims ih
  | unary f t ih => simp only [Tm.meaning, map_dims]; exact ih
  | binary f t1 t2 ih1 ih2 => exact zip_dims f ih1 ih2
  | scalarL f x t ih => simp only [Tm.meaning, map_dims]; exact ih
  | scalarR f t x ih => simp only [Tm.meaning, map_dims]; exact ih
  | sequence ar n start incr => rfl
  | linspace ar n start stop => rfl
  | eUnit ar k n => rfl
  | const1D n x => rfl
  | const2D m n x => rfl
  | identity ar n => rfl
  | merge t1 t2 ih1 ih2 => exact dims_one.2 (len_append (dims_one.1 ih1) (dims_one.1 ih2))
  | append t x ih => exact dims_one.2 (len_append (dims_one.1 ih) rfl)
  | prepend x t ih => exact dims_one.2 (congrArg (· + 1) (dims_one.1 ih))
  | exclude t p c ih => exact dims_one.2 (len_removed (dims_one.1 ih))
  | excludeLast t k ih => exact dims_one.2 (len_dropLast (dims_one.1 ih))
  | reduce rw' g t ih =>
    cases rw'
    · exact dims_one.2 (len_range (dims_two.1 ih).2)
    · exact dims_one.2 (len_range (dims_two.1 ih).1)
  | matvec ar t x ih1 ih2 => exact dims_one.2 (len_range (dims_two.1 ih1).1)
  | bcast rw' t ih =>
    have e1 := dims_one.1 ih
    cases rw' <;> exact dims_two.2 ⟨e1, e1⟩
  | tensor ar t1 t2 ih1 ih2 => exact dims_two.2 ⟨dims_one.1 ih1, dims_one.1 ih2⟩
  | transpose t ih => exact dims_two.2 ⟨(dims_two.1 ih).2, (dims_two.1 ih).1⟩
  | mergeH t1 t2 ih1 ih2 =>
    obtain ⟨e1, e2⟩ := dims_two.1 ih1
    obtain ⟨e3, e4⟩ := dims_two.1 ih2
    refine dims_two.2 ⟨?_, ?_⟩
    · show (if _ then _ else _) = (if _ then _ else _)
      rw [e1, e3]
    · show _ + _ = _ + _
      rw [e2, e4]
  | mergeV t1 t2 ih1 ih2 =>
    obtain ⟨e1, e2⟩ := dims_two.1 ih1
    obtain ⟨e3, e4⟩ := dims_two.1 ih2
    refine dims_two.2 ⟨?_, ?_⟩
    · show _ + _ = _ + _
      rw [e1, e3]
    · show (if _ then _ else _) = (if _ then _ else _)
      rw [e2, e4]

theorem ok_same {s0 s : Store α} (h : SameSizes s0 s) (ho : Store.Ok s0) : Store.Ok s := by
  refine ⟨fun id => by rw [← h.1 id]; exact ho.1 id, fun id => ?_⟩
  obtain ⟨a, b, c⟩ := h.2 id
  obtain ⟨sh, l⟩ := ho.2 id
  exact ⟨⟨by rw [← a]; exact sh.rows, by rw [← b]; exact sh.cols, by rw [← a, ← b, ← c]; exact sh.size,
    by rw [← a, ← b]; exact sh.zero⟩, by rw [← c]; exact l⟩

/-! ### Assignable objects -/

theorem acc1_den (s : Store α) (id : Nat) :
    Den .one (Lv.acc1 α id) s ((Lv.arr1 id).cells s) := by
  refine ⟨by simp [Lv.acc1, Acc.oneD, Lv.cells, len], by simp [Lv.acc1, Acc.oneD, Lv.cells, len], ?_⟩
  intro i hi
  have hi' : i < (s.a1 id).length := by simpa [Lv.cells] using hi
  show (if 0 ≤ (i : Int) ∧ (i : Int) < len (s.a1 id) then Res.ok (Loc.one id (i : Int).toNat) else .ub) = _
  rw [if_pos (by unfold len; omega)]
  simp only [Lv.cells]
  rw [getD_range_map hi']; rfl

theorem acc2_den {s : Store α} (hs : Store.Ok s) (id : Nat) :
    Den .two (Lv.acc2 α id) s ((Lv.arr2 id).cells s) := by
  obtain ⟨sh, hl⟩ := hs.2 id
  have hr := sh.rows
  have hc := sh.cols
  have hz := sh.size
  have e1 : (((s.a2 id).rows.toNat : Nat) : Int) = (s.a2 id).rows := by omega
  have e2 : (((s.a2 id).cols.toNat : Nat) : Int) = (s.a2 id).cols := by omega
  have hsz : (s.a2 id).data.length = (s.a2 id).rows.toNat * (s.a2 id).cols.toNat := by
    rw [← e1, ← e2] at hz
    rw [← Int.natCast_mul] at hz
    omega
  refine ⟨e1.symm, e2.symm, ?_, ?_⟩
  · show Res.ok ((s.a2 id).data.length : Int) = _
    rw [hsz]; rfl
  · intro i j hi hj
    have hi' : i < (s.a2 id).rows.toNat := hi
    have hj' : j < (s.a2 id).cols.toNat := hj
    have hlt := flat_lt hi' hj'
    have hoff := off_nat hi' hj' (by rw [← hsz]; omega)
    rw [e2] at hoff
    have hat : (if 0 ≤ ((i * (s.a2 id).cols.toNat + j : Nat) : Int) ∧
        ((i * (s.a2 id).cols.toNat + j : Nat) : Int) < len (s.a2 id).data then
        Res.ok (Loc.two id (((i * (s.a2 id).cols.toNat + j : Nat) : Int)).toNat) else .ub)
        = .ok (Loc.two id (i * (s.a2 id).cols.toNat + j)) := by
      rw [if_pos (by unfold len; rw [hsz]; omega), Int.toNat_natCast]
    constructor
    · show (Elem2.off (s.a2 id).cols i j >>= fun o => _) = _
      rw [hoff, Res.ok_bind]; exact hat
    · exact hat

theorem Lv.main (b : Build) {s0 : Store α} (hs : Store.Ok s0) {d : Dim} (l : Lv d) :
    l.Sound s0 → l.Valid s0 → Small (l.cells s0) ∧
      ∃ a, l.build b s0 = .ok a ∧ ∀ s, SameSizes s0 s → Den d a s (l.cells s) := by
  induction l with
  | arr1 id =>
    intro _ _
    refine ⟨?_, _, rfl, fun s _ => acc1_den s id⟩
    have := hs.1 id
    simpa [Small, Lv.cells] using this
  | arr2 id =>
    intro _ _
    refine ⟨?_, _, rfl, fun s h => acc2_den (ok_same h hs) id⟩
    obtain ⟨sh, hl⟩ := hs.2 id
    have hr := sh.rows
    have hc := sh.cols
    have hz := sh.size
    have h0 := sh.zero
    constructor
    · show (((s0.a2 id).rows.toNat * (s0.a2 id).cols.toNat : Nat) : Int) < 2 ^ 63 - 1
      rw [Int.natCast_mul, show (((s0.a2 id).rows.toNat : Nat) : Int) = (s0.a2 id).rows by omega,
        show (((s0.a2 id).cols.toNat : Nat) : Int) = (s0.a2 id).cols by omega, ← hz]
      exact hl
    · show (s0.a2 id).rows.toNat = 0 ↔ (s0.a2 id).cols.toNat = 0
      omega
  | view v l ih =>
    intro hS hV
    obtain ⟨hsm, a, h1, h2⟩ := ih hS.1 hV.1
    obtain ⟨a', h3, h4⟩ := View.mk_ok b v (h2 s0 (SameSizes.refl s0)) hsm hS.2.1 hV.2 hS.2.2
    refine ⟨hS.2.2, a', ?_, fun s h => h4 s _ (l.cells_dims h) (h2 s h)⟩
    simp only [Lv.build, h1, Res.ok_bind, h3]

theorem Lv.only {b : Build} (hb : b.Checked) {s0 : Store α} (hs : Store.Ok s0) {d : Dim} (l : Lv d) :
    l.Sound s0 → ∀ {a}, l.build b s0 = .ok a → l.Valid s0 := by
  induction l with
  | arr1 id => intros; trivial
  | arr2 id => intros; trivial
  | view v l ih =>
    intro hS a h
    simp only [Lv.build, Res.bind_eq_ok] at h
    obtain ⟨a1, h1, h2⟩ := h
    have hV := ih hS.1 h1
    obtain ⟨hsm, a1', e, hd⟩ := Lv.main b hs l hS.1 hV
    rw [e] at h1; cases h1
    exact ⟨hV, View.mk_only hb v (hd s0 (SameSizes.refl s0)) hsm h2⟩

/-! ### Expressions -/

theorem gt_neg_one {n : Int} (h : 0 ≤ n) : decide (n > -1) = true := by
  simp; omega

theorem semiValid_iff {m n : Int} : semiValid m n = true ↔ (m = 0 ↔ n = 0) := by
  unfold semiValid
  by_cases h1 : m = 0 <;> by_cases h2 : n = 0 <;> simp [h1, h2]
  rw [beq_eq_false_iff_ne.2 h1, beq_eq_false_iff_ne.2 h2]

theorem mkConst1D_ok {σ : Type} (b : Build) {n : Int} (x : α) (h : 0 ≤ n) :
    Tm.mkConst1D (σ := σ) b n x = .ok (.gen1 n (fun _ _ => .ok x)) := by
  simp only [Tm.mkConst1D, gt_neg_one h, assertDebug_true, Res.ok_bind, Res.pure_eq]

theorem mkConst2D_ok {σ : Type} (b : Build) {m n : Int} (x : α) (hm : 0 ≤ m) (hn : 0 ≤ n)
    (hz : m = 0 ↔ n = 0) :
    Tm.mkConst2D (σ := σ) b m n x = .ok (.gen2 b m n (fun _ _ => .ok x)) := by
  simp only [Tm.mkConst2D, gt_neg_one hm, gt_neg_one hn, semiValid_iff.2 hz, assertDebug_true,
    Res.ok_bind, Res.pure_eq]

/-- A constant of the size of `x`. -/
def constSem {β γ : Type} (c : β) : {d : Dim} → Sem γ d → Sem β d
  | .one, l => List.replicate (List.length l) (Res.ok c)
  | .two, M => (⟨M.m, M.n, fun _ _ => .ok c⟩ : Mat (Res β))

theorem constSem_dims {β γ : Type} (c : β) {d : Dim} (x : Sem γ d) : (constSem c x).dims = x.dims := by
  cases d with
  | one => exact congrArg (fun k => (k, 1)) (List.length_replicate)
  | two => rfl

theorem mkConstLike_ok {σ : Type} (b : Build) {d : Dim} {a : Acc σ α} {s0 : σ} {x0 : Sem α d} (c : α)
    (h : Den d a s0 x0) (hs : Small x0) :
    ∃ a', Tm.mkConstLike b d a s0 c = .ok a' ∧
      ∀ s (x : Sem α d), x.dims = x0.dims → Den d a' s (constSem c x) := by
  cases d with
  | one =>
    change List (Res α) at x0
    refine ⟨_, mkConst1D_ok b c (by rw [h.1]; omega), ?_⟩
    intro s x hx
    change List (Res α) at x
    have e : x.length = x0.length := dims_one.1 hx
    have hlen : (List.replicate x.length (Res.ok c)).length = x.length := List.length_replicate
    have hsm : (x0.length : Int) < 2 ^ 63 - 1 := hs
    refine den_gen1 (l := List.replicate x.length (Res.ok c)) ?_ ?_ ?_
    · rw [h.1, hlen, e]
    · rw [h.1]; show (x0.length : Int) < _; omega
    · intro i hi
      rw [getD_lt hi]; simp
  | two =>
    change Mat (Res α) at x0
    have h1 := h.1
    have h2 := h.2.1
    have hz := hs.2
    refine ⟨_, mkConst2D_ok b c (by rw [h1]; omega) (by rw [h2]; omega) (by rw [h1, h2]; omega), ?_⟩
    intro s x hx
    change Mat (Res α) at x
    obtain ⟨e1, e2⟩ := dims_two.1 hx
    have hsm := hs.1
    refine den_gen2 b (M := ⟨x.m, x.n, fun _ _ => .ok c⟩) (by rw [h1, e1]) (by rw [h2, e2]) ?_
      (fun _ _ _ _ => rfl)
    show ((x.m * x.n : Nat) : Int) < 2 ^ 63
    rw [e1, e2]; omega

theorem zip_constL {d : Dim} (f : α → α → Res α) (c : α) (x : Sem α d) :
    Sem.zip f (constSem c x) x = x.map (fun y => f c y) := by
  cases d with
  | one =>
    change List (Res α) at x
    show List.zipWith _ (List.replicate x.length (Res.ok c)) x = List.map _ x
    induction x with
    | nil => rfl
    | cons h t ih => simp only [List.length_cons, List.replicate_succ, List.zipWith_cons_cons, ih]; rfl
  | two => rfl

theorem zip_constR {d : Dim} (f : α → α → Res α) (c : α) (x : Sem α d) :
    Sem.zip f x (constSem c x) = x.map (fun y => f y c) := by
  cases d with
  | one =>
    change List (Res α) at x
    show List.zipWith _ x (List.replicate x.length (Res.ok c)) = List.map _ x
    induction x with
    | nil => rfl
    | cons h t ih => simp only [List.length_cons, List.replicate_succ, List.zipWith_cons_cons, ih]; rfl
  | two => rfl

theorem sameSize_iff {σ β γ : Type} {d : Dim} {a1 : Acc σ β} {a2 : Acc σ γ} {s : σ} {x : Sem β d}
    {y : Sem γ d} (h1 : Den d a1 s x) (h2 : Den d a2 s y) :
    Acc.sameSize d a1 a2 s = true ↔ x.dims = y.dims := by
  cases d with
  | one =>
    change List (Res β) at x
    change List (Res γ) at y
    rw [dims_one]
    simp only [Acc.sameSize, h1.1, h2.1, beq_iff_eq]
    omega
  | two =>
    change Mat (Res β) at x
    change Mat (Res γ) at y
    rw [dims_two]
    simp only [Acc.sameSize, h1.1, h2.1, h1.2.1, h2.2.1, Bool.and_eq_true, beq_iff_eq]
    omega

theorem mkBinary_ok {σ : Type} (b : Build) {d : Dim} (f : α → α → Res α) {a1 a2 : Acc σ α} {s : σ}
    {x y : Sem α d} (h1 : Den d a1 s x) (h2 : Den d a2 s y) (hd : x.dims = y.dims) :
    Tm.mkBinary b d f a1 a2 s = .ok (.binary f a1 a2) := by
  simp only [Tm.mkBinary, (sameSize_iff h1 h2).2 hd, assertDebug_true, Res.ok_bind, Res.pure_eq]

theorem mkGen1_ok {σ : Type} (b : Build) {n : Int} {op : σ → Int → Res α} (h : 0 ≤ n) :
    Tm.mkGen1 b n op = .ok (.gen1 n op) := by
  simp only [Tm.mkGen1, gt_neg_one h, assertDebug_true, Res.ok_bind, Res.pure_eq]

theorem mkGen2_ok {σ : Type} (b : Build) {m n : Int} {op : σ → Int → Res α} (hm : 0 ≤ m)
    (hn : 0 ≤ n) : Tm.mkGen2 b m n op = .ok (.gen2 b m n op) := by
  simp only [Tm.mkGen2, gt_neg_one hm, gt_neg_one hn, assertDebug_true, Res.ok_bind, Res.pure_eq]

theorem mkSequence_ok {σ : Type} (b : Build) {ar : Arith α} {n : Int} {st inc : α} (h : 0 ≤ n) :
    ∃ a, Tm.mkSequence (σ := σ) b ar n st inc = .ok a ∧
      ∀ s, Den .one a s (arithmetic ar n.toNat st inc) := by
  refine ⟨.oneD (fun _ => n) (fun _ i => do
    let c ← ar.ofIndex i
    let p ← ar.mul inc c
    ar.add st p), by
      simp only [Tm.mkSequence, gt_neg_one h, assertDebug_true, Res.ok_bind, Res.pure_eq],
    fun s => ?_⟩
  have hlen : (arithmetic ar n.toNat st inc).length = n.toNat := by simp [arithmetic]
  have e : n = ((arithmetic ar n.toNat st inc).length : Int) := by rw [hlen]; omega
  refine ⟨e, congrArg Res.ok e, ?_⟩
  intro i hi
  have hi' : i < n.toNat := by rw [← hlen]; exact hi
  exact (getD_range_map (f := fun i : Nat => (do
    let c ← ar.ofIndex i
    let p ← ar.mul inc c
    ar.add st p)) hi').symm

theorem mkExclude_ok {σ : Type} (b : Build) {a : Acc σ α} {s0 : σ} {l0 : List (Res α)} {p c : Int}
    (h : Den .one a s0 l0) (hs : (l0.length : Int) < 2 ^ 63 - 1) (hp : 0 ≤ p) (hc : 0 < c)
    (hpc : p + c ≤ l0.length) :
    ∃ a', Tm.mkExclude b a s0 p c = .ok a' ∧ ∀ s (l : List (Res α)), l.length = l0.length →
      Den .one a s l → Den .one a' s (removed l p.toNat c.toNat) := by
  refine ⟨.gen1 (l0.length - c) (a.excludeOp p c), ?_, ?_⟩
  · have e1 : validIndex (l0.length : Int) p = true := validIndex_iff.2 (by unfold InRange; omega)
    have e2 : validIndex (l0.length : Int) (p + c - 1) = true :=
      validIndex_iff.2 (by unfold InRange; omega)
    have e3 : iadd p c = .ok (p + c) := iadd_ok (by unfold IsIndex; omega)
    have e4 : isub (p + c) 1 = .ok (p + c - 1) := isub_ok (by unfold IsIndex; omega)
    have e5 : isub (l0.length : Int) c = .ok (l0.length - c) := isub_ok (by unfold IsIndex; omega)
    simp only [Tm.mkExclude, h.1, e1, e2, e3, e4, decide_eq_true (show c > 0 from hc),
      assertDebug_true, assertDebugM_ok, Res.ok_bind, Res.pure_eq]
    rw [e5, Res.ok_bind, mkGen1_ok b (by omega)]
  · intro s l hl hd
    have hlen := removed_length (l := l) (p := p.toNat) (c := c.toNat) (by omega)
    refine den_gen1 (by rw [hlen]; omega) (by omega) ?_
    intro i hi
    have := excludeOp_ok (p := p.toNat) (c := c.toNat) hd (by omega) (by omega) i hi
    rw [← this]
    congr 1 <;> omega

theorem toNat_small {m n : Int} (hm : 0 ≤ m) (hn : 0 ≤ n) :
    ((m.toNat * n.toNat : Nat) : Int) = m * n := by
  rw [Int.natCast_mul, Int.toNat_of_nonneg hm, Int.toNat_of_nonneg hn]

theorem zip_dims_left {β : Type} {d : Dim} (f : β → β → Res β) {x y : Sem β d}
    (h : x.dims = y.dims) : (Sem.zip f x y).dims = x.dims := by
  cases d with
  | one =>
    change List (Res β) at x y
    have e1 : x.length = y.length := dims_one.1 h
    refine dims_one.2 ?_
    show (List.zipWith _ x y).length = x.length
    simp [e1]
  | two => rfl

theorem mkMergeH_ok {σ : Type} (b : Build) {a1 a2 : Acc σ α} {s0 : σ} {M0 N0 : Mat (Res α)}
    (h1 : Den .two a1 s0 M0) (h2 : Den .two a2 s0 N0) (hs1 : Small (d := .two) M0)
    (hs2 : Small (d := .two) N0) (hs : Small (d := .two) (M0.beside N0))
    (hv : M0.m = 0 ∨ N0.m = 0 ∨ M0.m = N0.m) :
    ∃ a', Tm.mkMergeH b a1 a2 s0 = .ok a' ∧ ∀ s (M N : Mat (Res α)), M.m = M0.m → M.n = M0.n →
      N.m = N0.m → N.n = N0.n → Den .two a1 s M → Den .two a2 s N → Den .two a' s (M.beside N) := by
  have hz1 := hs1.2
  have hz2 := hs2.2
  have hzz := hs.2
  have hsm := hs.1
  simp only [Mat.beside] at hzz hsm
  obtain ⟨em, _⟩ := emp_eq hz1
  obtain ⟨en, _⟩ := emp_eq hz2
  have hw : ((M0.n + N0.n : Nat) : Int) < 2 ^ 63 := by
    by_cases h0 : (if M0.m = 0 then N0.m else M0.m) = 0
    · have := hzz.1 h0; omega
    · have : M0.n + N0.n ≤ (if M0.m = 0 then N0.m else M0.m) * (M0.n + N0.n) :=
        Nat.le_mul_of_pos_left _ (by omega)
      omega
  have e1 : iadd (M0.n : Int) (N0.n : Int) = .ok ((M0.n + N0.n : Nat) : Int) := by
    rw [iadd_ok (by unfold IsIndex; omega)]; push_cast; rfl
  refine ⟨.gen2 b ((if M0.m = 0 then N0.m else M0.m : Nat) : Int) ((M0.n + N0.n : Nat) : Int)
    (Acc.horizontalOp b a1 a2), ?_, ?_⟩
  · have hc : ∀ k : Res (Acc σ α), (if (!(M0.m : Int) == 0) && (!(N0.m : Int) == 0) then
        (do assertDebug b ((M0.m : Int) == (N0.m : Int)); k) else k) = k := by
      intro k
      by_cases c1 : M0.m = 0
      · simp [c1]
      · by_cases c2 : N0.m = 0
        · simp [c2]
        · have : M0.m = N0.m := by omega
          simp [this]
    have hm : (if (!(M0.m : Int) == 0) then (M0.m : Int) else (N0.m : Int))
        = ((if M0.m = 0 then N0.m else M0.m : Nat) : Int) := by
      by_cases c1 : M0.m = 0 <;> simp [c1]
    simp only [Tm.mkMergeH, Acc.empty, h1.2.2.1, h2.2.2.1, Res.ok_bind, Res.pure_eq, em, en, h1.1,
      h2.1, h1.2.1, h2.2.1, e1, hm]
    rw [hc]
    exact mkGen2_ok b (Int.natCast_nonneg _) (Int.natCast_nonneg _)
  · intro s M N a c d e hM hN
    refine den_gen2 b ?_ ?_ ?_ ?_
    · simp only [Mat.beside, a, d]
    · simp only [Mat.beside, c, e]
    · simp only [Mat.beside, a, c, d, e]; omega
    · exact horizontalOp_ok b hM hN (by omega) (by omega) (by omega)
        (by simp only [Mat.beside, a, c, d, e]; omega)

theorem mkMergeV_ok {σ : Type} (b : Build) {a1 a2 : Acc σ α} {s0 : σ} {M0 N0 : Mat (Res α)}
    (h1 : Den .two a1 s0 M0) (h2 : Den .two a2 s0 N0) (hs1 : Small (d := .two) M0)
    (hs2 : Small (d := .two) N0) (hs : Small (d := .two) (M0.above N0))
    (hv : M0.n = 0 ∨ N0.n = 0 ∨ M0.n = N0.n) :
    ∃ a', Tm.mkMergeV b a1 a2 s0 = .ok a' ∧ ∀ s (M N : Mat (Res α)), M.m = M0.m → M.n = M0.n →
      N.m = N0.m → N.n = N0.n → Den .two a1 s M → Den .two a2 s N → Den .two a' s (M.above N) := by
  have hz1 := hs1.2
  have hz2 := hs2.2
  have hzz := hs.2
  have hsm := hs.1
  simp only [Mat.above] at hzz hsm
  obtain ⟨_, em⟩ := emp_eq hz1
  obtain ⟨_, en⟩ := emp_eq hz2
  have hw : ((M0.m + N0.m : Nat) : Int) < 2 ^ 63 := by
    by_cases h0 : (if M0.n = 0 then N0.n else M0.n) = 0
    · have := hzz.2 h0; omega
    · have : M0.m + N0.m ≤ (M0.m + N0.m) * (if M0.n = 0 then N0.n else M0.n) :=
        Nat.le_mul_of_pos_right _ (by omega)
      omega
  have e1 : iadd (M0.m : Int) (N0.m : Int) = .ok ((M0.m + N0.m : Nat) : Int) := by
    rw [iadd_ok (by unfold IsIndex; omega)]; push_cast; rfl
  refine ⟨.gen2 b ((M0.m + N0.m : Nat) : Int) ((if M0.n = 0 then N0.n else M0.n : Nat) : Int)
    (Acc.verticalOp a1 a2), ?_, ?_⟩
  · have hc : ∀ k : Res (Acc σ α), (if (!(M0.n : Int) == 0) && (!(N0.n : Int) == 0) then
        (do assertDebug b ((M0.n : Int) == (N0.n : Int)); k) else k) = k := by
      intro k
      by_cases c1 : M0.n = 0
      · simp [c1]
      · by_cases c2 : N0.n = 0
        · simp [c2]
        · have : M0.n = N0.n := by omega
          simp [this]
    have hm : (if (!(M0.n : Int) == 0) then (M0.n : Int) else (N0.n : Int))
        = ((if M0.n = 0 then N0.n else M0.n : Nat) : Int) := by
      by_cases c1 : M0.n = 0 <;> simp [c1]
    simp only [Tm.mkMergeV, Acc.empty, h1.2.2.1, h2.2.2.1, Res.ok_bind, Res.pure_eq, em, en, h1.1,
      h2.1, h1.2.1, h2.2.1, e1, hm]
    rw [hc]
    exact mkGen2_ok b (Int.natCast_nonneg _) (Int.natCast_nonneg _)
  · intro s M N a c d e hM hN
    refine den_gen2 b ?_ ?_ ?_ ?_
    · simp only [Mat.above, a, d]
    · simp only [Mat.above, c, e]
    · simp only [Mat.above, a, c, d, e]; omega
    · exact verticalOp_ok hM hN (by omega) (by omega) (by omega)
        (by simp only [Mat.above, a, c, d, e]; omega)

theorem removed_last {γ : Type} (l : List γ) (h : 0 < l.length) :
    removed l (l.length - 1) 1 = l.dropLast := by
  simp [removed, List.dropLast_eq_take]
  omega

theorem two_of_m {M : Mat (Res α)} (h : Small (d := .two) M) :
    (M.m : Int) < 2 ^ 63 - 1 ∧ (M.n : Int) < 2 ^ 63 - 1 := by
  have hz := h.2
  have hs := h.1
  by_cases h0 : M.m = 0
  · have := hz.1 h0; omega
  · have h1 : M.n ≤ M.m * M.n := Nat.le_mul_of_pos_left _ (by omega)
    have h2 : M.m ≤ M.m * M.n := Nat.le_mul_of_pos_right _ (by omega)
    omega

section
variable {σ : Type}

theorem merge_node (b : Build) {a1 a2 : Acc σ α} {s0 : σ} {l1 l2 : List (Res α)}
    (h1 : Den .one a1 s0 l1) (h2 : Den .one a2 s0 l2)
    (hs : (l1.length : Int) + l2.length < 2 ^ 63 - 1) :
    Small (d := .one) (List.append l1 l2) ∧
    ∃ a', (do let n ← iadd (a1.rows s0) (a2.rows s0); Tm.mkGen1 b n (Acc.mergeOp a1 a2)) = .ok a' ∧
      ∀ s (k1 k2 : List (Res α)), k1.length = l1.length → k2.length = l2.length →
        Den .one a1 s k1 → Den .one a2 s k2 → Den .one a' s (List.append k1 k2) := by
  refine ⟨?_, .gen1 ((l1.length : Int) + l2.length) (Acc.mergeOp a1 a2), ?_, ?_⟩
  · show ((l1 ++ l2).length : Int) < 2 ^ 63 - 1
    rw [List.length_append]; omega
  · rw [h1.1, h2.1, iadd_ok (by unfold IsIndex; omega), Res.ok_bind]
    exact mkGen1_ok b (by omega)
  · intro s k1 k2 e1 e2 d1 d2
    refine den_gen1 (l := k1 ++ k2) ?_ (by omega) (mergeOp_ok d1 d2 (by omega))
    rw [List.length_append]; omega

theorem append_node (b : Build) {a : Acc σ α} {s0 : σ} {l : List (Res α)} {x : α}
    (h1 : Den .one a s0 l) (hs : (l.length : Int) + 1 < 2 ^ 63 - 1) :
    Small (d := .one) (List.append l [Res.ok x]) ∧
    ∃ a', (do let n ← iadd (a.rows s0) 1; Tm.mkGen1 b n (a.appendOp x)) = .ok a' ∧
      ∀ s (k : List (Res α)), k.length = l.length →
        Den .one a s k → Den .one a' s (List.append k [Res.ok x]) := by
  refine ⟨?_, .gen1 ((l.length : Int) + 1) (a.appendOp x), ?_, ?_⟩
  · show ((l ++ [Res.ok x]).length : Int) < 2 ^ 63 - 1
    rw [List.length_append, List.length_singleton]; omega
  · rw [h1.1, iadd_ok (by unfold IsIndex; omega), Res.ok_bind]
    exact mkGen1_ok b (by omega)
  · intro s k e1 d1
    refine den_gen1 (l := k ++ [Res.ok x]) ?_ (by omega) (appendOp_ok d1)
    rw [List.length_append, List.length_singleton]; omega

theorem prepend_node (b : Build) {a : Acc σ α} {s0 : σ} {l : List (Res α)} {x : α}
    (h1 : Den .one a s0 l) (hs : (l.length : Int) + 1 < 2 ^ 63 - 1) :
    Small (d := .one) (Res.ok x :: l) ∧
    ∃ a', (do let n ← iadd (a.rows s0) 1; Tm.mkGen1 b n (Acc.prependOp x a)) = .ok a' ∧
      ∀ s (k : List (Res α)), k.length = l.length →
        Den .one a s k → Den .one a' s (Res.ok x :: k) := by
  refine ⟨?_, .gen1 ((l.length : Int) + 1) (Acc.prependOp x a), ?_, ?_⟩
  · show ((Res.ok x :: l).length : Int) < 2 ^ 63 - 1
    rw [List.length_cons]; omega
  · rw [h1.1, iadd_ok (by unfold IsIndex; omega), Res.ok_bind]
    exact mkGen1_ok b (by omega)
  · intro s k e1 d1
    refine den_gen1 (l := Res.ok x :: k) ?_ (by omega) (prependOp_ok d1 (by omega))
    rw [List.length_cons]; omega

theorem removed_small {l : List (Res α)} {p c : Nat} (h : Small (d := .one) l) :
    Small (β := α) (d := .one) (removed l p c) := by
  have h' : (l.length : Int) < 2 ^ 63 - 1 := h
  show ((removed l p c).length : Int) < 2 ^ 63 - 1
  simp only [removed, List.length_append, List.length_take, List.length_drop]
  omega

theorem excludeLast_node (b : Build) {a : Acc σ α} {s0 : σ} {l : List (Res α)}
    (h1 : Den .one a s0 l) (hs : (l.length : Int) < 2 ^ 63 - 1) (hp : 0 < l.length) :
    Small (β := α) (d := .one) l.dropLast ∧
    ∃ a', (do let p ← isub (a.rows s0) 1; Tm.mkExclude b a s0 p 1) = .ok a' ∧
      ∀ s (k : List (Res α)), k.length = l.length → Den .one a s k → Den .one a' s k.dropLast := by
  obtain ⟨a', h3, h4⟩ := mkExclude_ok b (p := (l.length : Int) - 1) (c := 1)
    h1 hs (by omega) (by omega) (by omega)
  refine ⟨?_, a', ?_, ?_⟩
  · show (l.dropLast.length : Int) < 2 ^ 63 - 1
    rw [List.length_dropLast]; omega
  · rw [h1.1, isub_ok (by unfold IsIndex; omega), Res.ok_bind, h3]
  · intro s k e1 d1
    have h6 := h4 s k e1 d1
    rw [show ((l.length : Int) - 1).toNat = k.length - 1 by omega] at h6
    rw [← removed_last k (by omega)]
    exact h6

end

theorem Tm.main (b : Build) {s0 : Store α} (hs : Store.Ok s0) {d : Dim} (t : Tm α d) :
    t.Sound s0 → t.Valid s0 → Small (t.meaning s0) ∧
      ∃ a, t.build b s0 = .ok a ∧ ∀ s, SameSizes s0 s → Den d a s (t.meaning s) := by
  have rf := SameSizes.refl s0
  induction t with
  | lv l =>
    intro hS hV
    obtain ⟨hsm, a, h1, h2⟩ := l.main b hs hS hV
    refine ⟨small_congr (map_dims _ _).symm hsm, _, ?_, fun s h => den_deref Store.read (h2 s h)⟩
    simp only [Tm.build, h1, Res.ok_bind, Res.pure_eq]
  | view v t ih =>
    intro hS hV
    obtain ⟨hsm, a, h1, h2⟩ := ih hS.1 hV.1
    obtain ⟨a', h3, h4⟩ := View.mk_ok b v (h2 s0 rf) hsm hS.2.1 hV.2 hS.2.2
    refine ⟨hS.2.2, a', ?_, fun s h => h4 s _ (t.meaning_dims h) (h2 s h)⟩
    simp only [Tm.build, h1, Res.ok_bind, h3]
  | unary f t ih =>
    intro hS hV
    obtain ⟨hsm, a, h1, h2⟩ := ih hS hV
    refine ⟨small_congr (map_dims _ _).symm hsm, _, ?_, fun s h => den_unary f (h2 s h)⟩
    simp only [Tm.build, h1, Res.ok_bind, Res.pure_eq]
  | binary f t1 t2 ih1 ih2 =>
    intro hS hV
    obtain ⟨hsm, a1, h1, h2⟩ := ih1 hS.1 hV.1
    obtain ⟨_, a2, h3, h4⟩ := ih2 hS.2 hV.2.1
    refine ⟨?_, .binary f a1 a2, ?_, fun s h => den_binary f (h2 s h) (h4 s h) ?_⟩
    · exact small_congr (zip_dims_left f hV.2.2).symm hsm
    · simp only [Tm.build, h1, h3, Res.ok_bind]
      exact mkBinary_ok b f (h2 s0 rf) (h4 s0 rf) hV.2.2
    · rw [t1.meaning_dims h, t2.meaning_dims h, hV.2.2]
  | scalarL f x t ih =>
    intro hS hV
    obtain ⟨hsm, a, h1, h2⟩ := ih hS hV
    obtain ⟨c, h3, h4⟩ := mkConstLike_ok b x (h2 s0 rf) hsm
    refine ⟨small_congr (map_dims _ _).symm hsm, .binary f c a, ?_, fun s h => ?_⟩
    · simp only [Tm.build, h1, h3, Res.ok_bind]
      exact mkBinary_ok b f (h4 s0 _ rfl) (h2 s0 rf) (constSem_dims _ _)
    · have := den_binary f (h4 s _ (t.meaning_dims h)) (h2 s h) (constSem_dims _ _)
      rw [zip_constL] at this
      exact this
  | scalarR f t x ih =>
    intro hS hV
    obtain ⟨hsm, a, h1, h2⟩ := ih hS hV
    obtain ⟨c, h3, h4⟩ := mkConstLike_ok b x (h2 s0 rf) hsm
    refine ⟨small_congr (map_dims _ _).symm hsm, .binary f a c, ?_, fun s h => ?_⟩
    · simp only [Tm.build, h1, h3, Res.ok_bind]
      exact mkBinary_ok b f (h2 s0 rf) (h4 s0 _ rfl) (constSem_dims _ _).symm
    · have := den_binary f (h2 s h) (h4 s _ (t.meaning_dims h)) (constSem_dims _ _).symm
      rw [zip_constR] at this
      exact this
  | sequence ar n start incr =>
    intro hS hV
    obtain ⟨a, h1, h2⟩ := mkSequence_ok (σ := Store α) b (ar := ar) (st := start) (inc := incr) hV
    refine ⟨?_, a, h1, fun s _ => h2 s⟩
    have e : (arithmetic ar n.toNat start incr).length = n.toNat := by simp [arithmetic]
    show ((arithmetic ar n.toNat start incr).length : Int) < 2 ^ 63 - 1
    have h3 : n < 2 ^ 63 - 1 := hS
    have h4 : 0 ≤ n := hV
    rw [e]; omega
  | linspace ar n start stop =>
    intro hS hV
    obtain ⟨h0, incr, hi⟩ := hV
    have h3 : n < 2 ^ 63 - 1 := hS
    obtain ⟨a, h1, h2⟩ := mkSequence_ok (σ := Store α) b (ar := ar) (n := n) (st := start)
      (inc := incr) (by omega)
    simp only [Res.bind_eq_ok] at hi
    obtain ⟨diff, i1, m, i2, i3⟩ := hi
    refine ⟨?_, a, ?_, fun s _ => ?_⟩
    · show (((List.range n.toNat).map _).length : Int) < 2 ^ 63 - 1
      rw [List.length_map, List.length_range]; omega
    · have e : isub n 1 = .ok (n - 1) := isub_ok (by unfold IsIndex; omega)
      simp only [Tm.build, decide_eq_true (show n > 0 from h0), assertDebug_true, Res.ok_bind, i1, e,
        i2, i3, h1]
    · have := h2 s
      simp only [Tm.meaning, i1, i2, i3, Res.ok_bind]
      exact this
  | eUnit ar k n =>
    intro hS hV
    have h3 : n < 2 ^ 63 - 1 := hS
    obtain ⟨h4, h5⟩ : 0 ≤ k ∧ k < n := hV
    refine ⟨?_, .gen1 n (fun _ i => .ok (if i = k then ar.one else ar.zero)), ?_, fun s _ => ?_⟩
    · show (((List.range n.toNat).map _).length : Int) < 2 ^ 63 - 1
      rw [List.length_map, List.length_range]; omega
    · simp only [Tm.build, gt_neg_one h4, decide_eq_true (show n > k from h5), assertDebug_true,
        Res.ok_bind]
      exact mkGen1_ok b (by omega)
    · refine den_gen1 (l := (List.range n.toNat).map
        (fun i : Nat => Res.ok (if (i : Int) = k then ar.one else ar.zero))) ?_ (by omega) ?_
      · rw [List.length_map, List.length_range]; omega
      · intro i hi
        rw [List.length_map, List.length_range] at hi
        exact (getD_range_map (f := fun i : Nat => Res.ok (if (i : Int) = k then ar.one else ar.zero))
          hi).symm
  | const1D n x =>
    intro hS hV
    have h3 : n < 2 ^ 63 - 1 := hS
    have h4 : 0 ≤ n := hV
    have hl : (List.replicate n.toNat (Res.ok x)).length = n.toNat := List.length_replicate
    refine ⟨?_, _, mkConst1D_ok b x h4, fun s _ => ?_⟩
    · show ((List.replicate n.toNat (Res.ok x)).length : Int) < 2 ^ 63 - 1
      rw [hl]; omega
    · refine den_gen1 (l := List.replicate n.toNat (Res.ok x)) (by rw [hl]; omega) (by omega) ?_
      intro i hi
      rw [getD_lt hi]; simp
  | const2D m n x =>
    intro hS hV
    obtain ⟨h1, h2, h3⟩ := hV
    have h4 : m * n < 2 ^ 63 - 1 := hS
    have e := toNat_small h1 h2
    refine ⟨⟨?_, ?_⟩, _, mkConst2D_ok b x h1 h2 h3, fun s _ => ?_⟩
    · show ((m.toNat * n.toNat : Nat) : Int) < 2 ^ 63 - 1
      rw [e]; exact h4
    · show m.toNat = 0 ↔ n.toNat = 0
      omega
    · refine den_gen2 b (M := ⟨m.toNat, n.toNat, fun _ _ => .ok x⟩)
        (by show m = (m.toNat : Int); omega) (by show n = (n.toNat : Int); omega) ?_
        (fun _ _ _ _ => rfl)
      show ((m.toNat * n.toNat : Nat) : Int) < 2 ^ 63
      rw [e]; omega
  | identity ar n =>
    intro hS hV
    have h1 : 0 ≤ n := hV
    have h4 : n * n < 2 ^ 63 - 1 := hS
    have e := toNat_small h1 h1
    refine ⟨⟨?_, Iff.rfl⟩, .twoD b (fun _ => n) (fun _ => n)
      (fun _ i j => .ok (if i = j then ar.one else ar.zero)), ?_, fun s _ => ?_⟩
    · show ((n.toNat * n.toNat : Nat) : Int) < 2 ^ 63 - 1
      rw [e]; exact h4
    · simp only [Tm.build, gt_neg_one h1, assertDebug_true, Res.ok_bind, Res.pure_eq]
    · refine den_twoD b (M := ⟨n.toNat, n.toNat, fun i j => .ok (if i = j then ar.one else ar.zero)⟩)
        (by show n = (n.toNat : Int); omega) (by show n = (n.toNat : Int); omega) ?_ ?_
      · show ((n.toNat * n.toNat : Nat) : Int) < 2 ^ 63
        rw [e]; omega
      · intro i j _ _
        show Res.ok (if (i : Int) = (j : Int) then ar.one else ar.zero) = .ok (if i = j then ar.one else ar.zero)
        by_cases hij : i = j
        · rw [if_pos (by omega), if_pos hij]
        · rw [if_neg (by omega), if_neg hij]
  | merge t1 t2 ih1 ih2 =>
    intro hS hV
    obtain ⟨hs1, a1, h1, h2⟩ := ih1 hS.1 hV.1
    obtain ⟨hs2, a2, h3, h4⟩ := ih2 hS.2.1 hV.2
    obtain ⟨hsm, a', h5, h6⟩ := merge_node b (h2 s0 rf) (h4 s0 rf) hS.2.2
    refine ⟨hsm, a', by simp only [Tm.build, h1, h3, Res.ok_bind, h5], fun s h => ?_⟩
    exact h6 s _ _ (dims_one.1 (t1.meaning_dims h)) (dims_one.1 (t2.meaning_dims h)) (h2 s h) (h4 s h)
  | append t x ih =>
    intro hS hV
    obtain ⟨hs1, a, h1, h2⟩ := ih hS.1 hV
    obtain ⟨hsm, a', h5, h6⟩ := append_node b (x := x) (h2 s0 rf) hS.2
    refine ⟨hsm, a', by simp only [Tm.build, h1, Res.ok_bind, h5], fun s h => ?_⟩
    exact h6 s _ (dims_one.1 (t.meaning_dims h)) (h2 s h)
  | prepend x t ih =>
    intro hS hV
    obtain ⟨hs1, a, h1, h2⟩ := ih hS.1 hV
    obtain ⟨hsm, a', h5, h6⟩ := prepend_node b (x := x) (h2 s0 rf) hS.2
    refine ⟨hsm, a', by simp only [Tm.build, h1, Res.ok_bind, h5], fun s h => ?_⟩
    exact h6 s _ (dims_one.1 (t.meaning_dims h)) (h2 s h)
  | exclude t p c ih =>
    intro hS hV
    obtain ⟨hs1, a, h1, h2⟩ := ih hS.1 hV.1
    obtain ⟨a', h3, h4⟩ := mkExclude_ok b (h2 s0 rf) hs1 hV.2.1 hV.2.2.1 hV.2.2.2
    refine ⟨removed_small hs1, a', by simp only [Tm.build, h1, Res.ok_bind, h3],
      fun s h => h4 s _ (dims_one.1 (t.meaning_dims h)) (h2 s h)⟩
  | excludeLast t k ih =>
    intro hS hV
    obtain ⟨hs1, a, h1, h2⟩ := ih hS hV.1
    obtain ⟨hsm, a', h3, h4⟩ := excludeLast_node b (h2 s0 rf) hs1 hV.2
    refine ⟨hsm, a', by simp only [Tm.build, h1, Res.ok_bind, h3],
      fun s h => h4 s _ (dims_one.1 (t.meaning_dims h)) (h2 s h)⟩
  | reduce rw' g t ih =>
    intro hS hV
    obtain ⟨hs1, a, h1, h2⟩ := ih hS hV
    refine ⟨?_, Tm.reduceAcc b rw' (fun r s => g (Tm.elems r s)) a, ?_, fun s h => ?_⟩
    · obtain ⟨hm, hn⟩ := two_of_m hs1
      cases rw'
      · show (((List.range _).map _).length : Int) < 2 ^ 63 - 1
        rw [List.length_map, List.length_range]; exact hn
      · show (((List.range _).map _).length : Int) < 2 ^ 63 - 1
        rw [List.length_map, List.length_range]; exact hm
    · simp only [Tm.build, h1, Res.ok_bind, Res.pure_eq]
    · have := den_reduce b (rw' := rw') g (h2 s h) (small_congr (t.meaning_dims h).symm hs1)
        (op := fun r s => g (Tm.elems r s))
        (fun r l _ hl => by rw [elems_ok hl])
      cases rw' <;> exact this
  | matvec ar t x ih1 ih2 =>
    intro hS hV
    obtain ⟨hs1, a, h1, h2⟩ := ih1 hS.1 hV.1
    obtain ⟨_, v, h3, h4⟩ := ih2 hS.2 hV.2.1
    have hv : Mat.n (t.meaning s0) = List.length (x.meaning s0) := hV.2.2
    refine ⟨?_, Tm.reduceAcc b true (fun r s => Tm.dotOp b ar r v s) a, ?_, fun s h => ?_⟩
    · obtain ⟨hm, hn⟩ := two_of_m hs1
      show (((List.range _).map _).length : Int) < 2 ^ 63 - 1
      rw [List.length_map, List.length_range]; exact hm
    · simp only [Tm.build, h1, h3, Res.ok_bind, Res.pure_eq]
      rw [(h2 s0 rf).2.1, (h4 s0 rf).1, hv, beq_self_eq_true, assertDebug_true, Res.ok_bind]
    · refine den_reduce b (rw' := true) (fun l => inner ar l (x.meaning s)) (h2 s h)
        (small_congr (t.meaning_dims h).symm hs1) (op := fun r s => Tm.dotOp b ar r v s) ?_
      intro r l hl hd
      refine dotOp_ok b hd (h4 s h) ?_
      rw [hl, if_pos rfl, (dims_two.1 (t.meaning_dims h)).2, hv, dims_one.1 (x.meaning_dims h)]
  | bcast rw' t ih =>
    intro hS hV
    obtain ⟨hs1, a, h1, h2⟩ := ih hS.1 hV
    refine ⟨hS.2, a.bcast b rw', ?_, fun s h => ?_⟩
    · simp only [Tm.build, h1, Res.ok_bind, Res.pure_eq]
    · have hsm := small_congr ((Tm.bcast rw' t).meaning_dims h).symm hS.2
      obtain ⟨e1, _, e2⟩ := h2 s h
      cases rw' with
      | true =>
        refine den_twoD b e1 e1 (by have := hsm.1; omega) ?_
        intro i j hi hj
        exact e2 j hj
      | false =>
        refine den_twoD b e1 e1 (by have := hsm.1; omega) ?_
        intro i j hi hj
        exact e2 i hi
  | tensor ar t1 t2 ih1 ih2 =>
    intro hS hV
    obtain ⟨hs1, a1, h1, h2⟩ := ih1 hS.1 hV.1
    obtain ⟨hs2, a2, h3, h4⟩ := ih2 hS.2.1 hV.2
    refine ⟨hS.2.2, Acc.tensor b ar.mul a1 a2, ?_, fun s h => ?_⟩
    · simp only [Tm.build, h1, h3, Res.ok_bind, Res.pure_eq]
    · have hsm := small_congr ((Tm.tensor ar t1 t2).meaning_dims h).symm hS.2.2
      obtain ⟨e1, _, e2⟩ := h2 s h
      obtain ⟨e3, _, e4⟩ := h4 s h
      refine den_twoD b e1 e3 (by have := hsm.1; omega) ?_
      intro i j hi hj
      show (do let x ← a1.un s i; let y ← a2.un s j; ar.mul x y) = _
      rw [e2 i hi, e4 j hj]; rfl
  | transpose t ih =>
    intro hS hV
    obtain ⟨hs1, a, h1, h2⟩ := ih hS hV
    obtain ⟨e1, e2, _⟩ := h2 s0 rf
    refine ⟨⟨?_, ?_⟩, a.transpose b (a.cols s0) (a.rows s0), ?_, fun s h => ?_⟩
    · show ((Mat.n (t.meaning s0) * Mat.m (t.meaning s0) : Nat) : Int) < 2 ^ 63 - 1
      rw [Nat.mul_comm]; exact hs1.1
    · exact hs1.2.symm
    · simp only [Tm.build, h1, Res.ok_bind, Res.pure_eq]
      rw [gt_neg_one (by rw [e2]; omega), gt_neg_one (by rw [e1]; omega), assertDebug_true,
        Res.ok_bind, Res.ok_bind]
    · obtain ⟨d1, d2⟩ := dims_two.1 (t.meaning_dims h)
      refine den_twoD b (M := Mat.transposed (t.meaning s)) ?_ ?_ ?_ ?_
      · rw [e2]; show _ = (Mat.n (t.meaning s) : Int); rw [d2]
      · rw [e1]; show _ = (Mat.m (t.meaning s) : Int); rw [d1]
      · show ((Mat.n (t.meaning s) * Mat.m (t.meaning s) : Nat) : Int) < 2 ^ 63
        rw [d1, d2, Nat.mul_comm]; have := hs1.1; omega
      · intro i j hi hj
        exact ((h2 s h).2.2.2 j i hj hi).1
  | mergeH t1 t2 ih1 ih2 =>
    intro hS hV
    obtain ⟨hs1, a1, h1, h2⟩ := ih1 hS.1 hV.1
    obtain ⟨hs2, a2, h3, h4⟩ := ih2 hS.2.1 hV.2.1
    obtain ⟨a', h5, h6⟩ := mkMergeH_ok b (h2 s0 rf) (h4 s0 rf) hs1 hs2 hS.2.2 hV.2.2
    refine ⟨hS.2.2, a', by simp only [Tm.build, h1, h3, Res.ok_bind, h5], fun s h => ?_⟩
    obtain ⟨d1, d2⟩ := dims_two.1 (t1.meaning_dims h)
    obtain ⟨d3, d4⟩ := dims_two.1 (t2.meaning_dims h)
    exact h6 s _ _ d1 d2 d3 d4 (h2 s h) (h4 s h)
  | mergeV t1 t2 ih1 ih2 =>
    intro hS hV
    obtain ⟨hs1, a1, h1, h2⟩ := ih1 hS.1 hV.1
    obtain ⟨hs2, a2, h3, h4⟩ := ih2 hS.2.1 hV.2.1
    obtain ⟨a', h5, h6⟩ := mkMergeV_ok b (h2 s0 rf) (h4 s0 rf) hs1 hs2 hS.2.2 hV.2.2
    refine ⟨hS.2.2, a', by simp only [Tm.build, h1, h3, Res.ok_bind, h5], fun s h => ?_⟩
    obtain ⟨d1, d2⟩ := dims_two.1 (t1.meaning_dims h)
    obtain ⟨d3, d4⟩ := dims_two.1 (t2.meaning_dims h)
    exact h6 s _ _ d1 d2 d3 d4 (h2 s h) (h4 s h)

theorem of_gt_neg_one {n : Int} (h : decide (n > -1) = true) : 0 ≤ n := by
  have := of_decide_eq_true h; omega

theorem mkMerge_only {σ : Type} {b : Build} (hb : b.Checked) {a1 a2 : Acc σ α} {s0 : σ}
    {M N : Mat (Res α)} {m1 m2 : Nat} {f : Acc σ α → Int}
    (h1 : Den .two a1 s0 M) (h2 : Den .two a2 s0 N)
    (e1 : f a1 = m1) (e2 : f a2 = m2)
    (z1 : M.m * M.n = 0 ↔ m1 = 0) (z2 : N.m * N.n = 0 ↔ m2 = 0) {k : Bool → Bool → Res (Acc σ α)}
    {a : Acc σ α}
    (h : (do
      let x1 ← a1.empty s0
      let x2 ← a2.empty s0
      if !x1 && !x2 then assertDebug b (f a1 == f a2) else .ok ()
      k x1 x2) = .ok a) : m1 = 0 ∨ m2 = 0 ∨ m1 = m2 := by
  simp only [Acc.empty, h1.2.2.1, h2.2.2.1, Res.ok_bind, Res.pure_eq, e1, e2] at h
  by_cases c1 : m1 = 0
  · exact .inl c1
  · by_cases c2 : m2 = 0
    · exact .inr (.inl c2)
    · right; right
      have n1 : M.m * M.n ≠ 0 := fun e => c1 (z1.1 e)
      have n2 : N.m * N.n ≠ 0 := fun e => c2 (z2.1 e)
      rw [beq_eq_false_iff_ne.2 (by omega), beq_eq_false_iff_ne.2 (by omega)] at h
      simp only [Bool.not_false, Bool.and_self, if_true, Res.bind_eq_ok] at h
      obtain ⟨⟨⟩, h3, _⟩ := h
      have := beq_iff_eq.1 (assertDebug_ok_checked hb h3)
      omega

theorem mul_zero_iff {m n : Nat} (h : m = 0 ↔ n = 0) : (m * n = 0 ↔ m = 0) ∧ (m * n = 0 ↔ n = 0) := by
  by_cases h0 : m = 0
  · have := h.1 h0; subst h0; subst this; simp
  · have h1 : n ≠ 0 := fun e => h0 (h.2 e)
    have h2 : m * n ≠ 0 := Nat.mul_ne_zero h0 h1
    simp [h0, h1, h2]

/-- A checked build constructs only valid expressions. -/
theorem Tm.only {b : Build} (hb : b.Checked) {s0 : Store α} (hs : Store.Ok s0) {d : Dim}
    (t : Tm α d) : t.Sound s0 → ∀ {a}, t.build b s0 = .ok a → t.Valid s0 := by
  have rf := SameSizes.refl s0
  induction t with
  | lv l =>
    intro hS a h
    simp only [Tm.build, Res.bind_eq_ok] at h
    obtain ⟨a1, h1, _⟩ := h
    exact l.only hb hs hS h1
  | view v t ih =>
    intro hS a h
    simp only [Tm.build, Res.bind_eq_ok] at h
    obtain ⟨a1, h1, h2⟩ := h
    have hV := ih hS.1 h1
    obtain ⟨hsm, a1', e, hd⟩ := Tm.main b hs t hS.1 hV
    rw [e] at h1; cases h1
    exact ⟨hV, View.mk_only hb v (hd s0 rf) hsm h2⟩
  | unary f t ih =>
    intro hS a h
    simp only [Tm.build, Res.bind_eq_ok] at h
    obtain ⟨a1, h1, _⟩ := h
    exact ih hS h1
  | binary f t1 t2 ih1 ih2 =>
    intro hS a h
    simp only [Tm.build, Res.bind_eq_ok] at h
    obtain ⟨a1, h1, a2, h2, h3⟩ := h
    have hV1 := ih1 hS.1 h1
    have hV2 := ih2 hS.2 h2
    obtain ⟨_, a1', e1, d1⟩ := Tm.main b hs t1 hS.1 hV1
    obtain ⟨_, a2', e2, d2⟩ := Tm.main b hs t2 hS.2 hV2
    rw [e1] at h1; cases h1
    rw [e2] at h2; cases h2
    simp only [Tm.mkBinary, Res.bind_eq_ok] at h3
    obtain ⟨⟨⟩, h4, _⟩ := h3
    exact ⟨hV1, hV2, (sameSize_iff (d1 s0 rf) (d2 s0 rf)).1 (assertDebug_ok_checked hb h4)⟩
  | scalarL f x t ih =>
    intro hS a h
    simp only [Tm.build, Res.bind_eq_ok] at h
    obtain ⟨a1, h1, _⟩ := h
    exact ih hS h1
  | scalarR f t x ih =>
    intro hS a h
    simp only [Tm.build, Res.bind_eq_ok] at h
    obtain ⟨a1, h1, _⟩ := h
    exact ih hS h1
  | sequence ar n start incr =>
    intro hS a h
    simp only [Tm.build, Tm.mkSequence, Res.bind_eq_ok] at h
    obtain ⟨⟨⟩, h1, _⟩ := h
    exact of_gt_neg_one (assertDebug_ok_checked hb h1)
  | linspace ar n start stop =>
    intro hS a h
    have hn : n < 2 ^ 63 - 1 := hS
    simp only [Tm.build, Res.bind_eq_ok] at h
    obtain ⟨⟨⟩, h1, diff, h2, m, h3, c, h4, incr, h5, _⟩ := h
    have h0 : n > 0 := of_decide_eq_true (assertDebug_ok_checked hb h1)
    rw [isub_ok (by unfold IsIndex; omega)] at h3
    cases h3
    refine ⟨h0, incr, ?_⟩
    simp only [h2, h4, h5, Res.ok_bind]
  | eUnit ar k n =>
    intro hS a h
    simp only [Tm.build, Res.bind_eq_ok] at h
    obtain ⟨⟨⟩, h1, ⟨⟩, h2, _⟩ := h
    exact ⟨of_gt_neg_one (assertDebug_ok_checked hb h1),
      of_decide_eq_true (assertDebug_ok_checked hb h2)⟩
  | const1D n x =>
    intro hS a h
    simp only [Tm.build, Tm.mkConst1D, Res.bind_eq_ok] at h
    obtain ⟨⟨⟩, h1, _⟩ := h
    exact of_gt_neg_one (assertDebug_ok_checked hb h1)
  | const2D m n x =>
    intro hS a h
    simp only [Tm.build, Tm.mkConst2D, Res.bind_eq_ok] at h
    obtain ⟨⟨⟩, h1, ⟨⟩, h2, ⟨⟩, h3, _⟩ := h
    exact ⟨of_gt_neg_one (assertDebug_ok_checked hb h1),
      of_gt_neg_one (assertDebug_ok_checked hb h2), semiValid_iff.1 (assertDebug_ok_checked hb h3)⟩
  | identity ar n =>
    intro hS a h
    simp only [Tm.build, Res.bind_eq_ok] at h
    obtain ⟨⟨⟩, h1, _⟩ := h
    exact of_gt_neg_one (assertDebug_ok_checked hb h1)
  | merge t1 t2 ih1 ih2 =>
    intro hS a h
    simp only [Tm.build, Res.bind_eq_ok] at h
    obtain ⟨a1, h1, a2, h2, _⟩ := h
    exact ⟨ih1 hS.1 h1, ih2 hS.2.1 h2⟩
  | append t x ih =>
    intro hS a h
    simp only [Tm.build, Res.bind_eq_ok] at h
    obtain ⟨a1, h1, _⟩ := h
    exact ih hS.1 h1
  | prepend x t ih =>
    intro hS a h
    simp only [Tm.build, Res.bind_eq_ok] at h
    obtain ⟨a1, h1, _⟩ := h
    exact ih hS.1 h1
  | exclude t p c ih =>
    intro hS a h
    simp only [Tm.build, Res.bind_eq_ok] at h
    obtain ⟨a1, h1, h2⟩ := h
    have hV := ih hS.1 h1
    obtain ⟨hsm, a1', e, hd⟩ := Tm.main b hs t hS.1 hV
    rw [e] at h1; cases h1
    have hr := (hd s0 rf).1
    simp only [Tm.mkExclude, Res.bind_eq_ok] at h2
    obtain ⟨⟨⟩, h3, ⟨⟩, h4, ⟨⟩, h5, _⟩ := h2
    have c1 : c > 0 := of_decide_eq_true (assertDebug_ok_checked hb h3)
    have c2 := validIndex_iff.1 (assertDebug_ok_checked hb h4)
    have h6 := assertDebugM_ok_checked hb h5
    simp only [Res.bind_eq_ok] at h6
    obtain ⟨e1, h7, e2, h8, h9⟩ := h6
    obtain rfl := iadd_eq_ok h7
    obtain rfl := isub_eq_ok h8
    simp only [Res.pure_eq, Res.ok.injEq] at h9
    have c3 := validIndex_iff.1 h9
    rw [hr] at c3
    refine ⟨hV, c2.1, c1, ?_⟩
    have := c3.2
    show p + c ≤ (List.length (t.meaning s0) : Int)
    omega
  | excludeLast t k ih =>
    intro hS a h
    simp only [Tm.build, Res.bind_eq_ok] at h
    obtain ⟨a1, h1, p, h2, h3⟩ := h
    have hV := ih hS h1
    obtain ⟨hsm, a1', e, hd⟩ := Tm.main b hs t hS hV
    rw [e] at h1; cases h1
    have hr := (hd s0 rf).1
    simp only [Tm.mkExclude, Res.bind_eq_ok] at h3
    obtain ⟨⟨⟩, h3, ⟨⟩, h4, _⟩ := h3
    have c2 := validIndex_iff.1 (assertDebug_ok_checked hb h4)
    rw [hr] at c2
    refine ⟨hV, ?_⟩
    have := c2.1; have := c2.2
    show 0 < List.length (t.meaning s0)
    omega
  | reduce rw' g t ih =>
    intro hS a h
    simp only [Tm.build, Res.bind_eq_ok] at h
    obtain ⟨a1, h1, _⟩ := h
    exact ih hS h1
  | matvec ar t x ih1 ih2 =>
    intro hS a h
    simp only [Tm.build, Res.bind_eq_ok] at h
    obtain ⟨a1, h1, a2, h2, ⟨⟩, h3, _⟩ := h
    have hV1 := ih1 hS.1 h1
    have hV2 := ih2 hS.2 h2
    obtain ⟨_, a1', e1, d1⟩ := Tm.main b hs t hS.1 hV1
    obtain ⟨_, a2', e2, d2⟩ := Tm.main b hs x hS.2 hV2
    rw [e1] at h1; cases h1
    rw [e2] at h2; cases h2
    have := assertDebug_ok_checked hb h3
    rw [(d1 s0 rf).2.1, (d2 s0 rf).1] at this
    refine ⟨hV1, hV2, ?_⟩
    show Mat.n (t.meaning s0) = List.length (x.meaning s0)
    have := beq_iff_eq.1 this
    omega
  | bcast rw' t ih =>
    intro hS a h
    simp only [Tm.build, Res.bind_eq_ok] at h
    obtain ⟨a1, h1, _⟩ := h
    exact ih hS.1 h1
  | tensor ar t1 t2 ih1 ih2 =>
    intro hS a h
    simp only [Tm.build, Res.bind_eq_ok] at h
    obtain ⟨a1, h1, a2, h2, _⟩ := h
    exact ⟨ih1 hS.1 h1, ih2 hS.2.1 h2⟩
  | transpose t ih =>
    intro hS a h
    simp only [Tm.build, Res.bind_eq_ok] at h
    obtain ⟨a1, h1, _⟩ := h
    exact ih hS h1
  | mergeH t1 t2 ih1 ih2 =>
    intro hS a h
    simp only [Tm.build] at h
    obtain ⟨a1, h1, h⟩ := Res.bind_eq_ok.1 h
    obtain ⟨a2, h2, h3⟩ := Res.bind_eq_ok.1 h
    have hV1 := ih1 hS.1 h1
    have hV2 := ih2 hS.2.1 h2
    obtain ⟨s1, a1', e1, d1⟩ := Tm.main b hs t1 hS.1 hV1
    obtain ⟨s2, a2', e2, d2⟩ := Tm.main b hs t2 hS.2.1 hV2
    rw [e1] at h1; cases h1
    rw [e2] at h2; cases h2
    exact ⟨hV1, hV2, mkMerge_only hb (f := fun a => a.rows s0) (d1 s0 rf) (d2 s0 rf) (d1 s0 rf).1
      (d2 s0 rf).1 (mul_zero_iff s1.2).1 (mul_zero_iff s2.2).1 h3⟩
  | mergeV t1 t2 ih1 ih2 =>
    intro hS a h
    simp only [Tm.build] at h
    obtain ⟨a1, h1, h⟩ := Res.bind_eq_ok.1 h
    obtain ⟨a2, h2, h3⟩ := Res.bind_eq_ok.1 h
    have hV1 := ih1 hS.1 h1
    have hV2 := ih2 hS.2.1 h2
    obtain ⟨s1, a1', e1, d1⟩ := Tm.main b hs t1 hS.1 hV1
    obtain ⟨s2, a2', e2, d2⟩ := Tm.main b hs t2 hS.2.1 hV2
    rw [e1] at h1; cases h1
    rw [e2] at h2; cases h2
    exact ⟨hV1, hV2, mkMerge_only hb (f := fun a => a.cols s0) (d1 s0 rf) (d2 s0 rf) (d1 s0 rf).2.1
      (d2 s0 rf).2.1 (mul_zero_iff s1.2).2 (mul_zero_iff s2.2).2 h3⟩

end Spp
