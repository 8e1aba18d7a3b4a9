import Verif.Props.Expr
import Verif.Props.Array1D
import Verif.Lemmas.Nodes

/-
Properties of the functions that rearrange elements: transpose (C44), concatenation (C45),
exclude (C46).
-/

set_option linter.unusedSectionVars false

namespace Spp.Props
open Spec

variable {α : Type} [Inhabited α] {b : Build} {s0 : Store α}

/-! ### Transpose -/

/-- C44: `transpose(A)` has the dimensions of `A` swapped and its element `(i, j)` is `A(j, i)`. -/
theorem C44_transpose {t : Tm α .two} {x : Store α → Mat (Res α)} (h : Gives b s0 t x) :
    Gives b s0 (.transpose t) (fun s => (⟨(x s).n, (x s).m, fun i j => (x s).el j i⟩ : Mat (Res α))) := by
  have := gives_transpose h
  simpa only [Mat.transposed] using this

/-- C44: transposing twice gives the original matrix back. -/
theorem C44_involution {t : Tm α .two} {x : Store α → Mat (Res α)} (h : Gives b s0 t x) :
    Gives b s0 (.transpose (.transpose t)) x := by
  have h2 := gives_transpose (gives_transpose h)
  have e : (fun s => (x s).transposed.transposed) = x := rfl
  rw [e] at h2
  exact h2

/-- C44: evaluating `transpose(A)` into a temporary, for an array `A`, gives the array with rows and
columns exchanged: what is stored at offset `j * rows + i` is what `A` stores at `i * cols + j`. -/
theorem C44_eval (b : Build) {s : Store α} (hs : Store.Ok s) (id : Nat) :
    ∃ a r, (Tm.transpose (.lv (.arr2 id)) : Tm α .two).build b s = .ok a ∧ a.eval2 b s = .ok r ∧
      r.rows = (s.a2 id).cols ∧ r.cols = (s.a2 id).rows ∧
      r.data.length = (s.a2 id).data.length ∧
      ∀ i j : Nat, (i : Int) < (s.a2 id).rows → (j : Int) < (s.a2 id).cols →
        r.data[j * (s.a2 id).rows.toNat + i]? = (s.a2 id).data[i * (s.a2 id).cols.toNat + j]? := by
  have h := C43_reads b hs (t := (Tm.transpose (.lv (.arr2 id)) : Tm α .two)) trivial trivial
  obtain ⟨a, h1, h2⟩ := C43_eval_2D b h
  have h2 := h2 s (SameSizes.refl s)
  obtain ⟨sh, _⟩ := hs.2 id
  have hr := sh.rows
  have hc := sh.cols
  have hz := sh.size
  generalize hM : Tm.meaning s (.transpose (.lv (.arr2 id))) = M at h2
  change Mat (Res α) at M
  have hm : M.m = (s.a2 id).cols.toNat := by rw [← hM]; rfl
  have hn : M.n = (s.a2 id).rows.toNat := by rw [← hM]; rfl
  have hlen : (s.a2 id).data.length = (s.a2 id).rows.toNat * (s.a2 id).cols.toNat := by
    have := toNat_small hr hc; omega
  have hel : ∀ i j, i < M.m → j < M.n → ∃ v, M.el i j = .ok v ∧
      (s.a2 id).data[j * (s.a2 id).cols.toNat + i]? = some v := by
    intro i j hi hj
    have hlt : j * (s.a2 id).cols.toNat + i < (s.a2 id).data.length := by
      rw [hlen]; exact flat_lt (by omega) (by omega)
    refine ⟨(s.a2 id).data[j * (s.a2 id).cols.toNat + i], ?_, List.getElem?_eq_getElem hlt⟩
    rw [← hM]
    show rd (s.a2 id).data ((j * (s.a2 id).cols.toNat + i : Nat) : Int) = _
    rw [rd_nat hlt]
  obtain ⟨xs, hx, _⟩ := list_of_ok (l := M.flat) (P := fun _ => True) (by
    intro r hr
    rw [flat_eq, List.mem_map] at hr
    obtain ⟨k, hk, rfl⟩ := hr
    obtain ⟨u, v⟩ := unflat_lt (List.mem_range.1 hk)
    obtain ⟨v, h, _⟩ := hel _ _ u v
    exact ⟨v, h, trivial⟩)
  have hxl : xs.length = M.m * M.n := by rw [← flat_length M, hx]; simp
  refine ⟨a, ⟨M.m, M.n, xs⟩, h1, ?_, by show (M.m : Int) = _; omega, by show (M.n : Int) = _; omega,
    ?_, ?_⟩
  · rw [h2, evalAll_eq_ok.2 hx, Res.ok_bind]; rfl
  · show xs.length = _
    rw [hxl, hlen, hm, hn, Nat.mul_comm]
  · intro i j hi hj
    have hi' : i < M.n := by omega
    have hj' : j < M.m := by omega
    obtain ⟨v, e1, e2⟩ := hel j i hj' hi'
    rw [e2, ← hn]
    have hlt : j * M.n + i < xs.length := by rw [hxl]; exact flat_lt hj' hi'
    have e3 : M.flat.getD (j * M.n + i) .ub = .ok xs[j * M.n + i] := by
      rw [getD_lt (by rw [flat_length]; rw [hxl] at hlt; exact hlt)]; simp [hx]
    rw [flat_getD hj' hi', e1] at e3
    cases e3
    exact List.getElem?_eq_getElem hlt

/-! ### Concatenation of lists -/

/-- C45: `merge(A1, A2)` is list concatenation. -/
theorem C45_merge {t1 t2 : Tm α .one} {x1 x2 : Store α → List (Res α)} (h1 : Gives b s0 t1 x1)
    (h2 : Gives b s0 t2 x2) (hs : ((x1 s0).length + (x2 s0).length : Int) < 2 ^ 63 - 1) :
    Gives b s0 (.merge t1 t2) (fun s => (x1 s ++ x2 s : List (Res α))) :=
  gives_merge h1 h2 hs

/-- C45: concatenation is associative, and empty operands are neutral. -/
theorem C45_associative {t1 t2 t3 : Tm α .one} {x1 x2 x3 : Store α → List (Res α)}
    (h1 : Gives b s0 t1 x1) (h2 : Gives b s0 t2 x2) (h3 : Gives b s0 t3 x3)
    (hs : ((x1 s0).length + (x2 s0).length + (x3 s0).length : Int) < 2 ^ 63 - 1) :
    Gives b s0 (.merge (.merge t1 t2) t3) (fun s => (x1 s ++ x2 s ++ x3 s : List (Res α))) ∧
    Gives b s0 (.merge t1 (.merge t2 t3)) (fun s => (x1 s ++ x2 s ++ x3 s : List (Res α))) ∧
    (x2 s0 = [] → ∀ s, SameSizes s0 s → x1 s ++ x2 s = x1 s ∧ x2 s ++ x1 s = x1 s) := by
  refine ⟨?_, ?_, ?_⟩
  · refine gives_merge (gives_merge h1 h2 (by omega)) h3 ?_
    rw [List.length_append]; omega
  · have := gives_merge h1 (gives_merge h2 h3 (by omega)) (by rw [List.length_append]; omega)
    simpa only [List.append_assoc] using this
  · intro he s h
    have := Gives.len h2 h
    rw [he] at this
    have : x2 s = [] := List.length_eq_zero_iff.1 this
    rw [this]; simp

/-- C45: `merge` of any number of operands (at least two) is the concatenation of all of them, in
order. -/
theorem C45_any_number {t1 t2 : Tm α .one} {x1 x2 : Store α → List (Res α)}
    (h1 : Gives b s0 t1 x1) (h2 : Gives b s0 t2 x2)
    (ps : List (Tm α .one × (Store α → List (Res α))))
    (hp : ∀ p ∈ ps, Gives b s0 p.1 p.2)
    (hs : ((x1 s0).length + (x2 s0).length + (ps.map (fun p => (p.2 s0).length)).sum : Nat) <
      (2 ^ 63 - 1 : Int)) :
    Gives b s0 (Tm.mergeN t1 t2 (ps.map Prod.fst))
      (fun s => (x1 s ++ x2 s ++ (ps.map (fun p => p.2 s)).flatten : List (Res α))) := by
  induction ps generalizing t1 t2 x1 x2 with
  | nil => simpa [Tm.mergeN] using gives_merge h1 h2 (by simpa using hs)
  | cons p ps ih =>
    simp only [List.map_cons, List.sum_cons] at hs
    have h3 := hp p (by simp)
    have := ih h2 h3 (fun q hq => hp q (by simp [hq])) (by omega)
    have h4 := gives_merge h1 this (by
      have e : ∀ s : Store α, (ps.map (fun p => p.2 s)).flatten.length =
          (ps.map (fun p => (p.2 s).length)).sum := by
        intro s; simp [List.length_flatten, List.map_map, Function.comp_def]
      simp only [List.length_append, e]; omega)
    simpa only [Tm.mergeN, List.map_cons, List.flatten_cons, List.append_assoc] using h4

/-- C45: scalars at the end: `merge(A, x1, ..., xn)`. -/
theorem C45_scalars_after {t : Tm α .one} {x : Store α → List (Res α)} (h : Gives b s0 t x) (c : α)
    (cs : List α) (hs : ((x s0).length + 1 + cs.length : Int) < 2 ^ 63 - 1) :
    Gives b s0 (Tm.appendN t c cs) (fun s => (x s ++ (c :: cs).map Res.ok : List (Res α))) := by
  induction cs generalizing t x c with
  | nil => exact gives_append h (by simpa using hs)
  | cons d ds ih =>
    simp only [List.length_cons] at hs
    have := ih (gives_append (c := c) h (by omega)) d (by
      rw [List.length_append, List.length_singleton]; omega)
    simpa [Tm.appendN] using this

/-- C45: scalars at the front: `merge(x1, ..., xn, A)`. -/
theorem C45_scalars_before {t : Tm α .one} {x : Store α → List (Res α)} (h : Gives b s0 t x) (c : α)
    (cs : List α) (hs : ((x s0).length + 1 + cs.length : Int) < 2 ^ 63 - 1) :
    Gives b s0 (Tm.prependN c cs t) (fun s => ((c :: cs).map Res.ok ++ x s : List (Res α))) := by
  induction cs generalizing c with
  | nil => exact gives_prepend h (by simpa using hs)
  | cons d ds ih =>
    simp only [List.length_cons] at hs
    have := gives_prepend (c := c) (ih d (by omega)) (by
      simp only [List.length_append, List.length_map, List.length_cons]; omega)
    simpa [Tm.prependN] using this

/-! ### Concatenation of matrices -/

theorem columns_beside {M N : Mat (Res α)} (h1 : M.m = 0 ↔ M.n = 0) (h2 : N.m = 0 ↔ N.n = 0)
    (h : M.m = 0 ∨ N.m = 0 ∨ M.m = N.m) : (M.beside N).columns = M.columns ++ N.columns := by
  unfold Mat.columns
  rw [show (M.beside N).n = M.n + N.n from rfl, List.range_add, List.map_append, List.map_map]
  congr 1
  · refine List.map_congr_left fun j hj => ?_
    rw [List.mem_range] at hj
    unfold Mat.col
    rw [show (M.beside N).m = M.m by simp only [Mat.beside]; rw [if_neg (by omega)]]
    exact List.map_congr_left fun i hi => if_pos hj
  · refine List.map_congr_left fun j hj => ?_
    rw [List.mem_range] at hj
    unfold Mat.col
    rw [show (M.beside N).m = N.m by simp only [Mat.beside]; split <;> omega]
    refine List.map_congr_left fun i hi => ?_
    show (if M.n + j < M.n then _ else N.el i (M.n + j - M.n)) = _
    rw [if_neg (by omega), Nat.add_sub_cancel_left]

theorem lines_above {M N : Mat (Res α)} (h1 : M.m = 0 ↔ M.n = 0) (h2 : N.m = 0 ↔ N.n = 0)
    (h : M.n = 0 ∨ N.n = 0 ∨ M.n = N.n) : (M.above N).lines = M.lines ++ N.lines := by
  unfold Mat.lines
  rw [show (M.above N).m = M.m + N.m from rfl, List.range_add, List.map_append, List.map_map]
  congr 1
  · refine List.map_congr_left fun j hj => ?_
    rw [List.mem_range] at hj
    unfold Mat.row
    rw [show (M.above N).n = M.n by simp only [Mat.above]; rw [if_neg (by omega)]]
    exact List.map_congr_left fun i hi => if_pos hj
  · refine List.map_congr_left fun j hj => ?_
    rw [List.mem_range] at hj
    unfold Mat.row
    rw [show (M.above N).n = N.n by simp only [Mat.above]; split <;> omega]
    refine List.map_congr_left fun i hi => ?_
    show (if M.m + j < M.m then _ else N.el (M.m + j - M.m) i) = _
    rw [if_neg (by omega), Nat.add_sub_cancel_left]

/-- C45: `merge_horizontal(A1, A2, As...)` with matrices that all have `r` rows, or are empty, puts them
side by side: the columns of the result are the columns of the operands, from left to right; empty
operands contribute nothing. -/
theorem C45_side_by_side (r : Nat) {t1 t2 : Tm α .two} {x1 x2 : Store α → Mat (Res α)}
    (h1 : Gives b s0 t1 x1) (h2 : Gives b s0 t2 x2)
    (ps : List (Tm α .two × (Store α → Mat (Res α)))) (hp : ∀ p ∈ ps, Gives b s0 p.1 p.2)
    (r1 : (x1 s0).m = r ∨ (x1 s0).m = 0) (r2 : (x2 s0).m = r ∨ (x2 s0).m = 0)
    (hr : ∀ p ∈ ps, (p.2 s0).m = r ∨ (p.2 s0).m = 0)
    (hs : (r * ((x1 s0).n + (x2 s0).n + (ps.map (fun p => (p.2 s0).n)).sum) : Nat) <
      (2 ^ 63 - 1 : Int)) :
    ∃ x : Store α → Mat (Res α), Gives b s0 (Tm.mergeHN t1 t2 (ps.map Prod.fst)) x ∧
      ((x s0).m = r ∨ (x s0).m = 0) ∧
      (x s0).n = (x1 s0).n + (x2 s0).n + (ps.map (fun p => (p.2 s0).n)).sum ∧
      ∀ s, SameSizes s0 s →
        (x s).columns = (x1 s).columns ++ (x2 s).columns ++
          (ps.map (fun p => (p.2 s).columns)).flatten := by
  have step : ∀ {u v : Tm α .two} {y z : Store α → Mat (Res α)}, Gives b s0 u y → Gives b s0 v z →
      ((y s0).m = r ∨ (y s0).m = 0) → ((z s0).m = r ∨ (z s0).m = 0) →
      ((r * ((y s0).n + (z s0).n) : Nat) : Int) < 2 ^ 63 - 1 →
      Gives b s0 (.mergeH u v) (fun s => (y s).beside (z s)) ∧
      (((y s0).beside (z s0)).m = r ∨ ((y s0).beside (z s0)).m = 0) ∧
      ∀ s, SameSizes s0 s → ((y s).beside (z s)).columns = (y s).columns ++ (z s).columns := by
    intro u v y z hu hv ry rz hsz
    have su : Small (d := .two) (y s0) := hu.1
    have sv : Small (d := .two) (z s0) := hv.1
    have zu := su.2
    have zv := sv.2
    have hm : ((y s0).beside (z s0)).m = if (y s0).m = 0 then (z s0).m else (y s0).m := rfl
    have hn : ((y s0).beside (z s0)).n = (y s0).n + (z s0).n := rfl
    have hc : (y s0).m = 0 ∨ (z s0).m = 0 ∨ (y s0).m = (z s0).m := by omega
    have hd : ((y s0).beside (z s0)).m = r ∨ ((y s0).beside (z s0)).m = 0 := by
      rw [hm]; split <;> omega
    refine ⟨gives_mergeH hu hv ⟨?_, ?_⟩ hc, hd, ?_⟩
    · rw [hn]
      have : ((y s0).beside (z s0)).m * ((y s0).n + (z s0).n) ≤ r * ((y s0).n + (z s0).n) :=
        Nat.mul_le_mul_right _ (by omega)
      omega
    · rw [hm, hn]; split <;> omega
    · intro s h
      obtain ⟨d1, d2⟩ := Gives.ext2 hu h
      obtain ⟨d3, d4⟩ := Gives.ext2 hv h
      exact columns_beside (by rw [d1, d2]; exact zu) (by rw [d3, d4]; exact zv) (by rw [d1, d3]; exact hc)
  induction ps generalizing t1 t2 x1 x2 with
  | nil =>
    obtain ⟨k1, k2, k3⟩ := step h1 h2 r1 r2 (by simpa using hs)
    exact ⟨_, k1, k2, by simp [Mat.beside], fun s h => by simpa using k3 s h⟩
  | cons p ps ih =>
    simp only [List.map_cons, List.sum_cons] at hs
    have hle : r * ((x2 s0).n + (p.2 s0).n + (ps.map (fun p => (p.2 s0).n)).sum) ≤
        r * ((x1 s0).n + (x2 s0).n + ((p.2 s0).n + (ps.map (fun p => (p.2 s0).n)).sum)) :=
      Nat.mul_le_mul_left _ (by omega)
    obtain ⟨y, g1, g2, g3, g4⟩ := ih h2 (hp p (by simp)) (fun q hq => hp q (by simp [hq])) r2
      (hr p (by simp)) (fun q hq => hr q (by simp [hq])) (by omega)
    obtain ⟨k1, k2, k3⟩ := step h1 g1 r1 g2 (by
      rw [g3]
      have e : (x1 s0).n + ((x2 s0).n + (p.2 s0).n + (ps.map (fun p => (p.2 s0).n)).sum) =
        (x1 s0).n + (x2 s0).n + ((p.2 s0).n + (ps.map (fun p => (p.2 s0).n)).sum) := by omega
      rw [e]; exact hs)
    refine ⟨_, k1, k2, ?_, fun s h => ?_⟩
    · show (x1 s0).n + (y s0).n = _
      rw [g3]; simp only [List.map_cons, List.sum_cons]; omega
    · rw [k3 s h, g4 s h]
      simp only [List.map_cons, List.flatten_cons, List.append_assoc]

/-- C45: `merge_vertical(A1, A2, As...)` with matrices that all have `c` columns, or are empty, puts
them on top of each other: the rows of the result are the rows of the operands, from top to bottom. -/
theorem C45_on_top (c : Nat) {t1 t2 : Tm α .two} {x1 x2 : Store α → Mat (Res α)}
    (h1 : Gives b s0 t1 x1) (h2 : Gives b s0 t2 x2)
    (ps : List (Tm α .two × (Store α → Mat (Res α)))) (hp : ∀ p ∈ ps, Gives b s0 p.1 p.2)
    (r1 : (x1 s0).n = c ∨ (x1 s0).n = 0) (r2 : (x2 s0).n = c ∨ (x2 s0).n = 0)
    (hr : ∀ p ∈ ps, (p.2 s0).n = c ∨ (p.2 s0).n = 0)
    (hs : (((x1 s0).m + (x2 s0).m + (ps.map (fun p => (p.2 s0).m)).sum) * c : Nat) <
      (2 ^ 63 - 1 : Int)) :
    ∃ x : Store α → Mat (Res α), Gives b s0 (Tm.mergeVN t1 t2 (ps.map Prod.fst)) x ∧
      ((x s0).n = c ∨ (x s0).n = 0) ∧
      (x s0).m = (x1 s0).m + (x2 s0).m + (ps.map (fun p => (p.2 s0).m)).sum ∧
      ∀ s, SameSizes s0 s →
        (x s).lines = (x1 s).lines ++ (x2 s).lines ++
          (ps.map (fun p => (p.2 s).lines)).flatten := by
  have step : ∀ {u v : Tm α .two} {y z : Store α → Mat (Res α)}, Gives b s0 u y → Gives b s0 v z →
      ((y s0).n = c ∨ (y s0).n = 0) → ((z s0).n = c ∨ (z s0).n = 0) →
      ((((y s0).m + (z s0).m) * c : Nat) : Int) < 2 ^ 63 - 1 →
      Gives b s0 (.mergeV u v) (fun s => (y s).above (z s)) ∧
      (((y s0).above (z s0)).n = c ∨ ((y s0).above (z s0)).n = 0) ∧
      ∀ s, SameSizes s0 s → ((y s).above (z s)).lines = (y s).lines ++ (z s).lines := by
    intro u v y z hu hv ry rz hsz
    have su : Small (d := .two) (y s0) := hu.1
    have sv : Small (d := .two) (z s0) := hv.1
    have zu := su.2
    have zv := sv.2
    have hn : ((y s0).above (z s0)).n = if (y s0).n = 0 then (z s0).n else (y s0).n := rfl
    have hm : ((y s0).above (z s0)).m = (y s0).m + (z s0).m := rfl
    have hc : (y s0).n = 0 ∨ (z s0).n = 0 ∨ (y s0).n = (z s0).n := by omega
    have hd : ((y s0).above (z s0)).n = c ∨ ((y s0).above (z s0)).n = 0 := by
      rw [hn]; split <;> omega
    refine ⟨gives_mergeV hu hv ⟨?_, ?_⟩ hc, hd, ?_⟩
    · rw [hm]
      have : ((y s0).m + (z s0).m) * ((y s0).above (z s0)).n ≤ ((y s0).m + (z s0).m) * c :=
        Nat.mul_le_mul_left _ (by omega)
      omega
    · rw [hm, hn]; split <;> omega
    · intro s h
      obtain ⟨d1, d2⟩ := Gives.ext2 hu h
      obtain ⟨d3, d4⟩ := Gives.ext2 hv h
      exact lines_above (by rw [d1, d2]; exact zu) (by rw [d3, d4]; exact zv) (by rw [d2, d4]; exact hc)
  induction ps generalizing t1 t2 x1 x2 with
  | nil =>
    obtain ⟨k1, k2, k3⟩ := step h1 h2 r1 r2 (by simpa using hs)
    exact ⟨_, k1, k2, by simp [Mat.above], fun s h => by simpa using k3 s h⟩
  | cons p ps ih =>
    simp only [List.map_cons, List.sum_cons] at hs
    have hle : ((x2 s0).m + (p.2 s0).m + (ps.map (fun p => (p.2 s0).m)).sum) * c ≤
        ((x1 s0).m + (x2 s0).m + ((p.2 s0).m + (ps.map (fun p => (p.2 s0).m)).sum)) * c :=
      Nat.mul_le_mul_right _ (by omega)
    obtain ⟨y, g1, g2, g3, g4⟩ := ih h2 (hp p (by simp)) (fun q hq => hp q (by simp [hq])) r2
      (hr p (by simp)) (fun q hq => hr q (by simp [hq])) (by omega)
    obtain ⟨k1, k2, k3⟩ := step h1 g1 r1 g2 (by
      rw [g3]
      have e : (x1 s0).m + ((x2 s0).m + (p.2 s0).m + (ps.map (fun p => (p.2 s0).m)).sum) =
        (x1 s0).m + (x2 s0).m + ((p.2 s0).m + (ps.map (fun p => (p.2 s0).m)).sum) := by omega
      rw [e]; exact hs)
    refine ⟨_, k1, k2, ?_, fun s h => ?_⟩
    · show (x1 s0).m + (y s0).m = _
      rw [g3]; simp only [List.map_cons, List.sum_cons]; omega
    · rw [k3 s h, g4 s h]
      simp only [List.map_cons, List.flatten_cons, List.append_assoc]

theorem empty_den {σ : Type} {a : Acc σ α} {s : σ} {M : Mat (Res α)} (h : Den .two a s M)
    (hne : M.m * M.n ≠ 0) : a.empty s = .ok false := by
  simp only [Acc.empty, h.2.2.1, Res.ok_bind, Res.pure_eq]
  rw [beq_eq_false_iff_ne.2 (by omega)]

/-- C45: non-empty matrices whose heights (widths) differ cannot be put side by side (on top of each
other): checked builds trap. -/
theorem C45_mismatch (hb : b.Checked) {t1 t2 : Tm α .two} {x1 x2 : Store α → Mat (Res α)}
    (h1 : Gives b s0 t1 x1) (h2 : Gives b s0 t2 x2) (n1 : (x1 s0).m ≠ 0) (n2 : (x2 s0).m ≠ 0) :
    ((x1 s0).m ≠ (x2 s0).m → (Tm.mergeH t1 t2).build b s0 = .trap b.kind) ∧
    ((x1 s0).n ≠ (x2 s0).n → (Tm.mergeV t1 t2).build b s0 = .trap b.kind) := by
  have z1 : (x1 s0).n ≠ 0 := by have h : Small (d := .two) (x1 s0) := h1.1; have := h.2; omega
  have z2 : (x2 s0).n ≠ 0 := by have h : Small (d := .two) (x2 s0) := h2.1; have := h.2; omega
  obtain ⟨a1, e1, k1⟩ := h1.2.2
  obtain ⟨a2, e2, k2⟩ := h2.2.2
  have rf := SameSizes.refl s0
  have f1 := empty_den (k1 s0 rf) (Nat.mul_ne_zero n1 z1)
  have f2 := empty_den (k2 s0 rf) (Nat.mul_ne_zero n2 z2)
  constructor
  · intro hne
    simp only [Tm.build, e1, e2, Res.ok_bind, Tm.mkMergeH, f1, f2, Bool.not_false, Bool.and_self,
      if_true]
    rw [(k1 s0 rf).1, (k2 s0 rf).1, beq_eq_false_iff_ne.2 (by omega), assertDebug_false hb]
    rfl
  · intro hne
    simp only [Tm.build, e1, e2, Res.ok_bind, Tm.mkMergeV, f1, f2, Bool.not_false, Bool.and_self,
      if_true]
    rw [(k1 s0 rf).2.1, (k2 s0 rf).2.1, beq_eq_false_iff_ne.2 (by omega), assertDebug_false hb]
    rfl

/-- Finding: a tensor product with one empty factor has 0 rows but 3 columns.  It counts as empty, so
`merge_horizontal` accepts it beside any matrix, and then reads elements that do not exist - also in
checked builds. -/
theorem C45_thin_operand_reads_outside :
    ∃ a, (Tm.mergeH (.tensor Sample.ints (.lv (.arr1 5)) Sample.x) Sample.A).build
        ⟨false, true, false⟩ Sample.store = .ok a ∧
      a.rows Sample.store = 2 ∧ a.cols Sample.store = 6 ∧ a.un2 Sample.store 0 0 = .ub := by
  refine ⟨_, rfl, rfl, rfl, ?_⟩
  decide +kernel

/-! ### Exclude -/

/-- C46: `exclude(A, pos, count)` reads as the list without the elements `pos, ..., pos+count-1`. -/
theorem C46_exclude {t : Tm α .one} {x : Store α → List (Res α)} (h : Gives b s0 t x) {p c : Nat}
    (hc : 0 < c) (hpc : p + c ≤ (x s0).length) :
    Gives b s0 (.exclude t p c)
      (fun s => (List.take p (x s) ++ List.drop (p + c) (x s) : List (Res α))) := by
  have := gives_exclude h (p := p) (c := c) (by omega) (by omega) (by omega)
  simpa only [Int.toNat_natCast, removed] using this

/-- C46: evaluating `exclude(A, pos, count)` for an array gives what `A.remove(pos, count)` leaves in
the array. -/
theorem C46_same_as_remove (b : Build) {s : Store α} (hs : Store.Ok s) (id : Nat) {p c : Nat}
    (hc : 0 < c) (hpc : p + c ≤ (s.a1 id).length) :
    ∃ a, (Tm.exclude (.lv (.arr1 id)) p c).build b s = .ok a ∧
      ∃ r, a.eval1 b s = .ok r ∧ Arr1.remove b p c (s.a1 id) = (.ok (), r) := by
  have h0 := C43_reads b hs (t := (Tm.lv (.arr1 id) : Tm α .one)) trivial trivial
  have hx : ∀ s' : Store α, Tm.meaning s' (.lv (.arr1 id) : Tm α .one) = (s'.a1 id).map Res.ok := by
    intro s'
    show List.map (fun r => r >>= s'.read) ((List.range (s'.a1 id).length).map
      (fun k => Res.ok (Loc.one id k))) = _
    rw [List.map_map]
    apply List.ext_getElem
    · simp
    · intro i h1 h2
      simp only [List.getElem_map, List.getElem_range, Function.comp_apply, Res.ok_bind, Store.read]
      rw [rd_nat (by simpa using h2)]
  have hl : List.length (Tm.meaning s (.lv (.arr1 id) : Tm α .one)) = (s.a1 id).length := by
    rw [hx]; exact List.length_map _
  have hpc' : p + c ≤ List.length (Tm.meaning s (.lv (.arr1 id) : Tm α .one)) := by rw [hl]; exact hpc
  obtain ⟨a, h1, h2⟩ := C43_eval_1D b (C46_exclude h0 hc hpc')
  have hr := C25_remove b (l := s.a1 id) (pos := p) (count := c)
    (by have := hs.1 id; show ((s.a1 id).length : Int) < _; omega) (by omega) (by omega) (by omega)
  refine ⟨a, h1, _, ?_, hr⟩
  rw [h2 s (SameSizes.refl s), evalAll_eq_ok]
  show List.append (List.take p _) (List.drop (p + c) _) = _
  rw [hx]
  simp [removed]

/-- C46: positions or counts outside the list are rejected by checked builds (as long as `pos + count`
does not overflow, see below). -/
theorem C46_rejected (hb : b.Checked) {t : Tm α .one} {x : Store α → List (Res α)} (h : Gives b s0 t x)
    {p c : Int} (hi : IsIndex (p + c)) (hi' : IsIndex (p + c - 1))
    (hbad : ¬ (0 ≤ p ∧ 0 < c ∧ p + c ≤ (x s0).length)) :
    (Tm.exclude t p c).build b s0 = .trap b.kind := by
  obtain ⟨a, e1, k1⟩ := h.2.2
  have e2 := (k1 s0 (SameSizes.refl _)).1
  simp only [Tm.build, e1, Res.ok_bind, Tm.mkExclude, e2]
  by_cases hc : 0 < c
  · rw [decide_eq_true (show c > 0 from hc), assertDebug_true, Res.ok_bind]
    by_cases hp : InRange (x s0).length p
    · rw [validIndex_iff.2 hp, assertDebug_true, Res.ok_bind, iadd_ok hi, Res.ok_bind, isub_ok hi',
        Res.ok_bind]
      have hv : validIndex ((x s0).length : Int) (p + c - 1) = false := by
        cases hv : validIndex ((x s0).length : Int) (p + c - 1) with
        | false => rfl
        | true => exact absurd ⟨hp.1, hc, by have := (validIndex_iff.1 hv).2; omega⟩ hbad
      rw [hv, assertDebugM_checked hb, Res.pure_eq, Res.ok_bind, assertAlways_false hb.2]
      rfl
    · have hv : validIndex ((x s0).length : Int) p = false := by
        cases hv : validIndex ((x s0).length : Int) p with
        | false => rfl
        | true => exact absurd (validIndex_iff.1 hv) hp
      rw [hv, assertDebug_false hb]
      rfl
  · rw [decide_eq_false (show ¬ c > 0 from hc), assertDebug_false hb]
    rfl

/-- C46: `exclude(A, last - k)` drops the last element, whatever `k` is. -/
theorem C46_exclude_last {t : Tm α .one} {x : Store α → List (Res α)} (h : Gives b s0 t x)
    (hp : 0 < (x s0).length) (k : Int) :
    Gives b s0 (.excludeLast t k) (fun s => (x s).dropLast) :=
  gives_excludeLast h hp k

/-- C46 is false for `exclude(A, last - k)`: on `[1, 2, 3]`, `last - 1` should drop the `2`, but the
`3` is dropped. -/
theorem C46_last_minus_k_false :
    ∃ a, (Tm.excludeLast Sample.x 1).build ⟨false, true, false⟩ Sample.store = .ok a ∧
      a.eval1 ⟨false, true, false⟩ Sample.store = .ok [1, 2] ∧
      removed [1, 2, 3] (3 - 1 - 1) 1 = [1, 3] := by
  obtain ⟨a, h1, h2⟩ := C43_eval_1D ⟨false, true, false⟩ (C46_exclude_last (k := 1)
    (C43_reads (α := Int) ⟨false, true, false⟩ Sample.store_ok (t := Sample.x) (by decide) (by decide))
    (by decide))
  exact ⟨a, h1, by rw [h2 _ (SameSizes.refl _)]; rfl, rfl⟩

/-! ### The hypotheses are satisfied by concrete expressions -/

section
open Sample

/-- The operands of the following examples give what they mean. -/
theorem gx : Gives ⟨false, true, false⟩ store x (fun s => x.meaning s) :=
  C43_reads _ store_ok (by decide) (by decide)
theorem gy : Gives ⟨false, true, false⟩ store y (fun s => y.meaning s) :=
  C43_reads _ store_ok (by decide) (by decide)
theorem gA : Gives ⟨false, true, false⟩ store A (fun s => A.meaning s) :=
  C43_reads _ store_ok (by decide) (by decide)

example : ∃ a, (Tm.mergeN x y [x, y]).build ⟨false, true, false⟩ store = .ok a ∧
    a.eval1 ⟨false, true, false⟩ store = .ok [1, 2, 3, 4, 5, 6, 1, 2, 3, 4, 5, 6] := by
  obtain ⟨a, h1, h2⟩ := C43_eval_1D _ (C45_any_number gx gy
    [(x, fun s => x.meaning s), (y, fun s => y.meaning s)] (by
      intro p hp
      rcases List.mem_cons.1 hp with rfl | hp
      · exact gx
      · rw [List.mem_singleton.1 hp]; exact gy) (by decide))
  exact ⟨a, h1, by rw [h2 _ (SameSizes.refl _)]; rfl⟩

example : ∃ a, (Tm.appendN x 7 [8, 9]).build ⟨false, true, false⟩ store = .ok a ∧
    a.eval1 ⟨false, true, false⟩ store = .ok [1, 2, 3, 7, 8, 9] := by
  obtain ⟨a, h1, h2⟩ := C43_eval_1D _ (C45_scalars_after gx 7 [8, 9] (by decide))
  exact ⟨a, h1, by rw [h2 _ (SameSizes.refl _)]; rfl⟩

example : ∃ a, (Tm.prependN 7 [8, 9] x).build ⟨false, true, false⟩ store = .ok a ∧
    a.eval1 ⟨false, true, false⟩ store = .ok [7, 8, 9, 1, 2, 3] := by
  obtain ⟨a, h1, h2⟩ := C43_eval_1D _ (C45_scalars_before gx 7 [8, 9] (by decide))
  exact ⟨a, h1, by rw [h2 _ (SameSizes.refl _)]; rfl⟩

/-- The 2x3 matrix, an empty matrix and the 2x3 matrix again. -/
example : ∃ xm, Gives ⟨false, true, false⟩ store (Tm.mergeHN A (.lv (.arr2 5)) [A]) xm ∧
    (xm store).columns = [[.ok 1, .ok 4], [.ok 2, .ok 5], [.ok 3, .ok 6],
      [.ok 1, .ok 4], [.ok 2, .ok 5], [.ok 3, .ok 6]] := by
  obtain ⟨xm, h1, _, _, h4⟩ := C45_side_by_side 2 gA
    (C43_reads (α := Int) (t := .lv (.arr2 5)) _ store_ok (by decide) (by decide))
    [(A, fun s => A.meaning s)] (by intro p hp; rw [List.mem_singleton.1 hp]; exact gA)
    (.inl rfl) (.inr rfl) (by intro p hp; rw [List.mem_singleton.1 hp]; exact .inl rfl) (by decide)
  exact ⟨xm, h1, by rw [h4 _ (SameSizes.refl _)]; rfl⟩

example : ∃ xm, Gives ⟨false, true, false⟩ store (Tm.mergeVN A A [.lv (.arr2 5)]) xm ∧
    (xm store).lines = [[.ok 1, .ok 2, .ok 3], [.ok 4, .ok 5, .ok 6],
      [.ok 1, .ok 2, .ok 3], [.ok 4, .ok 5, .ok 6]] := by
  obtain ⟨xm, h1, _, _, h4⟩ := C45_on_top 3 gA gA
    [(.lv (.arr2 5), fun s => Tm.meaning s (.lv (.arr2 5)))]
    (by intro p hp; rw [List.mem_singleton.1 hp]
        exact C43_reads (α := Int) (t := .lv (.arr2 5)) _ store_ok (by decide) (by decide))
    (.inl rfl) (.inl rfl) (by intro p hp; rw [List.mem_singleton.1 hp]; exact .inr rfl) (by decide)
  exact ⟨xm, h1, by rw [h4 _ (SameSizes.refl _)]; rfl⟩

/-- A 2x3 matrix does not fit beside a 3x2 one. -/
example : (Tm.mergeH A (.transpose A)).build ⟨false, true, false⟩ store =
    .trap (Build.kind ⟨false, true, false⟩) :=
  (C45_mismatch (by decide) gA (C44_transpose gA) (by decide) (by decide)).1 (by decide)

example : ∃ a, (Tm.exclude y 0 2).build ⟨false, true, false⟩ store = .ok a ∧
    a.eval1 ⟨false, true, false⟩ store = .ok [6] := by
  obtain ⟨a, h1, h2⟩ := C43_eval_1D _ (C46_exclude gy (p := 0) (c := 2) (by decide) (by decide))
  exact ⟨a, h1, by rw [h2 _ (SameSizes.refl _)]; rfl⟩

example : (Tm.exclude y 2 2).build ⟨false, true, false⟩ store =
    .trap (Build.kind ⟨false, true, false⟩) :=
  C46_rejected (by decide) gy (by decide) (by decide) (by decide)

end

end Spp.Props
