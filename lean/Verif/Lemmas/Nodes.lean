import Verif.Lemmas.NoUb
import Verif.Model.Variadic

/- What each node of an expression gives, in terms of what its operands give. -/

set_option linter.unusedSectionVars false

namespace Spp
open Spec

variable {α : Type} {b : Build} {s0 : Store α}

theorem Gives.len {t : Tm α .one} {x : Store α → List (Res α)} (h : Gives b s0 t x) {s : Store α}
    (hs : SameSizes s0 s) : (x s).length = (x s0).length := dims_one.1 (h.2.1 s hs)

theorem Gives.ext2 {t : Tm α .two} {x : Store α → Mat (Res α)} (h : Gives b s0 t x) {s : Store α}
    (hs : SameSizes s0 s) : (x s).m = (x s0).m ∧ (x s).n = (x s0).n := dims_two.1 (h.2.1 s hs)

theorem gives_merge {t1 t2 : Tm α .one} {x1 x2 : Store α → List (Res α)} (h1 : Gives b s0 t1 x1)
    (h2 : Gives b s0 t2 x2) (hs : ((x1 s0).length + (x2 s0).length : Int) < 2 ^ 63 - 1) :
    Gives b s0 (.merge t1 t2) (fun s => (x1 s ++ x2 s : List (Res α))) := by
  obtain ⟨a1, e1, k1⟩ := h1.2.2
  obtain ⟨a2, e2, k2⟩ := h2.2.2
  have rf := SameSizes.refl s0
  obtain ⟨hsm, a', h5, h6⟩ := merge_node b (k1 s0 rf) (k2 s0 rf) hs
  refine ⟨hsm, fun s h => ?_, a', by simp only [Tm.build, e1, e2, Res.ok_bind, h5], fun s h => ?_⟩
  · exact dims_one.2 (by rw [List.length_append, List.length_append, Gives.len h1 h, Gives.len h2 h])
  · exact h6 s _ _ (Gives.len h1 h) (Gives.len h2 h) (k1 s h) (k2 s h)

theorem gives_append {t : Tm α .one} {x : Store α → List (Res α)} {c : α} (h1 : Gives b s0 t x)
    (hs : ((x s0).length + 1 : Int) < 2 ^ 63 - 1) :
    Gives b s0 (.append t c) (fun s => (x s ++ [.ok c] : List (Res α))) := by
  obtain ⟨a1, e1, k1⟩ := h1.2.2
  have rf := SameSizes.refl s0
  obtain ⟨hsm, a', h5, h6⟩ := append_node b (x := c) (k1 s0 rf) hs
  refine ⟨hsm, fun s h => ?_, a', by simp only [Tm.build, e1, Res.ok_bind, h5], fun s h => ?_⟩
  · exact dims_one.2 (by rw [List.length_append, List.length_append, Gives.len h1 h])
  · exact h6 s _ (Gives.len h1 h) (k1 s h)

theorem gives_prepend {t : Tm α .one} {x : Store α → List (Res α)} {c : α} (h1 : Gives b s0 t x)
    (hs : ((x s0).length + 1 : Int) < 2 ^ 63 - 1) :
    Gives b s0 (.prepend c t) (fun s => (.ok c :: x s : List (Res α))) := by
  obtain ⟨a1, e1, k1⟩ := h1.2.2
  have rf := SameSizes.refl s0
  obtain ⟨hsm, a', h5, h6⟩ := prepend_node b (x := c) (k1 s0 rf) hs
  refine ⟨hsm, fun s h => ?_, a', by simp only [Tm.build, e1, Res.ok_bind, h5], fun s h => ?_⟩
  · exact dims_one.2 (by rw [List.length_cons, List.length_cons, Gives.len h1 h])
  · exact h6 s _ (Gives.len h1 h) (k1 s h)

theorem gives_exclude {t : Tm α .one} {x : Store α → List (Res α)} (h1 : Gives b s0 t x) {p c : Int}
    (hp : 0 ≤ p) (hc : 0 < c) (hpc : p + c ≤ (x s0).length) :
    Gives b s0 (.exclude t p c) (fun s => removed (x s) p.toNat c.toNat) := by
  obtain ⟨a1, e1, k1⟩ := h1.2.2
  have rf := SameSizes.refl s0
  obtain ⟨a', h3, h4⟩ := mkExclude_ok b (k1 s0 rf) h1.1 hp hc hpc
  refine ⟨removed_small h1.1, fun s h => dims_one.2 (len_removed (Gives.len h1 h)), a',
    by simp only [Tm.build, e1, Res.ok_bind, h3], fun s h => h4 s _ (Gives.len h1 h) (k1 s h)⟩

theorem gives_excludeLast {t : Tm α .one} {x : Store α → List (Res α)} (h1 : Gives b s0 t x)
    (hp : 0 < (x s0).length) (k : Int) :
    Gives b s0 (.excludeLast t k) (fun s => (x s).dropLast) := by
  obtain ⟨a1, e1, k1⟩ := h1.2.2
  have rf := SameSizes.refl s0
  obtain ⟨hsm, a', h3, h4⟩ := excludeLast_node b (k1 s0 rf) h1.1 hp
  refine ⟨hsm, fun s h => dims_one.2 (len_dropLast (Gives.len h1 h)), a',
    by simp only [Tm.build, e1, Res.ok_bind, h3], fun s h => h4 s _ (Gives.len h1 h) (k1 s h)⟩

theorem gives_transpose {t : Tm α .two} {x : Store α → Mat (Res α)} (h1 : Gives b s0 t x) :
    Gives b s0 (.transpose t) (fun s => (x s).transposed) := by
  have hsm : Small (d := .two) (x s0) := h1.1
  obtain ⟨a, e1, k1⟩ := h1.2.2
  have rf := SameSizes.refl s0
  obtain ⟨e2, e3, _⟩ := k1 s0 rf
  refine ⟨⟨?_, hsm.2.symm⟩, fun s h => ?_, a.transpose b (a.cols s0) (a.rows s0), ?_, fun s h => ?_⟩
  · show (((x s0).n * (x s0).m : Nat) : Int) < 2 ^ 63 - 1
    rw [Nat.mul_comm]; exact hsm.1
  · exact dims_two.2 ⟨(Gives.ext2 h1 h).2, (Gives.ext2 h1 h).1⟩
  · simp only [Tm.build, e1, Res.ok_bind, Res.pure_eq]
    rw [gt_neg_one (by rw [e3]; omega), gt_neg_one (by rw [e2]; omega), assertDebug_true,
      Res.ok_bind, Res.ok_bind]
  · obtain ⟨d1, d2⟩ := Gives.ext2 h1 h
    refine den_twoD b (M := (x s).transposed) ?_ ?_ ?_ ?_
    · rw [e3]; show _ = ((x s).n : Int); rw [d2]
    · rw [e2]; show _ = ((x s).m : Int); rw [d1]
    · show (((x s).n * (x s).m : Nat) : Int) < 2 ^ 63
      rw [d1, d2, Nat.mul_comm]; have := hsm.1; omega
    · intro i j hi hj
      exact ((k1 s h).2.2.2 j i hj hi).1

theorem gives_mergeH {t1 t2 : Tm α .two} {x1 x2 : Store α → Mat (Res α)} (h1 : Gives b s0 t1 x1)
    (h2 : Gives b s0 t2 x2) (hs : Small (d := .two) ((x1 s0).beside (x2 s0)))
    (hv : (x1 s0).m = 0 ∨ (x2 s0).m = 0 ∨ (x1 s0).m = (x2 s0).m) :
    Gives b s0 (.mergeH t1 t2) (fun s => (x1 s).beside (x2 s)) := by
  obtain ⟨a1, e1, k1⟩ := h1.2.2
  obtain ⟨a2, e2, k2⟩ := h2.2.2
  have rf := SameSizes.refl s0
  obtain ⟨a', h5, h6⟩ := mkMergeH_ok b (k1 s0 rf) (k2 s0 rf) h1.1 h2.1 hs hv
  refine ⟨hs, fun s h => ?_, a', by simp only [Tm.build, e1, e2, Res.ok_bind, h5], fun s h => ?_⟩
  · obtain ⟨d1, d2⟩ := Gives.ext2 h1 h
    obtain ⟨d3, d4⟩ := Gives.ext2 h2 h
    exact dims_two.2 ⟨by simp only [Mat.beside, d1, d3], by simp only [Mat.beside, d2, d4]⟩
  · obtain ⟨d1, d2⟩ := Gives.ext2 h1 h
    obtain ⟨d3, d4⟩ := Gives.ext2 h2 h
    exact h6 s _ _ d1 d2 d3 d4 (k1 s h) (k2 s h)

theorem gives_mergeV {t1 t2 : Tm α .two} {x1 x2 : Store α → Mat (Res α)} (h1 : Gives b s0 t1 x1)
    (h2 : Gives b s0 t2 x2) (hs : Small (d := .two) ((x1 s0).above (x2 s0)))
    (hv : (x1 s0).n = 0 ∨ (x2 s0).n = 0 ∨ (x1 s0).n = (x2 s0).n) :
    Gives b s0 (.mergeV t1 t2) (fun s => (x1 s).above (x2 s)) := by
  obtain ⟨a1, e1, k1⟩ := h1.2.2
  obtain ⟨a2, e2, k2⟩ := h2.2.2
  have rf := SameSizes.refl s0
  obtain ⟨a', h5, h6⟩ := mkMergeV_ok b (k1 s0 rf) (k2 s0 rf) h1.1 h2.1 hs hv
  refine ⟨hs, fun s h => ?_, a', by simp only [Tm.build, e1, e2, Res.ok_bind, h5], fun s h => ?_⟩
  · obtain ⟨d1, d2⟩ := Gives.ext2 h1 h
    obtain ⟨d3, d4⟩ := Gives.ext2 h2 h
    exact dims_two.2 ⟨by simp only [Mat.above, d1, d3], by simp only [Mat.above, d2, d4]⟩
  · obtain ⟨d1, d2⟩ := Gives.ext2 h1 h
    obtain ⟨d3, d4⟩ := Gives.ext2 h2 h
    exact h6 s _ _ d1 d2 d3 d4 (k1 s h) (k2 s h)

theorem gives_reduce {t : Tm α .two} {x : Store α → Mat (Res α)} (h1 : Gives b s0 t x)
    (g : List (Res α) → Res α) :
    Gives b s0 (.reduce true g t) (fun s => (List.range (x s).m).map (fun i => g ((x s).row i))) ∧
    Gives b s0 (.reduce false g t) (fun s => (List.range (x s).n).map (fun j => g ((x s).col j))) := by
  obtain ⟨a, e1, k1⟩ := h1.2.2
  have hsm : Small (d := .two) (x s0) := h1.1
  obtain ⟨hm, hn⟩ := two_of_m hsm
  have key : ∀ rw' s, SameSizes s0 s →
      Den .one (Tm.reduceAcc b rw' (fun r s => g (Tm.elems r s)) a) s
        (if rw' then (List.range (x s).m).map (fun i => g ((x s).row i))
         else (List.range (x s).n).map (fun j => g ((x s).col j))) := fun rw' s h =>
    den_reduce b (rw' := rw') g (k1 s h) (small_congr (h1.2.1 s h).symm hsm)
        (op := fun r s => g (Tm.elems r s)) (fun r l _ hl => by rw [elems_ok hl])
  refine ⟨⟨?_, fun s h => ?_, _, ?_, key true⟩, ⟨?_, fun s h => ?_, _, ?_, key false⟩⟩
  · show (((List.range _).map _).length : Int) < 2 ^ 63 - 1
    rw [List.length_map, List.length_range]; exact hm
  · exact dims_one.2 (len_range (Gives.ext2 h1 h).1)
  · simp only [Tm.build, e1, Res.ok_bind, Res.pure_eq]
  · show (((List.range _).map _).length : Int) < 2 ^ 63 - 1
    rw [List.length_map, List.length_range]; exact hn
  · exact dims_one.2 (len_range (Gives.ext2 h1 h).2)
  · simp only [Tm.build, e1, Res.ok_bind, Res.pure_eq]

theorem gives_matvec {t : Tm α .two} {v : Tm α .one} {x : Store α → Mat (Res α)}
    {y : Store α → List (Res α)} (h1 : Gives b s0 t x) (h2 : Gives b s0 v y)
    (hd : (x s0).n = (y s0).length) (ar : Arith α) :
    Gives b s0 (.matvec ar t v)
      (fun s => (List.range (x s).m).map (fun i => inner ar ((x s).row i) (y s))) := by
  obtain ⟨a, e1, k1⟩ := h1.2.2
  obtain ⟨u, e2, k2⟩ := h2.2.2
  have rf := SameSizes.refl s0
  have hsm : Small (d := .two) (x s0) := h1.1
  obtain ⟨hm, hn⟩ := two_of_m hsm
  refine ⟨?_, fun s h => dims_one.2 (len_range (Gives.ext2 h1 h).1),
    Tm.reduceAcc b true (fun r s => Tm.dotOp b ar r u s) a, ?_, fun s h => ?_⟩
  · show (((List.range _).map _).length : Int) < 2 ^ 63 - 1
    rw [List.length_map, List.length_range]; exact hm
  · simp only [Tm.build, e1, e2, Res.ok_bind, Res.pure_eq]
    rw [(k1 s0 rf).2.1, (k2 s0 rf).1, hd, beq_self_eq_true, assertDebug_true, Res.ok_bind]
  · refine den_reduce b (rw' := true) (fun l => inner ar l (y s)) (k1 s h)
      (small_congr (h1.2.1 s h).symm hsm) (op := fun r s => Tm.dotOp b ar r u s) ?_
    intro r l hl hd'
    refine dotOp_ok b hd' (k2 s h) ?_
    rw [hl, if_pos rfl, (Gives.ext2 h1 h).2, hd, Gives.len h2 h]

theorem gives_bcast {t : Tm α .one} {x : Store α → List (Res α)} (h1 : Gives b s0 t x)
    (hs : (((x s0).length * (x s0).length : Nat) : Int) < 2 ^ 63 - 1) :
    Gives b s0 (.bcast true t)
      (fun s => (⟨(x s).length, (x s).length, fun _ j => (x s).getD j .ub⟩ : Mat (Res α))) ∧
    Gives b s0 (.bcast false t)
      (fun s => (⟨(x s).length, (x s).length, fun i _ => (x s).getD i .ub⟩ : Mat (Res α))) := by
  obtain ⟨a, e1, k1⟩ := h1.2.2
  refine ⟨⟨⟨hs, Iff.rfl⟩, fun s h => dims_two.2 ⟨Gives.len h1 h, Gives.len h1 h⟩, a.bcast b true,
      by simp only [Tm.build, e1, Res.ok_bind, Res.pure_eq], fun s h => ?_⟩,
    ⟨⟨hs, Iff.rfl⟩, fun s h => dims_two.2 ⟨Gives.len h1 h, Gives.len h1 h⟩, a.bcast b false,
      by simp only [Tm.build, e1, Res.ok_bind, Res.pure_eq], fun s h => ?_⟩⟩
  · obtain ⟨e1, _, e2⟩ := k1 s h
    have hl := Gives.len h1 h
    refine den_twoD b e1 e1 ?_ (fun i j hi hj => e2 j hj)
    show (((x s).length * (x s).length : Nat) : Int) < 2 ^ 63
    rw [hl]; omega
  · obtain ⟨e1, _, e2⟩ := k1 s h
    have hl := Gives.len h1 h
    refine den_twoD b e1 e1 ?_ (fun i j hi hj => e2 i hi)
    show (((x s).length * (x s).length : Nat) : Int) < 2 ^ 63
    rw [hl]; omega

/-- The tensor product; the operands may be empty, and then the result need not be `Small` in the
sense that rows vanish exactly when columns do. -/
theorem tensor_den {t1 t2 : Tm α .one} {x1 x2 : Store α → List (Res α)} (h1 : Gives b s0 t1 x1)
    (h2 : Gives b s0 t2 x2) (hs : (((x1 s0).length * (x2 s0).length : Nat) : Int) < 2 ^ 63 - 1)
    (ar : Arith α) :
    ∃ a, (Tm.tensor ar t1 t2).build b s0 = .ok a ∧ ∀ s, SameSizes s0 s →
      Den .two a s ⟨(x1 s).length, (x2 s).length, fun i j => do
        let u ← (x1 s).getD i .ub
        let v ← (x2 s).getD j .ub
        ar.mul u v⟩ := by
  obtain ⟨a1, e1, k1⟩ := h1.2.2
  obtain ⟨a2, e2, k2⟩ := h2.2.2
  refine ⟨Acc.tensor b ar.mul a1 a2, by simp only [Tm.build, e1, e2, Res.ok_bind, Res.pure_eq],
    fun s h => ?_⟩
  obtain ⟨f1, _, f2⟩ := k1 s h
  obtain ⟨f3, _, f4⟩ := k2 s h
  have hl1 := Gives.len h1 h
  have hl2 := Gives.len h2 h
  refine den_twoD b f1 f3 ?_ ?_
  · show (((x1 s).length * (x2 s).length : Nat) : Int) < 2 ^ 63
    rw [hl1, hl2]; omega
  · intro i j hi hj
    show (do let x ← a1.un s i; let y ← a2.un s j; ar.mul x y) = _
    rw [f2 i hi, f4 j hj]

end Spp
