import Verif.Lemmas.Jacobi

/- `A.diag() += 2 * row_reduce(A, sum)`. -/

set_option linter.unusedSectionVars false

namespace Spp.Lemmas

open Spec Examples Props

variable {α : Type} [Inhabited α] (P : TotalArith α) {M : List (List α)} {rhs p q : List α}

theorem sumOf_total (l : List α) : sumOf P.scalar.toArith (l.map Res.ok) = .ok (P.total l) := by
  have h : Elems .one (Acc.oneD (fun _ => len (l.map Res.ok))
      (fun _ i => if 0 ≤ i then (l.map (Res.ok : α → Res α)).getD i.toNat .ub else .ub) : Acc Unit α) () l := by
    refine ⟨l.map Res.ok, ⟨rfl, rfl, fun i hi => ?_⟩, rfl⟩
    have h0 : 0 ≤ (i : Int) := by omega
    simp [Acc.oneD, h0]
  obtain ⟨k1, k2⟩ := C52_left_to_right h P.scalar.toArith P.zero
  unfold sumOf
  cases l with
  | nil => exact (k1 rfl).1
  | cons x xs =>
    refine ((k2 x xs rfl).1).trans ?_
    exact foldlM_pure (f := fun acc y => P.scalar.add acc y) _ _ (g := P.add) (fun _ _ _ => rfl)

/-- The rows after the first `k` updates. -/
def partway (P : TotalArith α) (two : α) (M : List (List α)) (k : Nat) : List (List α) :=
  M.mapIdx (fun i r => if i < k then r.set i (P.add (r.getD i P.zero) (P.mul two (P.total r))) else r)

theorem partway_length (two : α) (k : Nat) : (partway P two M k).length = M.length := by simp [partway]

theorem partway_square (hM : Square M rhs) (two : α) (k : Nat) : Square (partway P two M k) rhs := by
  refine ⟨fun r hr => ?_, by rw [partway_length]; exact hM.rhs, by rw [partway_length]; exact hM.small⟩
  rw [partway_length]
  obtain ⟨i, hi, rfl⟩ := List.mem_iff_getElem.1 hr
  rw [partway_length] at hi
  have := hM.rows _ (List.getElem_mem hi)
  simp only [partway, List.getElem_mapIdx]
  split <;> simp [this]

theorem partway_zero (two : α) : partway P two M 0 = M := by
  refine List.ext_getElem (partway_length P two 0) (fun i h1 h2 => ?_)
  simp [partway]

theorem partway_all (two : α) : partway P two M M.length = P.raised two M := by
  refine List.ext_getElem (by simp [partway, TotalArith.raised]) (fun i h1 h2 => ?_)
  have h : i < M.length := by simpa [partway] using h1
  simp [partway, TotalArith.raised, h]

theorem flatten_eq_of {n : Nat} {L : List (List α)} {l : List α} (h : ∀ r ∈ L, r.length = n)
    (hl : l.length = L.length * n) (he : ∀ i j (hi : i < L.length), j < n → l[i * n + j]? = (L[i])[j]?) :
    l = L.flatten := by
  refine List.ext_getElem? (fun k => ?_)
  by_cases hk : k < L.length * n
  · have hn : 0 < n := by rcases Nat.eq_zero_or_pos n with h0 | h0; · simp [h0] at hk
                          exact h0
    have hi : k / n < L.length := (Nat.div_lt_iff_lt_mul hn).2 hk
    have hj : k % n < n := Nat.mod_lt _ hn
    have e : k = k / n * n + k % n := by rw [Nat.mul_comm]; exact (Nat.div_add_mod k n).symm
    rw [e, he _ _ hi hj, flatten_get h hi hj]
  · rw [List.getElem?_eq_none (by omega), List.getElem?_eq_none (by rw [flatten_len h]; omega)]

theorem flatten_partway (hM : Square M rhs) (two : α) {k : Nat} (hk : k < M.length) :
    (partway P two M k).flatten.set (k * M.length + k) (P.add ((M[k]).getD k P.zero) (P.mul two (P.total M[k]))) =
      (partway P two M (k + 1)).flatten := by
  have hp := partway_square P hM two k
  have hp' := partway_square P hM two (k + 1)
  have hl := partway_length P (M := M) two k
  have hl' := partway_length P (M := M) two (k + 1)
  have r1 : ∀ r ∈ partway P two M k, r.length = M.length := fun r h => (hp.rows r h).trans hl
  have r2 : ∀ r ∈ partway P two M (k + 1), r.length = M.length := fun r h => (hp'.rows r h).trans hl'
  refine flatten_eq_of (n := M.length) r2 (by rw [List.length_set, flatten_len r1, hl, hl']) (fun i j hi hj => ?_)
  have hi' : i < M.length := by omega
  have hr : (M[i]).length = M.length := hM.rows _ (List.getElem_mem _)
  rw [List.getElem?_set, flatten_get r1 (by omega) hj]
  have hlen : k * M.length + k < (partway P two M k).flatten.length := by
    rw [flatten_len r1, hl]
    have : (k + 1) * M.length ≤ M.length * M.length := Nat.mul_le_mul_right _ hk
    rw [Nat.succ_mul] at this; omega
  rw [if_pos hlen]
  simp only [partway, List.getElem_mapIdx]
  by_cases e : k * M.length + k = i * M.length + j
  · have e1 : k = i := by
      have a1 : (k * M.length + k) / M.length = k := by
        rw [Nat.add_comm, Nat.add_mul_div_right _ _ (by omega), Nat.div_eq_of_lt hk, Nat.zero_add]
      have a2 : (i * M.length + j) / M.length = i := by
        rw [Nat.add_comm, Nat.add_mul_div_right _ _ (by omega), Nat.div_eq_of_lt hj, Nat.zero_add]
      rw [← a1, e, a2]
    subst e1
    have e2 : j = k := by omega
    subst e2
    rw [if_pos rfl, if_pos (Nat.lt_succ_self _), List.getElem?_set_self (by omega)]
  · rw [if_neg e]
    rcases Nat.lt_trichotomy i k with h | h | h
    · rw [if_pos h, if_pos (by omega)]
    · subst h
      rw [if_neg (Nat.lt_irrefl _), if_pos (Nat.lt_succ_self _), List.getElem?_set_ne (by omega)]
    · rw [if_neg (by omega), if_neg (by omega)]

theorem partway_get (two : α) {k : Nat} (hk : k < M.length) :
    (partway P two M k)[k]'(by rw [partway_length]; exact hk) = M[k] := by simp [partway]

theorem places_diag (hM : Square M rhs) :
    Places (.view .diag (.arr2 0)) (vars (matrixOf M) rhs p q)
      ((List.range M.length).map (fun i => Loc.two 0 (i * M.length + i))) := by
  refine ⟨?_, fun c hc => ?_⟩
  · show Mat.diagonal _ 0 = _
    unfold Mat.diagonal
    rw [if_pos (by decide)]
    show (List.range (min (Int.toNat (M.length : Int)) (Int.toNat (M.length : Int) - 0))).map _ = _
    rw [Int.toNat_natCast, Nat.sub_zero, Nat.min_self, List.map_map]
    rfl
  · simp only [List.mem_map, List.mem_range] at hc
    obtain ⟨i, hi, rfl⟩ := hc
    show i * M.length + i < M.flatten.length
    rw [flatten_len hM.rows]
    have : (i + 1) * M.length ≤ M.length * M.length := Nat.mul_le_mul_right _ hi
    rw [Nat.succ_mul] at this; omega

theorem sameSizes_vars {M M' : List (List α)} (hM : Square M rhs) (hM' : Square M' rhs) :
    SameSizes (vars (matrixOf M) rhs p q) (vars (matrixOf M') rhs p q) := by
  have e : M.length = M'.length := by rw [← hM.rhs, hM'.rhs]
  refine ⟨fun _ => rfl, fun id => ?_⟩
  match id with
  | 0 =>
    refine ⟨by show (M.length : Int) = M'.length; rw [e], by show (M.length : Int) = M'.length; rw [e], ?_⟩
    show M.flatten.length = M'.flatten.length
    rw [flatten_len hM.rows, flatten_len hM'.rows, e]
  | _ + 1 => exact ⟨rfl, rfl, rfl⟩

theorem meaning_increment (two : α) (hM : Square M rhs) :
    (Tm.scalarL P.scalar.mul two (.reduce true (sumOf P.scalar.toArith) (.lv (.arr2 0))) : Tm α .one).meaning
      (vars (matrixOf M) rhs p q) = (M.map (fun r => P.mul two (P.total r))).map Res.ok := by
  show List.map _ ((List.range (Int.toNat (M.length : Int))).map _) = _
  rw [Int.toNat_natCast, List.map_map]
  refine List.ext_getElem (by simp) (fun i h1 h2 => ?_)
  have hi : i < M.length := by simpa using h1
  simp only [List.getElem_map, List.getElem_range, Function.comp]
  show (sumOf P.scalar.toArith (Mat.row _ i) >>= _) = _
  rw [meaning_row hM hi, sumOf_total]
  rfl

theorem makeDominant_eq (b : Build) (two : α) (hM : Square M rhs) (hp : p.length = M.length) (hq : q.length = M.length) :
    makeDominant b P.scalar.toArith two (vars (matrixOf M) rhs p q) =
      (.ok (), vars (matrixOf (P.raised two M)) rhs p q) := by
  have hs := vars_ok (p := p) (q := q) hM hp hq
  have hpl := places_diag (p := p) (q := q) hM
  have rf := SameSizes.refl (vars (matrixOf M) rhs p q)
  obtain ⟨_, a, h1, h2⟩ := (Lv.view .diag (.arr2 0)).main b hs (α := α) ⟨trivial, trivial, by
    show ((List.length ((Lv.view .diag (.arr2 0)).cells (vars (matrixOf M) rhs p q)) : Nat) : Int) < _
    have := congrArg List.length hpl.1
    rw [show List.length ((Lv.view .diag (.arr2 0)).cells (vars (matrixOf M) rhs p q)) = _ from this]
    simpa using Square.bound hM⟩ ⟨trivial, trivial⟩
  obtain ⟨_, _, e, h3, h4⟩ := C43_reads b hs (t := Tm.scalarL P.scalar.mul two
    (.reduce true (sumOf P.scalar.toArith) (.lv (.arr2 0)))) (by trivial) (by trivial)
  have hd : ((Lv.view .diag (.arr2 0)).cells (vars (matrixOf M) rhs p q)).dims =
      ((Tm.scalarL P.scalar.mul two (.reduce true (sumOf P.scalar.toArith) (.lv (.arr2 0))) : Tm α .one).meaning
        (vars (matrixOf M) rhs p q)).dims := by
    rw [meaning_increment P two hM]
    show (List.length ((Lv.view .diag (.arr2 0)).cells (vars (matrixOf M) rhs p q)), 1) = _
    have := congrArg List.length hpl.1
    rw [show List.length ((Lv.view .diag (.arr2 0)).cells (vars (matrixOf M) rhs p q)) = _ from this]
    simp [Sem.dims]
  have hsz : a.size (vars (matrixOf M) rhs p q) = .ok (M.length : Int) := by
    rw [(linDen_of (h2 _ rf)).1, hpl.1]; simp
  unfold makeDominant
  simp only [AStmt.run, Op.get_bind, h3, h1, Op.lift_ok_bind, (sameSize_iff (h2 _ rf) (h4 _ rf)).2 hd,
    assertDebug_true, updateAll, hsz, Int.toNat_natCast]
  obtain ⟨t, g1, g2⟩ := Op.forN_inv (s := vars (matrixOf M) rhs p q)
    (body := fun i : Nat => (do
      let s : Store α ← Op.get
      let l ← Op.lift (a.un s i)
      let v ← Op.lift (do let u ← s.read l; let v ← e.un s i; P.scalar.add u v)
      put l v))
    (fun k t => t = vars (matrixOf (partway P two M k)) rhs p q) M.length (by rw [partway_zero])
    (by
      rintro k t hk rfl
      have hMk := partway_square P hM two k
      have hlk := partway_length P (M := M) two k
      have hss := sameSizes_vars (p := p) (q := q) hM hMk
      refine ⟨_, ?_, rfl⟩
      have e1 : a.un (vars (matrixOf (partway P two M k)) rhs p q) k = .ok (.two 0 (k * M.length + k)) := by
        rw [dst_un hpl h2 hss (by simpa using hk)]
        simp
      have hlt : k * M.length + k < (partway P two M k).flatten.length := by
        rw [flatten_len hMk.rows, hlk]
        have : (k + 1) * M.length ≤ M.length * M.length := Nat.mul_le_mul_right _ hk
        rw [Nat.succ_mul] at this; omega
      have e2 : (vars (matrixOf (partway P two M k)) rhs p q).read (.two 0 (k * M.length + k)) =
          .ok ((M[k]).getD k P.zero) := by
        show rd (partway P two M k).flatten ((k * M.length + k : Nat) : Int) = _
        rw [rd_nat hlt]
        have hr : (M[k]).length = M.length := hM.rows _ (List.getElem_mem _)
        have hg := flatten_get (n := M.length) (fun r h => (hMk.rows r h).trans hlk) (i := k) (j := k)
          (by omega) (by omega)
        rw [partway_get P two hk, List.getElem?_eq_getElem hlt, List.getElem?_eq_getElem (by omega)] at hg
        rw [Option.some.inj hg, getD_lt (by omega)]
      have e3 : e.un (vars (matrixOf (partway P two M k)) rhs p q) k = .ok (P.mul two (P.total M[k])) := by
        have hm := meaning_increment P (p := p) (q := q) two hMk
        have hf : Sem.flat ((Tm.scalarL P.scalar.mul two (.reduce true (sumOf P.scalar.toArith) (.lv (.arr2 0))) :
          Tm α .one).meaning (vars (matrixOf (partway P two M k)) rhs p q)) =
            ((partway P two M k).map (fun r => P.mul two (P.total r))).map Res.ok := hm
        rw [den_un (h4 _ hss) (by rw [hf]; simpa [hlk] using hk)]
        simp only [hf, List.getElem_map, partway_get P two hk]
      have hw : wr (partway P two M k).flatten ((k * M.length + k : Nat) : Int)
          (P.add ((M[k]).getD k P.zero) (P.mul two (P.total M[k]))) =
          .ok (partway P two M (k + 1)).flatten := by
        rw [wr_ok ⟨by omega, by exact_mod_cast hlt⟩, Int.toNat_natCast, flatten_partway P hM two hk]
      rw [Op.get_bind, e1, Op.lift_ok_bind, e2, Res.ok_bind, e3, Res.ok_bind,
        show P.scalar.add ((M[k]).getD k P.zero) (P.mul two (P.total M[k])) =
          .ok (P.add ((M[k]).getD k P.zero) (P.mul two (P.total M[k]))) from rfl, Op.lift_ok_bind]
      unfold put
      rw [Op.get_bind]
      show (Op.lift ((wr (partway P two M k).flatten ((k * M.length + k : Nat) : Int) _) >>= _) >>= _) _ = _
      rw [hw, Res.ok_bind, Res.pure_eq, Op.lift_ok_bind]
      show (Res.ok (), Store.mk _ _) = (Res.ok (), Store.mk _ _)
      congr 2
      funext j
      match j with
      | 0 =>
        show Arr2.mk _ _ _ = Arr2.mk _ _ _
        simp [vars, matrixOf, partway_length]
      | _ + 1 => rfl)
  rw [partway_all] at g2
  rw [g1, g2]

end Spp.Lemmas
