import Verif.Model.Sizes
import Verif.Props.Ops
import Verif.Props.History2D
import Verif.Props.StrictInt
import Verif.Lemmas.Alias
import Verif.Lemmas.PowProds

/- C104: sizes in bytes.  C105: comparison with lists. -/

set_option linter.unusedSectionVars false

namespace Spp.Props

open Spec Sizes Lemmas

variable {σ α : Type} {d : Dim} {s : σ} {rn rl : ℚ → ℚ}

/-- C104: `bytes()` is the number of elements times the size of one, if that is below 2^63; otherwise it is undefined. -/
theorem C104_bytes {a : Acc σ α} {l : List α} (h : Elems d a s l) {w : Nat} (hw : w < 2 ^ 63) :
    ((l.length * w < 2 ^ 63) → bytes a w s = .ok ((l.length * w : Nat) : Int)) ∧
    (¬ (l.length * w < 2 ^ 63) → bytes a w s = .ub) := by
  have ew : Conv.toIndexT w = w := (C02_cast .long w).2.2 (fits_long.2 ⟨by omega, by omega⟩)
  rw [bytes, Elems.size h, Res.ok_bind, ew]
  rcases imul_cases (l.length : Int) w with ⟨h1, h2⟩ | ⟨h1, h2⟩ <;> rw [h2] <;> unfold IsIndex at h1 <;>
    rw [← Int.natCast_mul] at h1 <;> refine ⟨fun hlt => ?_, fun hlt => ?_⟩
  · push_cast; rfl
  · omega
  · omega
  · rfl

/-- Dividing by a power of two is exact. -/
theorem repX_scale {p : Nat} {x : ℚ} (h : RepX p x) (k : Nat) : RepX p (x / 2 ^ k) := by
  obtain ⟨m, e, h1, rfl⟩ := h
  refine ⟨m, e - k, h1, ?_⟩
  rw [zpow_sub₀ (by norm_num), zpow_natCast]
  ring

theorem repX_two_pow {p : Nat} (hp : 2 ≤ p) (k : Nat) : RepX p (2 ^ k) := by
  refine ⟨1, k, ?_, by simp⟩
  have : (1 : Int) < 2 ^ p := one_lt_pow₀ (by norm_num) (by omega)
  simpa using this

/-- C104: `kbytes()`, `mbytes()` and `gbytes()` are the size in bytes, rounded once to `double`, divided by 2^10, 2^20
and 2^30; the divisions are exact. -/
theorem C104_scaled (hrn : NearestX 53 rn) {q : Nat} (hq : 2 ≤ q) (hrl : NearestX q rl) {a : Acc σ α} {w : Nat} {k : Int}
    (h : bytes a w s = .ok k) :
    kbytes rl rn a w s = .ok (rn k / 2 ^ 10) ∧
    mbytes rn a w s = .ok (rn k / 2 ^ 20) ∧
    gbytes rn a w s = .ok (rn k / 2 ^ 30) := by
  have fx : ∀ {v}, RepX 53 v → rn v = v := (fl_nearestX (by norm_num) hrn).fix _
  have fl : ∀ {v}, RepX q v → rl v = v := (fl_nearestX hq hrl).fix _
  have e10 : Literal.sd rl rn 1024 = 2 ^ 10 := by
    rw [Literal.sd, show (1024 : ℚ) = 2 ^ 10 by norm_num, fl (repX_two_pow hq 10),
      fx (repX_two_pow (by norm_num) 10)]
  have e20 : Conv.intToFloat rn 1048576 = 2 ^ 20 := by
    rw [Conv.intToFloat, show ((1048576 : Int) : ℚ) = 2 ^ 20 by norm_num, fx (repX_two_pow (by norm_num) 20)]
  have e30 : Conv.intToFloat rn 1073741824 = 2 ^ 30 := by
    rw [Conv.intToFloat, show ((1073741824 : Int) : ℚ) = 2 ^ 30 by norm_num, fx (repX_two_pow (by norm_num) 30)]
  refine ⟨?_, ?_, ?_⟩
  · rw [kbytes, h, Res.ok_bind, e10, Conv.intToFloat, fx (repX_scale (hrn.rep _) 10)]; rfl
  · rw [mbytes, h, Res.ok_bind, show squares imul 1024 = .ok 1048576 from rfl, Res.ok_bind, e20, Conv.intToFloat,
      fx (repX_scale (hrn.rep _) 20)]; rfl
  · rw [gbytes, h, Res.ok_bind, show cubes imul 1024 = .ok 1073741824 from rfl, Res.ok_bind, e30,
      Conv.intToFloat, fx (repX_scale (hrn.rep _) 30)]; rfl

/-- C104: so up to 2^53 bytes (8 PiB) they are exact, and above the relative error is at most 2^-53. -/
theorem C104_exact (hrn : NearestX 53 rn) {q : Nat} (hq : 2 ≤ q) (hrl : NearestX q rl) {a : Acc σ α} {w : Nat} {k : Nat}
    (h : bytes a w s = .ok k) (hk : k ≤ 2 ^ 53) :
    kbytes rl rn a w s = .ok (k / 2 ^ 10) ∧ mbytes rn a w s = .ok (k / 2 ^ 20) ∧
    gbytes rn a w s = .ok (k / 2 ^ 30) := by
  have e : rn ((k : Int) : ℚ) = k := by
    rw [(fl_nearestX (by norm_num) hrn).fix]
    · push_cast; rfl
    · rcases Nat.lt_or_eq_of_le hk with hlt | rfl
      · exact ⟨k, 0, by rw [abs_of_nonneg (by omega)]; exact_mod_cast hlt, by simp⟩
      · push_cast; exact repX_two_pow (by norm_num) 53
  have := C104_scaled hrn hq hrl h
  rwa [e] at this

/-- C104: in general the error is at most one part in 2^53, and the three numbers agree: a megabyte is exactly 1024
kilobytes. -/
theorem C104_error (hrn : NearestX 53 rn) {q : Nat} (hq : 2 ≤ q) (hrl : NearestX q rl) {a : Acc σ α} {w : Nat} {k : Nat}
    (h : bytes a w s = .ok k) :
    ∃ x y z : ℚ, kbytes rl rn a w s = .ok x ∧ mbytes rn a w s = .ok y ∧ gbytes rn a w s = .ok z ∧
      x = 1024 * y ∧ y = 1024 * z ∧
      |k - 1024 * x| ≤ k / 2 ^ 53 := by
  obtain ⟨h1, h2, h3⟩ := C104_scaled hrn hq hrl h
  refine ⟨_, _, _, h1, h2, h3, by ring, by ring, ?_⟩
  have h4 := (flX_nearestX (by norm_num) hrn).relX ((k : Int) : ℚ)
  rw [abs_of_nonneg (show (0 : ℚ) ≤ ((k : Int) : ℚ) by positivity), unit] at h4
  push_cast at h4 ⊢
  rw [show (1024 : ℚ) * (rn k / 2 ^ 10) = rn k by ring, div_eq_inv_mul]
  exact h4

/-! ### Comparison with lists -/

theorem ofArr1_shaped (l : List α) : Shaped (σ := σ) .one (ofArr1 l) s (l.length, 1) l := by
  refine ⟨l.map Res.ok, ⟨by rw [List.length_map]; rfl, by rw [List.length_map]; rfl, fun i hi => ?_⟩,
    by show (List.length _, 1) = _; rw [List.length_map], rfl⟩
  rw [List.length_map] at hi
  show rd l i = _
  rw [rd_nat hi]
  simp [List.getD, hi]

variable [Inhabited α]

/-- C105: `equal(A, {x1, ..., xn})` says whether `A` has `n` elements and none of them differs from the one in the list
(in the sense of `!=`); the order of the arguments only exchanges the operands of `!=`. -/
theorem C105_equal (b : Build) {a : Acc σ α} {n : Nat} {l : List α} (h : Shaped .one a s (n, 1) l) (ne : α → α → Bool)
    (L : List α) :
    equalList b ne a L s = .ok (decide (l.length = L.length) && (List.zip l L).all (fun p => !ne p.1 p.2)) ∧
    listEqual b ne L a s = .ok (decide (l.length = L.length) && (List.zip L l).all (fun p => !ne p.1 p.2)) := by
  have hn : l.length = n := by have := Shaped.len h; simpa using this
  have e : Arr1.makeFrom b (Src.ofList L) = .ok L := Arr1.makeFrom_ok b fun s => Arr1.denotes_ofList L s
  constructor
  · rw [equalList, e, Res.ok_bind, C51_equal h (ofArr1_shaped L)]
    congr 2
    exact decide_eq_decide.2 (by rw [Prod.mk.injEq, hn]; simp)
  · rw [listEqual, e, Res.ok_bind, C51_equal (ofArr1_shaped L) h]
    congr 2
    exact decide_eq_decide.2 (by rw [Prod.mk.injEq, hn]; simp [eq_comm])

/-- C105: for element types where `!=` is the negation of identity: whether the elements are those of the list. -/
theorem C105_equal_exact [DecidableEq α] (b : Build) {a : Acc σ α} {n : Nat} {l : List α} (h : Shaped .one a s (n, 1) l)
    (L : List α) :
    equalList b (fun x y => decide (x ≠ y)) a L s = .ok (decide (l = L)) ∧
    listEqual b (fun x y => decide (x ≠ y)) L a s = .ok (decide (l = L)) := by
  have hn : l.length = n := by have := Shaped.len h; simpa using this
  have e : Arr1.makeFrom b (Src.ofList L) = .ok L := Arr1.makeFrom_ok b fun s => Arr1.denotes_ofList L s
  constructor
  · rw [equalList, e, Res.ok_bind, C51_equal_exact h (ofArr1_shaped L)]
    congr 1
    exact decide_eq_decide.2 ⟨fun h => h.2, fun h => ⟨by rw [← hn, h], h⟩⟩
  · rw [listEqual, e, Res.ok_bind, C51_equal_exact (ofArr1_shaped L) h]
    congr 1
    exact decide_eq_decide.2 ⟨fun h => h.2.symm, fun h => ⟨by rw [← hn, h], h.symm⟩⟩

theorem makeList_flatten (b : Build) {L : List (List α)} {m n : Nat} (h : Rect L m n) (hf : (m : Int) * n < 2 ^ 63) :
    Arr2.makeList b L = .ok ⟨m, n, L.flatten⟩ ∧ L.flatten.length = m * n := by
  obtain ⟨⟨r, c, data⟩, h1, h2⟩ := C34_construct_list b h hf
  have hr : r = m := h2.rows
  have hc : c = n := h2.cols
  have hs : data.length = m * n := h2.size
  have hlen : L.flatten.length = m * n := by
    rcases h with ⟨-, h3, -, h4⟩ | ⟨rfl, rfl, h3⟩
    · rw [(rect_flatten h4).1, h3]
    · rcases h3 with h3 | ⟨-, h4⟩
      · rw [List.length_eq_zero_iff.1 h3]; rfl
      · rw [(rect_flatten h4).1]; simp
  refine ⟨?_, hlen⟩
  rw [h1, hr, hc]
  congr 2
  apply List.ext_getElem?
  intro k
  rcases Nat.lt_or_ge k (m * n) with hk | hk
  · obtain ⟨k1, k2⟩ := unflat_lt hk
    have e := h2.el (k / n) (k % n) k1 k2
    simp only [unflat] at e
    rcases h with ⟨-, h3, -, h4⟩ | ⟨rfl, rfl, h3⟩
    · have e2 := (rect_flatten h4).2 (k / n) (k % n) (by omega) k2
      rw [unflat] at e2
      rw [e, e2]
      simp only [Mat.ofLists]
      have hk1 : k / n < L.length := by omega
      have hk2 : k % n < (L[k / n]).length := by rw [h4 _ (List.getElem_mem hk1)]; exact k2
      simp [List.getD, hk1, hk2]
    · omega
  · rw [List.getElem?_eq_none (by omega), List.getElem?_eq_none (by omega)]

theorem ofArr2_shaped {m n : Nat} {l : List α} (h : l.length = m * n) :
    Shaped (σ := σ) .two (ofArr2 ⟨m, n, l⟩) s (m, n) l := by
  refine ⟨(⟨m, n, fun i j => (l.map Res.ok).getD (i * n + j) .ub⟩ : Mat (Res α)), ⟨rfl, rfl, ?_, fun i j hi hj => ?_⟩, rfl,
    ?_⟩
  · show Res.ok (l.length : Int) = _
    rw [h]
  · have hlt : i * n + j < l.length := by rw [h]; exact flat_lt hi hj
    have e : rd l ((i * n + j : Nat) : Int) = (l.map Res.ok).getD (i * n + j) .ub := by
      rw [rd_nat hlt]; simp [List.getD, hlt]
    refine ⟨?_, e⟩
    show rd l ((i : Int) * (n : Int) + (j : Int)) = (l.map Res.ok).getD (i * n + j) .ub
    rw [← e]
    push_cast
    rfl
  · show Mat.flat _ = _
    rw [flat_eq]
    apply List.ext_getElem
    · simp [h]
    · intro k h1 h2
      have hk : k < l.length := by simpa using h2
      simp [List.getD, unflat, hk]

/-- C105: `equal(A, {{...}, ...})` with a list of `m` rows of `n` elements says whether `A` is `m` by `n` and none of its
elements differs from the one in the list. -/
theorem C105_equal_2D (b : Build) {a : Acc σ α} {sh : Nat × Nat} {l : List α} (h : Shaped .two a s sh l)
    (ne : α → α → Bool) {L : List (List α)} {m n : Nat} (hL : Rect L m n) (hf : (m : Int) * n < 2 ^ 63) :
    equalList2 b ne a L s = .ok (decide (sh = (m, n)) && (List.zip l L.flatten).all (fun p => !ne p.1 p.2)) ∧
    listEqual2 b ne L a s = .ok (decide (sh = (m, n)) && (List.zip L.flatten l).all (fun p => !ne p.1 p.2)) := by
  obtain ⟨h1, h2⟩ := makeList_flatten b hL hf
  constructor
  · rw [equalList2, h1, Res.ok_bind, C51_equal h (ofArr2_shaped h2)]
  · rw [listEqual2, h1, Res.ok_bind, C51_equal (ofArr2_shaped h2) h]
    congr 2
    exact decide_eq_decide.2 eq_comm

/-- C105: for element types where `!=` is the negation of identity: whether the shapes and the elements are the same. -/
theorem C105_equal_exact_2D [DecidableEq α] (b : Build) {a : Acc σ α} {sh : Nat × Nat} {l : List α}
    (h : Shaped .two a s sh l) {L : List (List α)} {m n : Nat} (hL : Rect L m n) (hf : (m : Int) * n < 2 ^ 63) :
    equalList2 b (fun x y => decide (x ≠ y)) a L s = .ok (decide (sh = (m, n) ∧ l = L.flatten)) ∧
    listEqual2 b (fun x y => decide (x ≠ y)) L a s = .ok (decide (sh = (m, n) ∧ l = L.flatten)) := by
  obtain ⟨h1, h2⟩ := makeList_flatten b hL hf
  constructor
  · rw [equalList2, h1, Res.ok_bind, C51_equal_exact h (ofArr2_shaped h2)]
  · rw [listEqual2, h1, Res.ok_bind, C51_equal_exact (ofArr2_shaped h2) h]
    congr 1
    exact decide_eq_decide.2 ⟨fun h => ⟨h.1.symm, h.2.symm⟩, fun h => ⟨h.1.symm, h.2.symm⟩⟩

/-- C105: a list whose rows differ in length is not unequal to the array: in checked builds the comparison traps. -/
theorem C105_ragged {b : Build} (hb : b.Checked) (a : Acc σ α) (ne : α → α → Bool) {L : List (List α)}
    (h : ∀ m n, ¬ Rect L m n) (hf : (L.length : Int) * (L.getD 0 []).length < 2 ^ 63) :
    equalList2 b ne a L s = .trap b.kind ∧ listEqual2 b ne L a s = .trap b.kind := by
  have e := C34_construct_list_rejected hb h hf
  exact ⟨by rw [equalList2, e]; rfl, by rw [listEqual2, e]; rfl⟩

/-! ### Examples -/

open Spp.Sample

example : Elems .one (lit (σ := Unit) [1, 2, 3]) () [1, 2, 3] := Shaped.elems (lit_shaped () _)
example : bytes (lit (σ := Unit) [(1 : Int), 2, 3]) 8 () = .ok 24 := rfl
example : bytes (Acc.oneD (σ := Unit) (fun _ => 2 ^ 61) (fun _ _ => Res.ok (0 : Int))) 8 () = .ub := by decide
example : ∃ rn rl, NearestX 53 rn ∧ NearestX 64 rl :=
  ⟨_, _, (exists_nearestX (by norm_num)).choose_spec, (exists_nearestX (by norm_num)).choose_spec⟩
example : equalList ⟨false, true, false⟩ (fun x y => decide (x ≠ y)) (lit (σ := Unit) [(1 : Int), 2]) [1, 2] () = .ok true :=
  rfl
example : equalList ⟨false, true, false⟩ (fun x y => decide (x ≠ y)) (lit (σ := Unit) [(1 : Int), 2]) [1, 2, 3] () =
    .ok false := rfl
example : listEqual ⟨false, true, false⟩ (fun x y => decide (x ≠ y)) [1, 3] (lit (σ := Unit) [(1 : Int), 2]) () =
    .ok false := rfl
example : Rect [[(1 : Int), 2], [3, 4]] 2 2 := by decide
example : Shaped (σ := Unit) .two (ofArr2 ⟨2, 2, [(1 : Int), 2, 3, 4]⟩) () (2, 2) [1, 2, 3, 4] := ofArr2_shaped rfl
example : equalList2 ⟨false, true, false⟩ (fun x y => decide (x ≠ y)) (ofArr2 (σ := Unit) ⟨2, 2, [(1 : Int), 2, 3, 4]⟩)
    [[1, 2], [3, 4]] () = .ok true := by decide
example : equalList2 ⟨false, true, false⟩ (fun x y => decide (x ≠ y)) (ofArr2 (σ := Unit) ⟨1, 4, [(1 : Int), 2, 3, 4]⟩)
    [[1, 2], [3, 4]] () = .ok false := by decide
example : equalList2 ⟨false, true, false⟩ (fun x y => decide (x ≠ y)) (ofArr2 (σ := Unit) ⟨2, 2, [(1 : Int), 2, 3, 4]⟩)
    [[1, 2], [3]] () = .trap .exception := by decide

end Spp.Props
