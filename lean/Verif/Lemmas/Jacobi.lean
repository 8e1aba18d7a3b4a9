import Verif.Model.Examples
import Verif.Spec.Examples
import Verif.Props.Expr
import Verif.Props.ErrorTools
import Verif.Props.StablePoly
import Verif.Props.Array1D

/- The Jacobi example, statement by statement. -/

set_option linter.unusedSectionVars false

namespace Spp.Lemmas

open Spec Examples Props

variable {α : Type} [Inhabited α]

theorem flatten_get {n : Nat} {M : List (List α)} (h : ∀ r ∈ M, r.length = n) {i j : Nat} (hi : i < M.length)
    (hj : j < n) : M.flatten[i * n + j]? = (M[i])[j]? := by
  induction M generalizing i with
  | nil => simp at hi
  | cons r M ih =>
    have hr := h r (by simp)
    cases i with
    | zero =>
      simp only [List.flatten_cons, Nat.zero_mul, Nat.zero_add, List.getElem_cons_zero]
      rw [List.getElem?_append_left (by omega)]
    | succ i =>
      rw [List.flatten_cons, List.getElem?_append_right (by rw [hr, Nat.succ_mul]; omega)]
      have e : (i + 1) * n + j - r.length = i * n + j := by rw [hr, Nat.succ_mul]; omega
      rw [e, ih (fun r hr => h r (by simp [hr])) (by simpa using hi)]
      simp

theorem flatten_len {n : Nat} {M : List (List α)} (h : ∀ r ∈ M, r.length = n) : M.flatten.length = M.length * n := by
  induction M with
  | nil => simp
  | cons r M ih =>
    rw [List.flatten_cons, List.length_append, h r (by simp), ih (fun r hr => h r (by simp [hr])), List.length_cons,
      Nat.succ_mul, Nat.add_comm]

variable {M : List (List α)} {rhs p q : List α}

theorem Square.bound (hM : Square M rhs) : (M.length : Int) < 2 ^ 63 - 1 := by
  have h := hM.small
  rcases Nat.eq_zero_or_pos M.length with h0 | h0
  · rw [h0]; decide
  · have : M.length * 1 ≤ M.length * M.length := Nat.mul_le_mul_left _ h0
    omega

theorem vars_ok (hM : Square M rhs) (hp : p.length = M.length) (hq : q.length = M.length) :
    Store.Ok (vars (matrixOf M) rhs p q) := by
  have hb := Square.bound hM
  refine ⟨fun id => ?_, fun id => ?_⟩
  · match id with
    | 0 => show ((rhs.length : Nat) : Int) < _; rw [hM.rhs]; exact hb
    | 1 => show ((p.length : Nat) : Int) < _; rw [hp]; exact hb
    | 2 => show ((q.length : Nat) : Int) < _; rw [hq]; exact hb
    | _ + 3 => show (([] : List α).length : Int) < _; simp
  · match id with
    | 0 =>
      have e := flatten_len hM.rows
      refine ⟨⟨by simp [vars, matrixOf], by simp [vars, matrixOf], ?_, Iff.rfl⟩, ?_⟩
      · show ((M.flatten.length : Nat) : Int) = _
        rw [e]; simp [vars, matrixOf]
      · show ((M.flatten.length : Nat) : Int) < _
        rw [e]; exact hM.small
    | _ + 1 => exact ⟨⟨by simp [vars], by simp [vars], by simp [vars], by simp [vars]⟩, by simp [vars]⟩

theorem meaning_arr1 (s : Store α) (id : Nat) :
    (Tm.lv (.arr1 id) : Tm α .one).meaning s = (s.a1 id).map Res.ok := by
  show List.map _ (List.map _ (List.range _)) = _
  rw [List.map_map]
  refine List.ext_getElem (by simp) (fun k h1 h2 => ?_)
  simp only [List.length_map, List.length_range] at h1
  simp only [List.getElem_map, List.getElem_range, Function.comp, Res.ok_bind]
  exact rd_nat h1

theorem meaning_row (hM : Square M rhs) {i : Nat} (hi : i < M.length) :
    Mat.row ((Tm.lv (.arr2 0) : Tm α .two).meaning (vars (matrixOf M) rhs p q)) i = (M[i]).map Res.ok := by
  show (List.range (M.length : Int).toNat).map _ = _
  have hr : (M[i]).length = M.length := hM.rows _ (List.getElem_mem _)
  refine List.ext_getElem (by simp [hr]) (fun j h1 h2 => ?_)
  simp only [List.length_map, List.length_range, Int.toNat_natCast] at h1
  simp only [List.getElem_map, List.getElem_range]
  show (Res.ok (Loc.two 0 (i * (M.length : Int).toNat + j)) >>= _) = _
  rw [Res.ok_bind, Int.toNat_natCast]
  show rd M.flatten ((i * M.length + j : Nat) : Int) = _
  have hg := flatten_get hM.rows hi h1
  have hlt : i * M.length + j < M.flatten.length := by
    rw [flatten_len hM.rows]
    have : (i + 1) * M.length ≤ M.length * M.length := Nat.mul_le_mul_right _ hi
    rw [Nat.succ_mul] at this; omega
  rw [rd_nat hlt]
  rw [List.getElem?_eq_getElem hlt, List.getElem?_eq_getElem (by omega)] at hg
  rw [Option.some.inj hg]

theorem removed_one (l : List α) (i : Nat) : removed l i 1 = l.eraseIdx i := by
  unfold removed
  rw [List.eraseIdx_eq_take_drop_succ]

theorem shaped_of_gives {b : Build} {s : Store α} {t : Tm α .one} {l : List α} (h : Gives b s t (fun s => t.meaning s))
    (e : t.meaning s = l.map Res.ok) : ∃ a, t.build b s = .ok a ∧ Shaped .one a s (l.length, 1) l := by
  obtain ⟨_, _, a, h1, h2⟩ := h
  have h3 := h2 s (SameSizes.refl s)
  refine ⟨a, h1, t.meaning s, h3, ?_, e⟩
  show (List.length (t.meaning s : List (Res α)), 1) = _
  rw [e, List.length_map]

theorem dims_mat (M : List (List α)) (rhs p q : List α) :
    Sem.dims ((Tm.lv (.arr2 0) : Tm α .two).meaning (vars (matrixOf M) rhs p q)) = (M.length, M.length) := by
  show (Int.toNat (M.length : Int), Int.toNat (M.length : Int)) = _
  simp

/-- The elements of `exclude(A.row(i), i)`. -/
theorem build_row (b : Build) (hM : Square M rhs) (hp : p.length = M.length) (hq : q.length = M.length) {i : Nat}
    (hi : i < M.length) :
    ∃ a, Tm.build b (vars (matrixOf M) rhs p q) (.exclude (.view (.row (.at i)) (.lv (.arr2 0))) i 1) = .ok a ∧
      Shaped .one a (vars (matrixOf M) rhs p q) (((M[i]).eraseIdx i).length, 1) ((M[i]).eraseIdx i) := by
  have hok := vars_ok (p := p) (q := q) hM hp hq
  have hb := Square.bound hM
  have hr : (M[i]).length = M.length := hM.rows _ (List.getElem_mem _)
  have ii : IsIndex (i : Int) := by unfold IsIndex; omega
  have hm : (Tm.view (.row (.at i)) (.lv (.arr2 0)) : Tm α .one).meaning (vars (matrixOf M) rhs p q) =
      (M[i]).map Res.ok := by
    show Mat.row _ (Int.toNat (i : Int)) = _
    rw [Int.toNat_natCast]
    exact meaning_row hM hi
  refine shaped_of_gives (C43_reads b hok ?_ ?_) ?_
  · refine ⟨⟨trivial, ii, ?_⟩, ii, by unfold IsIndex; decide⟩
    show Small ((Tm.view (.row (.at i)) (.lv (.arr2 0)) : Tm α .one).meaning (vars (matrixOf M) rhs p q))
    rw [hm]
    show ((List.length ((M[i]).map Res.ok) : Nat) : Int) < _
    rw [List.length_map, hr]; exact hb
  · refine ⟨⟨trivial, ?_⟩, by omega, by decide, ?_⟩
    · show InRange _ (i : Int)
      rw [show Sem.dims _ = _ from dims_mat M rhs p q]
      exact ⟨by omega, by exact_mod_cast hi⟩
    · rw [hm]
      show (i : Int) + 1 ≤ ((List.length ((M[i]).map Res.ok) : Nat) : Int)
      rw [List.length_map, hr]; omega
  · show removed _ (Int.toNat (i : Int)) (Int.toNat 1) = _
    rw [hm, Int.toNat_natCast, show Int.toNat 1 = 1 from rfl, removed_one, ← List.eraseIdx_map]

/-- The elements of `exclude(x, i)`. -/
theorem build_exclude (b : Build) {s : Store α} (hs : Store.Ok s) {id i : Nat} (hi : i < (s.a1 id).length) :
    ∃ a, Tm.build b s (.exclude (.lv (.arr1 id)) i 1) = .ok a ∧
      Shaped .one a s (((s.a1 id).eraseIdx i).length, 1) ((s.a1 id).eraseIdx i) := by
  have hb := hs.1 id
  refine shaped_of_gives (C43_reads b hs ?_ ?_) ?_
  · exact ⟨trivial, by unfold IsIndex; omega, by unfold IsIndex; decide⟩
  · refine ⟨trivial, by omega, by decide, ?_⟩
    rw [meaning_arr1]
    show (i : Int) + 1 ≤ ((List.length ((s.a1 id).map Res.ok) : Nat) : Int)
    rw [List.length_map]; omega
  · show removed _ (Int.toNat (i : Int)) (Int.toNat 1) = _
    rw [meaning_arr1, Int.toNat_natCast, show Int.toNat 1 = 1 from rfl, removed_one, ← List.eraseIdx_map]

theorem build_arr1 (b : Build) {s : Store α} (hs : Store.Ok s) (id : Nat) :
    ∃ a, Tm.build b s (.lv (.arr1 id)) = .ok a ∧ Shaped .one a s ((s.a1 id).length, 1) (s.a1 id) :=
  shaped_of_gives (C43_reads b hs trivial trivial) (meaning_arr1 s id)

variable (P : TotalArith α)

theorem dotProd_total (b : Build) {s : Store α} {a1 a2 : Acc (Store α) α} {n : Nat} {l1 l2 : List α}
    (h1 : Shaped .one a1 s (n, 1) l1) (h2 : Shaped .one a2 s (n, 1) l2) :
    Ops.dotProd b .one P.scalar.toArith a1 a2 s P.scalar.zero = .ok (P.dot l1 l2) := by
  have hl : l1.length = l2.length := by rw [Shaped.len h1, Shaped.len h2]
  obtain ⟨k1, k2⟩ := C52_dot b h1 h2 P.scalar.toArith (mul := P.mul) (fun _ _ => rfl) P.scalar.zero
  unfold TotalArith.dot
  cases e : List.zipWith P.mul l1 l2 with
  | nil =>
    have : l1 = [] := by
      have := congrArg List.length e
      simp only [List.length_zipWith, List.length_nil] at this
      exact List.length_eq_zero_iff.1 (by omega)
    rw [k1 this]; rfl
  | cons x xs =>
    rw [k2 x xs e]
    exact foldlM_pure (f := fun acc y => P.scalar.add acc y) _ _ (g := P.add) (fun _ _ _ => rfl)

theorem entry_eq (b : Build) (hM : Square M rhs) (hp : p.length = M.length) (hq : q.length = M.length) {i : Nat}
    (hi : i < M.length) :
    entry b P.scalar i (vars (matrixOf M) rhs p q) =
      .ok (P.solveFor (M.getD i []) (rhs.getD i P.zero) i p) := by
  have hok := vars_ok (p := p) (q := q) hM hp hq
  have hb := Square.bound hM
  have hr : (M[i]).length = M.length := hM.rows _ (List.getElem_mem _)
  obtain ⟨a1, e1, s1⟩ := build_row b hM hp hq hi
  obtain ⟨a2, e2, s2⟩ := build_exclude b hok (id := 1) (i := i) (by show i < p.length; omega)
  change Shaped .one a2 _ ((p.eraseIdx i).length, 1) (p.eraseIdx i) at s2
  have hl : ((M[i]).eraseIdx i).length = (p.eraseIdx i).length := by
    rw [List.length_eraseIdx_of_lt (by omega), List.length_eraseIdx_of_lt (by omega), hr, hp]
  rw [hl] at s1
  have ed := dotProd_total P b s1 s2
  have hb1 : Elem1.sub b rhs (.at i) = .ok (rhs.getD i P.zero) := by
    have hv : validIndex (len rhs) (i : Int) = true := by
      rw [validIndex_iff]; exact ⟨by omega, by simp [len, hM.rhs, hi]⟩
    unfold Elem1.sub
    simp only [Pos.resolve, Res.ok_bind, Res.pure_eq, hv, assertDebugM_ok, assertDebug_true]
    rw [rd_nat (by rw [hM.rhs]; exact hi), getD_lt (by rw [hM.rhs]; exact hi)]
  have hlt : i * M.length + i < M.flatten.length := by
    rw [flatten_len hM.rows]
    have : (i + 1) * M.length ≤ M.length * M.length := Nat.mul_le_mul_right _ hi
    rw [Nat.succ_mul] at this; omega
  have ha : Elem2.sub b (M.length : Int) (M.length : Int) M.flatten (.at i) (.at i) = .ok ((M[i]).getD i P.zero) := by
    have hv : validIndex (M.length : Int) (i : Int) = true := by
      rw [validIndex_iff]; exact ⟨by omega, by exact_mod_cast hi⟩
    unfold Elem2.sub
    have ho : Elem2.off (M.length : Int) (i : Int) (i : Int) = .ok ((i * M.length + i : Nat) : Int) := by
      have h1 := hM.small
      rw [flatten_len hM.rows] at hlt
      have := off_ok (m := M.length) (n := M.length) (i := i) (j := i) ⟨by omega, by exact_mod_cast hi⟩
        ⟨by omega, by exact_mod_cast hi⟩ (by unfold IsIndex; push_cast at h1; constructor <;> nlinarith)
      rw [this]; push_cast; rfl
    simp only [Pos.resolve, Res.ok_bind, hv, Bool.and_self, assertDebug_true, ho]
    rw [rd_nat hlt]
    have hg := flatten_get hM.rows hi hi
    rw [List.getElem?_eq_getElem hlt, List.getElem?_eq_getElem (by omega)] at hg
    rw [Option.some.inj hg, getD_lt (by omega)]
  unfold entry
  show (Elem1.sub b rhs (.at i) >>= _) = _
  rw [hb1, Res.ok_bind, e1, Res.ok_bind, e2, Res.ok_bind, ed, Res.ok_bind]
  show (Elem2.sub b (M.length : Int) (M.length : Int) M.flatten (.at i) (.at i) >>= _) = _
  rw [ha, Res.ok_bind]
  unfold TotalArith.solveFor
  rw [getD_lt hi]
  rfl

theorem onArr1_vars (A : Arr2 α) (rhs p q : List α) (op : Op (List α) Unit) :
    onArr1 2 op (vars A rhs p q) = ((op q).1, vars A rhs p (op q).2) := by
  unfold onArr1
  refine Prod.ext rfl ?_
  show Store.mk _ _ = Store.mk _ _
  congr 1
  funext k
  match k with
  | 0 => rfl
  | 1 => rfl
  | 2 => rfl
  | _ + 3 => rfl

theorem subSet_nat (b : Build) {l : List α} {i : Nat} (hi : i < l.length) (x : α) :
    Elem1.subSet b (.at i) x l = (.ok (), l.set i x) := by
  have hv : validIndex (len l) (i : Int) = true := by
    rw [validIndex_iff]; exact ⟨by omega, by simp [len, hi]⟩
  have hw : wr l (i : Int) x = .ok (l.set i x) := wr_ok ⟨by omega, by exact_mod_cast hi⟩
  unfold Elem1.subSet
  simp only [Op.get_bind, Pos.resolve, Res.ok_bind, Res.pure_eq, hv, assertDebugM_ok, assertDebug_true, Op.lift_ok_bind, hw]
  rfl

theorem set_take_drop {x y : List α} (h : x.length = y.length) {k : Nat} (hk : k < x.length) :
    (x.take k ++ y.drop k).set k x[k] = x.take (k + 1) ++ y.drop (k + 1) := by
  rw [List.set_append_right _ _ (by rw [List.length_take]; omega), List.length_take,
    Nat.min_eq_left (by omega), Nat.sub_self, List.drop_eq_getElem_cons (by omega), List.set_cons_zero,
    List.take_succ_eq_append_getElem hk, List.append_assoc]
  rfl

theorem step_length (x : List α) : (P.step M rhs x).length = M.length := by simp [TotalArith.step]

theorem sweep_eq (b : Build) (hM : Square M rhs) (hp : p.length = M.length) (hq : q.length = M.length) :
    sweep b P.scalar M.length (vars (matrixOf M) rhs p q) =
      (.ok (), vars (matrixOf M) rhs p (P.step M rhs p)) := by
  have hl := step_length (rhs := rhs) (M := M) P p
  obtain ⟨t, h1, h2⟩ := Op.forN_inv (s := vars (matrixOf M) rhs p q)
    (body := fun i => (do
      let s : Store α ← Op.get
      let v ← Op.lift (entry b P.scalar i s)
      onArr1 2 (Elem1.subSet b (.at i) v)))
    (fun k t => t = vars (matrixOf M) rhs p ((P.step M rhs p).take k ++ q.drop k)) M.length (by simp)
    (by
      rintro k t hk rfl
      refine ⟨_, ?_, rfl⟩
      have hlen : ((P.step M rhs p).take k ++ q.drop k).length = M.length := by
        rw [List.length_append, List.length_take, List.length_drop, hl, hq]; omega
      rw [Op.get_bind, entry_eq P b hM hp hlen hk, Op.lift_ok_bind, onArr1_vars,
        subSet_nat b (by rw [hlen]; exact hk)]
      refine Prod.ext rfl ?_
      show vars _ _ _ _ = vars _ _ _ _
      congr 1
      have e : P.solveFor (M.getD k []) (rhs.getD k P.zero) k p = (P.step M rhs p)[k]'(by rw [hl]; exact hk) := by
        simp [TotalArith.step]
      rw [e]
      exact set_take_drop (by rw [hl, hq]) (by rw [hl]; exact hk))
  unfold sweep
  rw [h1, h2, List.take_of_length_le (by omega), List.drop_of_length_le (by omega), List.append_nil]

theorem inner_ok (u v : List α) :
    inner P.scalar.toArith (u.map Res.ok) (v.map Res.ok) = .ok (P.dot0 u v) := by
  unfold inner TotalArith.dot0
  generalize hz : P.scalar.toArith.zero = z
  have hz' : P.zero = z := hz
  rw [hz']
  clear hz hz'
  induction u generalizing v z with
  | nil => rfl
  | cons x u ih =>
    cases v with
    | nil => rfl
    | cons y v =>
      rw [List.map_cons, List.map_cons, List.zip_cons_cons, List.foldl_cons, List.zipWith_cons_cons, List.foldl_cons]
      exact ih v _

theorem withinTolRel_close (b : Build) {tol nz : α} (ht : P.le P.zero tol = true) (hz : P.le P.zero nz = true)
    (x y : α) : ErrorTools.withinTolRel b P.scalar x y tol nz = .ok (P.close tol nz x y) := by
  have ha : ∀ x, P.scalar.abss x = .ok (P.abs x) := by
    intro x
    unfold Scalar.abss TotalArith.abs
    show (if P.lt P.zero x = true then _ else Res.ok (P.neg x)) = _
    split <;> rfl
  have e1 : P.scalar.le P.scalar.zero tol = true := ht
  have e2 : P.scalar.le P.scalar.zero nz = true := hz
  have em : ∀ x y, P.scalar.maxs x y = P.max x y := fun _ _ => rfl
  have e3 : P.scalar.sub x y = .ok (P.sub x y) := rfl
  have e4 : ∀ x y, P.scalar.div x y = .ok (P.div x y) := fun _ _ => rfl
  unfold ErrorTools.withinTolRel
  simp only [e1, e2, assertDebug_true, Res.ok_bind, ha, em, e3, e4]
  unfold TotalArith.close
  show (if P.le _ _ = true then Res.ok true else Res.ok (P.le _ _)) = _
  cases P.le (P.max (P.abs x) (P.abs y)) nz <;> simp

theorem passes_eq (b : Build) (hM : Square M rhs) (hp : p.length = M.length) (hq : q.length = M.length) {tol nz : α}
    (ht : P.le P.zero tol = true) (hz : P.le P.zero nz = true) :
    passes b P.scalar tol nz (vars (matrixOf M) rhs p q) =
      .ok (!M.isEmpty && P.solves M rhs tol nz q) := by
  have hok := vars_ok (p := p) (q := q) hM hp hq
  have hm : (Tm.matvec P.scalar.toArith (.lv (.arr2 0)) (.lv (.arr1 2)) : Tm α .one).meaning
      (vars (matrixOf M) rhs p q) = (M.map (fun r => P.dot0 r q)).map Res.ok := by
    show (List.range (Int.toNat (M.length : Int))).map _ = _
    rw [Int.toNat_natCast]
    refine List.ext_getElem (by simp) (fun i h1 h2 => ?_)
    have hi : i < M.length := by simpa using h1
    simp only [List.getElem_map, List.getElem_range]
    rw [meaning_row hM hi, meaning_arr1]
    exact inner_ok P _ _
  obtain ⟨a1, e1, s1⟩ := shaped_of_gives (b := b) (C43_reads b hok (t := .matvec P.scalar.toArith (.lv (.arr2 0))
    (.lv (.arr1 2))) ⟨trivial, trivial⟩ ⟨trivial, trivial, by
      rw [dims_mat, meaning_arr1]
      show M.length = List.length (List.map Res.ok q)
      rw [List.length_map, hq]⟩) hm
  obtain ⟨a2, e2, s2⟩ := build_arr1 b hok 0
  change Shaped .one a2 _ (rhs.length, 1) rhs at s2
  rw [List.length_map] at s1
  rw [hM.rhs] at s2
  have hsame := Shaped.same s1 s2
  rw [decide_eq_true rfl] at hsame
  unfold passes
  rw [e1, Res.ok_bind, e2, Res.ok_bind]
  unfold ErrorTools.withinTolRelArray
  rw [hsame, assertDebug_true, Res.ok_bind, Elems.empty (Shaped.elems s1), Res.ok_bind]
  have hk := C54_pairwise b s1 s2 (f := fun x y => ErrorTools.withinTolRel b P.scalar x y tol nz)
    (p := fun x y => P.close tol nz x y = true) (fun q _ => by
      rw [withinTolRel_close P b ht hz]; simp) false
  cases M with
  | nil => rfl
  | cons r M =>
    rw [if_neg (by simp)]
    rw [(hk.2 (by simp)).2.1]
    unfold TotalArith.solves
    congr 1
    rw [Bool.eq_iff_iff]
    simp only [decide_eq_true_eq, List.isEmpty_cons, Bool.not_false, Bool.true_and, List.all_eq_true]
    rw [List.zip_map_left, List.forall_mem_map]
    rfl

theorem copy_vars (b : Build) (hp : p.length = M.length) (hq : q.length = M.length) :
    (AStmt.assign (.arr1 1) (.lv (.arr1 2))).run b (vars (matrixOf M) rhs p q) =
      (.ok (), vars (matrixOf M) rhs q q) := by
  have hsame : Acc.sameSize .one (Lv.acc1 α 1) ((Lv.acc1 α 2).deref Store.read) (vars (matrixOf M) rhs p q) = true := by
    show ((p.length : Int) == (q.length : Int)) = true
    rw [hp, hq]; simp
  unfold AStmt.run
  simp only [Op.get_bind, Tm.build, Lv.build, Res.ok_bind, Res.pure_eq, Op.lift_ok_bind, hsame, assertDebug_true]
  show copyLin _ _ _ = _
  unfold copyLin
  rw [Op.get_bind]
  show (Op.lift (Res.ok (q.length : Int)) >>= fun n => _) (vars (matrixOf M) rhs p q) = _
  rw [Op.lift_ok_bind, Int.toNat_natCast]
  obtain ⟨t, h1, h2⟩ := Op.forN_inv (s := vars (matrixOf M) rhs p q)
    (body := fun i : Nat => (do
      let s : Store α ← Op.get
      let v ← Op.lift (((Lv.acc1 α 2).deref Store.read).un s i)
      let l ← Op.lift ((Lv.acc1 α 1).un s i)
      put l v))
    (fun k t => t = vars (matrixOf M) rhs (q.take k ++ p.drop k) q) q.length (by simp)
    (by
      rintro k t hk rfl
      refine ⟨_, ?_, rfl⟩
      have hlen : (q.take k ++ p.drop k).length = M.length := by
        rw [List.length_append, List.length_take, List.length_drop, hp, hq]; omega
      have h1 : ((Lv.acc1 α 2).deref Store.read).un (vars (matrixOf M) rhs (q.take k ++ p.drop k) q) (k : Int) =
          .ok q[k] := by
        show ((if 0 ≤ (k : Int) ∧ (k : Int) < len q then Res.ok (Loc.one 2 (Int.toNat k)) else .ub) >>= _) = _
        rw [if_pos ⟨by omega, by simp [len, hk]⟩, Res.ok_bind]
        exact rd_nat hk
      have h2 : (Lv.acc1 α 1).un (vars (matrixOf M) rhs (q.take k ++ p.drop k) q) (k : Int) = .ok (.one 1 k) := by
        show (if 0 ≤ (k : Int) ∧ (k : Int) < len (q.take k ++ p.drop k) then Res.ok (Loc.one 1 (Int.toNat k))
          else .ub) = _
        rw [if_pos ⟨by omega, by unfold len; rw [hlen]; omega⟩, Int.toNat_natCast]
      rw [Op.get_bind, h1, Op.lift_ok_bind, h2, Op.lift_ok_bind]
      unfold put
      rw [Op.get_bind]
      have hw : wr (q.take k ++ p.drop k) (k : Int) q[k] = .ok ((q.take k ++ p.drop k).set k q[k]) :=
        wr_ok ⟨by omega, by rw [hlen]; omega⟩
      have e := set_take_drop (x := q) (y := p) (by rw [hq, hp]) hk
      show (Op.lift ((wr (q.take k ++ p.drop k) (k : Int) q[k]) >>= _) >>= _) _ = _
      rw [hw, Res.ok_bind, e, Res.pure_eq, Op.lift_ok_bind]
      show (Res.ok (), Store.mk _ _) = (Res.ok (), Store.mk _ _)
      congr 2
      funext j
      match j with
      | 0 => rfl
      | 1 => rfl
      | 2 => rfl
      | _ + 3 => rfl)
  rw [h1, h2, List.take_of_length_le (by omega), List.drop_of_length_le (by omega), List.append_nil]

theorem loop_eq (b : Build) (hM : Square M rhs) (hne : M ≠ []) {tol nz : α} (ht : P.le P.zero tol = true)
    (hz : P.le P.zero nz = true) : ∀ left k : Nat,
    (jacobiLoop b P.scalar tol nz M.length left k
      (vars (matrixOf M) rhs (P.iterate M rhs k) (P.iterate M rhs k))).1 =
    .ok (((List.range' k left).find? (fun k => P.solves M rhs tol nz (P.iterate M rhs k))).map
      (fun k => (P.iterate M rhs k, k))) := by
  have hlen : ∀ k, (P.iterate M rhs k).length = M.length := by
    intro k
    cases k with
    | zero => simp [TotalArith.iterate]
    | succ k => exact step_length P _
  have he : M.isEmpty = false := by cases M <;> simp_all
  intro left
  induction left with
  | zero => intro k; rfl
  | succ left ih =>
    intro k
    rw [jacobiLoop, Op.get_bind, passes_eq P b hM (hlen k) (hlen k) ht hz, Op.lift_ok_bind, he, List.range'_succ,
      List.find?_cons]
    cases hs : P.solves M rhs tol nz (P.iterate M rhs k) with
    | true => rfl
    | false =>
      simp only [Bool.not_false, Bool.and_false, Bool.false_eq_true, if_false]
      rw [Op.bind_run, sweep_eq P b hM (hlen k) (hlen k)]
      dsimp only
      rw [Op.bind_run, copy_vars b (hlen k) (step_length P _)]
      exact ih (k + 1)

theorem zeros_eq (b : Build) (dynamic : Bool) (n : Nat) :
    zeros b P.scalar dynamic n (n : Int) = .ok (List.replicate n P.zero) := by
  unfold zeros
  cases dynamic with
  | false => rfl
  | true =>
    rw [if_pos rfl]
    have h := (@C24_resize α ⟨P.scalar.zero⟩ b (n : Int) (by omega) []).2
    rw [h]
    cases n with
    | zero => rfl
    | succ n => rfl

/-! ### Exact arithmetic -/

section exact

variable {K : Type} [Field K] [LinearOrder K] [IsStrictOrderedRing K] {pow : K → K → K} {sqrt : K → K}

theorem sum_eraseIdx {l : List K} {i : Nat} (hi : i < l.length) : (l.eraseIdx i).sum = l.sum - l[i] := by
  have h := (List.getElem_cons_eraseIdx_perm hi).sum_eq
  rw [List.sum_cons] at h
  rw [← h]; ring

theorem zipWith_eraseIdx (u v : List K) (i : Nat) :
    List.zipWith (· * ·) (u.eraseIdx i) (v.eraseIdx i) = (List.zipWith (· * ·) u v).eraseIdx i := by
  induction u generalizing v i with
  | nil => simp
  | cons x u ih =>
    cases v with
    | nil => cases i <;> simp
    | cons y v =>
      cases i with
      | zero => rfl
      | succ i => simp only [List.eraseIdx_cons_succ, List.zipWith_cons_cons, ih]

theorem zipWith_ofFn {n : Nat} (u v : Fin n → K) :
    List.zipWith (· * ·) (List.ofFn u) (List.ofFn v) = List.ofFn (fun j => u j * v j) := by
  refine List.ext_getElem (by simp) (fun i h1 h2 => by simp)

theorem total_exact (l : List K) : (exactN K pow sqrt).total l = l.sum := by
  cases l with
  | nil => rfl
  | cons x xs =>
    show xs.foldl (· + ·) x = _
    rw [foldl_add, List.sum_cons]

theorem dot0_exact {n : Nat} (u v : Fin n → K) :
    (exactN K pow sqrt).dot0 (List.ofFn u) (List.ofFn v) = ∑ j, u j * v j := by
  show (List.zipWith (· * ·) (List.ofFn u) (List.ofFn v)).foldl (· + ·) 0 = _
  rw [foldl_add, zero_add, zipWith_ofFn, List.sum_ofFn]

theorem dot_erase_exact {n : Nat} (u v : Fin n → K) (i : Fin n) :
    (exactN K pow sqrt).dot ((List.ofFn u).eraseIdx i) ((List.ofFn v).eraseIdx i) = ∑ j with j ≠ i, u j * v j := by
  unfold TotalArith.dot
  rw [total_exact]
  show (List.zipWith (· * ·) _ _).sum = _
  rw [zipWith_eraseIdx, zipWith_ofFn, sum_eraseIdx (by simp), List.sum_ofFn, List.getElem_ofFn]
  have h := Finset.add_sum_erase Finset.univ (fun j => u j * v j) (Finset.mem_univ i)
  have e : Finset.univ.filter (fun j => j ≠ i) = Finset.univ.erase i := by ext; simp
  rw [e, ← h]
  simp

theorem iterate_exact {n : Nat} (a : Fin n → Fin n → K) (c : Fin n → K) (k : Nat) :
    (exactN K pow sqrt).iterate (rowsOf a) (List.ofFn c) k = List.ofFn (jacobiX a c k) := by
  induction k with
  | zero =>
    show List.replicate (rowsOf a).length 0 = List.ofFn fun _ => (0 : K)
    rw [List.ofFn_const]; simp [rowsOf]
  | succ k ih =>
    show (exactN K pow sqrt).step _ _ _ = _
    rw [ih]
    refine List.ext_getElem (by simp [TotalArith.step, rowsOf]) (fun i h1 h2 => ?_)
    have hi : i < n := by simpa using h2
    simp only [TotalArith.step, List.getElem_map, List.getElem_range, List.getElem_ofFn]
    rw [getD_lt (l := rowsOf a) (by simpa [rowsOf] using hi), getD_lt (by simpa using hi)]
    unfold TotalArith.solveFor
    have e : (rowsOf a)[i]'(by simpa [rowsOf] using hi) = List.ofFn (a ⟨i, hi⟩) := by simp [rowsOf]
    rw [e, List.getElem_ofFn, getD_lt (by simpa using hi), List.getElem_ofFn]
    have hd := dot_erase_exact (pow := pow) (sqrt := sqrt) (a ⟨i, hi⟩) (jacobiX a c k) ⟨i, hi⟩
    rw [show (exactN K pow sqrt).dot _ _ = _ from hd]
    rfl

theorem close_exact {tol nz : K} (ht : 0 ≤ tol) (hz : 0 ≤ nz) (x y : K) :
    (exactN K pow sqrt).close tol nz x y =
      decide ((|x| ≤ nz ∧ |y| ≤ nz) ∨ |x - y| ≤ tol * Max.max |x| |y|) := by
  have : Inhabited K := ⟨0⟩
  have h1 := withinTolRel_close (exactN K pow sqrt) ⟨true, true, true⟩ (tol := tol) (nz := nz) (decide_eq_true ht)
    (decide_eq_true hz) x y
  rw [show (exactN K pow sqrt).scalar = exactS K pow sqrt from rfl, C70_rel _ x y ht hz] at h1
  injection h1 with h1
  exact h1.symm

end exact

end Spp.Lemmas
