import Verif.Lemmas.Alias

/- `eval()`: all elements of an object, computed into a new array. -/

set_option linter.unusedSectionVars false

namespace Spp
open Spec

variable {σ α : Type} [Inhabited α]

/-- Partially filled buffer. -/
theorem set_partial {n : Nat} {xs : List α} {x : α} (h : xs.length < n) :
    (xs ++ List.replicate (n - xs.length) default).set xs.length x =
      (xs ++ [x]) ++ List.replicate (n - (xs ++ [x]).length) default := by
  obtain ⟨k, hk⟩ : ∃ k, n - xs.length = k + 1 := ⟨n - xs.length - 1, by omega⟩
  rw [List.set_append_right _ _ (Nat.le_refl _), hk, Nat.sub_self, List.replicate_succ,
    List.set_cons_zero]
  have : n - (xs ++ [x]).length = k := by simp; omega
  rw [this]
  simp

theorem eval1_eq (b : Build) {a : Acc σ α} {s : σ} {l : List (Res α)} (h : Den .one a s l) :
    a.eval1 b s = evalAll l := by
  obtain ⟨h1, h2, h3⟩ := h
  have hm : Arr1.make (α := α) b (a.rows s) = .ok (List.replicate l.length default) := by
    rw [Arr1.make_ok b (by rw [h1]; omega), h1]; rfl
  have hc : (len (List.replicate l.length (default : α)) == a.rows s) = true := by
    rw [h1]; simp [len]
  simp only [Acc.eval1, hm, Res.ok_bind, Arr1.assign, Op.get_bind, hc, assertDebug_true,
    Op.lift_ok_bind, Arr1.copy]
  have hn : (a.rows s).toNat = l.length := by rw [h1]; rfl
  rw [hn]
  have key := forN_eval (s0 := List.replicate l.length (default : α)) (body := fun i => do
      let t ← Op.get
      let v ← Op.lift (a.un s i)
      let t' ← Op.lift (wr t i v)
      Op.set t') l
    (fun xs t => t = xs ++ List.replicate (l.length - xs.length) default ∧ xs.length ≤ l.length)
    ⟨by simp, by simp⟩
    (by
      rintro xs t hlt ⟨rfl, _⟩ _
      have hu : a.un s xs.length = l[xs.length] := by rw [h3 _ hlt]; exact getD_lt hlt
      simp only [Op.get_bind, hu]
      cases l[xs.length] with
      | ok x =>
        have hin : InRange ((xs ++ List.replicate (l.length - xs.length) default).length : Nat)
            (xs.length : Int) := by unfold InRange; simp; omega
        refine ⟨(xs ++ [x]) ++ List.replicate (l.length - (xs ++ [x]).length) default,
          ?_, rfl, by simp; omega⟩
        simp only [Op.lift_ok_bind, wr_ok hin, Int.toNat_natCast, Op.set_run, set_partial hlt]
      | trap k => rfl
      | ub => rfl)
  cases he : evalAll l with
  | ok xs =>
    rw [he] at key
    obtain ⟨t, k1, k2, k3⟩ := key
    have hx := evalAll_eq_ok.1 he
    have hlen : l.length = xs.length := by rw [hx]; simp
    rw [k1]
    simp only [Res.ok_bind, k2, hlen, Nat.sub_self, List.replicate_zero, List.append_nil, Res.pure_eq]
  | trap k =>
    rw [he] at key
    obtain ⟨xs, t, _, _, _, k1, _⟩ := key
    rw [k1]; rfl
  | ub =>
    rw [he] at key
    obtain ⟨xs, t, _, _, _, k1, _⟩ := key
    rw [k1]; rfl

theorem eval2_eq (b : Build) {a : Acc σ α} {s : σ} {M : Mat (Res α)} (h : Den .two a s M)
    (hs : Small (d := .two) M) :
    a.eval2 b s = (do
      let xs ← evalAll M.flat
      pure ⟨M.m, M.n, xs⟩) := by
  obtain ⟨h1, h2, h3, h4⟩ := h
  have hs1 : ((M.m * M.n : Nat) : Int) < 2 ^ 63 - 1 := hs.1
  have hs2 : M.m = 0 ↔ M.n = 0 := hs.2
  have hp : imul (M.m : Int) (M.n : Int) = .ok ((M.m * M.n : Nat) : Int) := by
    have e : (M.m : Int) * (M.n : Int) = ((M.m * M.n : Nat) : Int) := (Int.natCast_mul _ _).symm
    rw [imul_ok (by rw [e]; unfold IsIndex; omega), e]
  have hm : Arr2.make (α := α) b (a.rows s) (a.cols s) =
      .ok ⟨M.m, M.n, List.replicate (M.m * M.n) default⟩ := by
    have c1 : decide ((M.m : Int) ≥ 0) = true := decide_eq_true (by omega)
    have c2 : decide ((M.n : Int) ≥ 0) = true := decide_eq_true (by omega)
    have c3 : semiValid (M.m : Int) (M.n : Int) = true := by
      by_cases h0 : M.m = 0
      · rw [h0, hs2.1 h0]; rfl
      · have h0' : M.n ≠ 0 := fun h => h0 (hs2.2 h)
        have e1 : ((M.m : Int) == 0) = false := beq_eq_false_iff_ne.2 (by omega)
        have e2 : ((M.n : Int) == 0) = false := beq_eq_false_iff_ne.2 (by omega)
        simp [semiValid, e1, e2]; try omega
    rw [h1, h2]
    simp only [Arr2.make, hp, Res.ok_bind, c1, c2, c3, assertDebug_true,
      Arr1.make_ok b (Int.natCast_nonneg (M.m * M.n)), Int.toNat_natCast, Res.pure_eq]
  simp only [Acc.eval2, hm, Res.ok_bind, Arr2.assign, Op.get_bind]
  have hc : (((M.m : Int) == a.rows s) && ((M.n : Int) == a.cols s)) = true := by
    rw [h1, h2]; simp
  simp only [hc, assertDebug_true, Op.lift_ok_bind, Arr2.copy, Bool.false_eq_true, if_false,
    Arr2.copyTwoIndex]
  rw [h1, h2, Int.toNat_natCast, Int.toNat_natCast, Op.forN_nest]
  have hfl : M.flat.length = M.m * M.n := flat_length M
  rw [← hfl]
  have key := forN_eval (s0 := (⟨M.m, M.n, List.replicate M.flat.length default⟩ : Arr2 α))
    (body := fun k => do
      let t : Arr2 α ← Op.get
      let v ← Op.lift (a.un2 s ((k / M.n : Nat) : Int) ((k % M.n : Nat) : Int))
      let t' ← Op.lift (Arr2.wr2 t ((k / M.n : Nat) : Int) ((k % M.n : Nat) : Int) v)
      Op.set t') M.flat
    (fun xs t => t = ⟨M.m, M.n, xs ++ List.replicate (M.flat.length - xs.length) default⟩ ∧
      xs.length ≤ M.flat.length)
    ⟨by simp only [List.nil_append, List.length_nil, Nat.sub_zero], Nat.zero_le _⟩
    (by
      rintro xs t hlt ⟨rfl, _⟩ _
      have hlt' : xs.length < M.m * M.n := by omega
      obtain ⟨u, v⟩ := unflat_lt hlt'
      have hu : a.un2 s ((xs.length / M.n : Nat) : Int) ((xs.length % M.n : Nat) : Int) =
          M.flat[xs.length] := by
        rw [(h4 _ _ u v).1, ← flat_getD (d := Res.ub) u v, unflat]; exact getD_lt hlt
      have hcol : ((xs.length / M.n : Nat) : Int) * (M.n : Int) + ((xs.length % M.n : Nat) : Int) =
          (xs.length : Int) := by
        rw [← Int.natCast_mul, ← Int.natCast_add, unflat]
      simp only [Op.get_bind, hu]
      cases M.flat[xs.length] with
      | ok x =>
        have hin : InRange ((xs ++ List.replicate (M.flat.length - xs.length) (default : α)).length : Nat)
            (xs.length : Int) := by unfold InRange; simp; omega
        refine ⟨⟨M.m, M.n, (xs ++ [x]) ++ List.replicate (M.flat.length - (xs ++ [x]).length) default⟩,
          ?_, rfl, by simp; omega⟩
        simp only [Op.lift_ok_bind, Arr2.wr2, hcol, wr_ok hin, Int.toNat_natCast, Res.ok_bind,
          Res.pure_eq, Op.set_run, set_partial hlt]
      | trap k => rfl
      | ub => rfl)
  cases he : evalAll M.flat with
  | ok xs =>
    rw [he] at key
    obtain ⟨t, k1, k2, k3⟩ := key
    have hx := evalAll_eq_ok.1 he
    have hlen : M.flat.length = xs.length := by rw [hx]; simp
    rw [k1]
    simp only [Res.ok_bind, k2, hlen, Nat.sub_self, List.replicate_zero, List.append_nil, Res.pure_eq]
  | trap k =>
    rw [he] at key
    obtain ⟨xs, t, _, _, _, k1, _⟩ := key
    rw [k1]; rfl
  | ub =>
    rw [he] at key
    obtain ⟨xs, t, _, _, _, k1, _⟩ := key
    rw [k1]; rfl

end Spp
