import Verif.Spec.Array1D
import Verif.Lemmas.Slice

/- Helper lemmas about the copy loops and owning one-dimensional arrays. -/

set_option linter.unusedSectionVars false

namespace Spp
open Spec

variable {α : Type}

/-- Overwriting `tmp` from `s` on with `xs`. -/
def overwrite (tmp : List α) (s : Nat) (xs : List α) : List α :=
  tmp.take s ++ xs ++ tmp.drop (s + xs.length)

theorem overwrite_getElem? {tmp xs : List α} {s : Nat} (hs : s + xs.length ≤ tmp.length)
    (i : Nat) : (overwrite tmp s xs)[i]? =
      if i < s then tmp[i]? else if i < s + xs.length then xs[i - s]? else tmp[i]? := by
  unfold overwrite
  have h1 : (tmp.take s).length = s := by simp; omega
  rw [List.append_assoc, List.getElem?_append, h1]
  split
  · simp [*]
  · rw [List.getElem?_append]
    by_cases h3 : i < s + xs.length
    · rw [if_pos h3, if_pos (by omega)]
    · rw [if_neg h3, if_neg (by omega), List.getElem?_drop]
      congr 1; omega

theorem overwrite_length {tmp xs : List α} {s : Nat} (hs : s + xs.length ≤ tmp.length) :
    (overwrite tmp s xs).length = tmp.length := by
  unfold overwrite
  simp; omega

theorem overwrite_step {tmp xs : List α} {s k : Nat} (hk : k < xs.length)
    (hs : s + xs.length ≤ tmp.length) :
    (overwrite tmp s (xs.take k)).set (s + k) xs[k] = overwrite tmp s (xs.take (k + 1)) := by
  apply List.ext_getElem?
  intro i
  have l1 : (xs.take k).length = k := by simp; omega
  have l2 : (xs.take (k + 1)).length = k + 1 := by simp; omega
  rw [List.getElem?_set, overwrite_getElem? (by omega), overwrite_getElem? (by omega),
    overwrite_length (by omega), l1, l2]
  by_cases h : s + k = i
  · subst h
    rw [if_pos rfl, if_pos (by omega), if_neg (by omega), if_pos (by omega)]
    simp [hk]
  · rw [if_neg h]
    by_cases h2 : i < s
    · simp [h2]
    · rw [if_neg h2, if_neg h2]
      by_cases h3 : i < s + k
      · rw [if_pos h3, if_pos (by omega), List.getElem?_take_of_lt (by omega),
          List.getElem?_take_of_lt (by omega)]
      · rw [if_neg h3, if_neg (by omega)]

theorem copyn_ok {src : Int → Res α} {tmp xs : List α} {s1 s2 n : Int}
    (hn : n = xs.length) (h2 : 0 ≤ s2) (hl : s2 + xs.length ≤ tmp.length)
    (hr : ∀ (i : Nat) (h : i < xs.length), src (s1 + i) = .ok xs[i]) :
    copyn src tmp s1 s2 n = .ok (overwrite tmp s2.toNat xs) := by
  unfold copyn
  have e : n.toNat = xs.length := by omega
  rw [e]
  have := foldN_ok (f := fun i t => do
      let v ← src (s1 + (i : Int))
      wr t (s2 + i) v) (init := tmp) (fun k => overwrite tmp s2.toNat (xs.take k)) xs.length
    (by simp [overwrite]) (by
      intro k hk
      simp only [hr k hk, Res.ok_bind]
      have hlen : (overwrite tmp s2.toNat (xs.take k)).length = tmp.length :=
        overwrite_length (by simp; omega)
      rw [wr_ok (by rw [hlen]; constructor <;> omega)]
      rw [show (s2 + (k : Int)).toNat = s2.toNat + k by omega]
      rw [overwrite_step hk (by omega)])
  simpa using this

theorem copyn0_eq (src : Int → Res α) (tmp : List α) (n : Int) :
    copyn0 src tmp n = copyn src tmp 0 0 n := by
  unfold copyn0 copyn
  apply foldN_congr
  intros; simp

theorem copyn0_ok {src : Int → Res α} {tmp xs : List α} {n : Int}
    (hn : n = xs.length) (hl : xs.length ≤ tmp.length)
    (hr : ∀ (i : Nat) (h : i < xs.length), src i = .ok xs[i]) :
    copyn0 src tmp n = .ok (overwrite tmp 0 xs) := by
  rw [copyn0_eq]
  exact copyn_ok hn (by omega) (by omega) (by simpa using hr)

/-- Reading a window of a list. -/
theorem rd_window {l : List α} {s : Int} {m : Nat} (h0 : 0 ≤ s) (hm : s.toNat + m ≤ l.length)
    (i : Nat) (h : i < ((l.drop s.toNat).take m).length) :
    rd l (s + i) = .ok ((l.drop s.toNat).take m)[i] := by
  have hi : i < m := by simp at h; omega
  have := rd_nat (l := l) (k := s.toNat + i) (by omega)
  rw [show (s + (i : Int)) = ((s.toNat + i : Nat) : Int) by omega, this]
  simp

namespace Arr1
variable [Inhabited α]

theorem make_ok (b : Build) {n : Int} (h : 0 ≤ n) :
    make (α := α) b n = .ok (List.replicate n.toNat default) := by
  have h1 : decide (n > -1) = true := by simp; omega
  have h2 : ¬ n < 0 := by omega
  simp only [make, h1, assertDebug_true, Res.ok_bind, h2, if_false]

theorem make_checked {b : Build} (hb : b.Checked) {n : Int} (h : n < 0) :
    make (α := α) b n = .trap b.kind := by
  have h1 : decide (n > -1) = false := by simp; omega
  simp only [make, h1, assertDebug_false hb, Res.trap_bind]

/-- The in-place copy loop with a source that denotes `xs` at every intermediate state. -/
theorem copy_ok {src : Src (List α) α} {l xs : List α} (hlen : xs.length ≤ l.length)
    (hsz : src.size = xs.length)
    (hr : ∀ (i : Nat) (h : i < xs.length),
      src.un (overwrite l 0 (xs.take i)) i = .ok xs[i]) :
    copy src l = (.ok (), overwrite l 0 xs) := by
  unfold copy
  rw [show src.size.toNat = xs.length by omega]
  obtain ⟨t, h1, h2⟩ := Op.forN_inv (body := fun i : Nat => (do
      let l ← Op.get
      let v ← Op.lift (src.un l i)
      let l' ← Op.lift (wr l i v)
      Op.set l' : Op (List α) Unit)) (s := l)
    (fun k t => t = overwrite l 0 (xs.take k)) xs.length (by simp [overwrite]) (by
      intro k t hk ht
      subst ht
      refine ⟨_, ?_, rfl⟩
      have hl' : (overwrite l 0 (xs.take k)).length = l.length :=
        overwrite_length (by simp; omega)
      simp only [Op.get_bind, hr k hk, Op.lift_ok_bind]
      rw [wr_ok (by rw [hl']; constructor <;> omega)]
      simp only [Op.lift_ok_bind, Op.set_run, Int.toNat_natCast]
      have := overwrite_step (tmp := l) (s := 0) hk (by omega)
      rw [Nat.zero_add] at this
      rw [this])
  rw [h1, h2]; simp

theorem overwrite_all {l xs : List α} (h : xs.length = l.length) : overwrite l 0 xs = xs := by
  unfold overwrite
  simp; omega

theorem copy_denotes {src : Src (List α) α} {l xs : List α} (hlen : xs.length = l.length)
    (h : ∀ s, Denotes src s xs) : copy src l = (.ok (), xs) := by
  rw [copy_ok (by omega) (h l).1 (fun i hi => (h _).2 i hi), overwrite_all hlen]

theorem fill_ok (x : α) (l : List α) : fill x l = (.ok (), List.replicate l.length x) := by
  have := copy_ok (src := ⟨l.length, fun _ _ => .ok x⟩) (l := l)
    (xs := List.replicate l.length x) (by simp) (by simp) (by simp)
  rw [overwrite_all (by simp)] at this
  rw [← this]
  simp only [fill, copy, Op.get_bind, Int.toNat_natCast]
  rfl

theorem makeFill_ok (b : Build) {n : Int} (h : 0 ≤ n) (x : α) :
    makeFill b n x = .ok (List.replicate n.toNat x) := by
  simp only [makeFill, make_ok b h, fill_ok, List.length_replicate, Res.ok_bind, Res.pure_eq]

theorem makeFrom_ok (b : Build) {src : Src (List α) α} {xs : List α}
    (h : ∀ s, Denotes src s xs) : makeFrom b src = .ok xs := by
  have h1 := (h []).1
  have e : src.size.toNat = xs.length := by omega
  simp only [makeFrom, make_ok b (show 0 ≤ src.size by omega), Res.ok_bind]
  rw [copy_denotes (by simp [e]) h]
  rfl

theorem denotes_ofList {σ : Type} (l : List α) (s : σ) : Denotes (Src.ofList l) s l :=
  ⟨rfl, fun _ h => rd_nat h⟩

end Arr1

end Spp
