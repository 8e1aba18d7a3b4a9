import Verif.Spec.Temps

/- Overload resolution. -/

namespace Spp.Cpp

open Spec

theorem any_iff_exists {xs : List Bool} : xs.any id = true ↔ ∃ k : Nat, xs[k]? = some true := by
  rw [List.any_eq_true]
  constructor
  · rintro ⟨x, hx, h⟩
    obtain ⟨k, hk, rfl⟩ := List.getElem_of_mem hx
    exact ⟨k, by rw [List.getElem?_eq_getElem hk]; exact congrArg some h⟩
  · rintro ⟨k, h⟩
    exact ⟨true, List.mem_of_getElem? h, rfl⟩

theorem better_asymm {x y : Bound} (h : x.better y = true) : y.better x = false := by
  cases x <;> cases y <;> simp_all [Bound.better] <;> grind

theorem zipWith_at {f : β → γ → δ} {xs : List β} {ys : List γ} {k : Nat} :
    (List.zipWith f xs ys)[k]? = (xs[k]?).bind fun x => (ys[k]?).map (f x) := by
  rw [List.getElem?_zipWith]
  cases xs[k]? <;> cases ys[k]? <;> rfl

theorem not_beats_self (c : Cand) (args : List Arg) : c.beats c args = false := by
  rw [Bool.eq_false_iff]
  intro h
  simp only [Cand.beats, Bool.and_eq_true, Bool.or_eq_true, decide_eq_true_eq, Nat.lt_irrefl, or_false] at h
  obtain ⟨k, hk⟩ := any_iff_exists.1 h.2
  have := List.all_eq_true.1 h.1 _ (List.mem_of_getElem? hk)
  simp at this

theorem beats_asymm {c c' : Cand} {args : List Arg} (h : c.beats c' args = true) : c'.beats c args = false := by
  rw [Bool.eq_false_iff]
  intro h'
  simp only [Cand.beats, Bool.and_eq_true, Bool.or_eq_true, decide_eq_true_eq] at h h'
  have no : ∀ {xs : List Bool}, xs.all (fun b => !b) = true → xs.any id = true → False := by
    intro xs h1 h2
    obtain ⟨k, hk⟩ := any_iff_exists.1 h2
    have := List.all_eq_true.1 h1 _ (List.mem_of_getElem? hk)
    simp at this
  rcases h.2 with h2 | h2
  · exact no h'.1 h2
  · rcases h'.2 with h3 | h3
    · exact no h.1 h3
    · omega

/-- A position at which the other candidate binds better. -/
theorem not_beats {c c' : Cand} {args : List Arg} {k : Nat} {p p' : Form} {a : Arg} (h1 : c.params[k]? = some p)
    (h2 : c'.params[k]? = some p') (h3 : args[k]? = some a) (h : (p'.bind a).better (p.bind a) = true) :
    c.beats c' args = false := by
  rw [Bool.eq_false_iff]
  intro hb
  simp only [Cand.beats, Bool.and_eq_true] at hb
  have : (List.zipWith Bound.better (List.zipWith Form.bind c'.params args)
      (List.zipWith Form.bind c.params args))[k]? = some true := by
    simp [zipWith_at, h1, h2, h3, h]
  have := List.all_eq_true.1 hb.1 _ (List.mem_of_getElem? this)
  simp at this

theorem resolve_mem {cs : List Cand} {args : List Arg} {c : Cand} (h : resolve cs args = some c) :
    c ∈ cs ∧ c.viable args = true := by
  have := List.mem_of_find?_eq_some h
  simpa [List.mem_filter] using this

theorem resolve_beats {cs : List Cand} {args : List Arg} {c c' : Cand} (h : resolve cs args = some c) (hc : c' ∈ cs)
    (hv : c'.viable args = true) (hne : c' ≠ c) : c.beats c' args = true := by
  have h1 := List.find?_some h
  have h2 := List.mem_of_find?_eq_some h
  simp only [beq_iff_eq] at h1
  cases hb : c.beats c' args with
  | true => rfl
  | false =>
  exfalso
  have hm : c' ∈ (cs.filter fun c => c.viable args) := List.mem_filter.2 ⟨hc, hv⟩
  obtain ⟨l1, l2, e⟩ := List.append_of_mem hm
  rw [e] at h1 h2
  rw [List.countP_append, List.countP_cons] at h1
  have h0 : (!c.beats c args) = true := by rw [not_beats_self]; rfl
  have h3 : (!c.beats c' args) = true := by rw [hb]; rfl
  rw [if_pos h3] at h1
  rcases List.mem_append.1 h2 with h2 | h2
  · have : 0 < l1.countP fun c' => !c.beats c' args := List.countP_pos_iff.2 ⟨c, h2, h0⟩
    omega
  · rcases List.mem_cons.1 h2 with h2 | h2
    · exact hne h2.symm
    · have : 0 < l2.countP fun c' => !c.beats c' args := List.countP_pos_iff.2 ⟨c, h2, h0⟩
      omega

/-- A viable deleted candidate that no other one beats. -/
theorem rejected {cs : List Cand} {body : List What → Bool} {args : List Arg} {c' : Cand} (hc : c' ∈ cs)
    (hv : c'.viable args = true) (hd : c'.deleted = true)
    (h : ∀ c ∈ cs, c.viable args = true → c.deleted = false → c.beats c' args = false) :
    compiles cs body args = false := by
  unfold compiles
  cases hr : resolve cs args with
  | none => rfl
  | some c =>
    obtain ⟨h1, h2⟩ := resolve_mem hr
    cases hdel : c.deleted with
    | true => simp [hdel]
    | false =>
      have := resolve_beats hr hc hv (by rintro rfl; rw [hd] at hdel; cases hdel)
      rw [h c h1 h2 hdel] at this
      cases this

/-- No viable candidate, or only deleted ones. -/
theorem rejected_none {cs : List Cand} {body : List What → Bool} {args : List Arg}
    (h : ∀ c ∈ cs, c.deleted = false → c.viable args = false) : compiles cs body args = false := by
  unfold compiles
  cases hr : resolve cs args with
  | none => rfl
  | some c =>
    obtain ⟨h1, h2⟩ := resolve_mem hr
    cases hdel : c.deleted with
    | true => simp [hdel]
    | false => rw [h c h1 hdel] at h2; cases h2

theorem rejected_body {cs : List Cand} {body : List What → Bool} {args : List Arg}
    (h : body (args.map Arg.what) = false) : compiles cs body args = false := by
  unfold compiles
  cases resolve cs args <;> simp [h]

/-- A viable candidate that beats all other viable ones; `cs` lists every candidate once. -/
theorem accepted {l1 l2 : List Cand} {body : List What → Bool} {args : List Arg} {c : Cand}
    (hv : c.viable args = true) (hd : c.deleted = false)
    (h : ∀ c' ∈ l1 ++ l2, c'.viable args = true → c.beats c' args = true) :
    compiles (l1 ++ c :: l2) body args = body (args.map Arg.what) := by
  have hmem : c ∈ (l1 ++ c :: l2).filter fun c => c.viable args := List.mem_filter.2 ⟨by simp, hv⟩
  have z : ∀ l : List Cand, (∀ c' ∈ l, c'.viable args = true → c.beats c' args = true) →
      (l.filter fun c => c.viable args).countP (fun c' => !c.beats c' args) = 0 := by
    intro l hl
    rw [List.countP_eq_zero]
    intro c' hc'
    obtain ⟨h1, h2⟩ := List.mem_filter.1 hc'
    simp [hl c' h1 h2]
  have hone : ((l1 ++ c :: l2).filter fun c => c.viable args).countP (fun c' => !c.beats c' args) = 1 := by
    rw [List.filter_append, List.filter_cons_of_pos (by exact hv), List.countP_append, List.countP_cons,
      z l1 (fun c' hc' => h c' (by simp [hc'])), z l2 (fun c' hc' => h c' (by simp [hc'])), not_beats_self]
    rfl
  have hr : resolve (l1 ++ c :: l2) args = some c := by
    cases hr : resolve (l1 ++ c :: l2) args with
    | none =>
      have := List.find?_eq_none.1 hr c hmem
      rw [hone] at this
      exact absurd rfl this
    | some c0 =>
      by_cases he : c = c0
      · rw [he]
      · obtain ⟨m1, m2⟩ := resolve_mem hr
        have b0 := resolve_beats hr (c' := c) (by simp) hv he
        have b1 : c.beats c0 args = true := h c0 (by
          simp only [List.mem_append, List.mem_cons] at m1 ⊢
          rcases m1 with m1 | m1 | m1
          · exact .inl m1
          · exact absurd m1.symm he
          · exact .inr m1) m2
        rw [beats_asymm b1] at b0
        cases b0
  unfold compiles
  rw [hr]
  simp [hd]

/-- A function with one overload and one deleted overload. -/
theorem compiles_pair {E D : Cand} {body : List What → Bool} {args : List Arg} (he : E.deleted = false)
    (hd : D.deleted = true) : compiles [E, D] body args =
      (E.viable args && (!D.viable args || E.beats D args) && body (args.map Arg.what)) := by
  cases hE : E.viable args with
  | false =>
    rw [rejected_none]
    · rfl
    · intro c hc hdel
      rcases List.mem_cons.1 hc with rfl | hc
      · exact hE
      · rcases List.mem_cons.1 hc with rfl | hc
        · rw [hd] at hdel; cases hdel
        · cases hc
  | true =>
    cases hb : (!D.viable args || E.beats D args) with
    | true =>
      rw [show [E, D] = [] ++ E :: [D] from rfl, accepted hE he]
      · rfl
      · intro c' hc' hv
        simp only [List.nil_append, List.mem_singleton] at hc'
        subst hc'
        simpa [hv] using hb
    | false =>
      simp only [Bool.or_eq_false_iff, Bool.not_eq_eq_eq_not, Bool.not_false] at hb
      rw [rejected (c' := D) (by simp) hb.1 hd]
      · rfl
      · intro c hc _ hdel
        rcases List.mem_cons.1 hc with rfl | hc
        · exact hb.2
        · rcases List.mem_cons.1 hc with rfl | hc
          · rw [hd] at hdel; cases hdel
          · cases hc

end Spp.Cpp
