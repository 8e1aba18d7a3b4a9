import Verif.Lemmas.Safe2

/-
C84: in builds with debug checks, programs made of views, expressions and assignments have no
undefined behaviour: whatever is wrong with them traps, before anything has been changed.

"Modest" (Spec/Modest.lean) restricts the magnitude of the numbers in the program, not their
correctness.  "Total" says that the operations on elements supplied by the user or by the element
type are themselves free of undefined behaviour.
-/

set_option linter.unusedSectionVars false

namespace Spp.Props
open Spec

variable {α : Type}

/-- C84 (views): a view of an array, of any depth, either makes sense, and then refers to elements
that exist, or traps. -/
theorem C84_view {b : Build} (hb : b.Checked) {s : Store α} (hs : s.Roomy) {d : Dim} (l : Lv d)
    (hM : l.Modest s) :
    (l.Valid s ∧ ∃ a cs, l.build b s = .ok a ∧ Places l s cs ∧
      ∀ u, SameSizes s u → Den d a u (l.cells u)) ∨
    (¬ l.Valid s ∧ l.build b s = .trap b.kind) := by
  by_cases h : l.Valid s
  · obtain ⟨_, a, e, hd⟩ := l.main b hs.ok (l.modest_sound hM h) h
    obtain ⟨cs, hp, _⟩ := l.places hs.ok (l.modest_sound hM h) h
    exact .inl ⟨h, a, cs, e, hp, hd⟩
  · exact .inr ⟨h, l.traps hb hs hM h⟩

/-- C84 (expressions): an expression either makes sense, and then every element it has can be read
without undefined behaviour, now and after any change of the elements of the arrays, or building it
traps. -/
theorem C84_expression {b : Build} (hb : b.Checked) {s : Store α} (hs : s.Roomy) {d : Dim}
    (t : Tm α d) (hM : t.Modest s) (hT : t.Total) :
    (t.Valid s ∧ ∃ a, t.build b s = .ok a ∧ ∀ u, SameSizes s u → Den d a u (t.meaning u) ∧
      ∀ r ∈ (t.meaning u).flat, r ≠ .ub) ∨
    (¬ t.Valid s ∧ ∃ k, t.build b s = .trap k) := by
  by_cases h : t.Valid s
  · have hS := (t.modest_sound hs hM h).1
    obtain ⟨_, a, e, hd⟩ := t.main b hs.ok hS h
    exact .inl ⟨h, a, e, fun u hu => ⟨hd u hu, noUb_all hs.ok hS h hT u hu⟩⟩
  · exact .inr ⟨h, t.traps hb hs hM hT h⟩

/-- C84 (elements): reading element `i` of a one-dimensional expression with `[i]` never has
undefined behaviour, whatever `i`. -/
theorem C84_element {b : Build} (hb : b.Checked) {s : Store α} (hs : s.Roomy) (t : Tm α .one)
    (hM : t.Modest s) (hT : t.Total) (i : Int) :
    (do let a ← t.build b s; a.sub b s i) ≠ .ub := by
  rcases C84_expression hb hs t hM hT with ⟨_, a, e, h⟩ | ⟨_, k, e⟩
  · obtain ⟨hd, hn⟩ := h s (SameSizes.refl s)
    have hr : a.rows s = (List.length (t.meaning s) : Int) := hd.1
    simp only [e, Res.ok_bind, Acc.sub, hr]
    by_cases c : InRange (List.length (t.meaning s) : Int) i
    · rw [validIndex_iff.2 c, assertDebug_true, Res.ok_bind]
      obtain ⟨k, rfl⟩ := Int.eq_ofNat_of_zero_le c.1
      have hk : k < (t.meaning s).flat.length := by
        have := c.2
        show k < List.length (t.meaning s)
        omega
      rw [den_un hd hk]
      exact hn _ (List.getElem_mem hk)
    · rw [validIndex_false.2 c, assertDebug_false hb, Res.trap_bind]
      intro h; cases h
  · rw [e, Res.trap_bind]
    intro h; cases h

/-- C84 (statements): executing an assignment, fill, list assignment or compound assignment in a
checked build has no undefined behaviour, changes no size and changes only elements selected by its
left-hand side - even if the right-hand side reads those elements, or the left-hand side selects an
element more than once.  A statement with an invalid view, an invalid expression or mismatched sizes
traps and changes nothing. -/
theorem C84_statement {b : Build} (hb : b.Checked) {s : Store α} (hs : s.Roomy) {st : AStmt α}
    (hM : st.Modest s) (hT : st.Total) :
    (AStmt.Valid s st ∧ (st.run b s).1 ≠ .ub ∧
      ∃ cs, Places st.target.2 s cs ∧ Within cs s (st.run b s).2) ∨
    (¬ AStmt.Valid s st ∧ ∃ k, st.run b s = (.trap k, s)) := by
  by_cases h : AStmt.Valid s st
  · obtain ⟨cs, h1, h2, h3⟩ := AStmt.valid_safe b hs.ok (AStmt.modest_sound hs hM h) h hT
    exact .inl ⟨h, h2, cs, h1, h3⟩
  · exact .inr ⟨h, AStmt.invalid_traps hb hs hM hT h⟩

/-- C84 (programs): a program of such statements, of any length, has no undefined behaviour in a
checked build, and leaves all arrays with their sizes and shapes, whether it ends normally or with a
trap. -/
theorem C84_program {b : Build} (hb : b.Checked) {s : Store α} (hs : s.Roomy) (p : List (AStmt α))
    (hM : ∀ st ∈ p, st.Modest s) (hT : ∀ st ∈ p, st.Total) :
    (AStmt.runAll b p s).1 ≠ .ub ∧ SameSizes s (AStmt.runAll b p s).2 ∧
      Store.Roomy (AStmt.runAll b p s).2 := by
  suffices h : (AStmt.runAll b p s).1 ≠ .ub ∧ SameSizes s (AStmt.runAll b p s).2 from
    ⟨h.1, h.2, roomy_same h.2 hs⟩
  induction p generalizing s with
  | nil => exact ⟨by simp [AStmt.runAll], SameSizes.refl s⟩
  | cons st p ih =>
    have hsafe : (st.run b s).1 ≠ .ub ∧ SameSizes s (st.run b s).2 := by
      rcases C84_statement hb hs (hM st (by simp)) (hT st (by simp)) with ⟨_, h1, cs, _, h2⟩ | ⟨_, k, h⟩
      · exact ⟨h1, h2.1⟩
      · rw [h]; exact ⟨by simp, SameSizes.refl s⟩
    simp only [AStmt.runAll, Op.bind_run]
    cases h : st.run b s with
    | mk r s' =>
      rw [h] at hsafe
      cases r with
      | ok u =>
        obtain ⟨i1, i2⟩ := ih (s := s') (roomy_same hsafe.2 hs)
          (fun st' h' => AStmt.modest_same hsafe.2 (hM st' (by simp [h'])))
          (fun st' h' => hT st' (by simp [h']))
        exact ⟨i1, SameSizes.trans hsafe.2 i2⟩
      | trap k => exact ⟨by simp, hsafe.2⟩
      | ub => exact absurd rfl hsafe.1

/-- C84 (programs that make sense): when every statement makes sense, the same holds in every build,
with or without checks. -/
theorem C84_valid_program (b : Build) {s : Store α} (hs : s.Roomy) (p : List (AStmt α))
    (hM : ∀ st ∈ p, st.Modest s) (hT : ∀ st ∈ p, st.Total) (hV : ∀ st ∈ p, AStmt.Valid s st) :
    (AStmt.runAll b p s).1 ≠ .ub ∧ SameSizes s (AStmt.runAll b p s).2 := by
  induction p generalizing s with
  | nil => exact ⟨by simp [AStmt.runAll], SameSizes.refl s⟩
  | cons st p ih =>
    have hv := hV st (by simp)
    obtain ⟨_, _, h1, h2⟩ := AStmt.valid_safe b hs.ok
      (AStmt.modest_sound hs (hM st (by simp)) hv) hv (hT st (by simp))
    simp only [AStmt.runAll, Op.bind_run]
    cases h : st.run b s with
    | mk r s' =>
      rw [h] at h1 h2
      cases r with
      | ok u =>
        obtain ⟨i1, i2⟩ := ih (s := s') (roomy_same h2.1 hs)
          (fun st' h' => AStmt.modest_same h2.1 (hM st' (by simp [h'])))
          (fun st' h' => hT st' (by simp [h']))
          (fun st' h' => AStmt.valid_same h2.1 (hV st' (by simp [h'])))
        exact ⟨i1, SameSizes.trans h2.1 i2⟩
      | trap k => exact ⟨by simp, h2.1⟩
      | ub => exact absurd rfl h1

/-! ### Instances -/

theorem sample_roomy : Store.Roomy Sample.store := by
  constructor
  · intro id
    simp only [Sample.store]
    by_cases h0 : id = 0
    · simp [h0]
    · by_cases h1 : id = 1 <;> simp [h0, h1]
  · intro id
    refine ⟨(Sample.store_ok.2 id).1, ?_⟩
    simp only [Sample.store]
    by_cases h0 : id = 0
    · rw [if_pos h0]; decide
    · rw [if_neg h0]; decide

/-- `x({0, 0, 2}) = x(reverse)`: the left-hand side selects an element twice and the right-hand side
reads what is assigned. -/
def aliased : AStmt Int :=
  .assign (.view (.slice (.vec [0, 0, 2])) (.arr1 0)) (.view (.slice .reverse) Sample.x)

/-- `x(seqN(1, 3)) -= y` (there are only three elements). -/
def tooLong : AStmt Int :=
  .compound (fun u v => .ok (u - v)) (.view (.slice (.seqN 1 3 1)) (.arr1 0)) Sample.y

theorem aliased_modest : aliased.Modest Sample.store :=
  ⟨⟨trivial, by simp [View.Modest, SliceReq.Modest, Modest],
      fun _ => show (_ : Int) < _ by decide⟩,
   ⟨trivial, trivial, fun _ => show (_ : Int) < _ by decide⟩⟩

theorem tooLong_modest : tooLong.Modest Sample.store :=
  ⟨⟨trivial, by simp [View.Modest, SliceReq.Modest, Modest],
      fun _ => show (_ : Int) < _ by decide⟩, trivial⟩

theorem tooLong_total : tooLong.Total := ⟨fun _ _ h => (nomatch h), trivial⟩

example : (AStmt.runAll ⟨false, true, false⟩ [aliased, tooLong] Sample.store).1 ≠ .ub ∧
    SameSizes Sample.store (AStmt.runAll ⟨false, true, false⟩ [aliased, tooLong] Sample.store).2 ∧
    Store.Roomy (AStmt.runAll ⟨false, true, false⟩ [aliased, tooLong] Sample.store).2 :=
  C84_program (by decide) sample_roomy _
    (by simpa using ⟨aliased_modest, tooLong_modest⟩)
    (by simpa using ⟨(trivial : aliased.Total), tooLong_total⟩)

/-- What the program does: the first statement writes 3, 2 and then the new value 2 of element 0; the
second one traps and changes nothing. -/
example : (AStmt.runAll ⟨false, true, false⟩ [aliased, tooLong] Sample.store).1 = .trap .exception ∧
    (AStmt.runAll ⟨false, true, false⟩ [aliased, tooLong] Sample.store).2.a1 0 = [2, 2, 2] := by
  decide

example : (AStmt.runAll ⟨true, true, true⟩ [aliased] Sample.store).1 ≠ .ub ∧
    SameSizes Sample.store (AStmt.runAll ⟨true, true, true⟩ [aliased] Sample.store).2 :=
  C84_valid_program _ sample_roomy _ (by simpa using aliased_modest)
    (by
      intro st h
      rw [List.mem_singleton] at h
      subst h
      exact trivial)
    (by
      intro st h
      rw [List.mem_singleton] at h
      subst h
      exact ⟨show Lv.Valid _ _ by decide, show Tm.Valid _ _ by decide, rfl⟩)

example : ¬ AStmt.Valid Sample.store tooLong ∧
    ∃ k, tooLong.run ⟨false, true, false⟩ Sample.store = (.trap k, Sample.store) :=
  (C84_statement (by decide) sample_roomy tooLong_modest tooLong_total).resolve_left
    fun h => absurd h.1.1 (by decide)

example : (Lv.view (.row (.at 7)) (.arr2 0)).build ⟨false, false, false⟩ Sample.store = .trap .abort :=
  ((C84_view (by decide) sample_roomy (.view (.row (.at 7)) (.arr2 0))
    ⟨trivial, show Modest 7 by decide, fun h => absurd h.2 (by decide)⟩).resolve_left
      fun h => absurd h.1.2 (by decide)).2

/-- An operation that traps for numbers above 2. -/
def upTo2 (u : Int) : Res Int := if u ≤ 2 then .ok u else .trap .exception

example (i : Int) : (do
    let a ← (Tm.unary upTo2 Sample.x).build ⟨false, true, false⟩ Sample.store
    a.sub ⟨false, true, false⟩ Sample.store i) ≠ .ub :=
  C84_element (by decide) sample_roomy (.unary upTo2 Sample.x) trivial
    ⟨fun u => by unfold upTo2; by_cases h : u ≤ 2 <;> simp [h], trivial⟩ i

end Spp.Props
