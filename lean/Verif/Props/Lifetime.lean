import Verif.Lemmas.Lifetime
import Verif.Props.Expr

/-
C49: expressions kept in variables.  `Tm.make b m p` executes the program text of an expression with the objects
`m.alive` alive; the object it gives reads through references, and reading through a reference to a dead object is
undefined behaviour.  `Tm.build` (Model/Expr.lean, C43) is the same expression without any reference.
-/

namespace Spp.Props

open Spp Spec

variable {α : Type}

/-- Executing the text of an expression is not affected by lifetimes while everything is alive. -/
theorem C49_construct (b : Build) {d : Dim} (t : Tm α d) {m : Mem α} (h : ∀ r, m.alive r = true) :
    (∀ k, t.make b m [] = .trap k ↔ t.build b m.store = .trap k) ∧
    (t.make b m [] = .ub ↔ t.build b m.store = .ub) ∧
    ((∃ o, t.make b m [] = .ok o) ↔ ∃ a, t.build b m.store = .ok a) := by
  have hs := make_sim b m.store t (p := []) (needs_all (l := m.alive) h t) (needs_all (l := m.alive) h t)
  change SimRes _ (t.make b m []) _ at hs
  generalize t.make b m [] = x at hs
  generalize t.build b m.store = y at hs
  cases hs with
  | ok h => exact ⟨fun k => ⟨fun h => (nomatch h), fun h => (nomatch h)⟩, ⟨fun h => (nomatch h), fun h => (nomatch h)⟩,
      ⟨fun _ => ⟨_, rfl⟩, fun _ => ⟨_, rfl⟩⟩⟩
  | trap k => exact ⟨fun k => ⟨fun h => by cases h; rfl, fun h => by cases h; rfl⟩,
      ⟨fun h => (nomatch h), fun h => (nomatch h)⟩, ⟨fun ⟨_, h⟩ => (nomatch h), fun ⟨_, h⟩ => (nomatch h)⟩⟩
  | ub => exact ⟨fun k => ⟨fun h => (nomatch h), fun h => (nomatch h)⟩, ⟨fun _ => rfl, fun _ => rfl⟩,
      ⟨fun ⟨_, h⟩ => (nomatch h), fun ⟨_, h⟩ => (nomatch h)⟩⟩

/-- An object kept in a variable behaves like the expression in every later state in which the arrays it mentions are
alive, with whatever contents they have then: every temporary and every local variable may be dead.  Only `matvec_prod`
and the transpose of something that is not a named array are excluded. -/
theorem C49_stored (b : Build) {d : Dim} {t : Tm α d} (hs : Safe t) {m : Mem α}
    (h : ∀ r ∈ arrays t, m.alive r = true) {o : Operand α α} (ho : t.make b m [] = .ok o) :
    ∃ a, t.build b m.store = .ok a ∧ ∀ m' : Mem α, (∀ r ∈ arrays t, m'.alive r = true) → SameObject m' o.acc a := by
  have key : ∀ l : Ref → Bool, (∀ r ∈ arrays t, l r = true) →
      ∃ a, t.build b m.store = .ok a ∧ o.acc.fix l = a := by
    intro l hl
    have hs := make_sim b m.store t (p := []) (needs_safe (l := m.alive) hs h) (needs_safe (l := l) hs hl)
    change SimRes _ (t.make b m []) _ at hs
    rw [ho] at hs
    generalize t.build b m.store = y at hs
    cases hs with
    | ok h => exact ⟨_, rfl, h.acc.second⟩
  obtain ⟨a, ha, _⟩ := key m.alive h
  refine ⟨a, ha, fun m' hm' => ?_⟩
  obtain ⟨a', ha', hf⟩ := key m'.alive hm'
  rw [ha] at ha'
  cases ha'
  exact Acc.fix_same (s := m'.store) hf

/-- Within the statement that builds it, while its temporaries are alive, every expression without `matvec_prod` behaves
as it should. -/
theorem C49_immediate (b : Build) {d : Dim} {t : Tm α d} (hs : NoMatvec t) {m : Mem α}
    (h : ∀ r ∈ arrays t, m.alive r = true) (ht : ∀ p, m.alive (.temp p) = true) {o : Operand α α}
    (ho : t.make b m [] = .ok o) :
    ∃ a, t.build b m.store = .ok a ∧
      ∀ m' : Mem α, (∀ r ∈ arrays t, m'.alive r = true) → (∀ p, m'.alive (.temp p) = true) → SameObject m' o.acc a := by
  have key : ∀ l : Ref → Bool, (∀ r ∈ arrays t, l r = true) → (∀ p, l (.temp p) = true) →
      ∃ a, t.build b m.store = .ok a ∧ o.acc.fix l = a := by
    intro l hl hl'
    have hs := make_sim b m.store t (p := []) (needs_noMatvec (l := m.alive) ht hs h)
      (needs_noMatvec (l := l) hl' hs hl)
    change SimRes _ (t.make b m []) _ at hs
    rw [ho] at hs
    generalize t.build b m.store = y at hs
    cases hs with
    | ok h => exact ⟨_, rfl, h.acc.second⟩
  obtain ⟨a, ha, _⟩ := key m.alive h ht
  refine ⟨a, ha, fun m' hm' ht' => ?_⟩
  obtain ⟨a', ha', hf⟩ := key m'.alive hm' ht'
  rw [ha] at ha'
  cases ha'
  exact Acc.fix_same (s := m'.store) hf

/-- `transpose` of anything that is not a named array keeps a reference to its operand: once that temporary is gone every
element access is undefined behaviour. -/
theorem C49_transpose_dangles (b : Build) {t : Tm α .two} (ht : isArray t = false) {m : Mem α} {o : Operand α α}
    (ho : (Tm.transpose t).make b m [] = .ok o) {m' : Mem α} (hm : m'.alive (.temp [0]) = false) :
    (∀ i j, o.acc.un2 m' i j = .ub) ∧ ∀ k v, o.acc.un m' k ≠ .ok v := by
  simp only [Tm.make] at ho
  obtain ⟨q, hq, ho⟩ := Res.ok_bind_inv ho
  obtain ⟨_, _, ho⟩ := Res.ok_bind_inv ho
  obtain ⟨_, _, ho⟩ := Res.ok_bind_inv ho
  cases ho
  have hn := not_isArray_none b ht q hq
  have hu : ∀ i j, (q.captured [0]).un2 m' i j = .ub := fun i j => by
    unfold Operand.captured
    rw [hn]
    simp [Acc.through, hm]
  refine ⟨fun i j => hu j i, fun k v h => ?_⟩
  obtain ⟨rc, _, h⟩ := Res.ok_bind_inv (show (Elem2.unflatten b _ k >>= fun rc => (q.captured [0]).un2 m' rc.2 rc.1) = _ from h)
  rw [hu] at h
  cases h

/-- `matvec_prod` keeps a reference to a local variable of the function, which is gone when the function has returned: no
element access is defined, not even within the same statement. -/
theorem C49_matvec_dangles (b : Build) (ar : Arith α) {t : Tm α .two} {x : Tm α .one} {m : Mem α} {o : Operand α α}
    (ho : (Tm.matvec ar t x).make b m [] = .ok o) {m' : Mem α} (hm : m'.alive (.loc []) = false) (k : Int) (v : α) :
    o.acc.un m' k ≠ .ok v := by
  simp only [Tm.make] at ho
  obtain ⟨q, _, ho⟩ := Res.ok_bind_inv ho
  obtain ⟨w, _, ho⟩ := Res.ok_bind_inv ho
  obtain ⟨_, _, ho⟩ := Res.ok_bind_inv ho
  cases ho
  intro h
  obtain ⟨r, _, h⟩ := Res.ok_bind_inv h
  simp only [hm] at h
  cases h

/-- An expression mentions owning arrays only. -/
private theorem mentions_arrays {d : Dim} (t : Tm α d) :
    ∀ r ∈ arrays t, (∃ i, r = .array1 i) ∨ ∃ i, r = .array2 i := by
  have hlv : ∀ {d : Dim} (l : Lv d), ∀ r ∈ lvArrays l, (∃ i, r = .array1 i) ∨ ∃ i, r = .array2 i := by
    intro d l
    induction l with
    | arr1 i => intro r h; exact .inl ⟨i, by simpa [lvArrays] using h⟩
    | arr2 i => intro r h; exact .inr ⟨i, by simpa [lvArrays] using h⟩
    | view _ _ ih => exact ih
  induction t with
  | lv l => exact hlv l
  | view _ _ ih | unary _ _ ih | scalarL _ _ _ ih | scalarR _ _ _ ih | append _ _ ih | prepend _ _ ih
  | exclude _ _ _ ih | excludeLast _ _ ih | reduce _ _ _ ih | bcast _ _ ih | transpose _ ih => exact ih
  | binary _ _ _ ih1 ih2 | merge _ _ ih1 ih2 | tensor _ _ _ ih1 ih2 | mergeH _ _ ih1 ih2 | mergeV _ _ ih1 ih2
  | matvec _ _ _ ih1 ih2 =>
    intro r h
    rcases List.mem_append.1 h with h | h
    · exact ih1 r h
    · exact ih2 r h
  | sequence | linspace | eUnit | const1D | const2D | identity => intro r h; cases h

/-- A statement `auto e = t;` with `s` in the arrays, and the statements after it, when the temporaries are gone and the
arrays hold anything: `e` behaves like the expression, with what the arrays hold then. -/
theorem C49_variable (b : Build) {d : Dim} {t : Tm α d} (hs : Safe t) (s : Store α) {o : Operand α α}
    (ho : t.make b (.during s) [] = .ok o) :
    ∃ a, t.build b s = .ok a ∧ SameObject (.during s) o.acc a ∧ ∀ s', SameObject (.later s') o.acc a := by
  have h1 : ∀ r ∈ arrays t, (Mem.during s).alive r = true := fun r hr => by
    rcases mentions_arrays t r hr with ⟨i, rfl⟩ | ⟨i, rfl⟩ <;> rfl
  obtain ⟨a, ha, h⟩ := C49_stored b hs h1 ho
  exact ⟨a, ha, h _ h1, fun s' => h _ fun r hr => by
    rcases mentions_arrays t r hr with ⟨i, rfl⟩ | ⟨i, rfl⟩ <;> rfl⟩

/-- Used within its statement, the expression may also transpose anything. -/
theorem C49_statement (b : Build) {d : Dim} {t : Tm α d} (hs : NoMatvec t) (s : Store α) {o : Operand α α}
    (ho : t.make b (.during s) [] = .ok o) :
    ∃ a, t.build b s = .ok a ∧ ∀ s', SameObject (.during s') o.acc a := by
  have h1 : ∀ s' : Store α, ∀ r ∈ arrays t, (Mem.during s').alive r = true := fun s' r hr => by
    rcases mentions_arrays t r hr with ⟨i, rfl⟩ | ⟨i, rfl⟩ <;> rfl
  obtain ⟨a, ha, h⟩ := C49_immediate b hs (h1 s) (fun _ => rfl) ho
  exact ⟨a, ha, fun s' => h _ (h1 s') fun _ => rfl⟩

/-- Kept in a variable, the transpose of anything that is not a named array, and `matvec_prod` of anything, cannot be
read once the statement is over. -/
theorem C49_variable_dangles (b : Build) (s s' : Store α) :
    (∀ (t : Tm α .two) (o : Operand α α), isArray t = false → (Tm.transpose t).make b (.during s) [] = .ok o →
      (∀ i j, o.acc.un2 (.later s') i j = .ub) ∧ ∀ k v, o.acc.un (.later s') k ≠ .ok v) ∧
    ∀ (ar : Arith α) (t : Tm α .two) (x : Tm α .one) (o : Operand α α),
      (Tm.matvec ar t x).make b (.during s) [] = .ok o →
      ∀ k v, o.acc.un (.during s') k ≠ .ok v ∧ o.acc.un (.later s') k ≠ .ok v :=
  ⟨fun _ _ ht ho => C49_transpose_dangles b ht ho rfl,
   fun ar _ _ _ ho k v => ⟨C49_matvec_dangles b ar ho rfl k v, C49_matvec_dangles b ar ho rfl k v⟩⟩

section Examples

/-- Sums and products of integers. -/
private def addI (u v : Int) : Res Int := .ok (u + v)

/-- Arrays for the examples. -/
private def st : Store Int := ⟨fun _ => [1, 2, 3], fun _ => ⟨2, 2, [1, 2, 3, 4]⟩⟩

private def bd : Build := ⟨false, true, false⟩

/-- `auto e = (x + x)(reverse)`, evaluated after the statement, when `x` has been given other contents. -/
private def e1 : Tm Int .one := .view (.slice .reverse) (.binary addI (.lv (.arr1 0)) (.lv (.arr1 0)))

private theorem e1_build : ∃ a, e1.build bd st = .ok a := ⟨_, rfl⟩

example : ∃ o, e1.make bd (.during st) [] = .ok o ∧ ∃ a, e1.build bd st = .ok a ∧
    ∀ s', SameObject (.later s') o.acc a := by
  obtain ⟨a, h1, -, h2⟩ := C49_variable bd (t := e1) ⟨trivial, trivial⟩ st rfl
  exact ⟨_, rfl, a, h1, h2⟩

/-- `auto e = transpose(A + A)` dangles … -/
private def e2 : Tm Int .two := .transpose (.binary addI (.lv (.arr2 0)) (.lv (.arr2 0)))

example : ∃ o, e2.make bd (.during st) [] = .ok o ∧ o.acc.un2 (.during st) 0 1 = .ok 6 ∧
    o.acc.un2 (.later st) 0 1 = .ub :=
  ⟨_, rfl, rfl, (C49_transpose_dangles (m := .during st) bd (t := .binary addI (.lv (.arr2 0)) (.lv (.arr2 0))) rfl rfl
    (m' := .later st) rfl).1 0 1⟩

/-- … but can be used in the same statement, … -/
example : ∃ o, e2.make bd (.during st) [] = .ok o ∧ ∃ a, e2.build bd st = .ok a ∧ SameObject (.during st) o.acc a := by
  obtain ⟨a, h1, h2⟩ := C49_statement bd (t := e2) ⟨trivial, trivial⟩ st rfl
  exact ⟨_, rfl, a, h1, h2 st⟩

/-- … and the transpose of an array may be kept. -/
example : ∃ o, (Tm.transpose (.lv (.arr2 0)) : Tm Int .two).make bd (.during st) [] = .ok o ∧
    o.acc.un2 (.later st) 0 1 = .ok 3 := ⟨_, rfl, rfl⟩

private def ints : Arith Int :=
  ⟨0, 1, fun u v => .ok (u + v), fun u v => .ok (u - v), fun u v => .ok (u * v), fun u v => .ok (u / v), fun k => .ok k⟩

/-- `matvec_prod(A, x)` used in the same statement. -/
example : ∃ o, (Tm.matvec ints (.lv (.arr2 0)) (.lv (.arr1 0)) : Tm Int .one).make ⟨true, true, true⟩ (.during st) [] = .ok o ∧
    ∀ v, o.acc.un (.during st) 0 ≠ .ok v :=
  ⟨_, rfl, fun v => C49_matvec_dangles ⟨true, true, true⟩ ints (t := .lv (.arr2 0)) (x := .lv (.arr1 0)) (m := .during st) rfl
    (m' := .during st) rfl 0 v⟩

end Examples

end Spp.Props
