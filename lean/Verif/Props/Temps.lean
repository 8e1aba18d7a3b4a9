import Verif.Lemmas.Temps
import Verif.Props.Lifetime

/-
C86: which calls compile when an argument is a temporary array, and what that means for expressions that are
kept.
-/

namespace Spp.Props

open Spp Spec Cpp

/-- **C86.**  A call compiles exactly if its arguments have the right types and none of them is a temporary array
that owns its elements (or a temporary at all, for iterators and pointers), except for the calls named in `Gap`. -/
theorem C86_compiles (f : Fn) (args : List Arg) :
    f.compiles args = true ↔ Proper f args ∧ (Allowed f args ∨ Gap f args) := by
  cases f with
  | fn1 f => exact fn1_compiles f args
  | op o => exact op_compiles o args
  | fn2 f => exact fn2_compiles f args
  | merge => exact merge_compiles args
  | merge2 => exact merge2_compiles args
  | shape d => exact shape_compiles d args
  | slice v => exact slice_compiles v args
  | view d => exact view_compiles d args
  | pointer => exact pointer_compiles args
  | constPointer => exact constPointer_compiles args
  | plane => exact plane_compiles args

/-- **C86.**  A temporary array is not accepted, except by the calls named in `Gap`. -/
theorem C86_rejects {f : Fn} {args : List Arg} {a : Arg} (ha : a ∈ args) (ht : TempArray a) (hg : ¬ Gap f args) :
    f.compiles args = false := by
  rw [Bool.eq_false_iff]
  intro h
  rcases ((C86_compiles f args).1 h).2 with h' | h'
  · cases f <;> first | exact h' a ha ht | exact h' a ha ht.1
  · exact hg h'

/-- **C86.**  Iterators of temporaries, their `data()`, and their rows and columns as iterated by `RowIt` and
`ColIt` are not available. -/
theorem C86_no_iterators {f : Fn} (hf : f = .pointer ∨ f = .constPointer ∨ f = .plane) {args : List Arg} {a : Arg}
    (ha : a ∈ args) (ht : Temporary a) : f.compiles args = false := by
  rw [Bool.eq_false_iff]
  intro h
  rcases ((C86_compiles f args).1 h).2 with h' | h'
  · rcases hf with rfl | rfl | rfl <;> exact h' a ha ht
  · rcases hf with rfl | rfl | rfl <;> exact h'

/-- **C86.**  What has a name is accepted: the rule does not get in the way of calls with arguments of the right types. -/
theorem C86_accepts {f : Fn} {args : List Arg} (hp : Proper f args) (h : ∀ a ∈ args, ¬ Temporary a) :
    f.compiles args = true := by
  refine (C86_compiles f args).2 ⟨hp, .inl ?_⟩
  cases f <;> first | exact h | exact fun a ha ht => h a ha ht.1

/-- **C86.**  Views and expressions, which do not own elements, may be temporaries. -/
theorem C86_nested {f : Fn} (hf : f ≠ .pointer ∧ f ≠ .constPointer ∧ f ≠ .plane) {args : List Arg} (hp : Proper f args)
    (h : ∀ a ∈ args, ∀ d e, a.what ≠ .array d e true) : f.compiles args = true := by
  refine (C86_compiles f args).2 ⟨hp, .inl ?_⟩
  obtain ⟨h1, h2, h3⟩ := hf
  cases f <;> first | exact absurd rfl h1 | exact absurd rfl h2 | exact absurd rfl h3 |
    exact fun a ha ht => by obtain ⟨_, d, e, hw⟩ := ht; exact h a ha d e hw

theorem arg_named {lab : List Nat → Label} {f : Fn} {args : List Arg} {d : Dim} {o : Bool} {p : List Nat}
    (h : f.compiles args = true ∧ ¬ Gap f args) (ha : (lab p).arg d o ∈ args) (ho : o = true) : ¬ IsTemp lab p := by
  intro ht
  have : TempArray ((lab p).arg d o) := ⟨ht, d, (lab p).elem, by rw [ho]; rfl⟩
  rw [C86_rejects ha this h.2] at h
  cases h.1

theorem lv_named {lab : List Nat → Label} {d : Dim} (l : Lv d) {p : List Nat}
    (h : ∀ c ∈ lvCalls lab p l, c.1.compiles c.2 = true ∧ ¬ Gap c.1 c.2)
    (ho : lvOwner l = true → ¬ IsTemp lab p) : ∀ r ∈ lvArrays l, namedLv (IsTemp lab) p l r := by
  induction l generalizing p with
  | arr1 id => intro r hr; exact ⟨by simpa [lvArrays] using hr, ho rfl⟩
  | arr2 id => intro r hr; exact ⟨by simpa [lvArrays] using hr, ho rfl⟩
  | view v l ih =>
    exact ih (fun c hc => h c (by simp [lvCalls, hc])) (arg_named (h _ (by simp only [lvCalls]; exact List.mem_cons_self ..))
      List.mem_cons_self)

theorem tm_named {lab : List Nat → Label} {α : Type} {d : Dim} (t : Tm α d) {p : List Nat}
    (h : ∀ c ∈ tmCalls lab p t, c.1.compiles c.2 = true ∧ ¬ Gap c.1 c.2)
    (ho : tmOwner t = true → ¬ IsTemp lab p) : ∀ r ∈ arrays t, named (IsTemp lab) p t r := by
  have first : ∀ {q : List (Fn × List Arg)} {x : Fn × List Arg}, (∀ c ∈ x :: q, c.1.compiles c.2 = true ∧ ¬ Gap c.1 c.2) →
      (x.1.compiles x.2 = true ∧ ¬ Gap x.1 x.2) ∧ ∀ c ∈ q, c.1.compiles c.2 = true ∧ ¬ Gap c.1 c.2 :=
    fun h => ⟨h _ (by simp), fun c hc => h c (by simp [hc])⟩
  induction t generalizing p with
  | lv l => exact lv_named l h ho
  | sequence | linspace | eUnit | const1D | const2D | identity => intro r hr; simp [arrays] at hr
  | view v t ih | unary f t ih | scalarL f x t ih | scalarR f t x ih | append t x ih | prepend x t ih
  | exclude t _ _ ih | excludeLast t _ ih | reduce _ _ t ih | bcast _ t ih | transpose t ih =>
    simp only [tmCalls] at h
    obtain ⟨h1, h2⟩ := first h
    exact ih h2 (arg_named h1 (by first | exact List.mem_cons_self | exact List.mem_cons_of_mem _ List.mem_cons_self))
  | binary f t1 t2 ih1 ih2 | merge t1 t2 ih1 ih2 | tensor _ t1 t2 ih1 ih2 | mergeH t1 t2 ih1 ih2 | mergeV t1 t2 ih1 ih2
  | matvec _ t1 t2 ih1 ih2 =>
    simp only [tmCalls] at h
    obtain ⟨h1, h2⟩ := first h
    intro r hr
    simp only [arrays, List.mem_append] at hr
    exact hr.imp (ih1 (fun c hc => h2 c (by simp [hc])) (arg_named h1 List.mem_cons_self) r)
      (ih2 (fun c hc => h2 c (by simp [hc])) (arg_named h1 (List.mem_cons_of_mem _ List.mem_cons_self)) r)

/-- **C86.**  All arrays mentioned in an expression that compiles have names, if the expression is not an array
itself and contains no call named in `Gap`. -/
theorem C86_named {lab : List Nat → Label} {α : Type} {d : Dim} {t : Tm α d} (h : tmCompiles lab t = true)
    (hg : ∀ c ∈ tmCalls lab [] t, ¬ Gap c.1 c.2) (ht : isArray t = false) :
    ∀ r ∈ arrays t, named (IsTemp lab) [] t r := by
  refine tm_named t (fun c hc => ⟨List.all_eq_true.1 h c hc, hg c hc⟩) ?_
  intro ho
  exfalso
  cases t <;> first | (simp [tmOwner] at ho; done) | skip
  rename_i l
  cases l <;> simp [tmOwner, lvOwner] at ho <;> simp [isArray] at ht

/-- **C86.**  An expression that compiles may be kept: as long as the arrays with names that it mentions are alive, it
does what it did when it was constructed. -/
theorem C86_stored (b : Build) {lab : List Nat → Label} {α : Type} {d : Dim} {t : Tm α d} (h : tmCompiles lab t = true)
    (hg : ∀ c ∈ tmCalls lab [] t, ¬ Gap c.1 c.2) (ht : isArray t = false) (hs : Safe t) {m : Mem α}
    (hm : ∀ r ∈ arrays t, m.alive r = true) {o : Operand α α} (ho : t.make b m [] = .ok o) :
    ∃ a, t.build b m.store = .ok a ∧
      ∀ m' : Mem α, (∀ r, named (IsTemp lab) [] t r → m'.alive r = true) → SameObject m' o.acc a := by
  obtain ⟨a, h1, h2⟩ := C49_stored b hs hm ho
  exact ⟨a, h1, fun m' hm' => h2 m' fun r hr => hm' r (C86_named h hg ht r hr)⟩

/-- **C86.**  The calls named in `Gap` compile, whatever their arguments … -/
theorem C86_gaps {f : Fn} {args : List Arg} (hp : Proper f args) (hg : Gap f args) : f.compiles args = true :=
  (C86_compiles f args).2 ⟨hp, .inr hg⟩

theorem lv_array {α : Type} {b : Build} {m : Mem α} {d : Dim} {l : Lv d} {r : Ref} (hr : lvArrays l = [r])
    (ho : lvOwner l = true) {o : Operand α Loc} (h : l.make b m = .ok o) : o.array = some r := by
  cases l with
  | arr1 id => cases h; simp [lvArrays] at hr; rw [← hr]
  | arr2 id => cases h; simp [lvArrays] at hr; rw [← hr]
  | view v l => cases ho

theorem tm_array {α : Type} {b : Build} {m : Mem α} {d : Dim} {t : Tm α d} {p : List Nat} {r : Ref}
    (hr : arrays t = [r]) (ho : isArray t = true) {o : Operand α α} (h : t.make b m p = .ok o) :
    ∀ m' : Mem α, m'.alive r = false → o.stored.size m' = .ub ∧ (∀ k, o.stored.un m' k = .ub) ∧
      ∀ i j, o.stored.un2 m' i j = .ub := by
  cases t <;> first | (simp [isArray] at ho; done) | skip
  rename_i l
  have hl : lvOwner l = true := by cases l <;> first | rfl | (simp [isArray] at ho; done)
  simp only [Tm.make] at h
  obtain ⟨q, hq, h⟩ := Res.ok_bind_inv h
  cases h
  have := lv_array (b := b) (m := m) hr hl hq
  intro m' hm
  simp [Operand.stored, this, Acc.through, hm]

/-- **C86.**  … and then what they return cannot be used when the temporary is gone: functions of one array (`generate`), … -/
theorem C86_gap_unary (b : Build) {α : Type} {d : Dim} (f : α → Res α) {t : Tm α d} {r : Ref} (hr : arrays t = [r])
    (ht : isArray t = true) {m : Mem α} {o : Operand α α} (ho : (Tm.unary f t).make b m [] = .ok o) {m' : Mem α}
    (hm : m'.alive r = false) : o.acc.size m' = .ub ∧ (∀ k, o.acc.un m' k = .ub) ∧ ∀ i j, o.acc.un2 m' i j = .ub := by
  simp only [Tm.make] at ho
  obtain ⟨q, hq, ho⟩ := Res.ok_bind_inv ho
  cases ho
  obtain ⟨h1, h2, h3⟩ := tm_array hr ht hq m' hm
  refine ⟨h1, fun k => ?_, fun i j => ?_⟩
  · simp [Operand.object, Acc.unary, h2]
  · simp [Operand.object, Acc.unary, h3]

/-- **C86.**  … functions of two arrays (`generate`, `pow_prod`), … -/
theorem C86_gap_binary (b : Build) {α : Type} {d : Dim} (f : α → α → Res α) {t : Tm α d} {r : Ref} (hr : arrays t = [r])
    (ht : isArray t = true) (t' : Tm α d) {m : Mem α} {o : Operand α α} (ho : (Tm.binary f t t').make b m [] = .ok o)
    {m' : Mem α} (hm : m'.alive r = false) :
    o.acc.size m' = .ub ∧ (∀ k, o.acc.un m' k = .ub) ∧ ∀ i j, o.acc.un2 m' i j = .ub := by
  simp only [Tm.make] at ho
  obtain ⟨q, hq, ho⟩ := Res.ok_bind_inv ho
  obtain ⟨q', _, ho⟩ := Res.ok_bind_inv ho
  obtain ⟨a, ha, ho⟩ := Res.ok_bind_inv ho
  cases ho
  obtain ⟨h1, h2, h3⟩ := tm_array hr ht hq m' hm
  unfold Tm.mkBinary at ha
  obtain ⟨_, _, ha⟩ := Res.ok_bind_inv ha
  cases ha
  refine ⟨h1, fun k => ?_, fun i j => ?_⟩
  · simp [Operand.object, Acc.binary, h2]
  · simp [Operand.object, Acc.binary, h3]

/-- **C86.**  … also if it is the second one that was a temporary, … -/
theorem C86_gap_second (b : Build) {α : Type} {d : Dim} (f : α → α → Res α) (t : Tm α d) {t' : Tm α d} {r : Ref}
    (hr : arrays t' = [r]) (ht : isArray t' = true) {m : Mem α} {o : Operand α α}
    (ho : (Tm.binary f t t').make b m [] = .ok o) {m' : Mem α} (hm : m'.alive r = false) :
    (∀ k v, o.acc.un m' k ≠ .ok v) ∧ ∀ i j v, o.acc.un2 m' i j ≠ .ok v := by
  simp only [Tm.make] at ho
  obtain ⟨q, _, ho⟩ := Res.ok_bind_inv ho
  obtain ⟨q', hq, ho⟩ := Res.ok_bind_inv ho
  obtain ⟨a, ha, ho⟩ := Res.ok_bind_inv ho
  cases ho
  obtain ⟨_, h2, h3⟩ := tm_array hr ht hq m' hm
  unfold Tm.mkBinary at ha
  obtain ⟨_, _, ha⟩ := Res.ok_bind_inv ha
  cases ha
  refine ⟨fun k v h => ?_, fun i j v h => ?_⟩
  · obtain ⟨_, _, h⟩ := Res.ok_bind_inv h
    rw [h2] at h; cases h
  · obtain ⟨_, _, h⟩ := Res.ok_bind_inv h
    rw [h3] at h; cases h

/-- **C86.**  … `tensor_prod`, … -/
theorem C86_gap_tensor (b : Build) {α : Type} (ar : Arith α) {t t' : Tm α .one} {r : Ref}
    (h : arrays t = [r] ∧ isArray t = true ∨ arrays t' = [r] ∧ isArray t' = true) {m : Mem α} {o : Operand α α}
    (ho : (Tm.tensor ar t t').make b m [] = .ok o) {m' : Mem α} (hm : m'.alive r = false) (i j : Int) (v : α) :
    o.acc.un2 m' i j ≠ .ok v := by
  simp only [Tm.make] at ho
  obtain ⟨q, hq, ho⟩ := Res.ok_bind_inv ho
  obtain ⟨q', hq', ho⟩ := Res.ok_bind_inv ho
  cases ho
  intro hv
  obtain ⟨_, hx, hv⟩ := Res.ok_bind_inv (show (q.stored.un m' i >>= fun x => q'.stored.un m' j >>= fun y => ar.mul x y) = _
    from hv)
  obtain ⟨_, hy, _⟩ := Res.ok_bind_inv hv
  rcases h with ⟨h1, h2⟩ | ⟨h1, h2⟩
  · rw [(tm_array h1 h2 hq m' hm).2.1] at hx; cases hx
  · rw [(tm_array h1 h2 hq' m' hm).2.1] at hy; cases hy

/-- **C86.**  … and slices, such as those made with index lists. -/
theorem C86_gap_slice (b : Build) {α : Type} (w : SliceReq) {t : Tm α .one} {r : Ref} (hr : arrays t = [r])
    (ht : isArray t = true) {m : Mem α} {o : Operand α α} (ho : (Tm.view (.slice w) t).make b m [] = .ok o) {m' : Mem α}
    (hm : m'.alive r = false) (k : Int) (v : α) : o.acc.un m' k ≠ .ok v := by
  simp only [Tm.make] at ho
  obtain ⟨q, hq, ho⟩ := Res.ok_bind_inv ho
  obtain ⟨a, ha, ho⟩ := Res.ok_bind_inv ho
  cases ho
  simp only [View.mk, View.mkSlice1] at ha
  obtain ⟨sl, _, ha⟩ := Res.ok_bind_inv ha
  cases ha
  intro hv
  obtain ⟨j, _, hv⟩ := Res.ok_bind_inv (show (sl.map k >>= fun j => q.stored.un m' j) = _ from hv)
  rw [(tm_array hr ht hq m' hm).2.1] at hv; cases hv

section Examples

private def i32 : Elem := .sint 32
private def f64 : Elem := .float 64

/-- `A + B` with two arrays that have names; `A + makeArray()`; `A + (B + C)`; `2 * makeArray()`; `A + C` with different
dimensions. -/
example : (Fn.op .add).compiles [⟨.array .one f64 true, .lvalue⟩, ⟨.array .one f64 true, .constLvalue⟩] = true :=
  C86_accepts ⟨_, _, .one, f64, rfl, by simp [Op2For, f64], .inl ⟨⟨_, rfl⟩, ⟨_, rfl⟩⟩⟩ (by simp [Temporary])

example : (Fn.op .add).compiles [⟨.array .one f64 true, .lvalue⟩, ⟨.array .one f64 true, .rvalue⟩] = false :=
  C86_rejects (a := ⟨.array .one f64 true, .rvalue⟩) (by simp) ⟨.inl rfl, _, _, rfl⟩ (by simp [Gap])

example : (Fn.op .add).compiles [⟨.array .one f64 true, .lvalue⟩, ⟨.array .one f64 false, .rvalue⟩] = true :=
  (C86_compiles ..).2 ⟨⟨_, _, .one, f64, rfl, by simp [Op2For, f64], .inl ⟨⟨_, rfl⟩, ⟨_, rfl⟩⟩⟩,
    .inl (by simp [Allowed, TempArray, Temporary])⟩

example : (Fn.op .mul).compiles [⟨.number i32, .rvalue⟩, ⟨.array .two i32 true, .constRvalue⟩] = false :=
  C86_rejects (a := ⟨.array .two i32 true, .constRvalue⟩) (by simp) ⟨.inr rfl, _, _, rfl⟩ (by simp [Gap])

example : (Fn.op .add).compiles [⟨.array .one f64 true, .constLvalue⟩, ⟨.array .two f64 true, .constLvalue⟩] = false := by
  rw [Bool.eq_false_iff]
  intro h
  obtain ⟨⟨a, a', d, e, h1, _, h2⟩, _⟩ := (C86_compiles ..).1 h
  cases h1
  rcases h2 with ⟨⟨_, h2⟩, ⟨_, h3⟩⟩ | ⟨h2, _⟩ | ⟨_, h2⟩
  · cases h2; cases h3
  · cases h2
  · cases h2

/-- `merge(A, B, makeArray())`; `merge(x, A)`; `(A + B).data()`-like members; `RowIt(A)`. -/
example : Fn.merge.compiles [⟨.array .one i32 true, .lvalue⟩, ⟨.array .one i32 false, .rvalue⟩,
    ⟨.array .one i32 true, .rvalue⟩] = false :=
  C86_rejects (a := ⟨.array .one i32 true, .rvalue⟩) (by simp) ⟨.inl rfl, _, _, rfl⟩ (by simp [Gap])

example : Fn.merge.compiles [⟨.number i32, .rvalue⟩, ⟨.array .one i32 true, .lvalue⟩] = true := by decide

example : Fn.pointer.compiles [⟨.array .one i32 false, .rvalue⟩] = false :=
  C86_no_iterators (.inl rfl) (a := ⟨.array .one i32 false, .rvalue⟩) (by simp) (.inl rfl)

example : Fn.merge.compiles [⟨.array .one i32 false, .rvalue⟩, ⟨.array .one i32 false, .rvalue⟩] = true :=
  C86_nested (by simp) ⟨by simp, i32, .inl (by simp [IsArray])⟩ (by simp)

/-- `generate(makeArray(), f)`, `pow_prod(makeArray(), n)`, `makeArray()({0, 1})`. -/
example : (Fn.fn1 .generate).compiles [⟨.array .one f64 true, .rvalue⟩] = true :=
  C86_gaps ⟨_, _, _, rfl, ⟨_, rfl⟩, trivial⟩ trivial

example : (Fn.fn2 .powProd).compiles [⟨.array .one f64 true, .rvalue⟩, ⟨.array .one i32 true, .lvalue⟩] = true :=
  C86_gaps ⟨_, _, _, f64, 32, rfl, ⟨_, rfl⟩, ⟨_, rfl⟩, ⟨_, rfl⟩⟩ trivial

example : (Fn.slice .braces).compiles [⟨.array .one f64 true, .rvalue⟩] = true :=
  C86_gaps ⟨_, _, rfl, ⟨_, rfl⟩⟩ trivial

/-- `auto e = (x + y)(reverse)`: what the text says. -/
private def labels : List Nat → Label := fun p =>
  ⟨.plus, .inl .add, none, i32, if p = [0] then .rvalue else .lvalue⟩

private def addI (u v : Int) : Res Int := .ok (u + v)
private def e1 : Tm Int .one := .view (.slice .reverse) (.binary addI (.lv (.arr1 0)) (.lv (.arr1 1)))
private def st : Store Int := ⟨fun _ => [1, 2, 3], fun _ => ⟨2, 2, [1, 2, 3, 4]⟩⟩
private def bd : Build := ⟨false, true, false⟩

example : tmCompiles labels e1 = true := by decide

/-- The arrays that have names may be the only ones alive. -/
private def onlyNamed : Mem Int := ⟨st, fun r => decide (r = .array1 0 ∨ r = .array1 1)⟩

example : ∃ o, e1.make bd (.during st) [] = .ok o ∧ ∃ a, e1.build bd st = .ok a ∧ SameObject onlyNamed o.acc a := by
  refine ⟨_, rfl, ?_⟩
  obtain ⟨a, h1, h2⟩ := C86_stored (lab := labels) (t := e1) (m := .during st) bd (by decide)
    (by simp [e1, tmCalls, Label.view, labels, Label.binary, Gap, lvCalls]) rfl ⟨trivial, trivial⟩
    (by intro r hr; simp [e1, arrays, lvArrays] at hr; rcases hr with rfl | rfl <;> rfl) rfl
  refine ⟨a, h1, h2 onlyNamed ?_⟩
  intro r hr
  simp only [e1, named, namedLv] at hr
  rcases hr with ⟨rfl, _⟩ | ⟨rfl, _⟩ <;> rfl

/-- The same with a temporary `y` does not compile. -/
private def labels' : List Nat → Label := fun p =>
  ⟨.plus, .inl .add, none, i32, if p = [1, 0] then .rvalue else .lvalue⟩

example : tmCompiles labels' e1 = false := by decide

/-- `auto e = generate(makeArray(), f)` compiles, and dangles. -/
private def e2 : Tm Int .one := .unary (fun u => .ok (u + 1)) (.lv (.arr1 7))
private def gone : Mem Int := ⟨st, fun r => decide (r ≠ .array1 7)⟩

example : tmCompiles (fun _ => ⟨.generate, .inl .add, none, i32, .rvalue⟩) e2 = true ∧
    ∃ o, e2.make bd (.during st) [] = .ok o ∧ o.acc.un (.during st) 0 = .ok 2 ∧ o.acc.un gone 0 = .ub :=
  ⟨by decide, _, rfl, rfl, (C86_gap_unary (m := .during st) bd (fun u => .ok (u + 1)) (t := .lv (.arr1 7)) rfl rfl rfl (m' := gone) rfl).2.1 0⟩

example : ∃ o, (Tm.binary addI (.lv (.arr1 7)) (.lv (.arr1 0)) : Tm Int .one).make bd (.during st) [] = .ok o ∧
    o.acc.un gone 0 = .ub :=
  ⟨_, rfl, (C86_gap_binary (m := .during st) bd addI (t := .lv (.arr1 7)) rfl rfl (.lv (.arr1 0)) rfl (m' := gone) rfl).2.1 0⟩

example : ∃ o, (Tm.binary addI (.lv (.arr1 0)) (.lv (.arr1 7)) : Tm Int .one).make bd (.during st) [] = .ok o ∧
    ∀ v, o.acc.un gone 0 ≠ .ok v :=
  ⟨_, rfl, (C86_gap_second (m := .during st) bd addI (.lv (.arr1 0)) (t' := .lv (.arr1 7)) rfl rfl rfl (m' := gone) rfl).1 0⟩

private def ints : Arith Int :=
  ⟨0, 1, fun u v => .ok (u + v), fun u v => .ok (u - v), fun u v => .ok (u * v), fun u v => .ok (u / v), fun k => .ok k⟩

example : ∃ o, (Tm.tensor ints (.lv (.arr1 0)) (.lv (.arr1 7)) : Tm Int .two).make bd (.during st) [] = .ok o ∧
    ∀ v, o.acc.un2 gone 0 1 ≠ .ok v :=
  ⟨_, rfl, C86_gap_tensor (m := .during st) bd ints (t := .lv (.arr1 0)) (t' := .lv (.arr1 7)) (.inr ⟨rfl, rfl⟩) rfl (m' := gone)
    rfl 0 1⟩

example : ∃ o, (Tm.view (.slice (.vec [0, 2])) (.lv (.arr1 7)) : Tm Int .one).make bd (.during st) [] = .ok o ∧
    ∀ v, o.acc.un gone 0 ≠ .ok v :=
  ⟨_, rfl, C86_gap_slice (m := .during st) bd (.vec [0, 2]) (t := .lv (.arr1 7)) rfl rfl rfl (m' := gone) rfl 0⟩

end Examples

end Spp.Props
