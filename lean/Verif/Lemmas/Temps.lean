import Verif.Lemmas.Overload

/- Which calls compile, one family of functions at a time. -/

namespace Spp.Cpp

open Spec

/-- The whole list of arguments is one argument. -/
theorem one_arg (args : List Arg) : (∃ a, args = [a]) ∨ args.length ≠ 1 := by
  rcases args with _ | ⟨a, _ | ⟨b, l⟩⟩ <;> simp

theorem two_args (args : List Arg) : (∃ a b, args = [a, b]) ∨ args.length ≠ 2 := by
  rcases args with _ | ⟨a, _ | ⟨b, _ | ⟨c, l⟩⟩⟩ <;> simp

theorem viable_length {c : Cand} {args : List Arg} (h : c.params.length ≠ args.length) : c.viable args = false := by
  simp [Cand.viable, h]

theorem compiles_length {cs : List Cand} {body : List What → Bool} {args : List Arg}
    (h : ∀ c ∈ cs, c.params.length ≠ args.length) : compiles cs body args = false :=
  rejected_none fun c hc _ => viable_length (h c hc)

theorem temp_iff {w : What} {c : Cat} : Temporary ⟨w, c⟩ ↔ c.isRvalue = true := by
  cases c <;> simp [Temporary, Cat.isRvalue]

theorem tempArray_iff {d : Dim} {e : Elem} {o : Bool} {c : Cat} :
    TempArray ⟨.array d e o, c⟩ ↔ o = true ∧ c.isRvalue = true := by
  simp only [TempArray, temp_iff, What.array.injEq]
  constructor
  · rintro ⟨h, _, _, _, _, h'⟩; exact ⟨h', h⟩
  · rintro ⟨h, h'⟩; exact ⟨h', d, e, rfl, rfl, h⟩

theorem temp_bool {o r : Bool} : ¬ (o = true ∧ r = true) ↔ (!(o && r)) = true := by cases o <;> cases r <;> simp

/-- What is not an array. -/
def notArray : What → Bool
  | .array .. => false
  | _ => true

theorem notArray_array {w : What} (h : notArray w = true) (d : Dim) (e : Elem) (o : Bool) : w ≠ .array d e o := by
  rintro rfl; cases h

theorem not_tempArray {w : What} (h : notArray w = true) (c : Cat) : ¬ TempArray ⟨w, c⟩ := by
  rintro ⟨_, d, e, h'⟩
  exact notArray_array h _ _ _ h'

theorem not_isArray {w : What} (h : notArray w = true) {d : Dim} {e : Elem} {c : Cat} : ¬ IsArray d e ⟨w, c⟩ := by
  rintro ⟨o, h'⟩
  exact notArray_array h _ _ _ h'

theorem isArray_iff {d d' : Dim} {e e' : Elem} {o : Bool} {c : Cat} :
    IsArray d e ⟨.array d' e' o, c⟩ ↔ d' = d ∧ e' = e := by
  simp [IsArray]

theorem baseOf_notArray {w : What} (h : notArray w = true) (c : Cls) (r : Bool) : (Ty.mk w r).baseOf c = false := by
  cases w <;> first | rfl | cases h

theorem dimBase_notArray {w : What} (h : notArray w = true) (d : Dim) (r : Bool) : (Ty.mk w r).dimBase d = false := by
  cases w <;> first | rfl | cases h

/-! ### Functions of one array -/

theorem fn1_code (f : Fn1) (d : Dim) (e : Elem) (o : Bool) (c : Cat) :
    (Fn.fn1 f).compiles [⟨.array d e o, c⟩] =
      (f.cls.has e && (decide (f = .generate) || !(o && c.isRvalue)) && f.body [.array d e o]) := by
  by_cases hg : f = .generate
  · subst hg
    simp only [Fn.compiles, Fn1.set, if_pos]
    simp [compiles, resolve, Cand.viable, Form.bind, Form.deduce, on1, Ty.baseOf, Fn1.cls, Cls.has, not_beats_self]
  · simp only [Fn.compiles, Fn1.set, if_neg hg]
    rw [compiles_pair rfl rfl]
    cases o <;> cases c <;> cases h : f.cls.has e <;>
      simp [Cand.viable, Form.bind, Form.deduce, on1, Ty.baseOf, Ty.ownerRvalue, Cat.isRvalue, Cat.isConst,
        Cand.beats, Bound.better, h, hg]

theorem fn1_types (f : Fn1) (d : Dim) (e : Elem) (o : Bool) :
    (f.cls.has e && f.body [.array d e o]) = true ↔ Fn1For e f := by
  cases f <;> rcases e with _ | n | n | n <;> simp [Fn1.cls, Cls.has, Fn1.body, Fn1For, IsInteger, IsFloat]

theorem fn1_notArray (f : Fn1) {w : What} (h : notArray w = true) (c : Cat) :
    (Fn.fn1 f).compiles [⟨w, c⟩] = false := by
  refine rejected_none fun x hx hd => ?_
  unfold Fn1.set at hx
  split at hx <;> simp at hx
  · subst hx
    simp [Cand.viable, on1, Form.deduce, baseOf_notArray h]
  · rcases hx with rfl | rfl
    · simp [Cand.viable, on1, Form.deduce, baseOf_notArray h]
    · cases hd

theorem fn1_compiles (f : Fn1) (args : List Arg) :
    (Fn.fn1 f).compiles args = true ↔ Proper (.fn1 f) args ∧ (Allowed (.fn1 f) args ∨ Gap (.fn1 f) args) := by
  rcases one_arg args with ⟨⟨w, c⟩, rfl⟩ | h
  · by_cases hw : notArray w = true
    · rw [fn1_notArray f hw]
      simp only [Bool.false_eq_true, false_iff]
      rintro ⟨⟨a, d, e, h1, h2, _⟩, _⟩
      cases h1
      exact not_isArray hw h2
    · rcases w with ⟨d, e, o⟩ | _ | _ | _ | _
      · have hp : Proper (.fn1 f) [⟨.array d e o, c⟩] ↔ Fn1For e f := by
          constructor
          · rintro ⟨a, d', e', h1, h2, h3⟩
            cases h1
            rw [(isArray_iff.1 h2).2]
            exact h3
          · exact fun h => ⟨_, d, e, rfl, ⟨o, rfl⟩, h⟩
        have ha : Allowed (.fn1 f) [⟨.array d e o, c⟩] ↔ (o && c.isRvalue) = false := by
          simp only [Allowed, List.mem_singleton, forall_eq, tempArray_iff]
          cases o <;> cases c.isRvalue <;> simp
        have hg : Gap (.fn1 f) [⟨.array d e o, c⟩] ↔ f = .generate := by cases f <;> simp [Gap]
        rw [fn1_code, hp, ha, hg, ← fn1_types f d e o]
        cases f.cls.has e <;> cases (o && c.isRvalue) <;> by_cases hf : f = .generate <;> simp [hf]
      all_goals exact absurd rfl hw
  · have : ¬ Proper (.fn1 f) args := by rintro ⟨a, d, e, rfl, _⟩; exact h rfl
    simp only [this, false_and, iff_false, Bool.not_eq_true]
    refine compiles_length fun c hc => ?_
    have hl : c.params.length = 1 := by
      unfold Fn1.set at hc
      split at hc <;> simp at hc <;> grind
    rw [hl]
    exact fun h' => h h'.symm

/-! ### Operators -/

/-- Two forwarding references against two constant references. -/
theorem beats_cref {w w' : What} {c c' : Cat} (hw : w ≠ .braces) (hw' : w' ≠ .braces) {p q : List Ty → Bool} :
    (Cand.mk [.cref, .cref] p false 1).beats ⟨[.fwd, .fwd], q, true, 0⟩ [⟨w, c⟩, ⟨w', c'⟩] =
      (decide (c = .constLvalue) && decide (c' = .constLvalue)) := by
  cases c <;> cases c' <;> simp [Cand.beats, Form.bind, Bound.better, hw, hw', Cat.isRvalue, Cat.isConst]

/-- Candidates that are not viable make no difference. -/
theorem resolve_filter {cs : List Cand} {args : List Arg} :
    resolve cs args = resolve (cs.filter fun c => c.viable args) args := by
  simp [resolve, List.filter_filter]

theorem compiles_filter {cs cs' : List Cand} {body : List What → Bool} {args : List Arg}
    (h : (cs.filter fun c => c.viable args) = cs'.filter fun c => c.viable args) :
    compiles cs body args = compiles cs' body args := by
  unfold compiles
  rw [resolve_filter, h, ← resolve_filter]

theorem compiles_left {l1 l2 : List Cand} {body : List What → Bool} {args : List Arg}
    (h : ∀ c ∈ l2, c.viable args = false) : compiles (l1 ++ l2) body args = compiles l1 body args := by
  apply compiles_filter
  rw [List.filter_append, (List.filter_eq_nil_iff (l := l2)).2 (fun c hc => by rw [h c hc]; simp), List.append_nil]

theorem compiles_right {l1 l2 : List Cand} {body : List What → Bool} {args : List Arg}
    (h : ∀ c ∈ l1, c.viable args = false) : compiles (l1 ++ l2) body args = compiles l2 body args := by
  apply compiles_filter
  rw [List.filter_append, List.filter_eq_nil_iff.2 (fun c hc => by rw [h c hc]; simp), List.nil_append]

theorem ref_ne_none {r c : Bool} : (Bound.ref r c != Bound.none) = true := by cases r <;> cases c <;> rfl
theorem value_ne_none : (Bound.value != Bound.none) = true := rfl

/-- A function of two arrays and its deleted overload. -/
theorem two_code {p q : Ty → Ty → Bool} {body : List What → Bool} {w w' : What} {c c' : Cat} (hw : w ≠ .braces)
    (hw' : w' ≠ .braces) :
    compiles [⟨[.cref, .cref], on2 p, false, 1⟩, ⟨[.fwd, .fwd], on2 q, true, 0⟩] body [⟨w, c⟩, ⟨w', c'⟩] =
      (p ⟨w, false⟩ ⟨w', false⟩ && (!q ⟨w, !c.isRvalue⟩ ⟨w', !c'.isRvalue⟩ ||
        (decide (c = .constLvalue) && decide (c' = .constLvalue))) && body [w, w']) := by
  rw [compiles_pair rfl rfl, beats_cref hw hw']
  simp [Cand.viable, Form.bind, Form.deduce, on2, hw, hw', ref_ne_none]

/-- A function of a number and an array and its deleted overload. -/
theorem val_code {p q : Ty → Ty → Bool} {body : List What → Bool} {w w' : What} {c c' : Cat} (hw : w ≠ .braces)
    (hw' : w' ≠ .braces) :
    compiles [⟨[.val, .cref], on2 p, false, 1⟩, ⟨[.val, .fwd], on2 q, true, 0⟩] body [⟨w, c⟩, ⟨w', c'⟩] =
      (p ⟨w, false⟩ ⟨w', false⟩ && (!q ⟨w, false⟩ ⟨w', !c'.isRvalue⟩ || decide (c' = .constLvalue)) &&
        body [w, w']) := by
  rw [compiles_pair rfl rfl]
  cases c' <;> simp [Cand.viable, Form.bind, Form.deduce, on2, hw, hw', Cand.beats, Bound.better, Cat.isRvalue,
    Cat.isConst, ref_ne_none, value_ne_none]

/-- A function of an array and a number and its deleted overload. -/
theorem val_code' {p q : Ty → Ty → Bool} {body : List What → Bool} {w w' : What} {c c' : Cat} (hw : w ≠ .braces)
    (hw' : w' ≠ .braces) :
    compiles [⟨[.cref, .val], on2 p, false, 1⟩, ⟨[.fwd, .val], on2 q, true, 0⟩] body [⟨w, c⟩, ⟨w', c'⟩] =
      (p ⟨w, false⟩ ⟨w', false⟩ && (!q ⟨w, !c.isRvalue⟩ ⟨w', false⟩ || decide (c = .constLvalue)) &&
        body [w, w']) := by
  rw [compiles_pair rfl rfl]
  cases c <;> simp [Cand.viable, Form.bind, Form.deduce, on2, hw, hw', Cand.beats, Bound.better, Cat.isRvalue,
    Cat.isConst, ref_ne_none, value_ne_none]

/-- Operators: two arrays. -/
theorem op_arrays (k : Cls) (d d' : Dim) (e e' : Elem) (o o' : Bool) (c c' : Cat) :
    compiles (opSet k) sameTypes [⟨.array d e o, c⟩, ⟨.array d' e' o', c'⟩] =
      (k.has e && decide (e = e') && decide (d = d') && !(o && c.isRvalue) && !(o' && c'.isRvalue)) := by
  rw [show opSet k = [⟨[.cref, .cref], on2 (fun t u => t.baseOf k && u.baseOf k), false, 1⟩,
   ⟨[.fwd, .fwd], on2 (exprDeleted k), true, 0⟩] ++ [⟨[.val, .cref], on2 (fun t u => t.number && u.baseOf k), false, 1⟩,
   ⟨[.val, .fwd], on2 (fun t u => t.number && u.ownerRvalue k), true, 0⟩,
   ⟨[.cref, .val], on2 (fun t u => t.baseOf k && u.number), false, 1⟩,
   ⟨[.fwd, .val], on2 (fun t u => t.ownerRvalue k && u.number), true, 0⟩] from rfl, compiles_left]
  · rw [two_code (by simp) (by simp)]
    by_cases he : e = e'
    · subst he
      by_cases hd : d = d'
      · subst hd
        cases h : k.has e <;> cases o <;> cases o' <;> cases c <;> cases c' <;>
          simp [Ty.baseOf, h, exprDeleted, Ty.noRef, Ty.ownerRvalue, Ty.sameDim, Cat.isRvalue, sameTypes, What.elem?,
            What.dim?]
      · simp [sameTypes, What.elem?, What.dim?, hd]
    · simp [sameTypes, What.elem?, What.dim?, he]
  · simp [Cand.viable, Form.deduce, on2, Ty.number]

/-- Operators: a number and an array. -/
theorem op_val (k : Cls) (d : Dim) (e e' : Elem) (o : Bool) (c c' : Cat) :
    compiles (opSet k) sameTypes [⟨.number e', c'⟩, ⟨.array d e o, c⟩] =
      (k.has e && decide (e' = e) && !(o && c.isRvalue)) := by
  rw [show opSet k = [⟨[.cref, .cref], on2 (fun t u => t.baseOf k && u.baseOf k), false, 1⟩,
   ⟨[.fwd, .fwd], on2 (exprDeleted k), true, 0⟩] ++ ([⟨[.val, .cref], on2 (fun t u => t.number && u.baseOf k), false, 1⟩,
   ⟨[.val, .fwd], on2 (fun t u => t.number && u.ownerRvalue k), true, 0⟩] ++
   [⟨[.cref, .val], on2 (fun t u => t.baseOf k && u.number), false, 1⟩,
   ⟨[.fwd, .val], on2 (fun t u => t.ownerRvalue k && u.number), true, 0⟩]) from rfl, compiles_right, compiles_left]
  · rw [val_code (by simp) (by simp)]
    by_cases he : e' = e
    · cases h : k.has e <;> cases o <;> cases c <;>
          simp [Ty.baseOf, h, Ty.ownerRvalue, Ty.number, Cat.isRvalue, sameTypes, What.elem?, What.dim?, he]
    · simp [sameTypes, What.elem?, What.dim?, he]
  · simp [Cand.viable, Form.deduce, on2, Ty.baseOf, Ty.ownerRvalue]
  · simp [Cand.viable, Form.deduce, on2, Ty.baseOf, exprDeleted, Ty.noRef]

/-- Operators: an array and a number. -/
theorem op_val' (k : Cls) (d : Dim) (e e' : Elem) (o : Bool) (c c' : Cat) :
    compiles (opSet k) sameTypes [⟨.array d e o, c⟩, ⟨.number e', c'⟩] =
      (k.has e && decide (e = e') && !(o && c.isRvalue)) := by
  rw [show opSet k = [⟨[.cref, .cref], on2 (fun t u => t.baseOf k && u.baseOf k), false, 1⟩,
   ⟨[.fwd, .fwd], on2 (exprDeleted k), true, 0⟩, ⟨[.val, .cref], on2 (fun t u => t.number && u.baseOf k), false, 1⟩,
   ⟨[.val, .fwd], on2 (fun t u => t.number && u.ownerRvalue k), true, 0⟩] ++
   [⟨[.cref, .val], on2 (fun t u => t.baseOf k && u.number), false, 1⟩,
   ⟨[.fwd, .val], on2 (fun t u => t.ownerRvalue k && u.number), true, 0⟩] from rfl, compiles_right]
  · rw [val_code' (by simp) (by simp)]
    by_cases he : e = e'
    · cases h : k.has e <;> cases o <;> cases c <;>
          simp [Ty.baseOf, h, Ty.ownerRvalue, Ty.number, Cat.isRvalue, sameTypes, What.elem?, What.dim?, ← he]
    · simp [sameTypes, What.elem?, What.dim?, he]
  · simp [Cand.viable, Form.deduce, on2, Ty.baseOf, exprDeleted, Ty.noRef, Ty.number]

/-- The kinds of arguments operators take: two arrays, a number and an array, an array and a number. -/
def opKinds : What → What → Bool
  | .array .., .array .. => true
  | .number _, .array .. => true
  | .array .., .number _ => true
  | _, _ => false

theorem op_other (k : Cls) {w w' : What} (h : opKinds w w' = false) (c c' : Cat) :
    ∀ x ∈ opSet k, x.deleted = false → x.viable [⟨w, c⟩, ⟨w', c'⟩] = false := by
  intro x hx hd
  simp only [opSet, List.mem_cons, List.not_mem_nil, or_false] at hx
  rcases hx with rfl | rfl | rfl | rfl | rfl | rfl
  · cases w <;> cases w' <;> first | (exfalso; revert h; simp [opKinds]; done) |
      simp [Cand.viable, Form.deduce, on2, Ty.baseOf]
  · cases hd
  · cases w <;> cases w' <;> first | (exfalso; revert h; simp [opKinds]; done) |
      simp [Cand.viable, Form.deduce, on2, Ty.baseOf, Ty.number]
  · cases hd
  · cases w <;> cases w' <;> first | (exfalso; revert h; simp [opKinds]; done) |
      simp [Cand.viable, Form.deduce, on2, Ty.baseOf, Ty.number]
  · cases hd

/-- The operators of another class of element types are not viable. -/
theorem op_class {k : Cls} {w w' : What} {e : Elem} (h : opKinds w w' = true) (hw : w.elem? = some e)
    (hw' : w'.elem? = some e) (hk : k.has e = false) (c c' : Cat) :
    ∀ x ∈ opSet k, x.viable [⟨w, c⟩, ⟨w', c'⟩] = false := by
  intro x hx
  simp only [opSet, List.mem_cons, List.not_mem_nil, or_false] at hx
  rcases hx with rfl | rfl | rfl | rfl | rfl | rfl <;> cases w <;> cases w' <;>
    first | (exfalso; revert h; simp [opKinds]; done) | skip
  all_goals
    simp only [What.elem?, Option.some.injEq] at hw hw'
    subst hw
    try subst hw'
    simp_all [Cand.viable, Form.deduce, on2, Ty.baseOf, Ty.number, Ty.ownerRvalue, exprDeleted, Ty.noRef]

/-- The operator is declared for the element type. -/
theorem op_classes (o : Op2) {w w' : What} {e : Elem} (h : opKinds w w' = true) (hw : w.elem? = some e)
    (hw' : w'.elem? = some e) (c c' : Cat) : ∃ k : Cls, (k.has e = true ↔ Op2For e o) ∧
      (Fn.op o).compiles [⟨w, c⟩, ⟨w', c'⟩] = compiles (opSet k) sameTypes [⟨w, c⟩, ⟨w', c'⟩] := by
  have one : ∀ k, o.classes = [k] → (k.has e = true ↔ Op2For e o) → _ := fun k hk hf =>
    (⟨k, hf, by simp [Fn.compiles, hk]⟩ : ∃ k : Cls, (k.has e = true ↔ Op2For e o) ∧
      (Fn.op o).compiles [⟨w, c⟩, ⟨w', c'⟩] = compiles (opSet k) sameTypes [⟨w, c⟩, ⟨w', c'⟩])
  cases o
  case bxor =>
    have hs : (Fn.op .bxor).compiles [⟨w, c⟩, ⟨w', c'⟩] =
        compiles (opSet .integer ++ opSet .boolean) sameTypes [⟨w, c⟩, ⟨w', c'⟩] := by
      simp [Fn.compiles, Op2.classes]
    rcases e with _ | n | n | n
    · refine ⟨.boolean, by simp [Cls.has, Op2For], ?_⟩
      rw [hs, compiles_right (op_class h hw hw' rfl c c')]
    · refine ⟨.integer, by simp [Cls.has, Op2For, IsInteger], ?_⟩
      rw [hs, compiles_left (op_class h hw hw' rfl c c')]
    · refine ⟨.integer, by simp [Cls.has, Op2For, IsInteger], ?_⟩
      rw [hs, compiles_left (op_class h hw hw' rfl c c')]
    · refine ⟨.integer, by simp [Cls.has, Op2For, IsInteger], ?_⟩
      rw [hs, compiles_left (op_class h hw hw' rfl c c')]
  all_goals
    refine one _ rfl ?_
    rcases e with _ | n | n | n <;> simp [Cls.has, Op2For, IsInteger]

theorem op_compiles (o : Op2) (args : List Arg) :
    (Fn.op o).compiles args = true ↔ Proper (.op o) args ∧ (Allowed (.op o) args ∨ Gap (.op o) args) := by
  have hgap : ¬ Gap (.op o) args := by simp [Gap]
  simp only [hgap, or_false]
  rcases two_args args with ⟨⟨w, c⟩, ⟨w', c'⟩, rfl⟩ | h
  · by_cases hk : opKinds w w' = true
    · by_cases hee : w.elem? = w'.elem?
      · obtain ⟨e, he⟩ : ∃ e, w.elem? = some e := by
          cases w <;> cases w' <;> first | (exfalso; revert hk; simp [opKinds]; done) | exact ⟨_, rfl⟩
        obtain ⟨k, h1, h2⟩ := op_classes o hk he (hee ▸ he) c c'
        rw [h2]
        rcases w with ⟨d, e1, o1⟩ | e1 | _ | _ | _ <;> rcases w' with ⟨d', e2, o2⟩ | e2 | _ | _ | _ <;>
          first | (exfalso; revert hk; simp [opKinds]; done) | skip
        · simp only [What.elem?, Option.some.injEq] at he hee
          subst he hee
          rw [op_arrays]
          simp only [Allowed, List.mem_cons, List.not_mem_nil, or_false, forall_eq_or_imp, forall_eq, tempArray_iff,
            Bool.and_eq_true, decide_eq_true_eq, h1]
          constructor
          · rintro ⟨⟨⟨⟨a1, _⟩, rfl⟩, a2⟩, a3⟩
            refine ⟨⟨_, _, d, e1, rfl, a1, .inl ⟨⟨_, rfl⟩, ⟨_, rfl⟩⟩⟩, ?_, ?_⟩
            · exact temp_bool.2 a2
            · exact temp_bool.2 a3
          · rintro ⟨⟨a, a', d0, e0, b1, b2, b3⟩, b4, b5⟩
            cases b1
            rcases b3 with ⟨b3, b3'⟩ | ⟨b3, _⟩ | ⟨_, b3⟩
            · obtain ⟨rfl, rfl⟩ := isArray_iff.1 b3
              obtain ⟨rfl, _⟩ := isArray_iff.1 b3'
              exact ⟨⟨⟨⟨b2, trivial⟩, rfl⟩, temp_bool.1 b4⟩, temp_bool.1 b5⟩
            · cases b3
            · cases b3
        · simp only [What.elem?, Option.some.injEq] at he hee
          subst he hee
          rw [op_val']
          simp only [Allowed, List.mem_cons, List.not_mem_nil, or_false, forall_eq_or_imp, forall_eq, tempArray_iff,
            Bool.and_eq_true, h1]
          constructor
          · rintro ⟨⟨a1, _⟩, a2⟩
            exact ⟨⟨_, _, d, e1, rfl, a1, .inr (.inr ⟨⟨_, rfl⟩, rfl⟩)⟩, temp_bool.2 a2, not_tempArray rfl _⟩
          · rintro ⟨⟨a, a', d0, e0, b1, b2, b3⟩, b4, b5⟩
            cases b1
            rcases b3 with ⟨_, b3⟩ | ⟨b3, _⟩ | ⟨b3, _⟩
            · exact (not_isArray rfl b3).elim
            · cases b3
            · obtain ⟨rfl, rfl⟩ := isArray_iff.1 b3
              exact ⟨⟨b2, by simp⟩, temp_bool.1 b4⟩
        · simp only [What.elem?, Option.some.injEq] at he hee
          subst he hee
          rw [op_val]
          simp only [Allowed, List.mem_cons, List.not_mem_nil, or_false, forall_eq_or_imp, forall_eq, tempArray_iff,
            Bool.and_eq_true, h1]
          constructor
          · rintro ⟨⟨a1, _⟩, a2⟩
            exact ⟨⟨_, _, d', e1, rfl, a1, .inr (.inl ⟨rfl, ⟨_, rfl⟩⟩)⟩, not_tempArray rfl _, temp_bool.2 a2⟩
          · rintro ⟨⟨a, a', d0, e0, b1, b2, b3⟩, b4, b5⟩
            cases b1
            rcases b3 with ⟨b3, _⟩ | ⟨_, b3⟩ | ⟨_, b3⟩
            · exact (not_isArray rfl b3).elim
            · obtain ⟨rfl, rfl⟩ := isArray_iff.1 b3
              exact ⟨⟨b2, by simp⟩, temp_bool.1 b5⟩
            · cases b3
      · have hr : (Fn.op o).compiles [⟨w, c⟩, ⟨w', c'⟩] = false := by
          refine rejected_body ?_
          simp [sameTypes, hee]
        rw [hr]
        simp only [Bool.false_eq_true, false_iff]
        rintro ⟨⟨a, a', d, e, h1, _, h2⟩, _⟩
        cases h1
        apply hee
        rcases h2 with ⟨⟨_, a⟩, ⟨_, b⟩⟩ | ⟨a, ⟨_, b⟩⟩ | ⟨⟨_, a⟩, b⟩ <;> dsimp only [IsNumber] at a b <;>
          simp [a, b, What.elem?]
    · have hr : (Fn.op o).compiles [⟨w, c⟩, ⟨w', c'⟩] = false := by
        refine rejected_none fun x hx hd => ?_
        obtain ⟨k, _, hx⟩ := List.mem_flatMap.1 hx
        exact op_other k (by simpa using hk) c c' x hx hd
      rw [hr]
      simp only [Bool.false_eq_true, false_iff]
      rintro ⟨⟨a, a', d, e, h1, _, h2⟩, _⟩
      cases h1
      apply hk
      rcases h2 with ⟨⟨_, a⟩, ⟨_, b⟩⟩ | ⟨a, ⟨_, b⟩⟩ | ⟨⟨_, a⟩, b⟩ <;> dsimp only [IsNumber] at a b <;>
        simp [a, b, opKinds]
  · have : ¬ Proper (.op o) args := by rintro ⟨a, a', d, e, rfl, _⟩; exact h rfl
    simp only [this, false_and, iff_false, Bool.not_eq_true]
    refine compiles_length fun c hc => ?_
    obtain ⟨k, _, hx⟩ := List.mem_flatMap.1 hc
    have hl : c.params.length = 2 := by
      simp only [opSet, List.mem_cons, List.not_mem_nil, or_false] at hx
      rcases hx with rfl | rfl | rfl | rfl | rfl | rfl <;> rfl
    rw [hl]
    exact fun h' => h h'.symm

/-! ### Other functions of two arrays -/

theorem decide_and (p q : Prop) [Decidable p] [Decidable q] : (decide p && decide q) = decide (p ∧ q) := by
  by_cases p <;> by_cases q <;> simp [*]

/-- What a function of two arrays accepts. -/
def fn2Ok (f : Fn2) (d d' : Dim) (e e' : Elem) (t t' : Bool) (l : Bool) : Bool :=
  match f with
  | .twoProd => Cls.has .floating e && decide (e = e') && decide (d = d') && !t && !t'
  | .powProd => Cls.has .floating e && e'.isSigned && decide (d = d')
  | .generate => decide (d = d')
  | .matvec => decide (d = .two) && decide (d' = .one) && Cls.has .real e && decide (e = e') && !t && !t'
  | .tensor => decide (d = .one) && decide (d' = .one) && Cls.has .real e && decide (e = e') && ((!t && !t') || l)

theorem fn2_code (f : Fn2) (d d' : Dim) (e e' : Elem) (o o' : Bool) (c c' : Cat) :
    (Fn.fn2 f).compiles [⟨.array d e o, c⟩, ⟨.array d' e' o', c'⟩] =
      fn2Ok f d d' e e' (o && c.isRvalue) (o' && c'.isRvalue) (!c.isRvalue || !c'.isRvalue) := by
  cases f
  case generate =>
    simp [Fn.compiles, Fn2.set, compiles, resolve, Cand.viable, Form.bind, Form.deduce, on2, Ty.base, not_beats_self,
      ref_ne_none, fn2Ok, Fn2.body, What.dim?]
    cases d <;> cases d' <;> rfl
  case twoProd =>
    simp only [Fn.compiles, Fn2.set, fn2Ok]
    rw [two_code (by simp) (by simp)]
    by_cases he : e = e'
    · subst he
      by_cases hd : d = d'
      · subst hd
        cases h : Cls.has .floating e <;> cases o <;> cases o' <;> cases c <;> cases c' <;>
          simp [Ty.baseOf, h, exprDeleted, Ty.noRef, Ty.ownerRvalue, Ty.sameDim, Cat.isRvalue, Fn2.body, sameTypes,
            What.elem?, What.dim?]
      · simp [Fn2.body, sameTypes, What.elem?, What.dim?, hd]
    · simp [Fn2.body, sameTypes, What.elem?, What.dim?, he]
  case powProd =>
    simp only [Fn.compiles, Fn2.set, fn2Ok]
    rw [two_code (by simp) (by simp)]
    have hs : e'.isSigned = true → Cls.has .floating e' = false := by cases e' <;> simp [Elem.isSigned, Cls.has]
    have hd : (What.dim? (.array d e o) == What.dim? (.array d' e' o')) = decide (d = d') := by
      cases d <;> cases d' <;> rfl
    cases h : e'.isSigned with
    | false => simp [Ty.base, What.elem?, h]
    | true => simp [Ty.base, What.elem?, h, exprDeleted, Ty.noRef, Ty.baseOf, hs h, Fn2.body, hd]
  case matvec =>
    simp only [Fn.compiles, Fn2.set, fn2Ok]
    rw [two_code (by simp) (by simp)]
    by_cases he : e = e'
    · subst he
      by_cases hd : d = .two
      · by_cases hd' : d' = .one
        · subst hd hd'
          cases h : Cls.has .real e <;> cases o <;> cases o' <;> cases c <;> cases c' <;>
            simp [Ty.baseOf, Ty.dimBase, h, Ty.noRef, Ty.ownerRvalue, Cat.isRvalue, Fn2.body, What.elem?]
        · simp [Ty.dimBase, hd']
      · simp [Ty.dimBase, hd]
    · simp [Fn2.body, What.elem?, he]
  case tensor =>
    simp only [Fn.compiles, Fn2.set, fn2Ok]
    rw [two_code (by simp) (by simp)]
    by_cases he : e = e'
    · subst he
      by_cases hd : d = .one
      · by_cases hd' : d' = .one
        · subst hd hd'
          cases h : Cls.has .real e <;> cases o <;> cases o' <;> cases c <;> cases c' <;>
            simp [Ty.baseOf, Ty.dimBase, h, Ty.noRef, Ty.ownerRvalue, Cat.isRvalue, Fn2.body, What.elem?, exprDeleted,
              Ty.sameDim]
        · simp [Ty.dimBase, hd']
      · simp [Ty.dimBase, hd]
    · simp [Fn2.body, What.elem?, he]

theorem fn2_proper {f : Fn2} {args : List Arg} (h : Proper (.fn2 f) args) :
    ∃ a a' d d' e e', args = [a, a'] ∧ IsArray d e a ∧ IsArray d' e' a' := by
  cases f
  case twoProd => obtain ⟨a, a', d, e, rfl, _, h1, h2⟩ := h; exact ⟨a, a', d, d, e, e, rfl, h1, h2⟩
  case powProd => obtain ⟨a, a', d, e, n, rfl, _, h1, h2⟩ := h; exact ⟨a, a', d, d, e, _, rfl, h1, h2⟩
  case generate => obtain ⟨a, a', d, e, e', rfl, h1, h2⟩ := h; exact ⟨a, a', d, d, e, e', rfl, h1, h2⟩
  case matvec => obtain ⟨a, a', e, rfl, _, h1, h2⟩ := h; exact ⟨a, a', _, _, e, e, rfl, h1, h2⟩
  case tensor => obtain ⟨a, a', e, rfl, _, h1, h2⟩ := h; exact ⟨a, a', _, _, e, e, rfl, h1, h2⟩

theorem fn2_viable {f : Fn2} {w w' : What} {c c' : Cat} {x : Cand} (hx : x ∈ f.set) (hd : x.deleted = false)
    (h : notArray w = true ∨ notArray w' = true) : x.viable [⟨w, c⟩, ⟨w', c'⟩] = false := by
  have hb : ∀ {w : What} {r : Bool}, notArray w = true → (Ty.mk w r).base = false := by
    intro w r h; cases w <;> first | rfl | cases h
  cases f <;> simp only [Fn2.set, List.mem_cons, List.not_mem_nil, or_false] at hx
  case generate =>
    subst hx
    rcases h with h | h <;> simp [Cand.viable, Form.deduce, on2, hb h]
  all_goals
    rcases hx with rfl | rfl
    · rcases h with h | h <;>
        simp [Cand.viable, Form.deduce, on2, hb h, baseOf_notArray h, dimBase_notArray h]
    · cases hd

theorem fn2_compiles (f : Fn2) (args : List Arg) :
    (Fn.fn2 f).compiles args = true ↔ Proper (.fn2 f) args ∧ (Allowed (.fn2 f) args ∨ Gap (.fn2 f) args) := by
  rcases two_args args with ⟨⟨w, c⟩, ⟨w', c'⟩, rfl⟩ | h
  · by_cases hn : notArray w = true ∨ notArray w' = true
    · have hr : (Fn.fn2 f).compiles [⟨w, c⟩, ⟨w', c'⟩] = false :=
        rejected_none fun x hx hd => fn2_viable hx hd hn
      rw [hr]
      simp only [Bool.false_eq_true, false_iff]
      rintro ⟨h, _⟩
      obtain ⟨a, a', d, d', e, e', h1, h2, h3⟩ := fn2_proper h
      cases h1
      rcases hn with hn | hn
      · exact not_isArray hn h2
      · exact not_isArray hn h3
    · rcases w with ⟨d, e, o⟩ | _ | _ | _ | _ <;> rcases w' with ⟨d', e', o'⟩ | _ | _ | _ | _ <;>
        first | (exfalso; revert hn; simp [notArray]; done) | skip
      rw [fn2_code]
      have ha : Allowed (.fn2 f) [⟨.array d e o, c⟩, ⟨.array d' e' o', c'⟩] ↔
          (o && c.isRvalue) = false ∧ (o' && c'.isRvalue) = false := by
        simp only [Allowed, List.mem_cons, List.not_mem_nil, or_false, forall_eq_or_imp, forall_eq, tempArray_iff,
          temp_bool]
        cases o <;> cases c.isRvalue <;> cases o' <;> cases c'.isRvalue <;> simp
      rw [ha]
      generalize ht : (o && c.isRvalue) = t
      generalize ht' : (o' && c'.isRvalue) = t'
      have i1 : ∀ {d0 e0}, IsArray d0 e0 ⟨.array d e o, c⟩ ↔ d = d0 ∧ e = e0 := isArray_iff
      have i2 : ∀ {d0 e0}, IsArray d0 e0 ⟨.array d' e' o', c'⟩ ↔ d' = d0 ∧ e' = e0 := isArray_iff
      cases f
      case twoProd =>
        have hp : Proper (.fn2 .twoProd) [⟨.array d e o, c⟩, ⟨.array d' e' o', c'⟩] ↔ IsFloat e ∧ e = e' ∧ d = d' := by
          constructor
          · rintro ⟨a, a', d0, e0, h1, h2, h3, h4⟩
            cases h1
            rw [i1] at h3; rw [i2] at h4
            obtain ⟨rfl, rfl⟩ := h3
            exact ⟨h2, h4.2.symm, h4.1.symm⟩
          · rintro ⟨h1, rfl, rfl⟩
            exact ⟨_, _, d, e, rfl, h1, ⟨_, rfl⟩, ⟨_, rfl⟩⟩
        have hf : Cls.has .floating e = true ↔ IsFloat e := by cases e <;> simp [Cls.has, IsFloat]
        rw [hp, ← hf]
        simp [fn2Ok, Gap, and_assoc]
      case powProd =>
        have hp : Proper (.fn2 .powProd) [⟨.array d e o, c⟩, ⟨.array d' e' o', c'⟩] ↔
            IsFloat e ∧ (∃ n, e' = .sint n) ∧ d = d' := by
          constructor
          · rintro ⟨a, a', d0, e0, n, h1, h2, h3, h4⟩
            cases h1
            rw [i1] at h3; rw [i2] at h4
            obtain ⟨rfl, rfl⟩ := h3
            exact ⟨h2, ⟨n, h4.2⟩, h4.1.symm⟩
          · rintro ⟨h1, ⟨n, rfl⟩, rfl⟩
            exact ⟨_, _, d, e, n, rfl, h1, ⟨_, rfl⟩, ⟨_, rfl⟩⟩
        have hf : Cls.has .floating e = true ↔ IsFloat e := by cases e <;> simp [Cls.has, IsFloat]
        have hs : e'.isSigned = true ↔ ∃ n, e' = .sint n := by cases e' <;> simp [Elem.isSigned]
        rw [hp, ← hf, ← hs]
        simp [fn2Ok, Gap, and_assoc]
      case generate =>
        have hp : Proper (.fn2 .generate) [⟨.array d e o, c⟩, ⟨.array d' e' o', c'⟩] ↔ d = d' := by
          constructor
          · rintro ⟨a, a', d0, e0, e0', h1, h3, h4⟩
            cases h1
            rw [i1] at h3; rw [i2] at h4
            exact h3.1.trans h4.1.symm
          · rintro rfl
            exact ⟨_, _, d, e, e', rfl, ⟨_, rfl⟩, ⟨_, rfl⟩⟩
        rw [hp]
        simp [fn2Ok, Gap]
      case matvec =>
        have hp : Proper (.fn2 .matvec) [⟨.array d e o, c⟩, ⟨.array d' e' o', c'⟩] ↔
            d = .two ∧ d' = .one ∧ e ≠ .bool ∧ e = e' := by
          constructor
          · rintro ⟨a, a', e0, h1, h2, h3, h4⟩
            cases h1
            rw [i1] at h3; rw [i2] at h4
            obtain ⟨h3, rfl⟩ := h3
            exact ⟨h3, h4.1, h2, h4.2.symm⟩
          · rintro ⟨rfl, rfl, h1, rfl⟩
            exact ⟨_, _, e, rfl, h1, ⟨_, rfl⟩, ⟨_, rfl⟩⟩
        have hf : Cls.has .real e = true ↔ e ≠ .bool := by cases e <;> simp [Cls.has]
        rw [hp, ← hf]
        simp [fn2Ok, Gap, and_assoc]
      case tensor =>
        have hp : Proper (.fn2 .tensor) [⟨.array d e o, c⟩, ⟨.array d' e' o', c'⟩] ↔
            d = .one ∧ d' = .one ∧ e ≠ .bool ∧ e = e' := by
          constructor
          · rintro ⟨a, a', e0, h1, h2, h3, h4⟩
            cases h1
            rw [i1] at h3; rw [i2] at h4
            obtain ⟨h3, rfl⟩ := h3
            exact ⟨h3, h4.1, h2, h4.2.symm⟩
          · rintro ⟨rfl, rfl, h1, rfl⟩
            exact ⟨_, _, e, rfl, h1, ⟨_, rfl⟩, ⟨_, rfl⟩⟩
        have hf : Cls.has .real e = true ↔ e ≠ .bool := by cases e <;> simp [Cls.has]
        rw [hp, ← hf]
        simp [fn2Ok, Gap, and_assoc, temp_iff]
  · have : ¬ Proper (.fn2 f) args := by
      intro h'
      obtain ⟨a, a', d, d', e, e', rfl, _⟩ := fn2_proper h'
      exact h rfl
    simp only [this, false_and, iff_false, Bool.not_eq_true]
    refine compiles_length fun c hc => ?_
    have hl : c.params.length = 2 := by
      cases f <;> simp only [Fn2.set, List.mem_cons, List.not_mem_nil, or_false] at hc
      case generate => subst hc; rfl
      all_goals rcases hc with rfl | rfl <;> rfl
    rw [hl]
    exact fun h' => h h'.symm

/-! ### Functions of one array of given dimension, members -/

theorem shape_compiles (d : Dim) (args : List Arg) :
    (Fn.shape d).compiles args = true ↔ Proper (.shape d) args ∧ (Allowed (.shape d) args ∨ Gap (.shape d) args) := by
  have hgap : ¬ Gap (.shape d) args := by simp [Gap]
  simp only [hgap, or_false]
  rcases one_arg args with ⟨⟨w, c⟩, rfl⟩ | h
  · simp only [Fn.compiles, shapeSet]
    rw [compiles_pair rfl rfl]
    by_cases hw : notArray w = true
    · simp only [Cand.viable, Form.deduce, on1, List.zipWith_cons_cons, List.zipWith_nil_left, dimBase_notArray hw]
      simp only [Bool.and_false, Bool.false_and, Bool.false_eq_true, false_iff]
      rintro ⟨⟨a, e, h1, h2⟩, _⟩
      cases h1
      exact not_isArray hw h2
    · rcases w with ⟨d', e, o⟩ | _ | _ | _ | _ <;> first | exact absurd rfl hw | skip
      have hp : Proper (.shape d) [⟨.array d' e o, c⟩] ↔ d' = d := by
        constructor
        · rintro ⟨a, e', h1, h2⟩; cases h1; exact (isArray_iff.1 h2).1
        · rintro rfl; exact ⟨_, e, rfl, ⟨_, rfl⟩⟩
      rw [hp]
      simp only [Allowed, List.mem_singleton, forall_eq, tempArray_iff, temp_bool]
      by_cases hd : d' = d <;> cases o <;> cases c <;>
        simp [Cand.viable, Form.bind, Form.deduce, on1, Ty.dimBase, Ty.dimOwnerRvalue, Cat.isRvalue, Cat.isConst,
          Cand.beats, Bound.better, ref_ne_none, hd]
  · have : ¬ Proper (.shape d) args := by rintro ⟨a, e, rfl, _⟩; exact h rfl
    simp only [this, false_and, iff_false, Bool.not_eq_true]
    simp only [Fn.compiles]
    refine compiles_length fun c hc => ?_
    have hl : c.params.length = 1 := by
      simp only [shapeSet, List.mem_cons, List.not_mem_nil, or_false] at hc
      rcases hc with rfl | rfl <;> rfl
    rw [hl]
    exact fun h' => h h'.symm

theorem view_compiles (d : Dim) (args : List Arg) :
    (Fn.view d).compiles args = true ↔ Proper (.view d) args ∧ (Allowed (.view d) args ∨ Gap (.view d) args) := by
  have hgap : ¬ Gap (.view d) args := by simp [Gap]
  simp only [hgap, or_false]
  rcases one_arg args with ⟨⟨w, c⟩, rfl⟩ | h
  · by_cases hw : notArray w = true
    · have hr : (Fn.view d).compiles [⟨w, c⟩] = false := by
        simp only [Fn.compiles]
        refine rejected_body ?_
        cases w <;> first | rfl | cases hw
      rw [hr]
      simp only [Bool.false_eq_true, false_iff]
      rintro ⟨⟨a, e, h1, h2⟩, _⟩
      cases h1
      exact not_isArray hw h2
    · rcases w with ⟨d', e, o⟩ | _ | _ | _ | _ <;> first | exact absurd rfl hw | skip
      have hp : Proper (.view d) [⟨.array d' e o, c⟩] ↔ d' = d := by
        constructor
        · rintro ⟨a, e', h1, h2⟩; cases h1; exact (isArray_iff.1 h2).1
        · rintro rfl; exact ⟨_, e, rfl, ⟨_, rfl⟩⟩
      rw [hp]
      simp only [Allowed, List.mem_singleton, forall_eq, tempArray_iff, temp_bool]
      cases o <;> cases c <;>
        simp [Fn.compiles, compiles, resolve, viewSet, Cand.viable, Form.bind, Form.deduce, on1, Ty.owner, Cat.isRvalue,
          Cand.beats, Bound.better, ref_ne_none, What.dim?]
  · have : ¬ Proper (.view d) args := by rintro ⟨a, e, rfl, _⟩; exact h rfl
    simp only [this, false_and, iff_false, Bool.not_eq_true]
    simp only [Fn.compiles]
    refine compiles_length fun c hc => ?_
    have hl : c.params.length = 1 := by
      simp only [viewSet, List.mem_cons, List.not_mem_nil, or_false] at hc
      rcases hc with rfl | rfl | rfl | rfl <;> rfl
    rw [hl]
    exact fun h' => h h'.symm

theorem pointer_compiles (args : List Arg) :
    Fn.pointer.compiles args = true ↔ Proper .pointer args ∧ (Allowed .pointer args ∨ Gap .pointer args) := by
  have hgap : ¬ Gap .pointer args := by simp [Gap]
  simp only [hgap, or_false]
  rcases one_arg args with ⟨⟨w, c⟩, rfl⟩ | h
  · simp only [Allowed, List.mem_singleton, forall_eq, temp_iff, Proper]
    cases c <;>
      simp [Fn.compiles, compiles, resolve, pointerSet, Cand.viable, Form.bind, Cat.isRvalue,
        Cand.beats, Bound.better, ref_ne_none]
  · have : ¬ Proper .pointer args := by rintro ⟨a, rfl⟩; exact h rfl
    simp only [this, false_and, iff_false, Bool.not_eq_true]
    simp only [Fn.compiles]
    refine compiles_length fun c hc => ?_
    have hl : c.params.length = 1 := by
      simp only [pointerSet, List.mem_cons, List.not_mem_nil, or_false] at hc
      rcases hc with rfl | rfl | rfl | rfl <;> rfl
    rw [hl]
    exact fun h' => h h'.symm

theorem constPointer_compiles (args : List Arg) :
    Fn.constPointer.compiles args = true ↔
      Proper .constPointer args ∧ (Allowed .constPointer args ∨ Gap .constPointer args) := by
  have hgap : ¬ Gap .constPointer args := by simp [Gap]
  simp only [hgap, or_false]
  rcases one_arg args with ⟨⟨w, c⟩, rfl⟩ | h
  · simp only [Allowed, List.mem_singleton, forall_eq, temp_iff, Proper]
    cases c <;>
      simp [Fn.compiles, compiles, resolve, constPointerSet, Cand.viable, Form.bind, Cat.isRvalue,
        Cand.beats, Bound.better, ref_ne_none]
  · have : ¬ Proper .constPointer args := by rintro ⟨a, rfl⟩; exact h rfl
    simp only [this, false_and, iff_false, Bool.not_eq_true]
    simp only [Fn.compiles]
    refine compiles_length fun c hc => ?_
    have hl : c.params.length = 1 := by
      simp only [constPointerSet, List.mem_cons, List.not_mem_nil, or_false] at hc
      rcases hc with rfl | rfl <;> rfl
    rw [hl]
    exact fun h' => h h'.symm

theorem plane_compiles (args : List Arg) :
    Fn.plane.compiles args = true ↔ Proper .plane args ∧ (Allowed .plane args ∨ Gap .plane args) := by
  have hgap : ¬ Gap .plane args := by simp [Gap]
  simp only [hgap, or_false]
  rcases one_arg args with ⟨⟨w, c⟩, rfl⟩ | h
  · by_cases hw : notArray w = true
    · have hr : Fn.plane.compiles [⟨w, c⟩] = false := by
        simp only [Fn.compiles]
        refine rejected_none fun x hx _ => ?_
        simp only [planeSet, List.mem_singleton] at hx
        subst hx
        simp [Cand.viable, Form.deduce, on1, Ty.noRef, dimBase_notArray hw]
      rw [hr]
      simp only [Bool.false_eq_true, false_iff]
      rintro ⟨⟨a, e, h1, h2⟩, _⟩
      cases h1
      exact not_isArray hw h2
    · rcases w with ⟨d', e, o⟩ | _ | _ | _ | _ <;> first | exact absurd rfl hw | skip
      have hp : Proper .plane [⟨.array d' e o, c⟩] ↔ d' = .two := by
        constructor
        · rintro ⟨a, e', h1, h2⟩; cases h1; exact (isArray_iff.1 h2).1
        · rintro rfl; exact ⟨_, e, rfl, ⟨_, rfl⟩⟩
      rw [hp]
      simp only [Allowed, List.mem_singleton, forall_eq, temp_iff]
      cases d' <;> cases c <;>
        simp [Fn.compiles, compiles, resolve, planeSet, Cand.viable, Form.bind, Form.deduce, on1, Ty.noRef, Ty.dimBase,
          Cat.isRvalue, ref_ne_none, not_beats_self]
  · have : ¬ Proper .plane args := by rintro ⟨a, e, rfl, _⟩; exact h rfl
    simp only [this, false_and, iff_false, Bool.not_eq_true]
    simp only [Fn.compiles]
    refine compiles_length fun c hc => ?_
    have hl : c.params.length = 1 := by
      simp only [planeSet, List.mem_singleton] at hc
      rw [hc]; rfl
    rw [hl]
    exact fun h' => h h'.symm

theorem slice_compiles (v : Via) (args : List Arg) :
    (Fn.slice v).compiles args = true ↔ Proper (.slice v) args ∧ (Allowed (.slice v) args ∨ Gap (.slice v) args) := by
  rcases one_arg args with ⟨⟨w, c⟩, rfl⟩ | h
  · by_cases hw : notArray w = true
    · have hr : (Fn.slice v).compiles [⟨w, c⟩] = false := by
        simp only [Fn.compiles]
        refine rejected_body ?_
        cases w <;> first | rfl | cases hw
      rw [hr]
      simp only [Bool.false_eq_true, false_iff]
      rintro ⟨⟨a, e, h1, h2⟩, _⟩
      cases h1
      exact not_isArray hw h2
    · rcases w with ⟨d', e, o⟩ | _ | _ | _ | _ <;> first | exact absurd rfl hw | skip
      have hp : Proper (.slice v) [⟨.array d' e o, c⟩] ↔ d' = .one := by
        constructor
        · rintro ⟨a, e', h1, h2⟩; cases h1; exact (isArray_iff.1 h2).1
        · rintro rfl; exact ⟨_, e, rfl, ⟨_, rfl⟩⟩
      rw [hp]
      simp only [Allowed, List.mem_singleton, forall_eq, tempArray_iff, temp_bool]
      cases v <;> cases o <;> cases c <;>
        simp [Fn.compiles, compiles, resolve, sliceSet, Cand.viable, Form.bind, Form.deduce, on2, Ty.owner, Cat.isRvalue,
          Cand.beats, Bound.better, ref_ne_none, value_ne_none, What.dim?, Via.arg, Ty.slice, Gap]
  · have : ¬ Proper (.slice v) args := by rintro ⟨a, e, rfl, _⟩; exact h rfl
    simp only [this, false_and, iff_false, Bool.not_eq_true]
    simp only [Fn.compiles]
    refine compiles_length fun c hc => ?_
    have hl : c.params.length = 2 := by
      simp only [sliceSet, List.mem_cons, List.not_mem_nil, or_false] at hc
      rcases hc with rfl | rfl | rfl | rfl | rfl | rfl | rfl <;> rfl
    rw [hl]
    simp only [List.length_append, List.length_cons, List.length_nil]
    omega

/-! ### Any number of arguments -/

/-- Constant references and values only. -/
def Plain (c : Cand) : Prop := ∀ p ∈ c.params, p = .cref ∨ p = .val

theorem plain_zip {ps : List Form} (h : ∀ p ∈ ps, p = .cref ∨ p = .val) : ∀ {args : List Arg},
    ps.length = args.length →
    List.zipWith Form.deduce ps args = args.map (fun a => ⟨a.what, false⟩) ∧
    (List.zipWith Form.bind ps args).all (fun x => x != .none) = args.all (fun a => decide (a.what ≠ .braces)) := by
  induction ps with
  | nil => intro args hl; cases args with
    | nil => exact ⟨rfl, rfl⟩
    | cons _ _ => simp at hl
  | cons p ps ih =>
    intro args hl
    cases args with
    | nil => simp at hl
    | cons a as =>
      obtain ⟨i1, i2⟩ := ih (fun q hq => h q (by simp [hq])) (args := as) (by simpa using hl)
      simp only [List.zipWith_cons_cons, List.map_cons, List.all_cons, i1, i2]
      rcases h p (by simp) with rfl | rfl
      · refine ⟨rfl, ?_⟩
        by_cases hb : a.what = .braces <;> simp [Form.bind, hb, ref_ne_none]
      · refine ⟨rfl, ?_⟩
        by_cases hb : a.what = .braces <;> simp [Form.bind, hb, value_ne_none]

theorem plain_viable {c : Cand} (h : Plain c) (args : List Arg) :
    c.viable args = true ↔ c.params.length = args.length ∧ (∀ a ∈ args, a.what ≠ .braces) ∧
      c.ok (args.map (fun a => ⟨a.what, false⟩)) = true := by
  unfold Cand.viable
  by_cases hl : c.params.length = args.length
  · obtain ⟨h1, h2⟩ := plain_zip h hl
    rw [h1, h2]
    simp [hl, and_assoc]
  · simp [hl]

theorem plain_beats {c c' : Cand} (h : Plain c) (h' : Plain c') (args : List Arg) :
    c.beats c' args = decide (c'.rank < c.rank) := by
  have z : ∀ {ps qs : List Form}, (∀ p ∈ ps, p = .cref ∨ p = .val) → (∀ p ∈ qs, p = .cref ∨ p = .val) → ∀ (as : List Arg),
      (List.zipWith Bound.better (List.zipWith Form.bind ps as) (List.zipWith Form.bind qs as)).any id = false := by
    intro ps
    induction ps with
    | nil => simp
    | cons p ps ih =>
      intro qs hp hq as
      rcases qs with _ | ⟨q, qs⟩ <;> rcases as with _ | ⟨a, as⟩ <;> simp only [List.zipWith_nil_left, List.zipWith_nil_right,
        List.any_nil, List.zipWith_cons_cons, List.any_cons]
      rw [ih (fun x hx => hp x (by simp [hx])) (fun x hx => hq x (by simp [hx]))]
      by_cases hb : a.what = .braces <;>
        rcases hp p (by simp) with rfl | rfl <;> rcases hq q (by simp) with rfl | rfl <;>
          simp [Form.bind, hb, Bound.better]
  unfold Cand.beats
  dsimp only
  rw [z h h' args]
  have : ∀ l : List Bool, l.any id = false → l.all (fun b => !b) = true := by
    intro l hl; simp at hl ⊢; exact fun b => hl b
  rw [this _ (z h' h args)]
  simp

/-- One-dimensional (two-dimensional) arrays. -/
theorem dimBase_iff {d : Dim} {w : What} : (Ty.mk w false).dimBase d = true ↔ ∃ e o, w = .array d e o := by
  cases w <;> simp [Ty.dimBase]

theorem number_iff {w : What} : (Ty.mk w false).number = true ↔ ∃ e, w = .number e := by
  cases w <;> simp [Ty.number]

/-- The deleted overload for any number of arguments. -/
theorem pack_viable {d : Dim} {args : List Arg} :
    (Cand.mk (List.replicate args.length .fwd) (fun ts => ts.any (Ty.dimOwnerRvalue d)) true 0).viable args = true ↔
      (∀ a ∈ args, a.what ≠ .braces) ∧ ∃ a ∈ args, TempArray a ∧ ∃ e o, a.what = .array d e o := by
  have h1 : ∀ as : List Arg, List.zipWith Form.deduce (List.replicate as.length .fwd) as =
      as.map fun a => ⟨a.what, !a.cat.isRvalue⟩ := by
    intro as; induction as with
    | nil => rfl
    | cons a as ih => simp [List.replicate_succ, ih, Form.deduce]
  have h2 : ∀ as : List Arg, (List.zipWith Form.bind (List.replicate as.length .fwd) as).all (fun x => x != .none) =
      as.all fun a => decide (a.what ≠ .braces) := by
    intro as; induction as with
    | nil => rfl
    | cons a as ih =>
      simp only [List.length_cons, List.replicate_succ, List.zipWith_cons_cons, List.all_cons, ih]
      by_cases hb : a.what = .braces <;> simp [Form.bind, hb, ref_ne_none]
  unfold Cand.viable
  simp only [h1, h2, List.length_replicate, beq_self_eq_true, Bool.true_and, Bool.and_eq_true, List.all_eq_true,
    decide_eq_true_eq, List.any_eq_true, List.mem_map]
  refine and_congr_right fun _ => ?_
  constructor
  · rintro ⟨_, ⟨a, ha, rfl⟩, h⟩
    refine ⟨a, ha, ?_⟩
    obtain ⟨w, c⟩ := a
    cases w <;> simp [Ty.dimOwnerRvalue] at h
    obtain ⟨⟨h3, h4⟩, h5⟩ := h
    subst h4 h5
    exact ⟨tempArray_iff.2 ⟨rfl, h3⟩, _, _, rfl⟩
  · rintro ⟨⟨w, c⟩, ha, h, e, o, hw⟩
    dsimp only at hw
    subst hw
    obtain ⟨h3, h4⟩ := tempArray_iff.1 h
    exact ⟨_, ⟨_, ha, rfl⟩, by simp [Ty.dimOwnerRvalue, h3, h4]⟩

/-- A constant reference does not beat the forwarding reference for a temporary. -/
theorem pack_wins {c : Cand} {d : Dim} {args : List Arg} {k : Nat} {a : Arg} (h1 : c.params[k]? = some .cref)
    (h2 : args[k]? = some a) (ha : TempArray a) :
    c.beats ⟨List.replicate args.length .fwd, fun ts => ts.any (Ty.dimOwnerRvalue d), true, 0⟩ args = false := by
  refine not_beats (p' := .fwd) h1 ?_ h2 ?_
  · have hk : k < args.length := (List.getElem?_eq_some_iff.1 h2).1
    simp [hk]
  · obtain ⟨w, c⟩ := a
    obtain ⟨h, d, e, hw⟩ := ha
    dsimp only at hw
    subst hw
    cases c <;> simp [Temporary] at h <;> simp [Form.bind, Bound.better, Cat.isRvalue]

theorem compiles_elim {cs : List Cand} {body : List What → Bool} {args : List Arg} (h : compiles cs body args = true) :
    ∃ c ∈ cs, c.viable args = true ∧ c.deleted = false ∧ body (args.map Arg.what) = true ∧
      ∀ c' ∈ cs, c'.viable args = true → c' ≠ c → c.beats c' args = true := by
  unfold compiles at h
  cases hr : resolve cs args with
  | none => rw [hr] at h; cases h
  | some c =>
    rw [hr] at h
    simp only [Bool.and_eq_true, Bool.not_eq_eq_eq_not, Bool.not_true] at h
    obtain ⟨h1, h2⟩ := resolve_mem hr
    exact ⟨c, h1, h2, h.1, h.2, fun c' hc hv hne => resolve_beats hr hc hv hne⟩

theorem mergeBody_iff {ws : List What} : mergeBody ws = true ↔
    2 ≤ ws.length ∧ ∀ w ∈ ws, w.elem? = ws.head?.bind What.elem? := by
  simp [mergeBody]

/-- A one-dimensional array; a number. -/
def Arr (d : Dim) (a : Arg) : Prop := ∃ e o, a.what = .array d e o
@[inherit_doc Arr]
def Num (a : Arg) : Prop := ∃ e, a.what = .number e

theorem arr_not_num {d : Dim} {a : Arg} (h : Arr d a) (h' : Num a) : False := by
  obtain ⟨e, o, h⟩ := h
  obtain ⟨e', h'⟩ := h'
  rw [h] at h'; cases h'

theorem arr_elem {d : Dim} {e : Elem} {a : Arg} (h : Arr d a) (h' : a.what.elem? = some e) : IsArray d e a := by
  obtain ⟨e1, o, h⟩ := h
  rw [h] at h'
  cases h'
  exact ⟨o, h⟩

theorem num_elem {e : Elem} {a : Arg} (h : Num a) (h' : a.what.elem? = some e) : IsNumber e a := by
  obtain ⟨e1, h⟩ := h
  rw [h] at h'
  cases h'
  exact h

theorem isArray_arr {d : Dim} {e : Elem} {a : Arg} (h : IsArray d e a) : Arr d a ∧ a.what.elem? = some e := by
  obtain ⟨o, h⟩ := h
  exact ⟨⟨e, o, h⟩, by rw [h]; rfl⟩

theorem isNumber_num {e : Elem} {a : Arg} (h : IsNumber e a) : Num a ∧ a.what.elem? = some e :=
  ⟨⟨e, h⟩, by rw [show a.what = _ from h]; rfl⟩

theorem arr_elem? {d : Dim} {a : Arg} (h : Arr d a) : ∃ e, a.what.elem? = some e := by
  obtain ⟨e, o, h⟩ := h
  exact ⟨e, by rw [h]; rfl⟩

theorem num_elem? {a : Arg} (h : Num a) : ∃ e, a.what.elem? = some e := by
  obtain ⟨e, h⟩ := h
  exact ⟨e, by rw [h]; rfl⟩

theorem arr_braces {d : Dim} {a : Arg} (h : Arr d a) : a.what ≠ .braces := by
  obtain ⟨e, o, h⟩ := h
  rw [h]; simp

theorem num_braces {a : Arg} (h : Num a) : a.what ≠ .braces := by
  obtain ⟨e, h⟩ := h
  rw [h]; simp

/-- All arguments have elements of one type. -/
theorem mergeBody_elem {args : List Arg} (h : mergeBody (args.map Arg.what) = true)
    (he : ∀ a ∈ args, ∃ e, a.what.elem? = some e) :
    2 ≤ args.length ∧ ∃ e, ∀ a ∈ args, a.what.elem? = some e := by
  obtain ⟨h1, h2⟩ := mergeBody_iff.1 h
  simp only [List.length_map] at h1
  refine ⟨h1, ?_⟩
  obtain ⟨a, as, rfl⟩ : ∃ a as, args = a :: as := by
    cases args with
    | nil => simp at h1
    | cons a as => exact ⟨a, as, rfl⟩
  obtain ⟨e, hae⟩ := he a (by simp)
  refine ⟨e, fun b hb => ?_⟩
  have := h2 b.what (List.mem_map.2 ⟨b, hb, rfl⟩)
  simpa [hae] using this

theorem mergeBody_of {args : List Arg} {e : Elem} (h1 : 2 ≤ args.length) (h2 : ∀ a ∈ args, a.what.elem? = some e) :
    mergeBody (args.map Arg.what) = true := by
  rw [mergeBody_iff]
  refine ⟨by simpa using h1, fun w hw => ?_⟩
  obtain ⟨a, ha, rfl⟩ := List.mem_map.1 hw
  obtain ⟨b, bs, rfl⟩ : ∃ b bs, args = b :: bs := by
    cases args with
    | nil => simp at h1
    | cons b bs => exact ⟨b, bs, rfl⟩
  simp [h2 a ha, h2 b (by simp)]

theorem all_arr {d : Dim} {args : List Arg} :
    (args.map (fun a => (⟨a.what, false⟩ : Ty))).all (Ty.dimBase d) = true ↔ ∀ a ∈ args, Arr d a := by
  simp only [List.all_eq_true, List.mem_map]
  constructor
  · intro h a ha
    exact dimBase_iff.1 (h _ ⟨a, ha, rfl⟩)
  · rintro h _ ⟨a, ha, rfl⟩
    exact dimBase_iff.2 (h a ha)

theorem all_num {args : List Arg} :
    (args.map (fun a => (⟨a.what, false⟩ : Ty))).all Ty.number = true ↔ ∀ a ∈ args, Num a := by
  simp only [List.all_eq_true, List.mem_map]
  constructor
  · intro h a ha
    exact number_iff.1 (h _ ⟨a, ha, rfl⟩)
  · rintro h _ ⟨a, ha, rfl⟩
    exact number_iff.2 (h a ha)

/-- Two arrays, for `merge` and for `merge_horizontal` and `merge_vertical`. -/
theorem m1_viable {d : Dim} {args : List Arg} :
    (Cand.mk [.cref, .cref] (on2 (fun t u => t.dimBase d && u.dimBase d)) false 2).viable args = true ↔
      args.length = 2 ∧ ∀ a ∈ args, Arr d a := by
  rw [plain_viable (by simp [Plain])]
  rcases args with _ | ⟨a, _ | ⟨b, _ | ⟨c, l⟩⟩⟩
  · simp
  · simp
  · simp only [on2, List.map_cons, List.map_nil, Bool.and_eq_true, dimBase_iff, List.length_cons, List.length_nil, true_and,
      List.mem_cons, List.not_mem_nil, or_false, forall_eq_or_imp, forall_eq]
    exact ⟨fun h => h.2, fun h => ⟨⟨arr_braces h.1, arr_braces h.2⟩, h⟩⟩
  · simp

theorem m2_viable {d : Dim} {args : List Arg} :
    (Cand.mk (List.replicate args.length .cref) (fun ts => ts.all (Ty.dimBase d)) false 1).viable args = true ↔
      ∀ a ∈ args, Arr d a := by
  rw [plain_viable (by simp only [Plain, List.mem_replicate]; exact fun p h => .inl h.2)]
  simp only [List.length_replicate, true_and, all_arr]
  exact ⟨fun h => h.2, fun h => ⟨fun a ha => arr_braces (h a ha), h⟩⟩

theorem m3_viable {args : List Arg} :
    (Cand.mk [.cref, .val] (on2 (fun t u => t.dimBase .one && u.number)) false 2).viable args = true ↔
      ∃ a b, args = [a, b] ∧ Arr .one a ∧ Num b := by
  rw [plain_viable (by simp [Plain])]
  rcases args with _ | ⟨a, _ | ⟨b, _ | ⟨c, l⟩⟩⟩
  · simp
  · simp
  · simp only [on2, List.map_cons, List.map_nil, Bool.and_eq_true, dimBase_iff, number_iff, List.length_cons,
      List.length_nil, true_and, List.mem_cons, List.not_mem_nil, or_false, forall_eq_or_imp, forall_eq]
    constructor
    · rintro ⟨_, h1, h2⟩
      exact ⟨a, b, rfl, h1, h2⟩
    · rintro ⟨_, _, h, h1, h2⟩
      cases h
      exact ⟨⟨arr_braces h1, num_braces h2⟩, h1, h2⟩
  · simp

theorem m4_viable {args : List Arg} :
    (Cand.mk (.cref :: .val :: List.replicate (args.length - 2) .val) (fun ts =>
      ((ts.head?.map (Ty.dimBase .one)).getD false) && ts.tail.all Ty.number) false 1).viable args = true ↔
      2 ≤ args.length ∧ ∃ a xs, args = a :: xs ∧ Arr .one a ∧ ∀ x ∈ xs, Num x := by
  rw [plain_viable (by
    simp only [Plain, List.mem_cons, List.mem_replicate]
    rintro p (rfl | rfl | ⟨_, rfl⟩) <;> simp)]
  rcases args with _ | ⟨a, xs⟩
  · simp
  · simp only [List.length_cons, List.length_replicate, List.map_cons, List.head?_cons, Option.map_some,
      Option.getD_some, List.tail_cons, Bool.and_eq_true, all_num, dimBase_iff]
    constructor
    · rintro ⟨h1, h2, h3, h4⟩
      exact ⟨by omega, a, xs, rfl, h3, h4⟩
    · rintro ⟨h1, _, _, h2, h3, h4⟩
      cases h2
      refine ⟨by omega, ?_, h3, h4⟩
      intro b hb
      rcases List.mem_cons.1 hb with rfl | hb
      · exact arr_braces h3
      · exact num_braces (h4 b hb)

theorem m5_viable {args : List Arg} :
    (Cand.mk [.val, .cref] (on2 (fun t u => t.number && u.dimBase .one)) false 2).viable args = true ↔
      ∃ a b, args = [a, b] ∧ Num a ∧ Arr .one b := by
  rw [plain_viable (by simp [Plain])]
  rcases args with _ | ⟨a, _ | ⟨b, _ | ⟨c, l⟩⟩⟩
  · simp
  · simp
  · simp only [on2, List.map_cons, List.map_nil, Bool.and_eq_true, dimBase_iff, number_iff, List.length_cons,
      List.length_nil, true_and, List.mem_cons, List.not_mem_nil, or_false, forall_eq_or_imp, forall_eq]
    constructor
    · rintro ⟨_, h1, h2⟩
      exact ⟨a, b, rfl, h1, h2⟩
    · rintro ⟨_, _, h, h1, h2⟩
      cases h
      exact ⟨⟨num_braces h1, arr_braces h2⟩, h1, h2⟩
  · simp

theorem m6_viable {args : List Arg} :
    (Cand.mk (.val :: .val :: List.replicate (args.length - 2) .cref) (fun ts => decide (3 ≤ ts.length) &&
      ts.dropLast.all Ty.number && ((ts.getLast?.map (Ty.dimBase .one)).getD false)) false 1).viable args = true ↔
      3 ≤ args.length ∧ ∃ xs a, args = xs ++ [a] ∧ Arr .one a ∧ ∀ x ∈ xs, Num x := by
  rw [plain_viable (by
    simp only [Plain, List.mem_cons, List.mem_replicate]
    rintro p (rfl | rfl | ⟨_, rfl⟩) <;> simp)]
  rcases List.eq_nil_or_concat args with rfl | ⟨xs, a, rfl⟩
  · simp
  · simp only [List.concat_eq_append, List.length_append, List.length_cons, List.length_nil, List.length_replicate,
      List.map_append, List.map_cons, List.map_nil, List.length_map, List.dropLast_concat, List.getLast?_append,
      List.getLast?_singleton, Option.some_or, Option.map_some, Option.getD_some, Bool.and_eq_true, all_num, dimBase_iff,
      decide_eq_true_eq]
    constructor
    · rintro ⟨h1, h2, ⟨h3, h4⟩, h5⟩
      exact ⟨by omega, xs, a, rfl, h5, h4⟩
    · rintro ⟨h1, xs', a', h2, h3, h4⟩
      obtain ⟨e1, e2⟩ := List.append_inj' h2 rfl
      cases e2
      subst e1
      refine ⟨by omega, ?_, ⟨by omega, h4⟩, h3⟩
      intro b hb
      rcases List.mem_append.1 hb with hb | hb
      · exact num_braces (h4 b hb)
      · rw [List.mem_singleton.1 hb]; exact arr_braces h3

/-- The candidates of `merge` take arrays by constant reference. -/
theorem merge_cref {args : List Arg} {c : Cand} (hc : c ∈ mergeSet args.length) (hd : c.deleted = false)
    (hv : c.viable args = true) : Plain c ∧
    ((∀ a ∈ args, Arr .one a) ∨ (∃ a xs, args = a :: xs ∧ Arr .one a ∧ ∀ x ∈ xs, Num x) ∨
      (∃ xs a, args = xs ++ [a] ∧ Arr .one a ∧ ∀ x ∈ xs, Num x)) ∧
    ∀ (k : Nat) (a : Arg), args[k]? = some a → Arr .one a → c.params[k]? = some .cref := by
  simp only [mergeSet, List.mem_cons, List.not_mem_nil, or_false] at hc
  rcases hc with rfl | rfl | rfl | rfl | rfl | rfl | rfl
  · obtain ⟨h1, h2⟩ := m1_viable.1 hv
    refine ⟨by simp [Plain], .inl h2, fun k a hk _ => ?_⟩
    have hk : k < args.length := (List.getElem?_eq_some_iff.1 hk).1
    rw [h1] at hk
    rcases k with _ | _ | k
    · rfl
    · rfl
    · omega
  · have h2 := m2_viable.1 hv
    refine ⟨by simp only [Plain, List.mem_replicate]; exact fun p h => .inl h.2, .inl h2, fun k a hk _ => ?_⟩
    have hk : k < args.length := (List.getElem?_eq_some_iff.1 hk).1
    simp [hk]
  · obtain ⟨a, b, rfl, h1, h2⟩ := m3_viable.1 hv
    refine ⟨by simp [Plain], .inr (.inl ⟨a, [b], rfl, h1, by simpa using h2⟩), fun k x hk hx => ?_⟩
    rcases k with _ | _ | k
    · rfl
    · cases hk; exact (arr_not_num hx h2).elim
    · cases hk
  · obtain ⟨h0, a, xs, rfl, h1, h2⟩ := m4_viable.1 hv
    refine ⟨?_, .inr (.inl ⟨a, xs, rfl, h1, h2⟩), fun k x hk hx => ?_⟩
    · simp only [Plain, List.mem_cons, List.mem_replicate]
      rintro p (rfl | rfl | ⟨_, rfl⟩) <;> simp
    · rcases k with _ | k
      · rfl
      · exact (arr_not_num hx (h2 x (List.mem_of_getElem? (by simpa using hk)))).elim
  · obtain ⟨a, b, rfl, h1, h2⟩ := m5_viable.1 hv
    refine ⟨by simp [Plain], .inr (.inr ⟨[a], b, rfl, h2, by simpa using h1⟩), fun k x hk hx => ?_⟩
    rcases k with _ | _ | k
    · cases hk; exact (arr_not_num hx h1).elim
    · rfl
    · cases hk
  · obtain ⟨h0, xs, a, rfl, h1, h2⟩ := m6_viable.1 hv
    refine ⟨?_, .inr (.inr ⟨xs, a, rfl, h1, h2⟩), fun k x hk hx => ?_⟩
    · simp only [Plain, List.mem_cons, List.mem_replicate]
      rintro p (rfl | rfl | ⟨_, rfl⟩) <;> simp
    · have hlt : k < (xs ++ [a]).length := (List.getElem?_eq_some_iff.1 hk).1
      simp only [List.length_append, List.length_cons, List.length_nil] at hlt h0
      by_cases hkx : k < xs.length
      · rw [List.getElem?_append_left hkx] at hk
        exact (arr_not_num hx (h2 x (List.mem_of_getElem? hk))).elim
      · obtain ⟨j, rfl⟩ : ∃ j, k = j + 2 := ⟨k - 2, by omega⟩
        simp only [List.getElem?_cons_succ, List.length_append, List.length_cons, List.length_nil]
        rw [List.getElem?_replicate, if_pos (by omega)]
  · cases hd

/-- The arguments of a call of `merge` that compiles contain no temporary array. -/
theorem pack_no_temp {cs : List Cand} {d : Dim} {body : List What → Bool} {args : List Arg}
    (hD : (⟨List.replicate args.length .fwd, fun ts => ts.any (Ty.dimOwnerRvalue d), true, 0⟩ : Cand) ∈ cs)
    (hs : ∀ c ∈ cs, c.deleted = false → c.viable args = true → (∀ a ∈ args, Arr d a ∨ Num a) ∧
      ∀ (k : Nat) (a : Arg), args[k]? = some a → Arr d a → c.params[k]? = some .cref) (h : compiles cs body args = true) :
    ∀ a ∈ args, ¬ TempArray a := by
  intro a ha ht
  obtain ⟨c, h1, h2, h3, _, h4⟩ := compiles_elim h
  obtain ⟨g1, g2⟩ := hs c h1 h3 h2
  have harr : Arr d a := by
    rcases g1 a ha with h | h
    · exact h
    · obtain ⟨_, d', e', ht⟩ := ht
      obtain ⟨e, h⟩ := h
      rw [h] at ht; cases ht
  obtain ⟨k, hk, hka⟩ := List.getElem_of_mem ha
  have hka : args[k]? = some a := by rw [List.getElem?_eq_getElem hk, hka]
  have hb := h4 _ hD (pack_viable.2 ⟨fun b hb => by
    rcases g1 b hb with h | h
    · exact arr_braces h
    · exact num_braces h, a, ha, ht, harr⟩) (by rintro rfl; cases h3)
  rw [pack_wins (g2 k a hka harr) hka ht] at hb
  cases hb

theorem merge_compiles (args : List Arg) :
    Fn.merge.compiles args = true ↔ Proper .merge args ∧ (Allowed .merge args ∨ Gap .merge args) := by
  have hgap : ¬ Gap .merge args := by simp [Gap]
  simp only [hgap, or_false, Fn.compiles]
  constructor
  · intro h
    constructor
    · obtain ⟨c, h1, h2, h3, h4, _⟩ := compiles_elim h
      obtain ⟨_, hs, _⟩ := merge_cref h1 h3 h2
      have he : ∀ a ∈ args, ∃ e, a.what.elem? = some e := by
        intro a ha
        rcases hs with hs | ⟨b, xs, rfl, g1, g2⟩ | ⟨xs, b, rfl, g1, g2⟩
        · exact arr_elem? (hs a ha)
        · rcases List.mem_cons.1 ha with rfl | ha
          · exact arr_elem? g1
          · exact num_elem? (g2 a ha)
        · rcases List.mem_append.1 ha with ha | ha
          · exact num_elem? (g2 a ha)
          · rw [List.mem_singleton.1 ha]; exact arr_elem? g1
      obtain ⟨hl, e, he⟩ := mergeBody_elem h4 he
      refine ⟨hl, e, ?_⟩
      rcases hs with hs | ⟨b, xs, rfl, g1, g2⟩ | ⟨xs, b, rfl, g1, g2⟩
      · exact .inl fun a ha => arr_elem (hs a ha) (he a ha)
      · exact .inr (.inl ⟨b, xs, rfl, arr_elem g1 (he b (by simp)), fun x hx =>
          num_elem (g2 x hx) (he x (by simp [hx]))⟩)
      · exact .inr (.inr ⟨xs, b, rfl, arr_elem g1 (he b (by simp)), fun x hx =>
          num_elem (g2 x hx) (he x (by simp [hx]))⟩)
    · refine pack_no_temp (cs := mergeSet args.length) (d := .one) (by simp [mergeSet]) (fun c hc hd hv => ?_) h
      obtain ⟨_, hs, hp⟩ := merge_cref hc hd hv
      refine ⟨fun a ha => ?_, hp⟩
      rcases hs with hs | ⟨b, xs, rfl, g1, g2⟩ | ⟨xs, b, rfl, g1, g2⟩
      · exact .inl (hs a ha)
      · rcases List.mem_cons.1 ha with rfl | ha
        · exact .inl g1
        · exact .inr (g2 a ha)
      · rcases List.mem_append.1 ha with ha | ha
        · exact .inr (g2 a ha)
        · rw [List.mem_singleton.1 ha]; exact .inl g1
  · rintro ⟨⟨hl, e, hs⟩, hn⟩
    have hD : (Cand.mk (List.replicate args.length .fwd) (fun ts => ts.any (Ty.dimOwnerRvalue .one)) true 0).viable
        args = false := by
      rw [Bool.eq_false_iff]
      intro hv
      obtain ⟨_, a, ha, ht, _⟩ := pack_viable.1 hv
      exact hn a ha ht
    have hbody : mergeBody (args.map Arg.what) = true := by
      refine mergeBody_of (e := e) hl ?_
      intro a ha
      rcases hs with hs | ⟨b, xs, rfl, g1, g2⟩ | ⟨xs, b, rfl, g1, g2⟩
      · exact (isArray_arr (hs a ha)).2
      · rcases List.mem_cons.1 ha with rfl | ha
        · exact (isArray_arr g1).2
        · exact (isNumber_num (g2 a ha)).2
      · rcases List.mem_append.1 ha with ha | ha
        · exact (isNumber_num (g2 a ha)).2
        · rw [List.mem_singleton.1 ha]; exact (isArray_arr g1).2
    have fin : ∀ l1 c l2, mergeSet args.length = l1 ++ c :: l2 → c.viable args = true → c.deleted = false →
        (∀ c' ∈ l1 ++ l2, c'.deleted = false → c'.viable args = true → c'.rank < c.rank) →
        compiles (mergeSet args.length) mergeBody args = true := by
      intro l1 c l2 hset hv hd hr
      have hm : c ∈ mergeSet args.length := by rw [hset]; simp
      rw [hset, accepted hv hd, hbody]
      intro c' hc' hv'
      have hm' : c' ∈ mergeSet args.length := by
        rw [hset]; simp only [List.mem_append, List.mem_cons] at hc' ⊢; exact hc'.imp_right .inr
      cases hd' : c'.deleted with
      | true =>
        simp only [mergeSet, List.mem_cons, List.not_mem_nil, or_false] at hm'
        rcases hm' with rfl | rfl | rfl | rfl | rfl | rfl | rfl <;> first | (cases hd'; done) | skip
        rw [hD] at hv'; cases hv'
      | false =>
        rw [plain_beats (merge_cref hm hd hv).1 (merge_cref hm' hd' hv').1]
        exact decide_eq_true (hr c' hc' hd' hv')
    rcases hs with hs | ⟨b, xs, rfl, g1, g2⟩ | ⟨xs, b, rfl, g1, g2⟩
    · have ha : ∀ a ∈ args, Arr .one a := fun a ha => (isArray_arr (hs a ha)).1
      by_cases h2 : args.length = 2
      · refine fin [] _ _ rfl (m1_viable.2 ⟨h2, ha⟩) rfl ?_
        intro c' hc' hd' hv'
        simp only [List.nil_append, List.mem_cons, List.not_mem_nil, or_false] at hc'
        rcases hc' with rfl | rfl | rfl | rfl | rfl | rfl
        · exact Nat.lt_succ_self 1
        · obtain ⟨a, b, rfl, _, h⟩ := m3_viable.1 hv'
          exact (arr_not_num (ha b (by simp)) h).elim
        · exact Nat.lt_succ_self 1
        · obtain ⟨a, b, rfl, h, _⟩ := m5_viable.1 hv'
          exact (arr_not_num (ha a (by simp)) h).elim
        · exact Nat.lt_succ_self 1
        · cases hd'
      · refine fin [_] _ _ rfl (m2_viable.2 ha) rfl ?_
        intro c' hc' hd' hv'
        simp only [List.singleton_append, List.mem_cons, List.not_mem_nil, or_false] at hc'
        rcases hc' with rfl | rfl | rfl | rfl | rfl | rfl
        · exact absurd (m1_viable.1 hv').1 h2
        · obtain ⟨a, b, rfl, _⟩ := m3_viable.1 hv'
          exact absurd rfl h2
        · obtain ⟨h0, a, xs, rfl, _, h⟩ := m4_viable.1 hv'
          obtain ⟨x, ys, rfl⟩ : ∃ x ys, xs = x :: ys := by
            cases xs with
            | nil => simp at h0
            | cons x ys => exact ⟨x, ys, rfl⟩
          exact (arr_not_num (ha x (by simp)) (h x (by simp))).elim
        · obtain ⟨a, b, rfl, _⟩ := m5_viable.1 hv'
          exact absurd rfl h2
        · obtain ⟨h0, xs, a, rfl, _, h⟩ := m6_viable.1 hv'
          obtain ⟨x, ys, rfl⟩ : ∃ x ys, xs = x :: ys := by
            cases xs with
            | nil => simp at h0
            | cons x ys => exact ⟨x, ys, rfl⟩
          exact (arr_not_num (ha x (by simp)) (h x (by simp))).elim
        · cases hd'
    · obtain ⟨x, ys, rfl⟩ : ∃ x ys, xs = x :: ys := by
        cases xs with
        | nil => simp at hl
        | cons x ys => exact ⟨x, ys, rfl⟩
      have gb : Arr .one b := (isArray_arr g1).1
      have gx : ∀ y ∈ x :: ys, Num y := fun y hy => (isNumber_num (g2 y hy)).1
      have no : ∀ {c' : Cand}, c'.viable (b :: x :: ys) = true →
          (∀ a ∈ b :: x :: ys, Arr .one a) → False := fun _ h => arr_not_num (h x (by simp)) (gx x (by simp))
      have no6 : ∀ zs a, b :: x :: ys = zs ++ [a] → 3 ≤ (b :: x :: ys).length → (∀ z ∈ zs, Num z) → False := by
        intro zs a h h3 hz
        rcases zs with _ | ⟨z, zs⟩
        · simp at h
        · simp only [List.cons_append, List.cons.injEq] at h
          rw [← h.1] at hz
          exact arr_not_num gb (hz b (by simp))
      cases ys with
      | nil =>
        refine fin [_, _] _ _ rfl (m3_viable.2 ⟨b, x, rfl, gb, gx x (by simp)⟩) rfl ?_
        intro c' hc' hd' hv'
        simp only [List.cons_append, List.nil_append, List.mem_cons, List.not_mem_nil, or_false] at hc'
        rcases hc' with rfl | rfl | rfl | rfl | rfl | rfl
        · exact (no hv' (m1_viable.1 hv').2).elim
        · exact Nat.lt_succ_self 1
        · exact Nat.lt_succ_self 1
        · obtain ⟨a, b', h, h', _⟩ := m5_viable.1 hv'
          cases h
          exact (arr_not_num gb h').elim
        · exact Nat.lt_succ_self 1
        · cases hd'
      | cons y ys =>
        refine fin [_, _, _] _ _ rfl (m4_viable.2 ⟨by simp, b, _, rfl, gb, gx⟩) rfl ?_
        intro c' hc' hd' hv'
        simp only [List.cons_append, List.nil_append, List.mem_cons, List.not_mem_nil, or_false] at hc'
        rcases hc' with rfl | rfl | rfl | rfl | rfl | rfl
        · exact (no hv' (m1_viable.1 hv').2).elim
        · exact (no hv' (m2_viable.1 hv')).elim
        · obtain ⟨a, b', h, _⟩ := m3_viable.1 hv'
          cases h
        · obtain ⟨a, b', h, _⟩ := m5_viable.1 hv'
          cases h
        · obtain ⟨h0, zs, a, h, _, hz⟩ := m6_viable.1 hv'
          exact (no6 zs a h h0 hz).elim
        · cases hd'
    · obtain ⟨x, ys, rfl⟩ : ∃ x ys, xs = x :: ys := by
        cases xs with
        | nil => simp at hl
        | cons x ys => exact ⟨x, ys, rfl⟩
      have gb : Arr .one b := (isArray_arr g1).1
      have gx : ∀ y ∈ x :: ys, Num y := fun y hy => (isNumber_num (g2 y hy)).1
      have hx := gx x (by simp)
      cases ys with
      | nil =>
        refine fin [_, _, _, _] _ _ rfl (m5_viable.2 ⟨x, b, rfl, hx, gb⟩) rfl ?_
        intro c' hc' hd' hv'
        simp only [List.cons_append, List.nil_append, List.mem_cons, List.not_mem_nil, or_false] at hc'
        rcases hc' with rfl | rfl | rfl | rfl | rfl | rfl
        · exact (arr_not_num ((m1_viable.1 hv').2 x (by simp)) hx).elim
        · exact Nat.lt_succ_self 1
        · obtain ⟨a, b', h, h', _⟩ := m3_viable.1 hv'
          cases h
          exact (arr_not_num h' hx).elim
        · exact Nat.lt_succ_self 1
        · exact Nat.lt_succ_self 1
        · cases hd'
      | cons y ys =>
        refine fin [_, _, _, _, _] _ _ rfl (m6_viable.2 ⟨by simp, _, b, rfl, gb, gx⟩) rfl ?_
        intro c' hc' hd' hv'
        simp only [List.cons_append, List.nil_append, List.mem_cons, List.not_mem_nil, or_false] at hc'
        rcases hc' with rfl | rfl | rfl | rfl | rfl | rfl
        · exact (arr_not_num ((m1_viable.1 hv').2 x (by simp)) hx).elim
        · exact (arr_not_num (m2_viable.1 hv' x (by simp)) hx).elim
        · obtain ⟨a, b', h, h', _⟩ := m3_viable.1 hv'
          simp at h
        · obtain ⟨_, a, b', h, h', _⟩ := m4_viable.1 hv'
          cases h
          exact (arr_not_num h' hx).elim
        · obtain ⟨a, b', h, _⟩ := m5_viable.1 hv'
          simp at h
        · cases hd'

theorem merge2_cref {args : List Arg} {c : Cand} (hc : c ∈ mergeSet2 args.length) (hd : c.deleted = false)
    (hv : c.viable args = true) : Plain c ∧ (∀ a ∈ args, Arr .two a) ∧
    ∀ (k : Nat) (a : Arg), args[k]? = some a → Arr .two a → c.params[k]? = some .cref := by
  simp only [mergeSet2, List.mem_cons, List.not_mem_nil, or_false] at hc
  rcases hc with rfl | rfl | rfl
  · obtain ⟨h1, h2⟩ := m1_viable.1 hv
    refine ⟨by simp [Plain], h2, fun k a hk _ => ?_⟩
    have hk : k < args.length := (List.getElem?_eq_some_iff.1 hk).1
    rw [h1] at hk
    rcases k with _ | _ | k
    · rfl
    · rfl
    · omega
  · have h2 := m2_viable.1 hv
    refine ⟨by simp only [Plain, List.mem_replicate]; exact fun p h => .inl h.2, h2, fun k a hk _ => ?_⟩
    have hk : k < args.length := (List.getElem?_eq_some_iff.1 hk).1
    simp [hk]
  · cases hd

theorem merge2_compiles (args : List Arg) :
    Fn.merge2.compiles args = true ↔ Proper .merge2 args ∧ (Allowed .merge2 args ∨ Gap .merge2 args) := by
  have hgap : ¬ Gap .merge2 args := by simp [Gap]
  simp only [hgap, or_false, Fn.compiles]
  constructor
  · intro h
    constructor
    · obtain ⟨c, h1, h2, h3, h4, _⟩ := compiles_elim h
      obtain ⟨_, hs, _⟩ := merge2_cref h1 h3 h2
      obtain ⟨hl, e, he⟩ := mergeBody_elem h4 (fun a ha => arr_elem? (hs a ha))
      exact ⟨hl, e, fun a ha => arr_elem (hs a ha) (he a ha)⟩
    · refine pack_no_temp (cs := mergeSet2 args.length) (d := .two) (by simp [mergeSet2]) (fun c hc hd hv => ?_) h
      obtain ⟨_, hs, hp⟩ := merge2_cref hc hd hv
      exact ⟨fun a ha => .inl (hs a ha), hp⟩
  · rintro ⟨⟨hl, e, hs⟩, hn⟩
    have hD : (Cand.mk (List.replicate args.length .fwd) (fun ts => ts.any (Ty.dimOwnerRvalue .two)) true 0).viable
        args = false := by
      rw [Bool.eq_false_iff]
      intro hv
      obtain ⟨_, a, ha, ht, _⟩ := pack_viable.1 hv
      exact hn a ha ht
    have hbody : mergeBody (args.map Arg.what) = true :=
      mergeBody_of (e := e) hl fun a ha => (isArray_arr (hs a ha)).2
    have ha : ∀ a ∈ args, Arr .two a := fun a ha => (isArray_arr (hs a ha)).1
    by_cases h2 : args.length = 2
    · rw [show mergeSet2 args.length = [] ++ _ :: _ from rfl, accepted (m1_viable.2 ⟨h2, ha⟩) rfl, hbody]
      intro c' hc' hv'
      simp only [List.nil_append, List.mem_cons, List.not_mem_nil, or_false] at hc'
      rcases hc' with rfl | rfl
      · rw [plain_beats (by simp [Plain]) (by simp only [Plain, List.mem_replicate]; exact fun p h => .inl h.2)]
        rfl
      · rw [hD] at hv'; cases hv'
    · rw [show mergeSet2 args.length = [_] ++ _ :: _ from rfl, accepted (m2_viable.2 ha) rfl, hbody]
      intro c' hc' hv'
      simp only [List.singleton_append, List.mem_cons, List.not_mem_nil, or_false] at hc'
      rcases hc' with rfl | rfl
      · exact absurd (m1_viable.1 hv').1 h2
      · rw [hD] at hv'; cases hv'

end Spp.Cpp
