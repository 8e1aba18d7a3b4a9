import Verif.Lemmas.Convert

/-
C123: strict numbers are not converted implicitly.
-/

namespace Spp.Props

open Spec Cxx

/-- **C123** `x @ y` compiles exactly by the rules: both operands have the same strict type for which the operator is
meant, or both are built-in, or it is `&&` or `||` of a strict boolean and a built-in number, or a sum or difference of
positions. -/
theorem C123_binary (o : Op) (s t r : Ty) : (∃ c, binary o s t = some c ∧ c.result = r) ↔ Rule o s t r := by
  rw [← rule_iff, ← binary_result]
  simp

example : (∃ c, binary .add (.strict .int) (.strict .int) = some c ∧ c.result = .strict .int) :=
  (C123_binary ..).2 (.same (by decide) (by decide))
example : (∃ c, binary .sub .last (.num .int) = some c ∧ c.result = .last) :=
  (C123_binary ..).2 (.lastLeft (.inr rfl) (by decide))

/-- **C123** Two strict numbers of different types cannot be operands of the same operator. -/
theorem C123_no_mixing (o : Op) {n m : Num} (h : n ≠ m) : binary o (.strict n) (.strict m) = none := by
  rw [binary_strict, if_neg (fun h' => h h'.2)]

example : binary .add (.strict .int) (.strict .long) = none ∧ binary .lt (.strict .float) (.strict .double) = none :=
  ⟨C123_no_mixing _ (by decide), C123_no_mixing _ (by decide)⟩

/-- **C123** A strict number and a built-in one cannot be operands of the same operator, except for `&&` and `||` of a
strict boolean, which then are those of the language: they convert any built-in number to `bool`. -/
theorem C123_no_builtin (o : Op) (n m : Num) :
    ((binary o (.strict n) (.num m)).isSome ↔ (o = .land ∨ o = .lor) ∧ n = .bool) ∧
    ((binary o (.num m) (.strict n)).isSome ↔ (o = .land ∨ o = .lor) ∧ n = .bool) := by
  rw [binary_strict_num, binary_num_strict]
  by_cases h : (o = .land ∨ o = .lor) ∧ n = .bool
  · simp [h]
  · simp [h]

example : (binary .mul (.num .double) (.strict .double)).isSome = false ∧
    (binary .land (.strict .bool) (.num .double)).isSome = true := by
  refine ⟨?_, ?_⟩
  · have := (C123_no_builtin .mul .double .double).2
    simpa using this
  · exact (C123_no_builtin .land .bool .double).1.2 ⟨.inl rfl, rfl⟩

/-- **C123** Unary operators compile exactly by the rules. -/
theorem C123_unary (o : UnOp) (s r : Ty) : (∃ c, unary o s = some c ∧ c.result = r) ↔ UnRule o s r := by
  rcases s with p | n | _ | _ | _
  · constructor
    · rintro ⟨c, h, rfl⟩
      cases o
      · cases Option.some.inj h; exact .languageSign (.inl rfl)
      · cases Option.some.inj h; exact .languageSign (.inr rfl)
      · unfold unary at h
        simp only [Option.ite_none_left_eq_some] at h
        obtain ⟨h, h'⟩ := h
        cases Option.some.inj h'
        exact .languageBits (by simpa using h)
      · cases Option.some.inj h; exact .languageNot
    · intro h
      cases h with
      | languageNot => exact ⟨_, rfl, rfl⟩
      | languageBits hp => exact ⟨_, if_neg (by simp [hp]), rfl⟩
      | languageSign ho => rcases ho with rfl | rfl <;> exact ⟨_, rfl, rfl⟩
  · rw [unary_strict]
    constructor
    · rintro ⟨c, h, rfl⟩
      simp only [Option.ite_none_right_eq_some] at h
      obtain ⟨⟨⟨hb, hm⟩, hbody⟩, h⟩ := h
      cases Option.some.inj h
      cases o <;> cases n <;> first
        | exact .lnot
        | exact .plus (by decide)
        | exact .minus (by decide)
        | exact .bnot (by decide)
        | (exfalso; revert hb hm hbody; simp [Num.builtin, Num.real, Num.integer, Num.signed, Num.unsigned,
            Num.floating, UnOp.body]; done)
    · intro h
      cases h with
      | plus h =>
        simp only [intTypes, floatTypes, List.cons_append, List.nil_append, List.mem_cons, List.not_mem_nil,
          or_false] at h
        rcases h with rfl | rfl | rfl | rfl | rfl | rfl | rfl | rfl <;> exact ⟨_, rfl, rfl⟩
      | minus h =>
        simp only [floatTypes, List.cons_append, List.nil_append, List.mem_cons, List.not_mem_nil,
          or_false] at h
        rcases h with rfl | rfl | rfl | rfl | rfl | rfl <;> exact ⟨_, rfl, rfl⟩
      | bnot h =>
        simp only [intTypes, List.mem_cons, List.not_mem_nil, or_false] at h
        rcases h with rfl | rfl | rfl | rfl <;> exact ⟨_, rfl, rfl⟩
      | lnot => exact ⟨_, rfl, rfl⟩
  all_goals
    rw [unary_index (by exact trivial)]
    constructor
    · rintro ⟨c, h, _⟩; cases h
    · intro h; cases h

example : (∃ c, unary .minus (.strict .double) = some c ∧ c.result = .strict .double) :=
  (C123_unary ..).2 (.minus (by decide))
example : ¬ (∃ c, unary .minus (.strict .uint) = some c ∧ c.result = .strict .uint) := by
  rw [C123_unary]; intro h; cases h; contradiction

/-- **C123** `Strict<T>{e}` compiles exactly if `e` is a `T` or a `Strict<T>`; not even `Strict<long>{1}` does. -/
theorem C123_make (n : Num) (t : Ty) :
    directInit n t = true ↔ n ∈ allTypes ∧ (t = .num n ∨ t = .strict n) := by
  unfold directInit
  rw [Bool.and_eq_true, builtin_iff]
  refine and_congr_right fun hn => ?_
  by_cases hs : t = .strict n
  · subst hs
    simp only [or_true, iff_true]
    unfold constructors
    rw [if_pos rfl]
    cases n <;> first | rfl | (exact absurd hn (by decide)) | simp [allTypes, intTypes, floatTypes] at hn
  · by_cases hm : t = .num n
    · subst hm
      simp only [true_or, iff_true]
      cases n <;> first | rfl | (exact absurd hn (by decide)) | simp [allTypes, intTypes, floatTypes] at hn
    · simp only [hs, hm, or_self, iff_false]
      unfold constructors
      rw [if_neg hs]
      have h2 : rk (implicit t (.strict n)) = some 3 := by simp [implicit, hs, rk, Conv.rank]
      have h1 : rk (implicit t (.num n)) ≠ some 0 := by
        intro h
        have : implicit t (.num n) = some .identity := by
          cases hi : implicit t (.num n) with
          | none => rw [hi] at h; cases h
          | some c => cases c <;> rw [hi] at h <;> first | rfl | (simp [rk, Conv.rank] at h)
        unfold implicit at this
        rw [if_neg hm] at this
        rcases t with m | m | _ | _ | _
        · simp only [Option.some.injEq] at this; split at this <;> cases this
        · cases m <;> simp at this
        all_goals simp at this
      have h0 : implicit t t = some .identity := by simp [implicit]
      -- the deleted constructor is the best candidate
      have hres : ∀ c, resolve [⟨[.num n], .strict n, false, false⟩, ⟨[.strict n], .strict n, false, false⟩,
          ⟨[t], .strict n, true, true⟩] [t] = some c → c.deleted = true := by
        intro c hc
        unfold resolve at hc
        have hp := List.find?_some hc
        have hmem := List.mem_of_find?_eq_some hc
        rw [List.all_eq_true] at hp
        have hb := hp ⟨[t], .strict n, true, true⟩ (by
          rw [List.mem_filter]
          exact ⟨by simp, by rw [viable_one, h0]; rfl⟩)
        have hin := (List.mem_filter.1 hmem).1
        simp only [List.mem_cons, List.not_mem_nil, or_false] at hin
        rcases hin with rfl | rfl | rfl
        · exfalso
          simp only [Bool.or_eq_true, decide_eq_true_eq, Cand.beats, Cand.convs, List.zipWith_cons_cons,
            List.zipWith_nil_right, h0, Bool.and_eq_true, List.all_cons, List.all_nil] at hb
          rcases hb with hb | ⟨hb, _⟩
          · cases hb
          · cases hi : implicit t (.num n) with
            | none =>
              have := (List.mem_filter.1 hmem).2
              rw [viable_one, hi] at this; cases this
            | some x =>
              rw [hi] at hb h1
              cases x <;> simp [better, Conv.rank, rk] at hb h1
        · exfalso
          simp only [Bool.or_eq_true, decide_eq_true_eq, Cand.beats, Cand.convs, List.zipWith_cons_cons,
            List.zipWith_nil_right, h0, Bool.and_eq_true, List.all_cons, List.all_nil] at hb
          rcases hb with hb | ⟨hb, _⟩
          · cases hb
          · cases hi : implicit t (.strict n) with
            | none => rw [hi] at h2; cases h2
            | some x =>
              rw [hi] at hb h2
              cases x <;> simp [better, Conv.rank, rk] at hb h2
        · rfl
      show ¬ (call [⟨[.num n], .strict n, false, false⟩, ⟨[.strict n], .strict n, false, false⟩,
          ⟨[t], .strict n, true, true⟩] [t]).isSome = true
      unfold call
      split
      · next c hc => rw [hres c hc]; simp
      · simp

example : directInit .double (.num .double) = true ∧ directInit .double (.num .float) = false ∧
    directInit .long (.strict .int) = false := by decide

/-- **C123** A strict number can be initialized by `=`, passed, returned and assigned only from one of the same type, and
a built-in number cannot be initialized from a strict one, except `bool` from a strict boolean; `static_cast<T>` (or
`T{x}`) from `Strict<U>` needs `T` to be `U`; and conditions have to be strict booleans or built-in numbers.  A position
can be given as `int`, `long`, strict or not. -/
theorem C123_passing (n m : Num) (t : Ty) :
    (copyInit (.strict n) t = true ↔ t = .strict n) ∧
    (copyInit (.num n) (.strict m) = true ↔ n = .bool ∧ m = .bool) ∧
    (staticCast n (.strict m) = true ↔ m = n) ∧
    (condition t = true ↔ (∃ p, t = .num p) ∨ t = .strict .bool) ∧
    (copyInit .implicitInt t = true ↔ t ∈ indexTypes) := by
  refine ⟨?_, ?_, ?_, ?_, ?_⟩
  · unfold copyInit implicit
    by_cases h : t = .strict n
    · simp [h, Conv.usable]
    · simp [h, Conv.usable]
  · cases m <;> cases n <;> simp [copyInit, implicit, Conv.usable]
  · simp [staticCast]
  · cases t <;> simp [condition]
  · rcases t with t | t | _ | _ | _ <;> first
      | (cases t <;> simp [copyInit, implicit, Conv.usable, Num.signed, indexTypes]; done)
      | simp [copyInit, implicit, Conv.usable, indexTypes]

example : copyInit (.strict .double) (.strict .double) = true ∧ ¬ copyInit (.strict .double) (.num .double) = true ∧
    condition (.strict .bool) = true ∧ copyInit .implicitInt (.num .long) = true :=
  ⟨(C123_passing .double .double _).1.2 rfl, (fun h => by cases (C123_passing .double .double _).1.1 h),
    (C123_passing .bool .bool _).2.2.2.1.2 (.inr rfl), (C123_passing .bool .bool _).2.2.2.2.2 (by decide)⟩

/-- **C123** `x @= y` with a strict `x` compiles exactly if `y` has the same type and the operator is meant for it. -/
theorem C123_assignment (o : AssignOp) (n : Num) (t : Ty) :
    assignment o n t = true ↔ n ∈ typesForAssign o ∧ t = .strict n := by
  unfold assignment
  have hdecl : o.declared n = true ↔ n ∈ typesForAssign o := by
    cases o <;> cases n <;> simp [AssignOp.declared, typesForAssign, allTypes, intTypes, floatTypes, Num.builtin,
      Num.real, Num.integer, Num.signed, Num.unsigned, Num.floating]
  rw [Bool.and_eq_true, hdecl]
  refine and_congr_right fun hd => ?_
  have hs : (implicit t (.strict n)).isSome = true := by
    unfold implicit; split <;> rfl
  have hres : resolve [{ params := [.strict n], result := .strict n }] [t] =
      some { params := [.strict n], result := .strict n } := by
    unfold resolve
    have : ([{ params := [.strict n], result := .strict n }] : List Cand).filter (fun c => c.viable [t]) =
        [{ params := [.strict n], result := .strict n }] := by
      rw [List.filter_cons_of_pos (by rw [viable_one]; exact hs)]; rfl
    rw [this]
    simp
  unfold call
  rw [hres]
  by_cases h : t = .strict n
  · simp [h, Cand.convs, implicit, Conv.usable]
  · simp [h, Cand.convs, implicit, Conv.usable]

example : assignment .add .double (.strict .double) = true ∧ assignment .add .double (.num .double) = false ∧
    assignment .rem .double (.strict .double) = false := by decide

/-- The types `Strict{e}` and the explicit conversions accept. -/
theorem from_iff {t : Ty} {n : Num} : castFrom t = some n ↔ (t = .num n ∧ n ∈ allTypes) ∨ t = .strict n := by
  cases t with
  | num m =>
    simp only [castFrom, Option.ite_none_right_eq_some, Option.some.injEq, builtin_iff, Ty.num.injEq, reduceCtorEq,
      or_false]
    constructor
    · rintro ⟨h, rfl⟩; exact ⟨rfl, h⟩
    · rintro ⟨rfl, h⟩; exact ⟨h, rfl⟩
  | strict m => simp [castFrom]
  | _ => simp [castFrom]

/-- **C123** An expression of any depth compiles exactly if it has a type by the rules, and then that is its type. -/
theorem C123_typing (e : Ex) (r : Ty) : e.type = some r ↔ HasType e r := by
  induction e generalizing r with
  | leaf t i =>
    constructor
    · intro h; cases Option.some.inj h; exact .leaf
    · intro h; cases h; rfl
  | un o e ih =>
    simp only [Ex.type, Option.bind_eq_bind, Option.bind_eq_some_iff, Option.pure_def, Option.some.injEq]
    constructor
    · rintro ⟨t, ht, c, hc, rfl⟩
      exact .un ((ih _).1 ht) ((C123_unary _ _ _).1 ⟨c, hc, rfl⟩)
    · intro h
      cases h with
      | un he hr =>
        obtain ⟨c, hc, rfl⟩ := (C123_unary _ _ _).2 hr
        exact ⟨_, (ih _).2 he, c, hc, rfl⟩
  | bin o e1 e2 ih1 ih2 =>
    simp only [Ex.type, Option.bind_eq_bind, Option.bind_eq_some_iff, Option.pure_def, Option.some.injEq]
    constructor
    · rintro ⟨s, hs, t, ht, c, hc, rfl⟩
      exact .bin ((ih1 _).1 hs) ((ih2 _).1 ht)
        ((C123_binary _ _ _ _).1 ⟨c, hc, rfl⟩)
    · intro h
      cases h with
      | bin h1 h2 hr =>
        obtain ⟨c, hc, rfl⟩ := (C123_binary _ _ _ _).2 hr
        exact ⟨_, (ih1 _).2 h1, _, (ih2 _).2 h2, c, hc, rfl⟩
  | make n e ih =>
    simp only [Ex.type, Option.bind_eq_bind, Option.bind_eq_some_iff, Option.ite_none_right_eq_some, Option.some.injEq]
    constructor
    · rintro ⟨t, ht, hd, rfl⟩
      exact .make ((ih _).1 ht) ((C123_make _ _).1 hd).1 ((C123_make _ _).1 hd).2
    · intro h
      cases h with
      | make he hn ht => exact ⟨_, (ih _).2 he, (C123_make _ _).2 ⟨hn, ht⟩, rfl⟩
  | wrap e ih =>
    simp only [Ex.type, Option.bind_eq_bind, Option.bind_eq_some_iff, Option.pure_def, Option.some.injEq]
    constructor
    · rintro ⟨t, ht, n, hd, rfl⟩
      exact .wrap ((ih _).1 ht) (from_iff.1 hd)
    · intro h
      cases h with
      | wrap he ht => exact ⟨_, (ih _).2 he, _, from_iff.2 ht, rfl⟩
  | strictCast n e ih =>
    simp only [Ex.type, Option.bind_eq_bind, Option.bind_eq_some_iff, Option.ite_none_right_eq_some, Option.some.injEq]
    constructor
    · rintro ⟨t, ht, m, hd, hn, rfl⟩
      exact .strictCast ((ih _).1 ht) (from_iff.1 hd) (builtin_iff.1 hn)
    · intro h
      cases h with
      | strictCast he ht hn => exact ⟨_, (ih _).2 he, _, from_iff.2 ht, builtin_iff.2 hn, rfl⟩
  | builtinCast n e ih =>
    simp only [Ex.type, Option.bind_eq_bind, Option.bind_eq_some_iff, Option.ite_none_right_eq_some, Option.some.injEq]
    constructor
    · rintro ⟨t, ht, m, hd, hn, rfl⟩
      exact .builtinCast ((ih _).1 ht) (from_iff.1 hd) (builtin_iff.1 hn)
    · intro h
      cases h with
      | builtinCast he ht hn => exact ⟨_, (ih _).2 he, _, from_iff.2 ht, builtin_iff.2 hn, rfl⟩
  | staticCast n e ih =>
    simp only [Ex.type, Option.bind_eq_bind, Option.bind_eq_some_iff, Option.ite_none_right_eq_some, Option.some.injEq]
    constructor
    · rintro ⟨t, ht, hd, rfl⟩
      rcases t with m | m | _ | _ | _
      · exact .staticCast ((ih _).1 ht) (.inl rfl)
      · have : m = n := by simpa [staticCast] using hd
        exact .staticCast (m := m) ((ih _).1 ht) (.inr (by rw [this]))
      all_goals simp [staticCast] at hd
    · intro h
      cases h with
      | staticCast he ht =>
        refine ⟨_, (ih _).2 he, ?_, rfl⟩
        rcases ht with rfl | rfl <;> simp [staticCast]
  | val e ih =>
    simp only [Ex.type, Option.bind_eq_bind, Option.bind_eq_some_iff, Option.pure_def, Option.some.injEq]
    constructor
    · rintro ⟨t, ht, n, hd, rfl⟩
      cases t <;> simp [valOf] at hd
      subst hd
      exact .val ((ih _).1 ht)
    · intro h
      cases h with
      | val he => exact ⟨_, (ih _).2 he, _, rfl, rfl⟩

/-- `(x + y) < strict_cast<double>(k)` for strict doubles `x`, `y` and a strict int `k`. -/
def cmpEx : Ex :=
  .bin .lt (.bin .add (.leaf (.strict .double) 0) (.leaf (.strict .double) 1))
    (.strictCast .double (.leaf (.strict .int) 2))

example : HasType cmpEx (.strict .bool) := (C123_typing _ _).1 (by decide +kernel)
example : ∀ r, ¬ HasType (.bin .add (.leaf (.strict .double) 0) (.leaf (.strict .int) 1)) r := fun r h => by
  have := (C123_typing _ _).2 h
  have h' : (Ex.bin .add (.leaf (.strict .double) 0) (.leaf (.strict .int) 1)).type = none := by decide +kernel
  rw [h'] at this; cases this

/-- The operands of an operator are passed unchanged, up to `int` to `long` and built-in numbers to `bool`. -/
theorem pass_eq {V : Type} {m m' : Sem V} (hl : m.conv .int .long = m'.conv .int .long)
    (hb : ∀ n, m.conv n .bool = m'.conv n .bool) {o : Op} {s t : Ty} {c : Cand} (hc : binary o s t = some c)
    (hn : ¬ ∃ p q, s = .num p ∧ t = .num q) :
    ∃ p q, c.params = [p, q] ∧ ∀ x, m.pass s p x = m'.pass s p x ∧ m.pass t q x = m'.pass t q x := by
  by_cases h : isIndex s ∨ isIndex t
  · obtain ⟨⟨p, q, hp, h1, h2⟩, h3, h4⟩ := index_params h hc
    refine ⟨p, q, hp, fun x => ⟨?_, ?_⟩⟩
    · unfold Sem.pass; rw [h1]; rcases h3 with h3 | h3 <;> rw [h3] <;> simp [hl]
    · unfold Sem.pass; rw [h2]; rcases h4 with h4 | h4 <;> rw [h4] <;> simp [hl]
  · rcases s with p | n | _ | _ | _ <;> rcases t with q | k | _ | _ | _ <;> first
      | exact (h (Or.inl trivial)).elim
      | exact (h (Or.inr trivial)).elim
      | skip
    · exact (hn ⟨p, q, rfl, rfl⟩).elim
    · rw [binary_num_strict] at hc
      simp only [Option.ite_none_right_eq_some] at hc
      obtain ⟨⟨_, rfl⟩, hc⟩ := hc
      cases Option.some.inj hc
      refine ⟨_, _, rfl, fun x => ⟨?_, rfl⟩⟩
      exact (by rw [hb] : (if p = Num.bool then x else m.conv p .bool x) = _)
    · rw [binary_strict_num] at hc
      simp only [Option.ite_none_right_eq_some] at hc
      obtain ⟨⟨_, rfl⟩, hc⟩ := hc
      cases Option.some.inj hc
      refine ⟨_, _, rfl, fun x => ⟨rfl, ?_⟩⟩
      exact (by rw [hb] : (if q = Num.bool then x else m.conv q .bool x) = _)
    · rw [binary_strict] at hc
      simp only [Option.ite_none_right_eq_some] at hc
      obtain ⟨⟨_, rfl⟩, hc⟩ := hc
      cases Option.some.inj hc
      refine ⟨_, _, rfl, fun x => ?_⟩
      simp [Sem.pass]

/-- **C123** The value of an expression without operators between two built-in numbers does not depend on implicit
conversions, except that of `int` to `long` in positions and that of built-in numbers to `bool`. -/
theorem C123_conversions {V : Type} {m m' : Sem V} (hs : SameButConversions m m')
    (hl : m.conv .int .long = m'.conv .int .long) (hb : ∀ n, m.conv n .bool = m'.conv n .bool) (env : Nat → V)
    (e : Ex) (h : NoLanguageOps e) : e.eval m env = e.eval m' env := by
  obtain ⟨hu, hbin, hcast⟩ := hs
  induction e with
  | leaf t i => rfl
  | un o e ih =>
    simp only [Ex.eval, ih h.2]
    cases ht : e.type with
    | none => rfl
    | some t =>
      cases hc : unary o t with
      | none => simp [hc]
      | some c =>
        have hp : c.params = [t] := by
          rcases t with p | n | _ | _ | _
          · exact (h.1 p ((C123_typing _ _).1 ht)).elim
          · rw [unary_strict] at hc
            simp only [Option.ite_none_right_eq_some] at hc
            cases Option.some.inj hc.2; rfl
          all_goals rw [unary_index (by exact trivial)] at hc; cases hc
        simp [hc, hp, Sem.pass, hu]
  | bin o e1 e2 ih1 ih2 =>
    simp only [Ex.eval, ih1 h.2.1, ih2 h.2.2]
    cases hs : e1.type with
    | none => rfl
    | some s =>
      cases ht : e2.type with
      | none => rfl
      | some t =>
        cases hc : binary o s t with
        | none => simp [hc]
        | some c =>
          obtain ⟨p, q, hpq, hpass⟩ := pass_eq hl hb hc (by
            rintro ⟨p, q, rfl, rfl⟩
            exact h.1 p q ⟨(C123_typing _ _).1 hs, (C123_typing _ _).1 ht⟩)
          simp only [hc, hpq, Option.bind_eq_bind, Option.bind_some, List.headD_cons, List.drop_succ_cons,
            List.drop_zero, hbin, (hpass _).1, (hpass _).2]
  | make n e ih => exact ih h
  | wrap e ih => exact ih h
  | val e ih => exact ih h
  | strictCast n e ih => simp only [Ex.eval, ih h, hcast]
  | builtinCast n e ih => simp only [Ex.eval, ih h, hcast]
  | staticCast n e ih => simp only [Ex.eval, ih h, hcast]

/-- **C123** If all operands of operators are strict numbers, the expression contains no implicit conversion: its value
is the same whatever implicit conversions do. -/
theorem C123_strict {V : Type} {m m' : Sem V} (hs : SameButConversions m m') (env : Nat → V)
    (e : Ex) (h : StrictOperands e) : e.eval m env = e.eval m' env := by
  obtain ⟨hu, hbin, hcast⟩ := hs
  induction e with
  | leaf t i => rfl
  | un o e ih =>
    obtain ⟨⟨n, hn⟩, h⟩ := h
    have ht := (C123_typing _ _).2 hn
    simp only [Ex.eval, ih h, ht]
    cases hc : unary o (.strict n) with
    | none => simp [hc]
    | some c =>
      have hc' := hc
      rw [unary_strict] at hc
      simp only [Option.ite_none_right_eq_some] at hc
      cases Option.some.inj hc.2
      simp [hc', Sem.pass, hu]
  | bin o e1 e2 ih1 ih2 =>
    obtain ⟨⟨n, hn⟩, ⟨k, hk⟩, h1, h2⟩ := h
    have hs := (C123_typing _ _).2 hn
    have ht := (C123_typing _ _).2 hk
    simp only [Ex.eval, ih1 h1, ih2 h2, hs, ht]
    cases hc : binary o (.strict n) (.strict k) with
    | none => simp [hc]
    | some c =>
      have hc' := hc
      rw [binary_strict] at hc
      simp only [Option.ite_none_right_eq_some] at hc
      obtain ⟨⟨_, rfl⟩, hc⟩ := hc
      cases Option.some.inj hc
      simp [hc', Sem.pass, hbin]
  | make n e ih => exact ih h
  | wrap e ih => exact ih h
  | val e ih => exact ih h
  | strictCast n e ih => simp only [Ex.eval, ih h, hcast]
  | builtinCast n e ih => simp only [Ex.eval, ih h, hcast]
  | staticCast n e ih => simp only [Ex.eval, ih h, hcast]

/-- Values are integers; the operators are sums and comparisons. -/
def plainSem (conv : Num → Num → Int → Int) : Sem Int where
  un _ _ x := -x
  bin o _ _ x y := if o = .lt then (if x < y then 1 else 0) else x + y
  cast _ _ x := x
  conv := conv

example : StrictOperands cmpEx ∧ cmpEx.eval (plainSem fun _ _ _ => 0) (fun i => i) = some 1 ∧
    cmpEx.eval (plainSem fun _ _ x => x) (fun i => i) = some 1 := by
  have h : StrictOperands cmpEx := by
    refine ⟨⟨.double, (C123_typing _ _).1 (by decide +kernel)⟩, ⟨.double, (C123_typing _ _).1 (by decide +kernel)⟩,
      ⟨⟨.double, (C123_typing _ _).1 (by decide +kernel)⟩, ⟨.double, (C123_typing _ _).1 (by decide +kernel)⟩,
        trivial, trivial⟩, trivial⟩
  refine ⟨h, by decide +kernel, ?_⟩
  rw [C123_strict (m := plainSem fun _ _ x => x) (m' := plainSem fun _ _ _ => 0) ⟨rfl, rfl, rfl⟩ _ _ h]
  decide +kernel

/-- `last - k` for a `k` of type `int`: the implicit conversion to `long` takes place. -/
example : NoLanguageOps (.bin .sub (.leaf .last 0) (.leaf (.num .int) 1)) := by
  refine ⟨?_, trivial, trivial⟩
  rintro p q ⟨h, _⟩
  cases h

/-- **C123** The exception: in `b && x` with a strict boolean `b` a built-in number `x` of any type is converted to
`bool`, and the result is not strict. -/
theorem C123_logic {V : Type} (m : Sem V) (env : Nat → V) {o : Op} (ho : o = .land ∨ o = .lor) (k : Num) (i j : Nat) :
    (Ex.bin o (.leaf (.strict .bool) i) (.leaf (.num k) j)).type = some (.num .bool) ∧
    (Ex.bin o (.leaf (.strict .bool) i) (.leaf (.num k) j)).eval m env =
      some (m.bin o .bool .bool (env i) (if k = .bool then env j else m.conv k .bool (env j))) := by
  have hc : binary o (.strict .bool) (.num k) = some ⟨[.num .bool, .num .bool], .num .bool, false, false⟩ := by
    rw [binary_strict_num, if_pos ⟨ho, rfl⟩]
  refine ⟨?_, ?_⟩
  · simp [Ex.type, hc]
  · simp [Ex.eval, Ex.type, hc, Sem.pass, Ty.number]

example : (Ex.bin .land (.leaf (.strict .bool) 0) (.leaf (.num .double) 1)).type = some (.num .bool) :=
  (C123_logic (plainSem fun _ _ x => x) (fun i => i) (.inl rfl) .double 0 1).1

end Spp.Props
