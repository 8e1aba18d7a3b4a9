import Verif.Spec.Convert

/-
Overload resolution for the operators on numbers.
-/

namespace Spp.Cxx

open Spec

theorem resolve_none {cs : List Cand} {args : List Ty}
    (h : ∀ c ∈ cs, c.viable args = true → ∃ c' ∈ cs, c'.viable args = true ∧ c' ≠ c ∧ c.beats c' args = false) :
    resolve cs args = none := by
  unfold resolve
  simp only [List.find?_eq_none, List.mem_filter, List.all_eq_true, Bool.or_eq_true, decide_eq_true_eq]
  rintro c ⟨hc, hv⟩ hall
  obtain ⟨c', hc', hv', hne, hb⟩ := h c hc hv
  rcases hall c' ⟨hc', hv'⟩ with h | h
  · exact hne h
  · rw [hb] at h; cases h

theorem resolve_append {cs cs' : List Cand} {args : List Ty} (h : ∀ c ∈ cs', c.viable args = false) :
    resolve (cs ++ cs') args = resolve cs args := by
  unfold resolve
  have : (cs ++ cs').filter (fun c => c.viable args) = cs.filter (fun c => c.viable args) := by
    rw [List.filter_append, (List.filter_eq_nil_iff.2 (by intro a ha; simp [h a ha]) :
      cs'.filter (fun c => c.viable args) = [])]
    simp
  rw [this]

theorem call_append {cs cs' : List Cand} {args : List Ty} (h : ∀ c ∈ cs', c.viable args = false) :
    call (cs ++ cs') args = call cs args := by
  unfold call; rw [resolve_append h]

theorem viable_two {p q s t : Ty} {r : Ty} {b d : Bool} :
    (Cand.mk [p, q] r b d).viable [s, t] = ((implicit s p).isSome && (implicit t q).isSome) := by
  simp [Cand.viable, Cand.convs]

theorem mem_builtins {o : Op} {c : Cand} :
    c ∈ builtins o ↔ ∃ p q, (p, q) ∈ o.operands ∧
      c = { params := [.num p, .num q], result := .num (o.builtinResult p q) } := by
  unfold builtins
  simp only [List.mem_map, Prod.exists]
  constructor
  · rintro ⟨p, q, h, rfl⟩; exact ⟨p, q, h, rfl⟩
  · rintro ⟨p, q, h, rfl⟩; exact ⟨p, q, h, rfl⟩

/-- The type does not convert to any built-in number. -/
def NoNum (t : Ty) : Prop := ∀ p, implicit t (.num p) = none

theorem noNum_strict {n : Num} (h : n ≠ .bool) : NoNum (.strict n) := by
  intro p; cases n <;> first | rfl | exact absurd rfl h
theorem noNum_implicitInt : NoNum .implicitInt := fun _ => rfl
theorem noNum_implicitIntStatic : NoNum .implicitIntStatic := fun _ => rfl
theorem noNum_last : NoNum .last := fun _ => rfl

theorem builtins_not {o : Op} {s t : Ty} (h : NoNum s ∨ NoNum t) : ∀ c ∈ builtins o, c.viable [s, t] = false := by
  intro c hc
  obtain ⟨p, q, _, rfl⟩ := mem_builtins.1 hc
  rw [viable_two]
  rcases h with h | h
  · rw [h p]; rfl
  · rw [h q]; simp

theorem binary_eq {o : Op} {s t : Ty} (h : NoNum s ∨ NoNum t) :
    binary o s t = call (templates o [s, t] ++ positions o) [s, t] := by
  have hb : call (templates o [s, t] ++ positions o ++ builtins o) [s, t] =
      call (templates o [s, t] ++ positions o) [s, t] := call_append (builtins_not h)
  rcases s with p | n | _ | _ | _
  · rcases t with q | m | _ | _ | _
    · rcases h with h | h
      · have := h p; simp [implicit] at this
      · have := h q; simp [implicit] at this
    all_goals exact hb
  all_goals exact hb

/-- The result of `x @ y` by the rules. -/
def ruleFn (o : Op) (s t : Ty) : Option Ty :=
  match s, t with
  | .strict n, .strict m => if o.declared n ∧ n = m then some (o.yields n) else none
  | .num p, .num q => if o.inLanguage p q then some (.num (o.builtinResult p q)) else none
  | .strict n, .num _ => if (o = .land ∨ o = .lor) ∧ n = .bool then some (.num .bool) else none
  | .num _, .strict n => if (o = .land ∨ o = .lor) ∧ n = .bool then some (.num .bool) else none
  | .last, t => if (o = .add ∨ o = .sub) ∧ t ∈ indexTypes then some .last else none
  | t, .last => if o = .add ∧ t ∈ indexTypes then some .last else none
  | .implicitInt, t => if (o = .add ∨ o = .sub) ∧ t ∈ indexTypes then some .implicitInt else none
  | t, .implicitInt => if (o = .add ∨ o = .sub) ∧ t ∈ indexTypes then some .implicitInt else none
  | .implicitIntStatic, t => if (o = .add ∨ o = .sub) ∧ t ∈ indexTypes then some .implicitIntStatic else none
  | t, .implicitIntStatic => if (o = .add ∨ o = .sub) ∧ t ∈ indexTypes then some .implicitIntStatic else none

theorem declared_iff {o : Op} {n : Num} : o.declared n = true ↔ n ∈ typesFor o := by
  cases o <;> cases n <;> simp [Op.declared, typesFor, Num.real, Num.integer, Num.signed, Num.unsigned,
    Num.floating, Num.builtin, intTypes, floatTypes, allTypes]

theorem builtin_iff {n : Num} : n.builtin = true ↔ n ∈ allTypes := by
  cases n <;> simp [Num.real, Num.integer, Num.signed, Num.unsigned,
    Num.floating, Num.builtin, intTypes, floatTypes, allTypes]

theorem comparison_iff {o : Op} : o.comparison = true ↔ o ∈ comparisons := by
  cases o <;> simp [Op.comparison, comparisons]

theorem rule_iff {o : Op} {s t r : Ty} : ruleFn o s t = some r ↔ Rule o s t r := by
  constructor
  · intro h
    rcases s with p | n | _ | _ | _ <;> rcases t with q | m | _ | _ | _ <;>
      simp only [ruleFn, Option.ite_none_right_eq_some, Option.some.injEq] at h
    case num.num => obtain ⟨h, rfl⟩ := h; exact .language h
    case num.strict => obtain ⟨⟨h, rfl⟩, rfl⟩ := h; exact .logicRight h
    case num.implicitInt => obtain ⟨⟨h, ht⟩, rfl⟩ := h; exact .implicitRight h ht
    case num.implicitIntStatic => obtain ⟨⟨h, ht⟩, rfl⟩ := h; exact .staticRight h ht (by simp)
    case num.last => obtain ⟨⟨rfl, ht⟩, rfl⟩ := h; exact .lastRight ht
    case strict.num => obtain ⟨⟨h, rfl⟩, rfl⟩ := h; exact .logicLeft h
    case strict.strict =>
      obtain ⟨⟨h, rfl⟩, rfl⟩ := h
      by_cases hc : o.comparison = true
      · rw [Op.yields, if_pos hc]; exact .compare (declared_iff.1 h) (comparison_iff.1 hc)
      · rw [Op.yields, if_neg hc]; exact .same (declared_iff.1 h) (fun h' => hc (comparison_iff.2 h'))
    case strict.implicitInt => obtain ⟨⟨h, ht⟩, rfl⟩ := h; exact .implicitRight h ht
    case strict.implicitIntStatic => obtain ⟨⟨h, ht⟩, rfl⟩ := h; exact .staticRight h ht (by simp)
    case strict.last => obtain ⟨⟨rfl, ht⟩, rfl⟩ := h; exact .lastRight ht
    case implicitInt.last => obtain ⟨⟨rfl, ht⟩, rfl⟩ := h; exact .lastRight ht
    case implicitIntStatic.last => obtain ⟨⟨rfl, ht⟩, rfl⟩ := h; exact .lastRight ht
    case implicitIntStatic.implicitInt => obtain ⟨⟨h, ht⟩, rfl⟩ := h; exact .implicitRight h ht
    all_goals
      obtain ⟨⟨h, ht⟩, rfl⟩ := h
      first
        | exact .lastLeft h ht
        | exact .implicitLeft h ht
        | exact .staticLeft h ht (by simp)
  · intro h
    cases h with
    | same h hc =>
      rw [ruleFn, if_pos ⟨declared_iff.2 h, rfl⟩, Op.yields, if_neg (fun h' => hc (comparison_iff.1 h'))]
    | compare h hc =>
      rw [ruleFn, if_pos ⟨declared_iff.2 h, rfl⟩, Op.yields, if_pos (comparison_iff.2 hc)]
    | language h => rw [ruleFn, if_pos h]
    | logicLeft h => rw [ruleFn, if_pos ⟨h, rfl⟩]
    | logicRight h => rw [ruleFn, if_pos ⟨h, rfl⟩]
    | lastLeft h ht =>
      have ht' := ht
      simp only [indexTypes, List.mem_cons, List.not_mem_nil, or_false] at ht'
      rcases ht' with rfl | rfl | rfl | rfl | rfl | rfl <;> exact if_pos ⟨h, ht⟩
    | lastRight ht =>
      have ht' := ht
      simp only [indexTypes, List.mem_cons, List.not_mem_nil, or_false] at ht'
      rcases ht' with rfl | rfl | rfl | rfl | rfl | rfl <;> rfl
    | implicitLeft h ht =>
      have ht' := ht
      simp only [indexTypes, List.mem_cons, List.not_mem_nil, or_false] at ht'
      rcases ht' with rfl | rfl | rfl | rfl | rfl | rfl <;> exact if_pos ⟨h, ht⟩
    | implicitRight h ht =>
      have ht' := ht
      simp only [indexTypes, List.mem_cons, List.not_mem_nil, or_false] at ht'
      rcases ht' with rfl | rfl | rfl | rfl | rfl | rfl <;> exact if_pos ⟨h, ht⟩
    | staticLeft h ht hn =>
      have ht' := ht
      simp only [indexTypes, List.mem_cons, List.not_mem_nil, or_false] at ht'
      rcases ht' with rfl | rfl | rfl | rfl | rfl | rfl <;> first | exact if_pos ⟨h, ht⟩ | exact absurd rfl hn
    | staticRight h ht hn =>
      have ht' := ht
      simp only [indexTypes, List.mem_cons, List.not_mem_nil, or_false] at ht'
      rcases ht' with rfl | rfl | rfl | rfl | rfl | rfl <;> first | exact if_pos ⟨h, ht⟩ | exact absurd rfl hn

/-! ### Ambiguous calls -/

/-- The rank of a conversion. -/
def rk (c : Option Conv) : Option Nat := c.map Conv.rank

theorem better_tie {x y : Option Conv} (h : rk x = rk y) : better x y = false := by
  cases x <;> cases y <;> simp_all [rk, better]

theorem beats_tie {p q p' q' s t r r' : Ty} {d d' : Bool} (h1 : rk (implicit s p) = rk (implicit s p'))
    (h2 : rk (implicit t q) = rk (implicit t q')) :
    (Cand.mk [p, q] r false d).beats (Cand.mk [p', q'] r' false d') [s, t] = false := by
  simp [Cand.beats, Cand.convs, better_tie h1, better_tie h2]

theorem rk_strict_bool {p : Num} : rk (implicit (.strict .bool) (.num p)) = some 3 := by
  cases p <;> rfl

theorem some_strict_bool {p : Num} : (implicit (.strict .bool) (.num p)).isSome = true := by
  cases p <;> rfl

theorem mem_pairs {l : List Num} {p q : Num} : (p, q) ∈ pairs l ↔ p ∈ l ∧ q ∈ l := by
  simp [pairs]

/-- The operators with several built-in candidates. -/
theorem operands_two {o : Op} (h : o ≠ .land ∧ o ≠ .lor) :
    ∃ l : List Num, o.operands = pairs l ∧ .int ∈ l ∧ .long ∈ l := by
  cases o <;> first
    | exact ⟨Num.promotedInts, rfl, by decide, by decide⟩
    | exact ⟨Num.promoted, rfl, by decide, by decide⟩
    | exact absurd rfl h.1
    | exact absurd rfl h.2

theorem other_of {l : List Num} (h1 : Num.int ∈ l) (h2 : Num.long ∈ l) (p : Num) : ∃ p' ∈ l, p' ≠ p := by
  by_cases h : p = .int
  · exact ⟨.long, h2, by simp [h]⟩
  · exact ⟨.int, h1, fun h' => h h'.symm⟩

theorem rk_index {t : Ty} (h : t = .strict .bool ∨ ∃ q, t = .num q) :
    rk (implicit t .implicitInt) = rk (implicit t .implicitIntStatic) ∧
    (implicit t .implicitInt).isSome = (implicit t .implicitIntStatic).isSome := by
  rcases h with rfl | ⟨q, rfl⟩
  · exact ⟨rfl, rfl⟩
  · cases q <;> exact ⟨rfl, rfl⟩

/-- A strict boolean on the left is ambiguous. -/
theorem left_none {o : Op} {t : Ty} (ho : o ≠ .land ∧ o ≠ .lor) (h : t = .strict .bool ∨ ∃ q, t = .num q) :
    resolve (positions o ++ builtins o) [.strict .bool, t] = none := by
  apply resolve_none
  intro c hc hv
  rcases List.mem_append.1 hc with hc | hc
  · have hk := rk_index h
    have key : ∀ {p p' q q' r r'}, Cand.mk [p', q'] r' false false ∈ positions o →
        Cand.mk [p, q] r false false ≠ Cand.mk [p', q'] r' false false →
        (Cand.mk [p, q] r false false).viable [.strict .bool, t] = true →
        rk (implicit (.strict .bool) p) = rk (implicit (.strict .bool) p') →
        rk (implicit t q) = rk (implicit t q') → (implicit t q).isSome = (implicit t q').isSome →
        (implicit (.strict .bool) p').isSome = true →
        ∃ c' ∈ positions o ++ builtins o, c'.viable [.strict .bool, t] = true ∧
          c' ≠ Cand.mk [p, q] r false false ∧ (Cand.mk [p, q] r false false).beats c' [.strict .bool, t] = false := by
      intro p p' q q' r r' hm hne hv h1 h2 h3 h4
      refine ⟨_, List.mem_append_left _ hm, ?_, fun h => hne h.symm, beats_tie h1 h2⟩
      rw [viable_two] at hv ⊢
      simp only [Bool.and_eq_true] at hv ⊢
      exact ⟨h4, h3 ▸ hv.2⟩
    cases o <;> simp only [positions, List.mem_cons, List.not_mem_nil, or_false] at hc
    · rcases hc with rfl | rfl | rfl | rfl
      · exact key (p' := .implicitInt) (q' := .implicitInt) (r' := .implicitInt) (by decide) (by decide) hv rfl rfl rfl rfl
      · rcases h with rfl | ⟨q, rfl⟩
        · exact key (p' := .implicitInt) (q' := .implicitInt) (r' := .implicitInt) (by decide) (by decide) hv rfl rfl rfl rfl
        · rw [viable_two] at hv; simp [implicit] at hv
      · exact key (p' := .last) (q' := .implicitInt) (r' := .last) (by decide) (by decide) hv rfl rfl rfl rfl
      · exact key (p' := .implicitInt) (q' := .implicitInt) (r' := .implicitInt) (by decide) (by decide) hv rfl
          hk.1.symm hk.2.symm rfl
    · rcases hc with rfl | rfl | rfl
      · exact key (p' := .implicitInt) (q' := .implicitInt) (r' := .implicitInt) (by decide) (by decide) hv rfl rfl rfl rfl
      · exact key (p' := .last) (q' := .implicitInt) (r' := .last) (by decide) (by decide) hv rfl rfl rfl rfl
      · exact key (p' := .implicitInt) (q' := .implicitInt) (r' := .implicitInt) (by decide) (by decide) hv rfl
          hk.1.symm hk.2.symm rfl
  · obtain ⟨p, q, hpq, rfl⟩ := mem_builtins.1 hc
    obtain ⟨l, hl, hi, hlo⟩ := operands_two ho
    rw [hl, mem_pairs] at hpq
    obtain ⟨p', hp', hne⟩ := other_of hi hlo p
    refine ⟨_, List.mem_append_right _ (mem_builtins.2 ⟨p', q, ?_, rfl⟩), ?_, ?_, ?_⟩
    · rw [hl, mem_pairs]; exact ⟨hp', hpq.2⟩
    · rw [viable_two] at hv ⊢
      simp only [Bool.and_eq_true] at hv ⊢
      exact ⟨some_strict_bool, hv.2⟩
    · intro h; injection h with h _; injection h with h _; injection h with h; exact hne h
    · exact beats_tie (rk_strict_bool.trans rk_strict_bool.symm) rfl

/-- A built-in number on the left and a strict boolean on the right are ambiguous. -/
theorem right_none {o : Op} {n : Num} (ho : o ≠ .land ∧ o ≠ .lor) :
    resolve (positions o ++ builtins o) [.num n, .strict .bool] = none := by
  apply resolve_none
  intro c hc hv
  rcases List.mem_append.1 hc with hc | hc
  · have hk := rk_index (t := .num n) (.inr ⟨n, rfl⟩)
    have key : ∀ {p p' q q' r r'}, Cand.mk [p', q'] r' false false ∈ positions o →
        Cand.mk [p, q] r false false ≠ Cand.mk [p', q'] r' false false →
        (Cand.mk [p, q] r false false).viable [.num n, .strict .bool] = true →
        rk (implicit (.num n) p) = rk (implicit (.num n) p') →
        (implicit (.num n) p).isSome = (implicit (.num n) p').isSome →
        rk (implicit (.strict .bool) q) = rk (implicit (.strict .bool) q') →
        (implicit (.strict .bool) q').isSome = true →
        ∃ c' ∈ positions o ++ builtins o, c'.viable [.num n, .strict .bool] = true ∧
          c' ≠ Cand.mk [p, q] r false false ∧ (Cand.mk [p, q] r false false).beats c' [.num n, .strict .bool] = false := by
      intro p p' q q' r r' hm hne hv h1 h2 h3 h4
      refine ⟨_, List.mem_append_left _ hm, ?_, fun h => hne h.symm, beats_tie h1 h3⟩
      rw [viable_two] at hv ⊢
      simp only [Bool.and_eq_true] at hv ⊢
      exact ⟨h2 ▸ hv.1, h4⟩
    cases o <;> simp only [positions, List.mem_cons, List.not_mem_nil, or_false] at hc
    · rcases hc with rfl | rfl | rfl | rfl
      · rw [viable_two] at hv; simp [implicit] at hv
      · exact key (p' := .implicitInt) (q' := .implicitInt) (r' := .implicitInt) (by decide) (by decide) hv rfl rfl rfl rfl
      · exact key (p' := .implicitInt) (q' := .last) (r' := .last) (by decide) (by decide) hv rfl rfl rfl rfl
      · exact key (p' := .implicitInt) (q' := .implicitInt) (r' := .implicitInt) (by decide) (by decide) hv
          hk.1.symm hk.2.symm rfl rfl
    · rcases hc with rfl | rfl | rfl
      · rw [viable_two] at hv; simp [implicit] at hv
      · exact key (p' := .implicitIntStatic) (q' := .implicitIntStatic) (r' := .implicitIntStatic) (by decide) (by decide)
          hv hk.1 hk.2 rfl rfl
      · exact key (p' := .implicitInt) (q' := .implicitInt) (r' := .implicitInt) (by decide) (by decide) hv
          hk.1.symm hk.2.symm rfl rfl
  · obtain ⟨p, q, hpq, rfl⟩ := mem_builtins.1 hc
    obtain ⟨l, hl, hi, hlo⟩ := operands_two ho
    rw [hl, mem_pairs] at hpq
    obtain ⟨q', hq', hne⟩ := other_of hi hlo q
    refine ⟨_, List.mem_append_right _ (mem_builtins.2 ⟨p, q', ?_, rfl⟩), ?_, ?_, ?_⟩
    · rw [hl, mem_pairs]; exact ⟨hpq.1, hq'⟩
    · rw [viable_two] at hv ⊢
      simp only [Bool.and_eq_true] at hv ⊢
      exact ⟨hv.1, some_strict_bool⟩
    · intro h; injection h with h _; injection h with _ h; injection h with h _; injection h with h; exact hne h
    · exact beats_tie rfl (rk_strict_bool.trans rk_strict_bool.symm)

theorem call_none {cs : List Cand} {args : List Ty} (h : resolve cs args = none) : call cs args = none := by
  unfold call; rw [h]

/-! ### The selected functions -/

theorem strict_strict {o : Op} {n m : Num} (h : n ≠ .bool ∨ m ≠ .bool) :
    binary o (.strict n) (.strict m) =
      if o.declared n ∧ n = m then some ⟨[.strict n, .strict n], o.yields n, true, false⟩ else none := by
  rw [binary_eq (h.imp noNum_strict noNum_strict)]
  by_cases hd : o.declared n ∧ n = m
  · obtain ⟨hd, rfl⟩ := hd
    rw [if_pos ⟨hd, rfl⟩]
    have hn : n ≠ .bool := h.elim id id
    cases o <;> cases n <;> first
      | rfl
      | (simp [Op.declared, Num.real, Num.integer, Num.signed, Num.unsigned, Num.floating, Num.builtin] at hd; done)
      | exact absurd rfl hn
  · rw [if_neg hd]
    have ht : templates o [.strict n, .strict m] = [] := if_neg hd
    rw [ht, List.nil_append]
    have hp : positions o = [] ∨ o = .add ∨ o = .sub := by cases o <;> simp [positions]
    rcases hp with hp | rfl | rfl
    · rw [hp]; rfl
    all_goals
      cases n <;> cases m <;> first
        | rfl
        | exact absurd ⟨rfl, rfl⟩ hd

theorem bool_bool {o : Op} :
    binary o (.strict .bool) (.strict .bool) =
      if o.declared .bool then some ⟨[.strict .bool, .strict .bool], o.yields .bool, true, false⟩ else none := by
  by_cases hd : o.declared .bool = true
  · rw [if_pos hd]
    cases o <;> first
      | (exact absurd hd (by decide))
      | decide +kernel
  · rw [if_neg hd]
    have ht : templates o [.strict .bool, .strict .bool] = [] := if_neg (fun h => hd h.1)
    show call (templates o [.strict .bool, .strict .bool] ++ positions o ++ builtins o) _ = none
    rw [ht, List.nil_append]
    exact call_none (left_none ⟨fun h => hd (by rw [h]; rfl), fun h => hd (by rw [h]; rfl)⟩ (.inl rfl))

/-- Both operands strict. -/
theorem binary_strict (o : Op) (n m : Num) :
    binary o (.strict n) (.strict m) =
      if o.declared n ∧ n = m then some ⟨[.strict n, .strict n], o.yields n, true, false⟩ else none := by
  by_cases h : n = .bool ∧ m = .bool
  · obtain ⟨rfl, rfl⟩ := h
    rw [bool_bool]; simp
  · refine strict_strict ?_
    by_cases hn : n = .bool
    · exact .inr fun hm => h ⟨hn, hm⟩
    · exact .inl hn

/-- A strict number and a built-in one. -/
theorem binary_strict_num (o : Op) (n m : Num) :
    binary o (.strict n) (.num m) =
      if (o = .land ∨ o = .lor) ∧ n = .bool then some ⟨[.num .bool, .num .bool], .num .bool, false, false⟩ else none := by
  by_cases hn : n = .bool
  · subst hn
    by_cases ho : o = .land ∨ o = .lor
    · rw [if_pos ⟨ho, rfl⟩]
      rcases ho with rfl | rfl <;> cases m <;> rfl
    · rw [if_neg (fun h => ho h.1)]
      exact call_none (left_none ⟨fun h => ho (.inl h), fun h => ho (.inr h)⟩ (.inr ⟨m, rfl⟩))
  · rw [if_neg (fun h => hn h.2), binary_eq (.inl (noNum_strict hn))]
    have ht : templates o [.strict n, .num m] = [] := rfl
    rw [ht, List.nil_append]
    have hp : positions o = [] ∨ o = .add ∨ o = .sub := by cases o <;> simp [positions]
    rcases hp with hp | rfl | rfl
    · rw [hp]; rfl
    all_goals cases n <;> cases m <;> first | rfl | exact absurd rfl hn

@[inherit_doc binary_strict_num]
theorem binary_num_strict (o : Op) (n m : Num) :
    binary o (.num m) (.strict n) =
      if (o = .land ∨ o = .lor) ∧ n = .bool then some ⟨[.num .bool, .num .bool], .num .bool, false, false⟩ else none := by
  by_cases hn : n = .bool
  · subst hn
    by_cases ho : o = .land ∨ o = .lor
    · rw [if_pos ⟨ho, rfl⟩]
      rcases ho with rfl | rfl <;> cases m <;> rfl
    · rw [if_neg (fun h => ho h.1)]
      exact call_none (right_none ⟨fun h => ho (.inl h), fun h => ho (.inr h)⟩)
  · rw [if_neg (fun h => hn h.2), binary_eq (.inr (noNum_strict hn))]
    have ht : templates o [.num m, .strict n] = [] := rfl
    rw [ht, List.nil_append]
    have hp : positions o = [] ∨ o = .add ∨ o = .sub := by cases o <;> simp [positions]
    rcases hp with hp | rfl | rfl
    · rw [hp]; rfl
    all_goals cases n <;> cases m <;> first | rfl | exact absurd rfl hn

/-- `ImplicitInt`, `ImplicitIntStatic` and `Last`. -/
def isIndex : Ty → Prop
  | .num _ | .strict _ => False
  | _ => True

theorem noNum_index {t : Ty} (h : isIndex t) : NoNum t := by
  cases t <;> first | exact h.elim | exact fun _ => rfl

theorem templates_index {o : Op} {s t : Ty} (h : isIndex s ∨ isIndex t) : templates o [s, t] = [] := by
  cases s <;> cases t <;> first | rfl | exact (h.elim id id).elim

theorem index_result {o : Op} {s t : Ty} (h : isIndex s ∨ isIndex t) :
    (binary o s t).map Cand.result = ruleFn o s t := by
  rw [binary_eq (h.imp noNum_index noNum_index), templates_index h, List.nil_append]
  have hp : (positions o = [] ∧ ¬ (o = .add ∨ o = .sub)) ∨ o = .add ∨ o = .sub := by cases o <;> simp [positions]
  rcases hp with ⟨hp, hn⟩ | rfl | rfl
  · rw [hp]
    have hn' : o ≠ .add := fun h => hn (.inl h)
    have hn2 : o ≠ .sub := fun h => hn (.inr h)
    cases s <;> cases t <;> first
      | exact (h.elim id id).elim
      | (simp only [ruleFn, hn', hn2, or_self, false_and, if_false]; rfl)
  all_goals
    rcases s with s | s | _ | _ | _ <;> rcases t with t | t | _ | _ | _ <;> first
      | exact (h.elim id id).elim
      | rfl
      | (cases s <;> rfl)
      | (cases t <;> rfl)

/-- In sums and differences of positions operands are converted to `long` only. -/
theorem index_params {o : Op} {s t : Ty} (h : isIndex s ∨ isIndex t) {c : Cand} (hc : binary o s t = some c) :
    (∃ p q, c.params = [p, q] ∧ p.number = .long ∧ q.number = .long) ∧
    (s.number = .int ∨ s.number = .long) ∧ (t.number = .int ∨ t.number = .long) := by
  rw [binary_eq (h.imp noNum_index noNum_index), templates_index h, List.nil_append] at hc
  have hr : (binary o s t).map Cand.result = some c.result := by
    rw [binary_eq (h.imp noNum_index noNum_index), templates_index h, List.nil_append, hc]; rfl
  rw [index_result h] at hr
  have hmem : c ∈ positions o := by
    unfold call at hc
    cases hres : resolve (positions o) [s, t] with
    | none => rw [hres] at hc; simp at hc
    | some c' =>
      rw [hres] at hc
      have : c' = c := by
        dsimp only at hc
        split at hc
        · exact Option.some.inj hc
        · cases hc
      subst this
      unfold resolve at hres
      have := List.mem_of_find?_eq_some hres
      exact (List.mem_filter.1 this).1
  refine ⟨?_, ?_⟩
  · cases o <;> simp only [positions, List.mem_cons, List.not_mem_nil, or_false] at hmem
    · rcases hmem with rfl | rfl | rfl | rfl <;> exact ⟨_, _, rfl, rfl, rfl⟩
    · rcases hmem with rfl | rfl | rfl <;> exact ⟨_, _, rfl, rfl, rfl⟩
  · have hnum : ∀ t ∈ indexTypes, t.number = .int ∨ t.number = .long := by decide
    have hR := rule_iff.1 hr
    clear hr hc hmem
    generalize c.result = r at hR
    cases hR with
    | same => exact (h.elim id id).elim
    | compare => exact (h.elim id id).elim
    | language => exact (h.elim id id).elim
    | logicLeft => exact (h.elim id id).elim
    | logicRight => exact (h.elim id id).elim
    | lastLeft _ ht => exact ⟨.inr rfl, hnum _ ht⟩
    | lastRight ht => exact ⟨hnum _ ht, .inr rfl⟩
    | implicitLeft _ ht => exact ⟨.inr rfl, hnum _ ht⟩
    | implicitRight _ ht => exact ⟨hnum _ ht, .inr rfl⟩
    | staticLeft _ ht => exact ⟨.inr rfl, hnum _ ht⟩
    | staticRight _ ht => exact ⟨hnum _ ht, .inr rfl⟩

/-- The result type of every binary operator. -/
theorem binary_result (o : Op) (s t : Ty) : (binary o s t).map Cand.result = ruleFn o s t := by
  by_cases h : isIndex s ∨ isIndex t
  · exact index_result h
  · rcases s with p | n | _ | _ | _ <;> rcases t with q | m | _ | _ | _ <;> first
      | exact (h (Or.inl trivial)).elim
      | exact (h (Or.inr trivial)).elim
      | skip
    · exact apply_ite (Option.map Cand.result) _ _ _
    · rw [binary_num_strict]; exact apply_ite (Option.map Cand.result) _ _ _
    · rw [binary_strict_num]; exact apply_ite (Option.map Cand.result) _ _ _
    · rw [binary_strict]; exact apply_ite (Option.map Cand.result) _ _ _

/-! ### Unary operators -/

theorem viable_one {p s : Ty} {r : Ty} {b d : Bool} :
    (Cand.mk [p] r b d).viable [s] = (implicit s p).isSome := by
  simp [Cand.viable, Cand.convs]

/-- A unary operator on a strict number. -/
theorem unary_strict (o : UnOp) (n : Num) :
    unary o (.strict n) =
      if (n.builtin ∧ ((n = .bool ∧ o = .lnot) ∨ (n ≠ .bool ∧ o ≠ .lnot))) ∧ o.body n then
        some { params := [.strict n], result := .strict n } else none := by
  by_cases hn : n = .bool
  · subst hn
    cases o <;> decide +kernel
  · have hb : ∀ c ∈ o.builtins, c.viable [.strict n] = false := by
      intro c hc
      have : ∃ p r, c = { params := [.num p], result := r } := by
        cases o <;> simp only [UnOp.builtins, List.mem_map, List.mem_singleton] at hc
        · obtain ⟨p, _, rfl⟩ := hc; exact ⟨p, _, rfl⟩
        · obtain ⟨p, _, rfl⟩ := hc; exact ⟨p, _, rfl⟩
        · obtain ⟨p, _, rfl⟩ := hc; exact ⟨p, _, rfl⟩
        · exact ⟨_, _, hc⟩
      obtain ⟨p, r, rfl⟩ := this
      rw [viable_one, noNum_strict hn p]; rfl
    show (match call (members o (.strict n) ++ o.builtins) [.strict n] with
      | some c => if o.body n then some c else none
      | none => none) = _
    rw [call_append hb]
    cases o <;> cases n <;> first | exact absurd rfl hn | rfl

theorem unary_index {o : UnOp} {t : Ty} (h : isIndex t) : unary o t = none := by
  cases t <;> first | exact h.elim | (cases o <;> rfl)

end Spp.Cxx
