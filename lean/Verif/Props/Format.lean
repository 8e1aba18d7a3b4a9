import Verif.Spec.Format
import Verif.Lemmas.FloatIO
import Verif.Props.Scalar

/-
C94: the settings for printing numbers, and what printing does to a stream.
-/

namespace Spp.Props

open Spp.Spec Spp.IO Spp.Lemmas

/-! ### Settings -/

theorem initial_precision (ty : FTy) : NumFormat.initial.precision ty = startDigits ty := by
  have h : ∀ p k, Nat.log 10 (2 ^ (p - 1)) = k → defaultPrecision p = k + 1 := by
    intro p k h; unfold defaultPrecision digits10; rw [h]
  cases ty
  · show ((defaultPrecision 24 : Nat) : Int) = 7
    rw [h 24 6 ((Nat.log_eq_iff (by norm_num)).mpr (by norm_num))]; rfl
  · show ((defaultPrecision 53 : Nat) : Int) = 16
    rw [h 53 15 ((Nat.log_eq_iff (by norm_num)).mpr (by norm_num))]; rfl
  · show ((defaultPrecision 64 : Nat) : Int) = 19
    rw [h 64 18 ((Nat.log_eq_iff (by norm_num)).mpr (by norm_num))]; rfl
  · rfl

theorem named_good (b : Build) {n : Int} (h : 0 ≤ n ∧ n < 2 ^ 31) : named b true n = .ok n :=
  (C80_named b (Or.inl rfl) (x := n) ⟨fun _ => ⟨by
    show -(2 : Int) ^ 31 ≤ n
    omega, h.2⟩, fun h => nomatch h⟩).2.1 h.1

theorem cast_good {n : Int} (h : 0 ≤ n ∧ n < 2 ^ 31) : SInt.cast IntTy.int n = n := by
  show Int.bmod n (2 ^ 32) = n
  exact Int.bmod_eq_of_le (by omega) (by omega)

/-- A call with a good argument. -/
theorem apply_good (b : Build) {s : Setting} (h : GoodDigits s) (f : NumFormat) :
    ∃ f', NumFormat.apply b s f = (.ok (), f') ∧
      (∀ ty n, SetsPrecision ty n s → f'.precision ty = n) ∧
      (∀ ty, ¬ TouchesPrecision ty s → f'.precision ty = f.precision ty) ∧
      (s = .reset → f' = NumFormat.initial) ∧
      (∀ c, s = .scientific c → f'.scientific = c) ∧
      (¬ TouchesNotation s → f'.scientific = f.scientific) := by
  cases s with
  | reset =>
    refine ⟨_, rfl, ?_, fun ty h => absurd (Or.inl rfl) h, fun _ => rfl, ?_, fun h => absurd (Or.inl rfl) h⟩
    · rintro ty n (h | h) <;> exact nomatch h
    · intro c h; exact nomatch h
  | scientific c =>
    refine ⟨_, rfl, ?_, fun ty _ => ?_, ?_, ?_, fun h => absurd (Or.inr ⟨_, rfl⟩) h⟩
    · rintro ty n (h | h) <;> exact nomatch h
    · cases ty <;> rfl
    · intro h; exact nomatch h
    · intro c' h; cases h; rfl
  | precision n =>
    refine ⟨{ f with float := n, double := n, longDouble := n, quad := n }, ?_, ?_, ?_, ?_, ?_, fun _ => rfl⟩
    · simp only [NumFormat.apply, named_good b h, Op.lift_ok_bind, Op.get_bind, cast_good h]; rfl
    · rintro ty m (h | h)
      · cases h; cases ty <;> rfl
      · exact nomatch h
    · intro ty h; exact absurd (Or.inr ⟨n, Or.inl rfl⟩) h
    · intro h; exact nomatch h
    · intro c h; exact nomatch h
  | precisionOf t n =>
    have e : NumFormat.apply b (.precisionOf t n) f = (.ok (), match t with
        | .float => { f with float := n }
        | .double => { f with double := n }
        | .longDouble => { f with longDouble := n }
        | .quad => { f with quad := n }) := by
      simp only [NumFormat.apply, named_good b h, Op.lift_ok_bind, Op.get_bind, cast_good h]
      cases t <;> rfl
    refine ⟨_, e, ?_, ?_, ?_, ?_, fun _ => ?_⟩
    · rintro ty m (h | h)
      · exact nomatch h
      · cases h; cases t <;> rfl
    · intro ty h
      have hne : ty ≠ t := by
        rintro rfl
        exact h (Or.inr ⟨n, Or.inr rfl⟩)
      cases ty <;> cases t <;> first | rfl | exact absurd rfl hne
    · intro h; exact nomatch h
    · intro c h; exact nomatch h
    · cases t <;> rfl

theorem run_cons (b : Build) (s : Setting) (ss : List Setting) (f : NumFormat) {f' : NumFormat}
    (h : NumFormat.apply b s f = (.ok (), f')) : NumFormat.run b (s :: ss) f = NumFormat.run b ss f' := by
  rw [NumFormat.run, Op.bind_run, h]

/-- Calls with good arguments never fail, in any build. -/
theorem run_good (b : Build) : ∀ (ss : List Setting) (_ : ∀ s ∈ ss, GoodDigits s) (f : NumFormat),
    ∃ f', NumFormat.run b ss f = (.ok (), f') ∧
      (∀ ty, (∀ s ∈ ss, ¬ TouchesPrecision ty s) → f'.precision ty = f.precision ty) ∧
      ((∀ s ∈ ss, ¬ TouchesNotation s) → f'.scientific = f.scientific)
  | [], _, f => ⟨f, rfl, fun _ _ => rfl, fun _ => rfl⟩
  | s :: ss, h, f => by
    obtain ⟨f1, e1, -, a2, -, -, a5⟩ := apply_good b (h s (by simp)) f
    obtain ⟨f2, e2, b1, b2⟩ := run_good b ss (fun s hs => h s (by simp [hs])) f1
    refine ⟨f2, by rw [run_cons b s ss f e1, e2], fun ty ht => ?_, fun ht => ?_⟩
    · rw [b1 ty (fun s hs => ht s (by simp [hs])), a2 ty (ht s (by simp))]
    · rw [b2 (fun s hs => ht s (by simp [hs])), a5 (ht s (by simp))]

theorem run_append (b : Build) : ∀ (pre ss : List Setting) (f : NumFormat) {f' : NumFormat},
    NumFormat.run b pre f = (.ok (), f') → NumFormat.run b (pre ++ ss) f = NumFormat.run b ss f'
  | [], ss, f, f', h => by cases h; rfl
  | s :: pre, ss, f, f', h => by
    rw [List.cons_append]
    rw [NumFormat.run, Op.bind_run] at h
    rcases e : NumFormat.apply b s f with ⟨r, f1⟩
    rw [e] at h
    cases r with
    | ok u => rw [run_cons b s _ f (f' := f1) (by rw [e])]; exact run_append b pre ss f1 h
    | trap k => simp at h
    | ub => simp at h

/-- C94: after any sequence of calls the number of digits of a type is the one set by the last call that concerns
the type, in every build. -/
theorem C94_precision (b : Build) {pre post : List Setting} {s : Setting} {ty : FTy}
    (hg : ∀ s' ∈ pre ++ s :: post, GoodDigits s') (hpost : ∀ s' ∈ post, ¬ TouchesPrecision ty s') (f0 : NumFormat) :
    ∃ f, NumFormat.run b (pre ++ s :: post) f0 = (.ok (), f) ∧
      (∀ n, SetsPrecision ty n s → f.precision ty = n) ∧
      (s = .reset → f.precision ty = startDigits ty) := by
  obtain ⟨f1, e1, -, -⟩ := run_good b pre (fun s hs => hg s (by simp [hs])) f0
  obtain ⟨f2, e2, a1, -, a3, -, -⟩ := apply_good b (hg s (by simp)) f1
  obtain ⟨f3, e3, b1, -⟩ := run_good b post (fun s hs => hg s (by simp [hs])) f2
  refine ⟨f3, by rw [run_append b pre _ f0 e1, run_cons b s _ f1 e2, e3], fun n h => ?_, fun h => ?_⟩
  · rw [b1 ty hpost, a1 ty n h]
  · rw [b1 ty hpost, a3 h, initial_precision]

/-- C94: at the start of the program the numbers of digits are 7, 16, 19 and 33 and the format is scientific; calls
that do not concern a type leave its digits as they are. -/
theorem C94_untouched (b : Build) {ss : List Setting} (hg : ∀ s ∈ ss, GoodDigits s) (f0 : NumFormat) :
    ∃ f, NumFormat.run b ss f0 = (.ok (), f) ∧
      (∀ ty, (∀ s ∈ ss, ¬ TouchesPrecision ty s) → f.precision ty = f0.precision ty ∧
        (f0 = NumFormat.initial → f.precision ty = startDigits ty)) ∧
      ((∀ s ∈ ss, ¬ TouchesNotation s) → f.scientific = f0.scientific ∧
        (f0 = NumFormat.initial → f.scientific = true)) := by
  obtain ⟨f, e, a, c⟩ := run_good b ss hg f0
  refine ⟨f, e, fun ty h => ⟨a ty h, ?_⟩, fun h => ⟨c h, ?_⟩⟩
  · rintro rfl; rw [a ty h, initial_precision]
  · rintro rfl; rw [c h]; rfl

/-- C94: the format is the one chosen by the last call of `scientific` or `reset`. -/
theorem C94_notation (b : Build) {pre post : List Setting} {s : Setting}
    (hg : ∀ s' ∈ pre ++ s :: post, GoodDigits s') (hpost : ∀ s' ∈ post, ¬ TouchesNotation s') (f0 : NumFormat) :
    ∃ f, NumFormat.run b (pre ++ s :: post) f0 = (.ok (), f) ∧
      (∀ c, s = .scientific c → f.scientific = c) ∧ (s = .reset → f.scientific = true) := by
  obtain ⟨f1, e1, -, -⟩ := run_good b pre (fun s hs => hg s (by simp [hs])) f0
  obtain ⟨f2, e2, -, -, a3, a4, -⟩ := apply_good b (hg s (by simp)) f1
  obtain ⟨f3, e3, -, b2⟩ := run_good b post (fun s hs => hg s (by simp [hs])) f2
  refine ⟨f3, by rw [run_append b pre _ f0 e1, run_cons b s _ f1 e2, e3], fun c h => ?_, fun h => ?_⟩
  · rw [b2 hpost, a4 c h]
  · rw [b2 hpost, a3 h]; rfl

/-- C94: a negative number of digits is rejected by a checked build, and the settings stay as they are. -/
theorem C94_negative {b : Build} (hb : b.Checked) {n : Int} (hn : n < 0) (hf : Fits IntTy.long n) (ty : FTy)
    (f : NumFormat) :
    NumFormat.apply b (.precision n) f = (.trap b.kind, f) ∧
    NumFormat.apply b (.precisionOf ty n) f = (.trap b.kind, f) := by
  have h := ((C80_named b (Or.inr rfl) hf).2.2 hn).1 hb
  constructor <;> simp only [NumFormat.apply, h] <;> rfl

/-- C94: a number of digits of 2^31 or more is not rejected but taken modulo 2^32: 2^32 + 5 means 5 digits. -/
theorem C94_wraps (b : Build) {n : Int} (hn : 0 ≤ n) (hf : Fits IntTy.long n) (ty : FTy) (f : NumFormat) :
    ∃ f', NumFormat.apply b (.precision n) f = (.ok (), f') ∧
      ∃ k : Int, f'.precision ty = n - k * 2 ^ 32 ∧ -(2 ^ 31) ≤ f'.precision ty ∧ f'.precision ty < 2 ^ 31 := by
  have h := (C80_named b (Or.inr rfl) hf).2.1 hn
  obtain ⟨p, hp⟩ : ∃ p, p = Int.bmod n (2 ^ 32) := ⟨_, rfl⟩
  refine ⟨{ f with float := p, double := p, longDouble := p, quad := p }, ?_, ?_⟩
  · simp only [NumFormat.apply, h, Op.lift_ok_bind, Op.get_bind]; rw [hp]; rfl
  · have e : ∀ ty : FTy, NumFormat.precision { f with float := p, double := p, longDouble := p, quad := p } ty =
        Int.bmod n (2 ^ 32) := by
      intro ty; rw [← hp]; cases ty <;> rfl
    rw [e]
    have hb : Int.bmod n (2 ^ 32) = if n % 4294967296 < 2147483648 then n % 4294967296
        else n % 4294967296 - 4294967296 := by
      rw [Int.bmod_def]; norm_num
    rw [hb]
    by_cases hc : n % 4294967296 < 2147483648
    · rw [if_pos hc]
      exact ⟨n / 4294967296, by omega, by omega, by omega⟩
    · rw [if_neg hc]
      exact ⟨n / 4294967296 + 1, by omega, by omega, by omega⟩

/-! ### Streams -/

variable {gen : Flags → ℚ → List Char}

theorem putInt_dec {f : Flags} (h1 : f.base = .dec) (h2 : f.showpos = true) {t : IntTy} {x : Int} (hx : Fits t x) :
    putInt f t x = written t x := by
  unfold putInt written
  rw [h1]
  simp only [h2, Bool.true_and, digits_eq]
  cases hs : t.signed
  · have : 0 ≤ x := (hx.2 hs).1
    simp [not_lt.2 this]
  · by_cases h : x < 0 <;> simp [h]

theorem putFloat_strict {f : Flags} (h1 : f.showpos = true) (h2 : f.showpoint = true) {sc : Bool}
    (h3 : f.notation' = if sc then .scientific else .fixed) (hp : 0 ≤ f.precision) (x : ℚ) :
    putFloat gen f x = showFloat sc f.precision.toNat x := by
  have he : effective f.precision = f.precision.toNat := by unfold effective; rw [if_neg (not_lt.2 hp)]
  unfold putFloat showFloat
  cases sc <;> simp [h1, h2, h3, he]

/-- One `Strict` number. -/
theorem put_strict {fmt : NumFormat} (hfmt : ∀ ty, 0 ≤ fmt.precision ty) {i : Item} {w : List Char}
    (h : StrictText fmt i w) (hi : ∀ t x, i = .sint t x → Fits t x) {os : OStream} (hd : os.flags.base = .dec) :
    ∃ fl, os.put gen fmt i = .ok ⟨fl, os.text ++ w⟩ ∧ fl.base = .dec := by
  cases i with
  | sint t x =>
    refine ⟨{ os.flags with showpos := true }, ?_, hd⟩
    show Res.ok (os.strictInt t x) = _
    unfold OStream.strictInt
    simp only
    rw [putInt_dec (f := { os.flags with showpos := true }) hd rfl (hi t x rfl)]
    rw [show w = written t x from h]
  | sbool x => exact ⟨os.flags, by rw [show w = _ from h]; rfl, hd⟩
  | sfloat t x =>
    obtain ⟨h1, h2⟩ := h
    have e : os.put gen fmt (.sfloat t x) = .ok (os.strictFloat gen fmt t x) := by
      cases t <;> first | rfl | exact absurd rfl h1
    refine ⟨⟨true, true, if fmt.scientific then .scientific else .fixed, os.flags.base, fmt.precision t⟩, ?_, hd⟩
    rw [e, h2]
    unfold OStream.strictFloat
    simp only
    rw [← putFloat_strict (gen := gen) (f := ⟨true, true, if fmt.scientific then .scientific else .fixed,
      os.flags.base, fmt.precision t⟩) rfl rfl rfl (hfmt t) x]
    cases fmt.scientific <;> rfl
  | bint t x => exact absurd h (by simp [StrictText])
  | bfloat x => exact absurd h (by simp [StrictText])

/-- C94: on a stream that prints decimal numbers the text of each `Strict` number is fixed by the number and the
settings, whatever flags and precision the stream has and whatever was printed before. -/
theorem C94_texts {fmt : NumFormat} (hfmt : ∀ ty, 0 ≤ fmt.precision ty) {is : List Item} {ws : List (List Char)}
    (h : List.Forall₂ (StrictText fmt) is ws) (hi : ∀ t x, Item.sint t x ∈ is → Fits t x) {os : OStream}
    (hd : os.flags.base = .dec) :
    ∃ fl, OStream.puts gen fmt os is = .ok ⟨fl, os.text ++ ws.flatten⟩ := by
  induction h generalizing os with
  | nil => exact ⟨os.flags, by simp [OStream.puts]⟩
  | @cons i w is ws h1 h2 ih =>
    obtain ⟨fl, e, hd'⟩ := put_strict (gen := gen) hfmt h1 (fun t x he => hi t x (by simp [he])) hd
    obtain ⟨fl', e'⟩ := ih (fun t x he => hi t x (by simp [he])) (os := ⟨fl, os.text ++ w⟩) hd'
    refine ⟨fl', ?_⟩
    rw [OStream.puts, e]
    show OStream.puts gen fmt ⟨fl, os.text ++ w⟩ is = _
    rw [e']
    simp [List.append_assoc]

/-- C94: printing anything only appends to what the stream holds. -/
theorem C94_appends {fmt : NumFormat} {is : List Item} {os os' : OStream} (h : OStream.puts gen fmt os is = .ok os') :
    ∃ w, os'.text = os.text ++ w := by
  induction is generalizing os with
  | nil => cases Res.ok.inj h; exact ⟨[], by simp⟩
  | cons i is ih =>
    have one : ∀ os1, os.put gen fmt i = .ok os1 → ∃ w, os1.text = os.text ++ w := by
      intro os1 h
      cases i with
      | sint t x => cases Res.ok.inj h; exact ⟨_, rfl⟩
      | sbool x => cases Res.ok.inj h; exact ⟨_, rfl⟩
      | sfloat t x =>
        cases t
        case quad =>
          change (quadText fmt x >>= _) = _ at h
          cases e : quadText fmt x <;> rw [e] at h
          · cases Res.ok.inj h; exact ⟨_, rfl⟩
          · exact nomatch h
          · exact nomatch h
        all_goals
          cases Res.ok.inj h
          exact ⟨_, rfl⟩
      | bint t x => cases Res.ok.inj h; exact ⟨_, rfl⟩
      | bfloat x => cases Res.ok.inj h; exact ⟨_, rfl⟩
    change (os.put gen fmt i >>= _) = _ at h
    cases e : os.put gen fmt i with
    | ok os1 =>
      rw [e] at h
      obtain ⟨w, hw⟩ := one os1 e
      obtain ⟨w', hw'⟩ := ih h
      exact ⟨w ++ w', by rw [hw', hw, List.append_assoc]⟩
    | trap k => rw [e] at h; exact nomatch h
    | ub => rw [e] at h; exact nomatch h

/-- Two numbers printed after some text. -/
example : ∃ os', OStream.puts (fun _ _ => []) NumFormat.initial ⟨Flags.initial, ['x']⟩
    [.sbool true, .sint IntTy.long 12] = .ok os' ∧ os'.text = "xtrue+12".toList :=
  ⟨_, rfl, by decide +kernel⟩

/-- C94: the flags are not restored.  After a `Strict` integer the stream prints plus signs; after a `Strict`
floating-point number it also prints built-in floating-point numbers in the format and with the digits of
`spp::format`.  `Strict` booleans and quadruple-precision numbers, and built-in values, change no flag. -/
theorem C94_flags (fmt : NumFormat) (os os' : OStream) (i : Item) (h : os.put gen fmt i = .ok os') :
    os'.flags = match i with
      | .sint _ _ => { os.flags with showpos := true }
      | .sfloat .quad _ => os.flags
      | .sfloat t _ => ⟨true, true, if fmt.scientific then .scientific else .fixed, os.flags.base, fmt.precision t⟩
      | _ => os.flags := by
  cases i with
  | sint t x => cases Res.ok.inj h; rfl
  | sbool x => cases Res.ok.inj h; rfl
  | sfloat t x =>
    cases t
    case quad =>
      change (quadText fmt x >>= _) = _ at h
      cases e : quadText fmt x <;> rw [e] at h
      · cases Res.ok.inj h; rfl
      · exact nomatch h
      · exact nomatch h
    all_goals
      cases Res.ok.inj h
      unfold OStream.strictFloat
      simp only
      split <;> rfl
  | bint t x => cases Res.ok.inj h; rfl
  | bfloat x => cases Res.ok.inj h; rfl

/-- C94: so a built-in signed number that is not negative, printed to the same stream later, has a plus sign it would
not have had. -/
theorem C94_builtin_sign {fmt : NumFormat} {os os' : OStream} {i : Item} {t : IntTy} {x : Int}
    (hd : os.flags.base = .dec) (hp : os.flags.showpos = false) (ht : t.signed = true) (hx : 0 ≤ x)
    (h : os.put gen fmt i = .ok os') (hi : (∃ t' x', i = .sint t' x') ∨ (∃ t' x', t' ≠ .quad ∧ i = .sfloat t' x')) :
    os.put gen fmt (.bint t x) = .ok ⟨os.flags, os.text ++ Nat.toDigits 10 x.natAbs⟩ ∧
    os'.put gen fmt (.bint t x) = .ok ⟨os'.flags, os'.text ++ '+' :: Nat.toDigits 10 x.natAbs⟩ := by
  have hf := C94_flags (gen := gen) fmt os os' i h
  have h1 : os'.flags.showpos = true ∧ os'.flags.base = .dec := by
    rcases hi with ⟨t', x', rfl⟩ | ⟨t', x', hq, rfl⟩
    · rw [hf]; exact ⟨rfl, hd⟩
    · rw [hf]
      cases t' <;> first | exact ⟨rfl, hd⟩ | exact absurd rfl hq
  have hx' : ¬ x < 0 := not_lt.2 hx
  constructor
  · show Res.ok _ = _
    congr 2
    unfold putInt
    rw [hd]; simp [hp, hx', digits_eq]
  · show Res.ok _ = _
    congr 2
    unfold putInt
    rw [h1.2]; simp [h1.1, hx', ht, digits_eq]

/-- C94: a built-in floating-point number on a stream without `showpos`, in fixed or scientific notation: it is written
as `Strict` numbers are, except that there is no plus sign. -/
theorem C94_builtin_float_sign {fmt : NumFormat} {os : OStream} (hp : os.flags.showpos = false) {sc : Bool}
    (hn : os.flags.notation' = if sc then .scientific else .fixed) (hq : 0 < os.flags.precision) (y : ℚ) :
    ∃ w, os.put gen fmt (.bfloat y) = .ok ⟨os.flags, os.text ++ w⟩ ∧
      showFloat sc os.flags.precision.toNat y = if y < 0 then w else '+' :: w := by
  have he : effective os.flags.precision = os.flags.precision.toNat := by
    unfold effective; rw [if_neg (by omega)]
  have h0 : (os.flags.precision.toNat == 0) = false := by simp; omega
  refine ⟨_, rfl, ?_⟩
  unfold putFloat showFloat
  rw [hn]
  cases sc <;> by_cases hy : y < 0 <;> simp [hp, he, h0, hy, showSci, showFixed]

/-- -1.5 and 0.25 with two digits in fixed notation, on a stream without flags. -/
example : (⟨⟨false, false, .fixed, .dec, 2⟩, []⟩ : OStream).put (fun _ _ => []) NumFormat.initial (.bfloat (-3/2)) =
      .ok ⟨⟨false, false, .fixed, .dec, 2⟩, "-1.50".toList⟩ ∧
    (⟨⟨false, false, .fixed, .dec, 2⟩, []⟩ : OStream).put (fun _ _ => []) NumFormat.initial (.bfloat (1/4)) =
      .ok ⟨⟨false, false, .fixed, .dec, 2⟩, "0.25".toList⟩ := by
  constructor <;> decide +kernel

/-- C94: and a built-in floating-point number has as many digits after the point as `spp::format` said for the last
`Strict` floating-point number. -/
theorem C94_builtin_digits {fmt : NumFormat} (hfmt : ∀ ty, 0 ≤ fmt.precision ty) {os os' : OStream} {t : FTy}
    (ht : t ≠ .quad) (x y : ℚ) (h : os.put gen fmt (.sfloat t x) = .ok os') :
    os'.put gen fmt (.bfloat y) =
      .ok ⟨os'.flags, os'.text ++ showFloat fmt.scientific (fmt.precision t).toNat y⟩ := by
  have hf := C94_flags (gen := gen) fmt os os' _ h
  have hf' : os'.flags = ⟨true, true, if fmt.scientific then .scientific else .fixed, os.flags.base,
      fmt.precision t⟩ := by
    rw [hf]; cases t <;> first | rfl | exact absurd rfl ht
  show Res.ok _ = _
  have hp : os'.flags.precision = fmt.precision t := by rw [hf']
  rw [← hp, ← putFloat_strict (gen := gen) (f := os'.flags) ?_ ?_ ?_ ?_ y]
  · rw [hf']
  · rw [hf']
  · rw [hf']
  · rw [hp]; exact hfmt t

/-- C94: on a stream set to hexadecimal or octal `Strict` integers are printed without a sign, a negative one as the
number modulo `2^bits`: -1 and the largest unsigned number look the same. -/
theorem C94_base {fmt : NumFormat} {os : OStream} {t : IntTy} {x y : Int} (hd : os.flags.base ≠ .dec)
    (hxy : x % 2 ^ t.bits = y % 2 ^ t.bits) :
    os.put gen fmt (.sint t x) = os.put gen fmt (.sint t y) := by
  show Res.ok _ = Res.ok _
  unfold OStream.strictInt
  congr 3
  unfold putInt
  cases hb : os.flags.base
  · exact absurd hb hd
  · simp only [hb, hxy]
  · simp only [hb, hxy]

/-- C94: `print` of a `Strict` number does not depend on the flags of `std::cout`, not even on its base, and leaves
them as they are. -/
theorem C94_print {fmt : NumFormat} (hfmt : ∀ ty, 0 ≤ fmt.precision ty) {i : Item} {w : List Char}
    (h : StrictText fmt i w) (hi : ∀ t x, i = .sint t x → Fits t x) (name : List Char) (cout : OStream) :
    cout.print gen fmt name i = .ok ⟨cout.flags, cout.text ++ (title name ++ w ++ ['\n'])⟩ := by
  obtain ⟨fl, e, -⟩ := put_strict (gen := gen) hfmt h hi (os := ⟨Flags.initial, nameLine name⟩) rfl
  unfold OStream.print
  rw [e]
  have hn : nameLine name = title name := by
    unfold nameLine title
    cases name <;> rfl
  show Res.ok _ = _
  simp [hn, List.append_assoc]

/-! ### Cases that meet the hypotheses -/

-- 4 digits for all types, then 9 for double, then fixed format
example (b : Build) : ∃ f, NumFormat.run b [.reset, .precision 4, .precisionOf .double 9, .scientific false]
    NumFormat.initial = (.ok (), f) ∧ f.precision .double = 9 := by
  obtain ⟨f, e, h, -⟩ := C94_precision b (pre := [.reset, .precision 4]) (s := .precisionOf .double 9)
    (post := [.scientific false]) (ty := .double) (by
      intro s hs
      simp only [List.cons_append, List.nil_append, List.mem_cons, List.not_mem_nil, or_false] at hs
      rcases hs with rfl | rfl | rfl | rfl <;> simp [GoodDigits]) (by
      intro s hs
      rw [List.mem_singleton.1 hs]
      rintro (h | ⟨n, h | h⟩) <;> exact nomatch h) NumFormat.initial
  exact ⟨f, e, h 9 (Or.inr rfl)⟩

-- "+5" "true" "-3" on a stream that does not print signs
example (gen : Flags → ℚ → List Char) : ∃ fl, OStream.puts gen NumFormat.initial ⟨Flags.initial, []⟩
    [.sint IntTy.int 5, .sbool true, .sint IntTy.int (-3)] = .ok ⟨fl, "+5true-3".toList⟩ := by
  obtain ⟨fl, h⟩ := C94_texts (gen := gen) (fmt := NumFormat.initial) (fun ty => by
      rw [initial_precision]; cases ty <;> decide)
    (is := [.sint IntTy.int 5, .sbool true, .sint IntTy.int (-3)])
    (ws := ["+5".toList, "true".toList, "-3".toList])
    (.cons (show _ = written _ _ by decide +kernel) (.cons rfl
      (.cons (show _ = written _ _ by decide +kernel) .nil)))
    (by
      intro t x h
      simp only [List.mem_cons, Item.sint.injEq, List.not_mem_nil, or_false, reduceCtorEq, false_or] at h
      rcases h with ⟨rfl, rfl⟩ | ⟨rfl, rfl⟩ <;> exact ⟨fun _ => by decide, fun h => nomatch h⟩)
    (os := ⟨Flags.initial, []⟩) rfl
  exact ⟨fl, h⟩

-- a built-in 7 is "7" before and "+7" after a Strict number was printed
example (gen : Flags → ℚ → List Char) (t : List Char) :
    ∃ os', OStream.put gen NumFormat.initial ⟨Flags.initial, t⟩ (.sint IntTy.int 5) = .ok os' ∧
      OStream.put gen NumFormat.initial ⟨Flags.initial, t⟩ (.bint IntTy.int 7) =
        .ok ⟨Flags.initial, t ++ ['7']⟩ ∧
      OStream.put gen NumFormat.initial os' (.bint IntTy.int 7) = .ok ⟨os'.flags, os'.text ++ ['+', '7']⟩ :=
  ⟨_, rfl, C94_builtin_sign (gen := gen) (fmt := NumFormat.initial) (os := ⟨Flags.initial, t⟩) rfl rfl rfl
    (by decide) rfl (Or.inl ⟨_, _, rfl⟩)⟩

end Spp.Props
