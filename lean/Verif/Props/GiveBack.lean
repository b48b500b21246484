/-
C59 (`%a` and the upper-case conversions) and C86: a printed number given back to the library as a text.
-/
import Verif.Spec.GiveBack
import Verif.Props.ReadBack
import Verif.Props.Hex
import Verif.Props.Integers
import Verif.Props.Readings
import Verif.Props.DoubleText
import Verif.Props.Semantics

namespace FastPrintf
open Spec

/-! ### Case and spaces -/

theorem trimmed_map {f : JChar → JChar} (hf : ∀ c, f c ≤ 32 ↔ c ≤ 32) (s : JStr) :
    trimmed (s.map f) = (trimmed s).map f := by
  have hp : ((fun c => decide (c ≤ 32)) ∘ f : Nat → Bool) = fun c => decide (c ≤ 32) := by
    funext c
    simp [hf c]
  unfold trimmed
  rw [List.dropWhile_map, hp, ← List.map_reverse, List.dropWhile_map, hp, List.map_reverse]

theorem javaLower_space (c : JChar) : javaLower c ≤ 32 ↔ c ≤ 32 := by
  unfold javaLower
  split_ifs <;> omega

/-- The case of the letters does not matter. -/
theorem javaNumber_case {s s' : JStr} (h : s.map javaLower = s'.map javaLower) : javaNumber s = javaNumber s' := by
  unfold javaNumber
  rw [← trimmed_map javaLower_space, ← trimmed_map javaLower_space, h]

theorem upper_lower (s : JStr) : (s.map Spec.upper).map javaLower = s.map javaLower := by
  rw [List.map_map]
  refine List.map_congr_left fun c _ => ?_
  simp only [Function.comp, Spec.upper, javaLower]
  split_ifs <;> omega

theorem Spec.ReadsAs.upper {bits : BitVec 64} {s : JStr} (h : ReadsAs bits s) : ReadsAs bits (s.map Spec.upper) := by
  obtain ⟨v, h1, h2⟩ := h
  exact ⟨v, by rw [javaNumber_case (upper_lower s), h1], h2⟩

/-! ### `%a` -/

theorem javaNumber_hex {lead : Nat} {fp body : JStr} {x : Int} (h : HexText lead fp x body) (fl : Flags)
    (left zero neg : Bool) (w : Nat) :
    javaNumber (Spec.field left zero w (signText fl neg ++ js! "0x") body) = some (neg, hexValue lead fp x) := by
  obtain ⟨hl, hd, ds, hs, rfl⟩ := h
  have hlead : IsDigitIn 16 (48 + lead) := by unfold IsDigitIn digitVal; split_ifs <;> omega
  have hexp : IsExponent ((if x < 0 then ch! '-' else ch! '+') :: ds) :=
    ⟨by split_ifs <;> simp, fun hn => absurd hn hs.1.1, hs.1.2⟩
  have hx : readExponent ((if x < 0 then ch! '-' else ch! '+') :: ds) = x := by
    by_cases hx : x < 0
    · rw [if_pos hx]
      show -((valueIn 10 ds : Nat) : Int) = x
      rw [hs.2.2]; omega
    · rw [if_neg hx]
      show ((valueIn 10 ds : Nat) : Int) = x
      rw [hs.2.2]; omega
  refine javaNumber_field ?_ (by unfold Inner; decide) ?_ ⟨48, _, rfl, by decide, by decide⟩ fl left zero neg w
  · intro n
    show javaHex (List.replicate n 48 ++ ((48 + lead) :: ch! '.' :: fp ++ ch! 'p' ::
      (if x < 0 then ch! '-' else ch! '+') :: ds)) = _
    have hip : ∀ c ∈ List.replicate n 48 ++ [48 + lead], IsDigitIn 16 c := by
      intro c hc
      rcases List.mem_append.1 hc with hc | hc
      · rw [List.eq_of_mem_replicate hc]; decide
      · rw [List.mem_singleton.1 hc]; exact hlead
    have hsp := splitNumber_eq (alt := true) (tail := ch! 'p' :: (if x < 0 then ch! '-' else ch! '+') :: ds) hip hd
      (.inr ⟨_, _, rfl, by decide, by decide⟩)
    have e : List.replicate n 48 ++ ((48 + lead) :: ch! '.' :: fp ++ ch! 'p' ::
        (if x < 0 then ch! '-' else ch! '+') :: ds) = List.replicate n 48 ++ [48 + lead] ++ fraction true fp ++
        ch! 'p' :: (if x < 0 then ch! '-' else ch! '+') :: ds := by simp [fraction]
    unfold javaHex
    rw [e, hsp]
    simp only
    rw [if_neg (by simp), if_pos trivial, exponentValue_read hexp, hx, Option.map_some]
    congr 1
    have hv : valueIn 16 (List.replicate n 48 ++ [48 + lead] ++ fp) = lead * 16 ^ fp.length + valueIn 16 fp := by
      rw [valueIn_append, valueIn_append, valueIn_replicate_zero]
      have : digitVal (48 + lead) = lead := by unfold digitVal; split_ifs <;> omega
      simp [valueIn, this]
    rw [hv]
    unfold hexValue
    have h16 : (16 : ℚ) ^ fp.length ≠ 0 := by positivity
    have h2 : (2 : ℚ) ^ (x - 4 * (fp.length : Int)) = 2 ^ x / 16 ^ fp.length := by
      rw [zpow_sub₀ (by norm_num), zpow_mul, zpow_natCast]
      norm_num
    rw [h2]
    push_cast
    field_simp
  · intro c hc
    have hc' : c = 48 + lead ∨ c = 46 ∨ c ∈ fp ∨ c = 112 ∨ c = 45 ∨ c = 43 ∨ c ∈ ds := by
      simp only [List.cons_append, List.mem_cons, List.mem_append] at hc
      rcases hc with h | h | h | h | h | h
      · exact .inl h
      · exact .inr (.inl h)
      · exact .inr (.inr (.inl h))
      · exact .inr (.inr (.inr (.inl h)))
      · split_ifs at h
        · simp [h]
        · simp [h]
      · simp [h]
    rcases hc' with rfl | rfl | h | rfl | rfl | rfl | h
    · exact digit_inner hlead
    · unfold Inner; decide
    · exact digit_inner (hd c h)
    · unfold Inner; decide
    · unfold Inner; decide
    · unfold Inner; decide
    · exact digit_inner (hs.1.2 c h)

/-- The exact value reads as the double. -/
theorem roundsTo_self {x : ℚ} {e : Prop} : RoundsTo x e x := by
  intro y _
  by_cases h : y = x
  · exact .inl h
  · right; left
    rw [sub_self, abs_zero]
    exact abs_pos.2 (sub_ne_zero.2 (Ne.symm h))

/-- **C59 (`%a`).** Without a precision, or with one of at least 13. -/
theorem C59_a (dates : DateSyntax) (env : DateEnv) (jdk : JdkEnv) (d : Directive) (h : d.Ok dates)
    (hp : d.Plain) (hc : d.conv = ch! 'a') (bits : BitVec 64) (hf : finite bits) (e : Entry)
    (he : IsDouble e bits) (rest : List Traits) (hP : ∀ p, d.prec.precision = some p → 13 ≤ p) :
    ∃ s, printf dates env d.text (e.toTraits jdk :: rest) = .ok s ∧ ReadsAs bits s := by
  have key : ∃ fp x body, printf dates env d.text (e.toTraits jdk :: rest) =
        .ok (d.field (signText (flagSet d.flags) (negative bits) ++ js! "0x") body) ∧
      HexText (if expBits bits = 0 then 0 else 1) fp x body ∧
      hexValue (if expBits bits = 0 then 0 else 1) fp x = magnitude bits := by
    cases hn : d.prec.precision with
    | none =>
      obtain ⟨fp, x, body, h1, h2, h3, -⟩ := C27_exact dates env jdk d h hp hc hn bits hf e he rest
      exact ⟨fp, x, body, h1, h2, h3⟩
    | some p =>
      obtain ⟨fp, x, body, h1, h2, h3, -⟩ :=
        C27_exact_padded dates env jdk d h hp hc p hn bits hf (.inr (hP p hn)) e he rest
      exact ⟨fp, x, body, h1, h2, h3⟩
  obtain ⟨fp, x, body, h1, h2, h3⟩ := key
  refine ⟨_, h1, magnitude bits, ?_, roundsTo_self⟩
  unfold Directive.field
  rw [← h3]
  exact javaNumber_hex h2 _ _ _ _ _

/-- The lower-case twin of a directive. -/
theorem lower_ok {dates : DateSyntax} {d : Directive} (h : d.Ok dates) {lo : JChar} (hu : (lo, d.conv) ∈ casePairs)
    (hl : lo ≠ ch! 't') : ({ d with conv := lo } : Directive).Ok dates := by
  have key : ∀ p ∈ casePairs, p.1 ∈ convChars ∧ p.1 ≠ ch! '%' ∧
      ((p.2 = ch! 't' ∨ p.2 = ch! 'T') → p.1 = ch! 't') := by decide
  obtain ⟨k1, k2, k3⟩ := key _ hu
  exact ⟨h.flagsOk, h.noRepeat, h.width, h.prec, k1, fun p hp => absurd (k3 (h.date p hp).1) hl,
    fun hc => absurd hc k2⟩

theorem isDouble_wellBehaved {e : Entry} {bits : BitVec 64} (h : IsDouble e bits) : WellBehaved e := by
  cases h <;> trivial

/-- An upper-case conversion, from its lower-case twin. -/
theorem upper_of_lower {dates : DateSyntax} {env : DateEnv} {jdk : JdkEnv} {d : Directive} (h : d.Ok dates) {lo : JChar}
    (hu : (lo, d.conv) ∈ casePairs) (hl : lo ≠ ch! 't') {e : Entry} (he : WellBehaved e) {s : JStr}
    (hs : printf dates env ({ d with conv := lo } : Directive).text [e.toTraits jdk] = .ok s) :
    printf dates env d.text [e.toTraits jdk] = .ok (s.map Spec.upper) := by
  rcases (C19_upper_case dates env jdk { d with conv := lo } (lower_ok h hu hl) d.conv hu [e]
    (by simpa using he)).2 with g | ⟨-, g, -⟩
  · rw [List.map_singleton, hs] at g
    exact g
  · rw [List.map_singleton, hs] at g
    cases g

/-- **C59 (all conversions).** A directive that prints enough digits, in lower or upper case, prints a text that
reads back as the double. -/
theorem C59_reads_back (dates : DateSyntax) (env : DateEnv) (jdk : JdkEnv) (d : Directive) (h : d.Ok dates)
    (hp : d.Plain) (hd : EnoughDigits d) (bits : BitVec 64) (hf : finite bits) (e : Entry)
    (he : IsDouble e bits) :
    ∃ s, printf dates env d.text [e.toTraits jdk] = .ok s ∧ ReadsAs bits s := by
  have up : ∀ lo, (lo, d.conv) ∈ casePairs → lo ≠ ch! 't' →
      (∃ s, printf dates env ({ d with conv := lo } : Directive).text [e.toTraits jdk] = .ok s ∧ ReadsAs bits s) →
      ∃ s, printf dates env d.text [e.toTraits jdk] = .ok s ∧ ReadsAs bits s := by
    rintro lo hu hl ⟨s, h1, h2⟩
    exact ⟨_, upper_of_lower h hu hl (isDouble_wellBehaved he) h1, h2.upper⟩
  have hpl : ∀ lo, ({ d with conv := lo } : Directive).Plain := fun lo => ⟨hp.width, hp.prec⟩
  rcases hd with ⟨hc | hc, hP⟩ | ⟨hc | hc, hP⟩ | ⟨hc | hc, hP⟩ | ⟨hc | hc, hP⟩
  · exact C59_e dates env jdk d h hp hc bits hf e he [] hP
  · have hu : (ch! 'e', d.conv) ∈ casePairs := by rw [hc]; decide
    exact up _ hu (by decide) (C59_e dates env jdk _ (lower_ok h hu (by decide)) (hpl _) rfl bits hf e he [] hP)
  · exact C59_g dates env jdk d h hp hc bits hf e he [] hP
  · have hu : (ch! 'g', d.conv) ∈ casePairs := by rw [hc]; decide
    exact up _ hu (by decide) (C59_g dates env jdk _ (lower_ok h hu (by decide)) (hpl _) rfl bits hf e he [] hP)
  · exact C59_f dates env jdk d h hp hc bits hf e he [] (.inl hP)
  · have hu : (ch! 'f', d.conv) ∈ casePairs := by rw [hc]; decide
    exact up _ hu (by decide) (C59_f dates env jdk _ (lower_ok h hu (by decide)) (hpl _) rfl bits hf e he [] (.inl hP))
  · exact C59_a dates env jdk d h hp hc bits hf e he [] hP
  · have hu : (ch! 'a', d.conv) ∈ casePairs := by rw [hc]; decide
    exact up _ hu (by decide) (C59_a dates env jdk _ (lower_ok h hu (by decide)) (hpl _) rfl bits hf e he [] hP)

/-! ### C86: doubles -/

/-- Two NaNs print alike. -/
theorem nan_alike {dates : DateSyntax} {env : DateEnv} {jdk : JdkEnv} {d : Directive} (h : d.Ok dates) (hp : d.Plain)
    (hc : d.conv ∈ allFloatConvs) {e e' : Entry} {b b' : BitVec 64} (he : IsDouble e b) (he' : IsDouble e' b')
    (hb : doubleDatum b = .nan) (hb' : doubleDatum b' = .nan) (rest : List Traits) :
    printf dates env d.text (e.toTraits jdk :: rest) = printf dates env d.text (e'.toTraits jdk :: rest) := by
  obtain ⟨k, hk, hn⟩ := formatterFor_float (env := env) hc d.context
  have form : ∀ {e : Entry} {b : BitVec 64}, IsDouble e b → (e.toTraits jdk).asFloatForm = .ok (FloatForm.ofDouble b) := by
    intro e b he
    cases he <;> rfl
  rw [printf_plain h hp, printf_plain h hp, hk, hk, form he, form he']
  simp only [bind_ok, hn _ _ (nan_isNaN hb) (nan_isNaN hb')]

/-- The text stands for the double: it prints like it under every floating-point conversion. -/
def StandsFor (dates : DateSyntax) (env : DateEnv) (jdk : JdkEnv) (t : JStr) (e : Entry) : Prop :=
  ∀ e', HoldsText e' t → ∀ d : Directive, d.Ok dates → d.Plain → d.conv ∈ allFloatConvs → ∀ rest,
    printf dates env d.text (e'.toTraits jdk :: rest) = printf dates env d.text (e.toTraits jdk :: rest)

theorem stands_number {dates : DateSyntax} {env : DateEnv} {jdk : JdkEnv} {t : JStr} {e : Entry} {bits : BitVec 64}
    (he : IsDouble e bits) (hb : jdk.parseDouble t = some bits) : StandsFor dates env jdk t e :=
  fun e' ht d h hp hc rest => C49_read_as_double dates env jdk d h hp hc e' bits (.text ht hb) e he rest

theorem stands_nan {dates : DateSyntax} {env : DateEnv} {jdk : JdkEnv} {t : JStr} {e : Entry} {bits b : BitVec 64}
    (he : IsDouble e bits) (hn : doubleDatum bits = .nan) (hn' : doubleDatum b = .nan)
    (hb : jdk.parseDouble t = some b) : StandsFor dates env jdk t e := by
  intro e' ht d h hp hc rest
  rw [C49_read_as_double dates env jdk d h hp hc e' b (.text ht hb) (.prim (.double b)) (.prim b) rest]
  exact nan_alike h hp hc (.prim b) he hn' hn rest

/-- The name of a non-finite double, with spaces around. -/
theorem stands_name {dates : DateSyntax} {env : DateEnv} {jdk : JdkEnv} (hj : ParsesDoubles jdk) {t : JStr} {e : Entry}
    {bits : BitVec 64} (he : IsDouble e bits) (hf : ¬ finite bits) {plus : Bool}
    (ht : trimmed t = nonFiniteName bits plus) : StandsFor dates env jdk t e := by
  have hx : expBits bits = 2047 := not_not.1 hf
  unfold nonFiniteName at ht
  by_cases hfr : fracBits bits ≠ 0
  · rw [if_pos hfr] at ht
    obtain ⟨b, b1, b2, b3⟩ := hj.nan t ht
    refine stands_nan he ?_ ?_ b3
    · unfold doubleDatum; rw [if_pos hx, if_neg hfr]
    · unfold doubleDatum; rw [if_pos b1, if_neg b2]
  · rw [if_neg hfr] at ht
    have hfr' := not_not.1 hfr
    by_cases hneg : negative bits
    · rw [if_pos hneg] at ht
      refine stands_number he ((hj.minusInfinite t ht).trans (congrArg some ?_))
      exact bits_of_parts (by simp only [hneg, iff_true]; decide) (by rw [hx]; decide) (by rw [hfr']; decide)
    · rw [if_neg hneg] at ht
      have ht' : trimmed t = js! "Infinity" ∨ trimmed t = js! "+Infinity" := by
        split_ifs at ht
        · exact .inr ht
        · exact .inl ht
      refine stands_number he ((hj.infinite t ht').trans (congrArg some ?_))
      exact bits_of_parts (by simp only [hneg, iff_false]; decide) (by rw [hx]; decide) (by rw [hfr']; decide)

theorem trimmed_field {s : JStr} (h : ∀ c ∈ s, 32 < c) (left : Bool) (w : Nat) :
    trimmed (Spec.field left false w [] s) = s := by
  unfold Spec.field
  cases left
  · simpa using trimmed_padded h (w - s.length) 0
  · simpa using trimmed_padded h 0 (w - s.length)

theorem nonFiniteName_chars (bits : BitVec 64) (plus : Bool) : ∀ c ∈ nonFiniteName bits plus, 32 < c := by
  unfold nonFiniteName
  split_ifs <;> decide

/-- **C86.** A `double` printed with enough digits, under any flags and width, can be given back as a text (a
`String`, another `CharSequence`, a rope): under every floating-point conversion the text prints like the
`double`.  In lower case this holds for the infinities and NaN too. -/
theorem C86_double (dates : DateSyntax) (env : DateEnv) (jdk : JdkEnv) (hj : ParsesDoubles jdk) (d : Directive)
    (h : d.Ok dates) (hp : d.Plain) (hd : EnoughDigits d) (bits : BitVec 64)
    (hf : finite bits ∨ d.conv ∈ floatConvs) (e : Entry) (he : IsDouble e bits) :
    ∃ t, printf dates env d.text [e.toTraits jdk] = .ok t ∧ StandsFor dates env jdk t e := by
  by_cases hfin : finite bits
  · obtain ⟨t, h1, h2⟩ := C59_reads_back dates env jdk d h hp hd bits hfin e he
    exact ⟨t, h1, stands_number he (hj.number t bits hfin h2)⟩
  · have hc := hf.resolve_left hfin
    refine ⟨_, C30_nonfinite dates env jdk d h hp hc bits hfin e he [], ?_⟩
    exact stands_name hj he hfin (trimmed_field (nonFiniteName_chars _ _) _ _)

/-- **C86 (again).** In particular the same directive prints the same text again. -/
theorem C86_again (dates : DateSyntax) (env : DateEnv) (jdk : JdkEnv) (hj : ParsesDoubles jdk) (d : Directive)
    (h : d.Ok dates) (hp : d.Plain) (hd : EnoughDigits d) (bits : BitVec 64)
    (hf : finite bits ∨ d.conv ∈ floatConvs) (e : Entry) (he : IsDouble e bits) :
    ∃ t, printf dates env d.text [e.toTraits jdk] = .ok t ∧
      ∀ e', HoldsText e' t → printf dates env d.text [e'.toTraits jdk] = .ok t := by
  obtain ⟨t, h1, h2⟩ := C86_double dates env jdk hj d h hp hd bits hf e he
  have hc : d.conv ∈ allFloatConvs := by
    rcases hd with ⟨hc | hc, -⟩ | ⟨hc | hc, -⟩ | ⟨hc | hc, -⟩ | ⟨hc | hc, -⟩ <;> rw [hc] <;> decide
  exact ⟨t, h1, fun e' he' => (h2 e' he' d h hp hc []).trans h1⟩

/-- **C86 (capitals).** But what `%E`, `%F`, `%G`, `%A` print for the infinities and NaN is refused: the names
are recognised in their own spelling only. -/
theorem C86_capitals (dates : DateSyntax) (env : DateEnv) (jdk : JdkEnv) (hj : ParsesDoubles jdk) (d : Directive)
    (h : d.Ok dates) (hp : d.Plain) (hc : d.conv ∈ js! "AEFG") (bits : BitVec 64) (hf : ¬ finite bits) (e : Entry)
    (he : IsDouble e bits) :
    ∃ t, printf dates env d.text [e.toTraits jdk] = .ok t ∧ ∀ e', HoldsText e' t → ∀ d' : Directive, d'.Ok dates →
      d'.Plain → d'.conv ∈ allFloatConvs → ∀ rest,
        printf dates env d'.text (e'.toTraits jdk :: rest) = .error (refused .textToFloat) := by
  obtain ⟨lo, hu, hl, hlo⟩ : ∃ lo, (lo, d.conv) ∈ casePairs ∧ lo ≠ ch! 't' ∧ lo ∈ floatConvs := by
    have key : ∀ c ∈ js! "AEFG", ∃ lo ∈ floatConvs, (lo, c) ∈ casePairs ∧ lo ≠ ch! 't' := by decide
    obtain ⟨lo, h1, h2, h3⟩ := key _ hc
    exact ⟨lo, h2, h3, h1⟩
  have h1 := C30_nonfinite dates env jdk { d with conv := lo } (lower_ok h hu hl) ⟨hp.width, hp.prec⟩ hlo bits hf e he []
  refine ⟨_, upper_of_lower h hu hl (isDouble_wellBehaved he) h1, ?_⟩
  intro e' he' d' h' hp' hc' rest
  refine C49_no_double dates env jdk d' h' hp' hc' e' _ (.noNumber he' (hj.capitals _ ?_)) rest
  have hup : ∀ c, Spec.upper c ≤ 32 ↔ c ≤ 32 := by
    intro c
    unfold Spec.upper
    split_ifs <;> omega
  rw [trimmed_map hup, trimmed_field (nonFiniteName_chars _ _)]
  unfold nonFiniteName
  split_ifs <;> decide

/-! ### `%s` of a double -/

/-- A text up to the case of `e`, and its value. -/
def ReadAlike (v : ℚ) (u : JStr) : Prop :=
  ∃ u' ip fp tail, NumText u' ip fp true tail ∧ u.map javaLower = u'.map javaLower ∧ u.length = u'.length ∧
    readDecimal u' = v

theorem pointText_read {v : ℚ} {ms tail : JStr} (h : PointText v ms)
    (ht : tail = [] ∨ ∃ ex, tail = ch! 'e' :: ex ∧ IsExponent ex) :
    ∃ ip fp, NumText (ms ++ tail) ip fp true tail ∧ readDecimal (ms ++ tail) = v * 10 ^ readExponent (tail.drop 1) := by
  obtain ⟨ip, fp, rfl, h1, h2, h3⟩ := pointText_parts h
  have hn : NumText (ip ++ 46 :: fp ++ tail) ip fp true tail := ⟨by simp [fraction], h1.2, h2, h1.1, ht⟩
  refine ⟨ip, fp, hn, ?_⟩
  rw [hn.read, h3, zpow_sub₀ (by norm_num), zpow_natCast]
  field_simp

theorem signedText_exponent {x : Int} {xs : JStr} (h : SignedText x xs) : IsExponent xs ∧ readExponent xs = x := by
  obtain ⟨ds, ⟨h1, h2, h3⟩, rfl⟩ := h
  by_cases hx : x < 0
  · rw [if_pos hx]
    refine ⟨⟨.inl rfl, fun hn => absurd hn h1.1, h1.2⟩, ?_⟩
    show -((valueIn 10 ds : Nat) : Int) = x
    omega
  · rw [if_neg hx]
    cases ds with
    | nil => exact absurd rfl h1.1
    | cons c cs =>
      have hc := h1.2 c (by simp)
      refine ⟨⟨.inr (.inr hc), fun _ => hc, fun y hy => h1.2 y (by simp [hy])⟩, ?_⟩
      unfold readExponent
      dsimp only
      rw [if_neg (digit_ne hc (by decide)), if_neg (digit_ne hc (by decide)), h3]
      omega

theorem javaText_read {v : ℚ} {u : JStr} (h : JavaText v u) : ReadAlike v u := by
  unfold JavaText at h
  split_ifs at h
  · obtain ⟨ip, fp, h1, h2⟩ := pointText_read h (tail := []) (.inl rfl)
    rw [List.append_nil] at h1 h2
    exact ⟨u, ip, fp, [], h1, rfl, rfl, by rw [h2]; simp [readExponent]⟩
  · obtain ⟨x, ms, xs, -, -, h1, h2, rfl⟩ := h
    obtain ⟨k1, k2⟩ := signedText_exponent h2
    obtain ⟨ip, fp, h3, h4⟩ := pointText_read h1 (tail := ch! 'e' :: xs) (.inr ⟨xs, rfl, k1⟩)
    refine ⟨ms ++ ch! 'e' :: xs, ip, fp, _, h3, by simp [javaLower], by simp, ?_⟩
    rw [h4]
    simp only [List.drop_succ_cons, List.drop_zero, k2]
    rw [mul_assoc, ← zpow_add₀ (by norm_num)]
    simp

theorem ReadAlike.java {v : ℚ} {u : JStr} (h : ReadAlike v u) (neg left : Bool) (w : Nat) :
    javaNumber (Spec.padded left w (if neg then ch! '-' :: u else u)) = some (neg, v) := by
  obtain ⟨u', ip, fp, tail, hn, hl, hlen, hv⟩ := h
  have e1 : Spec.padded left w (if neg then ch! '-' :: u else u) =
      Spec.field left false w (signText {} neg) u := by
    unfold Spec.padded Spec.field signText
    cases neg <;> cases left <;> simp [Nat.add_comm]
  have e2 : (Spec.field left false w (signText {} neg) u).map javaLower =
      (Spec.field left false w (signText {} neg) u').map javaLower := by
    unfold Spec.field
    cases left <;> simp [hl, hlen]
  rw [e1, javaNumber_case e2, hn.java_field, hv]

/-- **C86 (`%s`).** So can the text that `%s` prints for a `Double`, without a precision. -/
theorem C86_string (dates : DateSyntax) (env : DateEnv) (jdk : JdkEnv) (hj : ParsesDoubles jdk) (d : Directive)
    (h : d.Ok dates) (hp : d.Plain) (hc : d.conv = ch! 's') (hn : d.prec.precision = none) (bits : BitVec 64)
    (hs : DoubleText bits (jdk.doubleToString bits)) (e : Entry) (he : IsDouble e bits) :
    ∃ t, printf dates env d.text [e.toTraits jdk] = .ok t ∧ StandsFor dates env jdk t e := by
  have hh : Holds e (.double bits) := by
    cases he
    · exact .prim _
    · exact .boxed _ _
  refine ⟨_, C54_s dates env jdk d h hp hc e _ (.double hh) [], ?_⟩
  rw [hn]
  simp only [cut]
  generalize jdk.doubleToString bits = s at hs
  unfold Directive.padded
  have pad : ∀ {s : JStr} (_ : ∀ c ∈ s, 32 < c) (left : Bool) (w : Nat), trimmed (Spec.padded left w s) = s := by
    intro s h left w
    unfold Spec.padded
    cases left
    · simpa using trimmed_padded h (w - s.length) 0
    · simpa using trimmed_padded h 0 (w - s.length)
  cases hs with
  | nan hx hfr =>
    refine stands_name hj he (plus := false) (fun hf => hf hx) ?_
    rw [pad (by decide)]
    unfold nonFiniteName; rw [if_pos hfr]
  | infinite hx hfr =>
    refine stands_name hj he (plus := false) (fun hf => hf hx) ?_
    rw [pad (by split_ifs <;> decide)]
    unfold nonFiniteName; rw [if_neg (not_not.2 hfr)]; simp
  | zero hf h0 =>
    refine stands_number he (hj.number _ bits hf (readsAs_zero h0 ?_))
    have hz : ReadAlike 0 (js! "0.0") := by
      refine ⟨js! "0.0", js! "0", js! "0", [], ⟨rfl, by decide, by decide, by decide, .inl rfl⟩, rfl, rfl, ?_⟩
      decide +kernel
    have := hz.java (decide (negative bits)) (decide (ch! '-' ∈ d.flags)) d.width.width
    by_cases hneg : negative bits
    · simpa [hneg] using this
    · simpa [hneg] using this
  | number hf h0 hd ht =>
    refine stands_number he (hj.number _ bits hf (readsAs_decimal hd ?_))
    have := (javaText_read ht).java (decide (negative bits)) (decide (ch! '-' ∈ d.flags)) d.width.width
    by_cases hneg : negative bits
    · simpa [hneg] using this
    · simpa [hneg] using this

/-! ### C86: integers -/

theorem digitsOf_value {jdk : JdkEnv} (hj : KnowsDigits jdk) {s : JStr} (h : ∀ c ∈ s, IsDigitIn 10 c) :
    DigitsOf jdk.digit s (valueIn 10 s) := by
  induction s using List.reverseRecOn with
  | nil => exact .nil
  | append_singleton s c ih =>
    have hc := IsDigitIn.ten (h c (by simp))
    have hv : valueIn 10 (s ++ [c]) = 10 * valueIn 10 s + (c - 48) := by
      rw [valueIn_append]
      simp only [valueIn, digitVal, if_pos hc.2, List.length_singleton, List.length_nil, pow_one, pow_zero]
      omega
    rw [hv]
    exact .snoc (ih fun x hx => h x (by simp [hx])) (hj.digit c hc.1 hc.2)

theorem digitsOf_mem {digit : JChar → Option Nat} {s : JStr} {n : Nat} (h : DigitsOf digit s n) :
    ∀ c ∈ s, digit c ≠ none := by
  induction h with
  | nil => simp
  | snoc h hc ih =>
    intro x hx
    rcases List.mem_append.1 hx with hx | hx
    · exact ih x hx
    · rw [List.mem_singleton.1 hx, hc]; simp

theorem integerText_unique {jdk : JdkEnv} {s : JStr} {v v' : Int} (h : IntegerText jdk.digit s v)
    (h' : IntegerText jdk.digit s v') : v = v' := by
  rw [← textValue_iff] at h h'
  rw [h] at h'
  exact Option.some.inj h'

/-- What `%d` and `%u` print: a sign and digits in a field. -/
structure WholeText (prec : Option Nat) (neg : Bool) (n : Nat) (t : JStr) : Prop where
  text : ∃ left zero w ds sg, Shortest 10 n ds ∧
    (neg = true ∧ sg = js! "-" ∨ neg = false ∧ (sg = js! "+" ∨ sg = js! " " ∨ sg = [])) ∧
    (zero = true → prec = none) ∧ t = Spec.field left zero w sg (withPrecision prec (n = 0) ds)
  sign : neg = true → n ≠ 0

/-- The value. -/
def wholeValue (neg : Bool) (n : Nat) : Int := if neg then -(n : Int) else n

/-- Such a text is one for `parseLong` exactly if there are no spaces in it and digits were printed. -/
theorem WholeText.integer {jdk : JdkEnv} (hj : KnowsDigits jdk) {prec : Option Nat} {neg : Bool} {n : Nat} {t : JStr}
    (h : WholeText prec neg n t) (v : Int) :
    IntegerText jdk.digit t v ↔ 32 ∉ t ∧ ¬ (n = 0 ∧ prec = some 0) ∧ v = wholeValue neg n := by
  obtain ⟨⟨left, zero, w, ds, sg, hds, hsg, hz, ht⟩, hneg⟩ := h
  have nosp : IntegerText jdk.digit t v → 32 ∉ t := by
    rintro ⟨xs, m, -, hm, ⟨rfl, -⟩ | ⟨rfl, -⟩ | ⟨rfl, -⟩⟩ h32
    · rcases List.mem_cons.1 h32 with h | h
      · exact absurd h (by decide)
      · exact digitsOf_mem hm 32 h hj.space
    · rcases List.mem_cons.1 h32 with h | h
      · exact absurd h (by decide)
      · exact digitsOf_mem hm 32 h hj.space
    · exact digitsOf_mem hm 32 h32 hj.space
  by_cases h32 : 32 ∈ t
  · exact ⟨fun h => absurd h32 (nosp h), fun h => absurd h32 h.1⟩
  -- without spaces: the sign, zeros, and the digits
  have plain : ∃ k, t = sg ++ (List.replicate k 48 ++ withPrecision prec (n = 0) ds) ∧ (k ≠ 0 → prec = none) := by
    unfold Spec.field at ht
    dsimp only at ht
    generalize w - (sg.length + (withPrecision prec (n = 0) ds).length) = k at ht
    have nil : ∀ {a b : JStr}, t = a ++ List.replicate k 32 ++ b → k = 0 := by
      intro a b hab
      by_contra hk
      exact h32 (by rw [hab]; simp [hk])
    by_cases hl : left = true
    · rw [if_pos hl] at ht
      have := nil (b := []) (by rw [ht, List.append_nil])
      subst this
      exact ⟨0, by simpa using ht, fun h => absurd rfl h⟩
    · rw [if_neg hl] at ht
      by_cases hzz : zero = true
      · rw [if_pos hzz] at ht
        exact ⟨k, by rw [ht, List.append_assoc], fun _ => hz hzz⟩
      · rw [if_neg hzz] at ht
        have := nil (a := []) (b := sg ++ withPrecision prec (n = 0) ds) (by rw [ht]; simp)
        subst this
        exact ⟨0, by simpa using ht, fun h => absurd rfl h⟩
  obtain ⟨k, hk, hk0⟩ := plain
  have hsg' : neg = true ∧ sg = js! "-" ∨ neg = false ∧ (sg = js! "+" ∨ sg = []) := by
    rcases hsg with h | ⟨h1, h2 | h2 | h2⟩
    · exact .inl h
    · exact .inr ⟨h1, .inl h2⟩
    · exact absurd (by rw [hk, h2]; simp) h32
    · exact .inr ⟨h1, .inr h2⟩
  by_cases h0 : n = 0 ∧ prec = some 0
  · -- no digits
    refine ⟨fun h => ?_, fun h => absurd h0 h.2.1⟩
    exfalso
    have hk1 : k = 0 := by
      by_contra hk1
      rw [hk0 hk1] at h0
      cases h0.2
    have hn : neg = false := by
      cases hnn : neg with
      | false => rfl
      | true => exact absurd h0.1 (hneg hnn)
    have ht' : t = sg := by
      rw [hk, hk1]
      unfold withPrecision
      rw [if_pos (by simp [h0.1, h0.2])]
      simp
    obtain ⟨xs, m, hne, -, hxs⟩ := h
    rcases hsg' with ⟨h1, -⟩ | ⟨-, h1 | h1⟩
    · rw [hn] at h1; cases h1
    · rw [h1] at ht'
      rcases hxs with ⟨h2, -⟩ | ⟨h2, -⟩ | ⟨h2, -, -, h3⟩
      · rw [ht'] at h2; exact absurd (List.cons.inj h2).1 (by decide)
      · rw [ht'] at h2; exact hne (List.cons.inj h2).2.symm
      · rw [ht'] at h3; exact h3 rfl
    · rw [h1] at ht'
      rcases hxs with ⟨h2, -⟩ | ⟨h2, -⟩ | ⟨h2, -⟩
      · rw [ht'] at h2; cases h2
      · rw [ht'] at h2; cases h2
      · exact hne (by rw [← h2, ht'])
  · -- digits
    have hb : withPrecision prec (n = 0) ds = List.replicate (prec.getD 1 - ds.length) 48 ++ ds := by
      unfold withPrecision
      rw [if_neg (by simpa using h0)]
    rw [hb] at hk
    generalize prec.getD 1 - ds.length = j at hk
    rw [← List.append_assoc (List.replicate k 48)] at hk
    have hdig : ∀ c ∈ List.replicate k 48 ++ List.replicate j 48 ++ ds, IsDigitIn 10 c := by
      intro c hc
      simp only [List.mem_append, List.mem_replicate] at hc
      rcases hc with (⟨-, rfl⟩ | ⟨-, rfl⟩) | hc
      · decide
      · decide
      · exact hds.1.2 c hc
    have hval : valueIn 10 (List.replicate k 48 ++ List.replicate j 48 ++ ds) = n := by
      rw [valueIn_append, valueIn_append, valueIn_replicate_zero, valueIn_replicate_zero, hds.2.2]
      simp
    have hne : List.replicate k 48 ++ List.replicate j 48 ++ ds ≠ [] := by
      intro h
      exact hds.1.1 (List.append_eq_nil_iff.1 h).2
    have hd := digitsOf_value hj hdig
    rw [hval] at hd
    generalize List.replicate k 48 ++ List.replicate j 48 ++ ds = xs at *
    have hgood : IntegerText jdk.digit t (wholeValue neg n) := by
      refine ⟨xs, n, hne, hd, ?_⟩
      rcases hsg' with ⟨rfl, rfl⟩ | ⟨rfl, rfl | rfl⟩
      · exact .inl ⟨hk, rfl⟩
      · exact .inr (.inl ⟨hk, rfl⟩)
      · refine .inr (.inr ⟨by simpa using hk, rfl, ?_⟩)
        rw [hk]
        cases xs with
        | nil => exact absurd rfl hne
        | cons c cs =>
          have hc := hdig c (by simp)
          simp only [List.nil_append, List.head?_cons, ne_eq, Option.some.injEq]
          exact ⟨digit_ne hc (by decide), digit_ne hc (by decide)⟩
    constructor
    · intro h
      exact ⟨h32, h0, integerText_unique h hgood⟩
    · rintro ⟨-, -, rfl⟩
      exact hgood

/-- And for `parseDouble`, spaces or not. -/
theorem WholeText.java {prec : Option Nat} {neg : Bool} {n : Nat} {t : JStr} (h : WholeText prec neg n t)
    (h0 : ¬ (n = 0 ∧ prec = some 0)) : javaNumber t = some (neg, (n : ℚ)) := by
  obtain ⟨⟨left, zero, w, ds, sg, hds, hsg, hz, ht⟩, hneg⟩ := h
  have hb : withPrecision prec (n = 0) ds = List.replicate (prec.getD 1 - ds.length) 48 ++ ds := by
    unfold withPrecision
    rw [if_neg (by simpa using h0)]
  have hn : NumText (withPrecision prec (n = 0) ds) (List.replicate (prec.getD 1 - ds.length) 48 ++ ds) [] false [] := by
    rw [hb]
    refine NumText.zeros ⟨by simp [fraction], hds.1.2, by simp, hds.1.1, .inl rfl⟩ _
  have hs : ∃ fl : Flags, sg = signText fl neg := by
    rcases hsg with ⟨rfl, rfl⟩ | ⟨rfl, rfl | rfl | rfl⟩
    · exact ⟨{}, rfl⟩
    · exact ⟨{ plus := true }, rfl⟩
    · exact ⟨{ leadingSpace := true }, rfl⟩
    · exact ⟨{}, rfl⟩
  obtain ⟨fl, rfl⟩ := hs
  rw [ht, hn.java_field, hn.read, List.append_nil, valueIn_append, valueIn_replicate_zero, hds.2.2]
  simp [readExponent]

theorem signed_whole {fl : Flags} {w : Nat} {p : Option Nat} {v : Int} {t : JStr} (h : SignedNumberText fl w p v t) :
    WholeText p (v < 0) v.natAbs t := by
  unfold SignedNumberText at h
  refine ⟨?_, fun hv => by simp only [decide_eq_true_eq] at hv; omega⟩
  have hz : decide (v.natAbs = 0) = decide (v = 0) := by simp
  by_cases h0 : v = 0 ∧ p = some 0 ∧ fl.leadingSpace = true ∧ fl.plus = false ∧ w = 0
  · rw [if_pos h0] at h
    obtain ⟨rfl, rfl, -⟩ := h0
    refine ⟨false, false, 0, js! "0", [], ?_, .inr ⟨rfl, .inr (.inr rfl)⟩, by simp, by rw [h]; rfl⟩
    unfold Shortest IsNumeral NoExtraZero; decide
  · rw [if_neg h0] at h
    obtain ⟨ds, hs, rfl⟩ := h
    refine ⟨fl.leftJustify, fl.zeroPad && p.isNone, w, ds, signText fl (v < 0), hs, ?_, ?_, by rw [hz]⟩
    · unfold signText
      by_cases hv : v < 0
      · left; simp [hv]
      · right
        refine ⟨by simp [hv], ?_⟩
        rw [if_neg (by simp [hv])]
        split_ifs <;> simp
    · intro h; simp at h; exact h.2

theorem unsigned_whole {fl : Flags} {w : Nat} {p : Option Nat} {n : Nat} {t : JStr}
    (h : UnsignedNumberText .u fl w p n t) : WholeText p false n t := by
  refine ⟨?_, by simp⟩
  rcases h with ⟨-, ⟨-, ⟨h, -⟩ | ⟨h, -⟩⟩, -⟩ | ⟨-, ds, hs, rfl⟩
  · cases h
  · exact absurd rfl h
  · refine ⟨fl.leftJustify, fl.zeroPad && p.isNone, w, ds, [], hs, .inr ⟨rfl, .inr (.inr rfl)⟩, ?_, rfl⟩
    intro h; simp at h; exact h.2

/-- The text is taken for the integer `v` (if it is in range): under the integer conversions it prints like the
`long`, and under `*` it counts as the `int`; if `ok` does not hold it is refused. -/
structure CountsAs (dates : DateSyntax) (env : DateEnv) (jdk : JdkEnv) (t : JStr) (ok : Prop) (v : Int) : Prop where
  long : ok → minLong ≤ v → v ≤ maxLong → ∀ e', HoldsText e' t → ∀ d : Directive, d.Ok dates → d.Plain →
    d.conv ∈ intConvs → ∀ rest, printf dates env d.text (e'.toTraits jdk :: rest) =
      printf dates env d.text ((Entry.prim (.long (BitVec.ofInt 64 v))).toTraits jdk :: rest)
  noLong : ¬ (ok ∧ minLong ≤ v ∧ v ≤ maxLong) → ∀ e', HoldsText e' t → ∀ d : Directive, d.Ok dates → d.Plain →
    d.conv ∈ intConvs → ∀ rest, printf dates env d.text (e'.toTraits jdk :: rest) = .error (refused .textToInt)
  star : ok → minInt ≤ v → v ≤ maxInt → ∀ e', HoldsText e' t → ∀ d : Directive, d.Ok dates →
    (d.width = .star ∨ d.prec = .star) → ∀ rest, printf dates env d.text (e'.toTraits jdk :: rest) =
      printf dates env d.text ((asIntArg v).toTraits jdk :: rest)
  noStar : ¬ (ok ∧ minInt ≤ v ∧ v ≤ maxInt) → ∀ e', HoldsText e' t → ∀ d : Directive, d.Ok dates →
    (d.width = .star ∨ d.prec = .star) → ∀ rest,
      printf dates env d.text (e'.toTraits jdk :: rest) = .error (refused .textToInt)

theorem countsAs {dates : DateSyntax} {env : DateEnv} {jdk : JdkEnv} {t : JStr} {ok : Prop} {v : Int}
    (h : ∀ v', IntegerText jdk.digit t v' ↔ ok ∧ v' = v) : CountsAs dates env jdk t ok v where
  long h0 h1 h2 e' ht d hd hp hc rest :=
    C48_read_as_integer dates env jdk d hd hp hc e' (.long (BitVec.ofInt 64 v)) (.text ht ((h v).2 ⟨h0, rfl⟩) h1 h2) _
      (.prim rfl) rest
  noLong h0 e' ht d hd hp hc rest :=
    C48_no_integer dates env jdk d hd hp hc e' _ (.noNumber ht (by
      rintro ⟨v', h1, h2, h3⟩
      obtain ⟨g, rfl⟩ := (h v').1 h1
      exact h0 ⟨g, h2, h3⟩)) rest
  star h0 h1 h2 e' ht d hd hs rest :=
    C50_read_under_star dates env jdk d hd hs e' v (.text ht ((h v).2 ⟨h0, rfl⟩) h1 h2) rest
  noStar h0 e' ht d hd hs rest :=
    C50_not_under_star dates env jdk d hd hs e' _ (.noNumber ht (by
      rintro ⟨v', h1, h2, h3⟩
      obtain ⟨g, rfl⟩ := (h v').1 h1
      exact h0 ⟨g, h2, h3⟩)) rest

theorem wholeValue_natAbs (v : Int) : wholeValue (v < 0) v.natAbs = v := by
  unfold wholeValue
  by_cases h : v < 0
  · simp only [h, decide_true, if_true]; omega
  · simp only [h, decide_false, Bool.false_eq_true, if_false]; omega

/-- **C86 (integers).** What `%d` prints can be given back to the integer conversions (if it is in the range of
`long`) and to `*` (in the range of `int`), provided that it has no spaces in it and is not the empty text of a zero
with precision 0; otherwise the call ends with a `PrintfException`. -/
theorem C86_integer (dates : DateSyntax) (env : DateEnv) (jdk : JdkEnv) (hj : KnowsDigits jdk) (d : Directive)
    (h : d.Ok dates) (hp : d.Plain) (hc : d.conv = ch! 'd' ∨ d.conv = ch! 'i') (x : Integral) (e : Entry)
    (hx : x.Given e) :
    ∃ t, printf dates env d.text [e.toTraits jdk] = .ok t ∧
      CountsAs dates env jdk t (32 ∉ t ∧ ¬ (x.value = 0 ∧ d.prec.precision = some 0)) x.value := by
  refine ⟨_, printf_d env jdk h hp hc hx [], countsAs fun v' => ?_⟩
  have hw := signed_whole (dText_signed (flagSet d.flags) d.width.width d.prec.precision x.value)
  rw [hw.integer hj v', wholeValue_natAbs, Int.natAbs_eq_zero, and_assoc]

/-- **C86 (`%u`).** The same for `%u`: the text counts as the unsigned reading. -/
theorem C86_unsigned (dates : DateSyntax) (env : DateEnv) (jdk : JdkEnv) (hj : KnowsDigits jdk) (d : Directive)
    (h : d.Ok dates) (hp : d.Plain) (hc : d.conv = ch! 'u') (x : Integral) (e : Entry) (hx : x.Given e) (n : Nat)
    (hn : x.unsigned = some n) :
    ∃ t, printf dates env d.text [e.toTraits jdk] = .ok t ∧
      CountsAs dates env jdk t (32 ∉ t ∧ ¬ (n = 0 ∧ d.prec.precision = some 0)) n := by
  refine ⟨_, printf_u env jdk h hp (c := .u) hc hx hn [], countsAs fun v' => ?_⟩
  have hw := unsigned_whole (uText_unsigned .u (flagSet d.flags) d.width.width d.prec.precision n)
  rw [hw.integer hj v', and_assoc]
  rfl

/-- **C86 (integers as doubles).** Under the floating-point conversions spaces do not matter: the text of `%d`
prints like the integer itself, if that is not a `BigInteger`. -/
theorem C86_integer_double (dates : DateSyntax) (env : DateEnv) (jdk : JdkEnv) (hj : ParsesDoubles jdk) (d : Directive)
    (h : d.Ok dates) (hp : d.Plain) (hc : d.conv = ch! 'd' ∨ d.conv = ch! 'i') (x : Integral) (hb : ∀ v, x ≠ .big v)
    (e : Entry) (hx : x.Given e) (h0 : ¬ (x.value = 0 ∧ d.prec.precision = some 0)) :
    ∃ t, printf dates env d.text [e.toTraits jdk] = .ok t ∧ StandsFor dates env jdk t e := by
  refine ⟨_, printf_d env jdk h hp hc hx [], ?_⟩
  have hw := signed_whole (dText_signed (flagSet d.flags) d.width.width d.prec.precision x.value)
  have hn := JavaDouble.ofInt_nearest (integral_abs_le hb)
  obtain ⟨n1, n2, n3⟩ := hn
  have hr : ReadsAs (JavaDouble.ofInt x.value)
      (dText (flagSet d.flags) d.width.width d.prec.precision x.value) := by
    refine ⟨(x.value.natAbs : ℚ), ?_, ?_⟩
    · rw [hw.java (by rwa [Int.natAbs_eq_zero])]
      congr 2
      rw [decide_eq_decide, n2]
      exact_mod_cast Iff.rfl
    · have : ((x.value.natAbs : Nat) : ℚ) = |(x.value : ℚ)| := by
        rw [← Int.cast_abs, ← Int.natCast_natAbs, Int.cast_natCast]
      rw [this]; exact n3
  intro e' ht d' h' hp' hc' rest
  rw [C49_read_as_double dates env jdk d' h' hp' hc' e' _ (.text ht (hj.number _ _ n1 hr)) _ (.prim _) rest,
    C49_read_as_double dates env jdk d' h' hp' hc' e _ (.integral hx hb ⟨n1, n2, n3⟩) _ (.prim _) rest]

/-! ### The conditions can be met -/

open Classical in
/-- A `parseDouble` as documented, as far as the texts in question go. -/
noncomputable def Spec.documentedParse (s : JStr) : Option (BitVec 64) :=
  if trimmed s = js! "Infinity" ∨ trimmed s = js! "+Infinity" then some 0x7FF0000000000000#64
  else if trimmed s = js! "-Infinity" then some 0xFFF0000000000000#64
  else if trimmed s = js! "NaN" then some 0x7FF8000000000000#64
  else if h : ∃ bits, finite bits ∧ ReadsAs bits s then some h.choose else none

theorem javaNumber_trimmed (s : JStr) : javaNumber s =
    match (trimmed s).map javaLower with
    | c :: r =>
      if c = ch! '-' then (javaMagnitude r).map (true, ·) else if c = ch! '+' then (javaMagnitude r).map (false, ·)
      else (javaMagnitude (c :: r)).map (false, ·)
    | [] => none := rfl

theorem name_no_number {s : JStr} (h : trimmed s ∈ [js! "Infinity", js! "+Infinity", js! "-Infinity", js! "NaN",
    js! "INFINITY", js! "+INFINITY", js! "-INFINITY", js! "NAN"]) {bits : BitVec 64} : ¬ ReadsAs bits s := by
  rintro ⟨v, hv, -⟩
  have : javaNumber s = none := by
    rw [javaNumber_trimmed]
    simp only [List.mem_cons, List.not_mem_nil, or_false] at h
    rcases h with h | h | h | h | h | h | h | h <;> rw [h] <;> decide +kernel
  rw [this] at hv
  cases hv

example : ParsesDoubles { sampleJdk with parseDouble := documentedParse } where
  number s bits hf hr := by
    have ex : ∃ bits, finite bits ∧ ReadsAs bits s := ⟨bits, hf, hr⟩
    show documentedParse s = _
    unfold documentedParse
    rw [if_neg fun h => name_no_number (by rcases h with h | h <;> simp [h]) hr,
      if_neg fun h => name_no_number (by simp [h]) hr, if_neg fun h => name_no_number (by simp [h]) hr, dif_pos ex]
    exact congrArg some (C59_determined ex.choose_spec.1 hf ex.choose_spec.2 hr)
  infinite s h := by
    show documentedParse s = _
    unfold documentedParse
    rw [if_pos h]
  minusInfinite s h := by
    show documentedParse s = _
    unfold documentedParse
    rw [h, if_neg (by decide), if_pos rfl]
  nan s h := by
    refine ⟨0x7FF8000000000000#64, by decide, by decide, ?_⟩
    show documentedParse s = _
    unfold documentedParse
    rw [h, if_neg (by decide), if_neg (by decide), if_pos rfl]
  capitals s h := by
    show documentedParse s = _
    unfold documentedParse
    rw [if_neg, if_neg, if_neg, dif_neg]
    · rintro ⟨bits, -, hr⟩
      refine name_no_number ?_ hr
      simp only [List.mem_cons, List.not_mem_nil, or_false] at h ⊢
      tauto
    all_goals
      intro h'
      simp only [List.mem_cons, List.not_mem_nil, or_false] at h
      revert h h'
      generalize trimmed s = u
      rintro (rfl | rfl | rfl | rfl) <;> decide

example : KnowsDigits sampleJdk := by
  refine ⟨fun c h1 h2 => ?_, rfl, rfl, rfl⟩
  show (if 48 ≤ c ∧ c ≤ 57 then some (c - 48) else none) = _
  rw [if_pos ⟨h1, h2⟩]

-- `%.16e`, `%+030.17G`, `%a`
example : EnoughDigits ⟨[], .absent, .digits (js! "16"), ch! 'e', none⟩ :=
  .inl ⟨.inl rfl, by decide⟩
example : EnoughDigits ⟨js! "+0", .digits (js! "30"), .digits (js! "17"), ch! 'G', none⟩ :=
  .inr (.inl ⟨.inr rfl, by decide⟩)
example : EnoughDigits ⟨[], .absent, .absent, ch! 'a', none⟩ :=
  .inr (.inr (.inr ⟨.inl rfl, by decide⟩))
-- an upper-case text, read in spite of the case and the spaces
example : printf ⟨fun _ => true⟩ sampleDateEnv (js! "%30A") [doubleArg 0xBFB999999999999A#64] =
    .ok (js! "         -0X1.999999999999AP-4") := by decide +kernel
example : javaNumber (js! "         -0X1.999999999999AP-4") = some (true, 0x1999999999999A * 2 ^ (-56 : Int)) := by
  decide +kernel
-- `%05d` and `%5d` of 42, given back under `%x`: the zeros do no harm, the spaces do
example : printf ⟨fun _ => true⟩ sampleDateEnv (js! "%05d|%5d|%-5d|%+d") (List.replicate 4 (intArg 42#32)) =
    .ok (js! "00042|   42|42   |+42") := by decide +kernel
example : printf ⟨fun _ => true⟩ sampleDateEnv (js! "%x %x") [strArg (js! "00042"), strArg (js! "+42")] =
    .ok (js! "2a 2a") := by decide +kernel
example : printf ⟨fun _ => true⟩ sampleDateEnv (js! "%x") [strArg (js! "   42")] =
    .error (refused .textToInt) := by decide +kernel
-- and under `*`
example : printf ⟨fun _ => true⟩ sampleDateEnv (js! "%*d|") [strArg (js! "-0004"), intArg 7#32] =
    .ok (js! "7   |") := by decide +kernel

end FastPrintf
