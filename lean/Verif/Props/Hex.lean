/-
Properties of `%a` of a `double` (C27), and of NaN, the infinities and the sign under every floating
conversion (C30).

They are about one directive without `*` (C09 reduces stars to written numbers, C05 composes directives).
The upper-case twins are covered by C19.
-/
import Verif.Proofs.HexFormat
import Verif.Props.Floating

namespace FastPrintf
open Spec DefaultAppender SeqFormatter

/-! ### `%a` -/

/-- **C27**, without a precision: `%a` denotes exactly the `double`, as `0x1.` (normal), `0x0.` (subnormal or
zero), hex digits without a superfluous zero, and the binary exponent. -/
theorem C27_exact (dates : DateSyntax) (env : DateEnv) (jdk : JdkEnv) (d : Directive) (h : d.Ok dates)
    (hp : d.Plain) (hc : d.conv = ch! 'a') (hn : d.prec.precision = none) (bits : BitVec 64)
    (hf : finite bits) (e : Entry) (he : IsDouble e bits) (rest : List Traits) :
    ∃ fp x body, printf dates env d.text (e.toTraits jdk :: rest) =
        .ok (d.field (signText (flagSet d.flags) (negative bits) ++ js! "0x") body) ∧
      HexText (if expBits bits = 0 then 0 else 1) fp x body ∧
      hexValue (if expBits bits = 0 then 0 else 1) fp x = magnitude bits ∧
      x = (if magnitude bits = 0 then 0 else if expBits bits = 0 then -1022 else (expBits bits : Int) - 1023) ∧
      fp ≠ [] ∧ (fp = js! "0" ∨ fp.getLast? ≠ some 48) := by
  obtain ⟨lead, fp, x, body, h1, h2, h3⟩ := printf_a env h hp hc (he.form jdk) hf rest
  rw [hn] at h3
  obtain ⟨v1, rfl, rfl, v2, v3⟩ := h3
  exact ⟨fp, _, body, h1, h2, v1, rfl, v2, v3⟩

/-- **C27**, with a precision of at least 13, or zero: the same value, with exactly that many digits. -/
theorem C27_exact_padded (dates : DateSyntax) (env : DateEnv) (jdk : JdkEnv) (d : Directive) (h : d.Ok dates)
    (hp : d.Plain) (hc : d.conv = ch! 'a') (p : Nat) (hn : d.prec.precision = some p) (bits : BitVec 64)
    (hf : finite bits) (hz : magnitude bits = 0 ∨ 13 ≤ p) (e : Entry) (he : IsDouble e bits)
    (rest : List Traits) :
    ∃ fp x body, printf dates env d.text (e.toTraits jdk :: rest) =
        .ok (d.field (signText (flagSet d.flags) (negative bits) ++ js! "0x") body) ∧
      HexText (if expBits bits = 0 then 0 else 1) fp x body ∧
      hexValue (if expBits bits = 0 then 0 else 1) fp x = magnitude bits ∧
      x = (if magnitude bits = 0 then 0 else if expBits bits = 0 then -1022 else (expBits bits : Int) - 1023) ∧
      fp.length = max 1 p := by
  obtain ⟨lead, fp, x, body, h1, h2, h3⟩ := printf_a env h hp hc (he.form jdk) hf rest
  rw [hn] at h3
  dsimp only at h3
  rw [if_pos hz] at h3
  obtain ⟨v0, v1, rfl, rfl⟩ := h3
  exact ⟨fp, _, body, h1, h2, v1, rfl, v0⟩

/-- **C27**, with a precision up to 12 (0 counts as 1): the text denotes the `double` rounded to that many
hex digits, to nearest, ties to even, as `0x1.` and exactly that many digits.  Subnormals are normalised. -/
theorem C27_rounded (dates : DateSyntax) (env : DateEnv) (jdk : JdkEnv) (d : Directive) (h : d.Ok dates)
    (hp : d.Plain) (hc : d.conv = ch! 'a') (p : Nat) (hn : d.prec.precision = some p) (hp12 : p ≤ 12)
    (bits : BitVec 64) (hf : finite bits) (hz : magnitude bits ≠ 0) (e : Entry) (he : IsDouble e bits)
    (rest : List Traits) :
    ∃ fp x body, printf dates env d.text (e.toTraits jdk :: rest) =
        .ok (d.field (signText (flagSet d.flags) (negative bits) ++ js! "0x") body) ∧
      HexText 1 fp x body ∧ fp.length = max 1 p ∧
      HexRounded (magnitude bits) (max 1 p) (hexValue 1 fp x) := by
  obtain ⟨lead, fp, x, body, h1, h2, h3⟩ := printf_a env h hp hc (he.form jdk) hf rest
  rw [hn] at h3
  dsimp only at h3
  rw [if_neg (by push Not; exact ⟨hz, by omega⟩)] at h3
  obtain ⟨v0, rfl, v1⟩ := h3
  exact ⟨fp, x, body, h1, h2, v0, v1⟩

/-- The rounded value is determined, ... -/
theorem C27_rounded_determined {v w w' : ℚ} {q : Nat} (h : HexRounded v q w) (h' : HexRounded v q w') :
    w = w' := h.unique h'

/-- ... the value and the number of digits determine the digits and the exponent, ... -/
theorem C27_digits_determined {fp fp' : JStr} {x x' : Int} {s s' : JStr} (h : HexText 1 fp x s)
    (h' : HexText 1 fp' x' s') (hl : fp.length = fp'.length) (hv : hexValue 1 fp x = hexValue 1 fp' x') :
    s = s' := by
  obtain ⟨rfl, rfl⟩ := hexValue_inj h.2.1 h'.2.1 hl hv
  exact h.unique h'

/-- **C27**: `%a` of a `BigDecimal` or `BigInteger` is refused. -/
theorem C27_big (dates : DateSyntax) (env : DateEnv) (jdk : JdkEnv) (d : Directive) (h : d.Ok dates)
    (hp : d.Plain) (hc : d.conv = ch! 'a') (o : Obj)
    (ho : (∃ u s id, o = .bigDecimal u s id) ∨ ∃ v id, o = .bigInteger v id) (rest : List Traits) :
    printf dates env d.text ((Entry.ref o).toTraits jdk :: rest) = .error (.printf (.wrongType .bigDecimalHex)) := by
  rw [printf_plain h hp, hc, show convOf (ch! 'a') = .a from rfl]
  rcases ho with ⟨u, s, id, rfl⟩ | ⟨v, id, rfl⟩ <;> rfl

/-! ### NaN, the infinities, and the sign -/

theorem nonFiniteText_eq {bits : BitVec 64} (hf : ¬ finite bits) (ctx : FormatContext) :
    nonFiniteText ctx (FloatForm.ofDouble bits) = nonFiniteName bits ctx.flags.plus := by
  have he : expBits bits = 2047 := by unfold finite at hf; omega
  have hnan : (FloatForm.ofDouble bits).isNaN = decide (fracBits bits ≠ 0) := by
    show JavaDouble.isNaN bits = _
    unfold JavaDouble.isNaN
    rw [expField_eq, fracField_eq, he]; simp
  unfold nonFiniteText nonFiniteName
  rw [hnan]
  by_cases h : fracBits bits = 0
  · have hneg : (FloatForm.ofDouble bits).signum < 0 ↔ negative bits := by
      show JavaDouble.compareZero bits < 0 ↔ _
      unfold JavaDouble.compareZero JavaDouble.signBit negative JavaDouble.isZero
      have h1 : JavaDouble.isNaN bits = false := by
        have : JavaDouble.isNaN bits = decide (fracBits bits ≠ 0) := hnan
        rw [this, h]; rfl
      rw [h1, expField_eq, he]
      simp
      by_cases hs : 9223372036854775808 ≤ bits.toNat <;> simp [hs]
    simp only [h, ne_eq, not_true_eq_false, decide_false, Bool.false_eq_true, if_false]
    by_cases hn : negative bits
    · rw [if_pos hn, if_pos (hneg.2 hn)]
    · rw [if_neg hn, if_neg (fun hx => hn (hneg.1 hx))]
  · simp [h]

/-- **C30**, non-finite values: NaN prints as `NaN`, the infinities as `Infinity` after `-`, or after `+` if
that flag is given; padded with spaces to the width, on the right if `-` is given.  The precision and the
flags `0`, `#` and space have no effect. -/
theorem C30_nonfinite (dates : DateSyntax) (env : DateEnv) (jdk : JdkEnv) (d : Directive) (h : d.Ok dates)
    (hp : d.Plain) (hc : d.conv ∈ floatConvs) (bits : BitVec 64) (hf : ¬ finite bits) (e : Entry)
    (he : IsDouble e bits) (rest : List Traits) :
    printf dates env d.text (e.toTraits jdk :: rest) =
      .ok (field (flagSet d.flags).leftJustify false d.width.width []
        (nonFiniteName bits (flagSet d.flags).plus)) := by
  have hv := he.form jdk
  have hnf : ((FloatForm.ofDouble bits).isNaN || (FloatForm.ofDouble bits).isInfinite) = true := by
    rw [← Bool.not_eq_false]; exact fun hx => hf ((finite_iff bits).2 hx)
  obtain ⟨r, r1, r2, r3⟩ := nonFinite_ok d.context (FloatForm.ofDouble bits)
  have hs : formatterFor env (convOf d.conv) d.context (e.toTraits jdk) = .ok r := by
    simp only [floatConvs, List.mem_cons, List.not_mem_nil, or_false] at hc
    rcases hc with hc | hc | hc | hc <;> rw [hc]
    · rw [show convOf (ch! 'a') = .a from rfl]
      simp only [formatterFor, hv, bind_ok]
      unfold SeqFormatter.a; rw [if_pos hnf, r1]
    · rw [show convOf (ch! 'e') = .e from rfl]
      simp only [formatterFor, hv, bind_ok]
      unfold SeqFormatter.e; rw [if_pos hnf, r1]
    · rw [show convOf (ch! 'f') = .f from rfl]
      simp only [formatterFor, hv, bind_ok]
      unfold SeqFormatter.f; rw [if_pos hnf, r1]
    · rw [show convOf (ch! 'g') = .g from rfl]
      simp only [formatterFor, hv, bind_ok]
      unfold SeqFormatter.g; rw [if_pos hnf, r1]
  rw [printf_plain_ok h hp hs r2.sane, r3, hp.width_eq, nonFiniteText_eq hf]
  rfl

/-- The first character that is not a space. -/
def Spec.firstMark (s : JStr) : Option JChar := (s.dropWhile (· = 32)).head?

theorem firstMark_spaces (n : Nat) (s : JStr) : firstMark (List.replicate n 32 ++ s) = firstMark s := by
  unfold firstMark
  simp

theorem firstMark_cons {c : JChar} (h : c ≠ 32) (s : JStr) : firstMark (c :: s) = some c := by
  simp [firstMark, h]

/-- A body that starts with a digit is preceded by a minus sign only if that is in the sign. -/
theorem firstMark_field (left zero : Bool) (w : Nat) (fl : Flags) (neg : Bool) (pre body : JStr)
    (hb : ∃ c t, pre ++ body = c :: t ∧ 48 ≤ c ∧ c ≤ 57)
    (hpre : pre = [] ∨ ∃ c t, pre = c :: t ∧ 48 ≤ c ∧ c ≤ 57) :
    firstMark (field left zero w (signText fl neg ++ pre) body) = some 45 ↔ neg = true := by
  -- whatever follows the sign starts with a digit
  have key : ∀ n t, (∃ c u, t = c :: u ∧ 48 ≤ c ∧ c ≤ 57) →
      (firstMark (List.replicate n 32 ++ (signText fl neg ++ t)) = some 45 ↔ neg = true) := by
    rintro n _ ⟨c, u, rfl, h1, h2⟩
    rw [firstMark_spaces]
    unfold signText
    cases neg
    · have hc : firstMark (c :: u) ≠ some 45 := by
        rw [firstMark_cons (by omega)]; intro hx; cases hx; omega
      by_cases hpl : fl.plus = true
      · simp [hpl, firstMark]
      · by_cases hsp : fl.leadingSpace = true
        · rw [if_neg (by simp), if_neg hpl, if_pos hsp]
          have := firstMark_spaces 1 (c :: u)
          rw [show List.replicate 1 (32 : JChar) = js! " " from rfl] at this
          rw [this]; simp [hc]
        · simp only [Bool.false_eq_true, if_false, hpl, hsp]
          simpa using hc
    · simp [firstMark]
  unfold field
  dsimp only
  generalize w - ((signText fl neg ++ pre).length + body.length) = n
  cases left
  · cases zero
    · simp only [Bool.false_eq_true, if_false]
      rw [List.append_assoc, List.append_assoc]
      exact key n _ hb
    · simp only [Bool.false_eq_true, if_false, if_true]
      rw [List.append_assoc, List.append_assoc]
      refine key 0 _ ?_
      rcases hpre with rfl | ⟨c, t, rfl, h1, h2⟩
      · cases n with
        | zero => simpa using hb
        | succ n => exact ⟨48, _, by rw [List.replicate_succ]; rfl, by omega, by omega⟩
      · exact ⟨c, _, rfl, h1, h2⟩
  · simp only [if_true]
    rw [List.append_assoc, List.append_assoc]
    refine key 0 _ ?_
    obtain ⟨c, t, e, h1, h2⟩ := hb
    exact ⟨c, t ++ List.replicate n 32, by rw [← List.append_assoc, e]; rfl, h1, h2⟩

theorem numeral_head {s : JStr} (h : IsNumeral 10 s) : ∃ c t, s = c :: t ∧ 48 ≤ c ∧ c ≤ 57 := by
  obtain ⟨h1, h2⟩ := h
  cases s with
  | nil => exact absurd rfl h1
  | cons c t =>
    refine ⟨c, t, rfl, ?_⟩
    have := h2 c (by simp)
    unfold IsDigitIn digitVal at this
    split_ifs at this <;> omega

theorem head_append {s : JStr} (h : ∃ c t, s = c :: t ∧ 48 ≤ c ∧ c ≤ 57) (u : JStr) :
    ∃ c t, s ++ u = c :: t ∧ 48 ≤ c ∧ c ≤ 57 := by
  obtain ⟨c, t, rfl, h1, h2⟩ := h
  exact ⟨c, t ++ u, rfl, h1, h2⟩

theorem Spec.FixedText.head {m p : Nat} {alt : Bool} {s : JStr} (h : FixedText m p alt s) :
    ∃ c t, s = c :: t ∧ 48 ≤ c ∧ c ≤ 57 := by
  obtain ⟨ip, fp, rfl, h1, -⟩ := h
  exact head_append (numeral_head h1) _

theorem Spec.MinimalText.head {v : ℚ} {s : JStr} (h : MinimalText v s) :
    ∃ c t, s = c :: t ∧ 48 ≤ c ∧ c ≤ 57 := by
  obtain ⟨ip, fp, rfl, h1, -⟩ := h
  exact head_append (numeral_head h1) _

theorem Spec.GeneralText.head {P n : Nat} {alt : Bool} {m : Nat} {x : Int} {s : JStr}
    (h : GeneralText P n alt m x s) : ∃ c t, s = c :: t ∧ 48 ≤ c ∧ c ≤ 57 := by
  unfold GeneralText at h
  by_cases hx : -4 ≤ x ∧ x < P
  · rw [if_pos hx] at h
    cases alt
    · exact Spec.MinimalText.head h
    · exact Spec.FixedText.head h
  · rw [if_neg hx] at h
    obtain ⟨ms, xs, rfl, -, h⟩ := h
    cases alt
    · exact head_append (Spec.MinimalText.head h) _
    · obtain ⟨m', -, h⟩ := h
      exact head_append h.head _

/-- **C30**, the sign: under every floating conversion and all flags, a finite `double` prints a `-` in
front exactly if its sign bit is set; so `-0.0` does. -/
theorem C30_sign (dates : DateSyntax) (env : DateEnv) (jdk : JdkEnv) (d : Directive) (h : d.Ok dates)
    (hp : d.Plain) (hc : d.conv ∈ floatConvs) (bits : BitVec 64) (hf : finite bits) (e : Entry)
    (he : IsDouble e bits) (rest : List Traits) :
    ∃ out, printf dates env d.text (e.toTraits jdk :: rest) = .ok out ∧
      (firstMark out = some (ch! '-') ↔ negative bits) := by
  have hv := he.form jdk
  simp only [floatConvs, List.mem_cons, List.not_mem_nil, or_false] at hc
  -- the sign bit as a truth value
  have fin : ∀ (pre body : JStr), (∃ c t, pre ++ body = c :: t ∧ 48 ≤ c ∧ c ≤ 57) →
      (pre = [] ∨ ∃ c t, pre = c :: t ∧ 48 ≤ c ∧ c ≤ 57) →
      (firstMark (d.field (signText (flagSet d.flags) (negative bits) ++ pre) body) = some 45 ↔
        negative bits) := by
    intro pre body h1 h2
    rw [Directive.field, firstMark_field _ _ _ _ _ _ _ h1 h2]
    simp
  have fin' : ∀ body : JStr, (∃ c t, body = c :: t ∧ 48 ≤ c ∧ c ≤ 57) →
      (firstMark (d.field (signText (flagSet d.flags) (negative bits)) body) = some 45 ↔ negative bits) := by
    intro body hb
    have := fin [] body hb (.inl rfl)
    rwa [List.append_nil] at this
  rcases hc with hc | hc | hc | hc
  · obtain ⟨lead, fp, x, body, h1, ⟨h2, -⟩, -⟩ := printf_a env h hp hc hv hf rest
    exact ⟨_, h1, fin _ _ ⟨48, _, rfl, by omega, by omega⟩ (.inr ⟨48, _, rfl, by omega, by omega⟩)⟩
  · obtain ⟨m, ex, h1, h2⟩ := printf_e env h hp hc hv hf rest
    refine ⟨_, h1, fin' _ (head_append ?_ _)⟩
    rcases h2 with ⟨-, h2, -⟩ | ⟨_, _, _, -, -, -, h2, -⟩ <;> exact h2.head
  · obtain ⟨q, body, h1, -, h2⟩ := printf_f env h hp hc hv hf rest
    exact ⟨_, h1, fin' _ h2.head⟩
  · obtain ⟨body, h1, h2⟩ := printf_g env h hp hc hv hf rest rfl
    refine ⟨_, h1, fin' _ ?_⟩
    rcases h2 with ⟨-, h2⟩ | ⟨_, _, _, -, -, -, _, _, -, -, h2⟩
    · by_cases ha : (flagSet d.flags).alternate = true
      · rw [if_pos ha] at h2; exact h2.head
      · rw [if_neg ha] at h2; exact ⟨48, _, h2, by omega, by omega⟩
    · exact h2.head

/-! ### Examples -/

-- the hypotheses are met
example : ¬ finite 0x7FF0000000000000#64 := by unfold finite; decide
example : (Directive.mk (js! "0+") (.digits (js! "12")) (.digits (js! "3")) (ch! 'a') none).Ok
    ⟨fun _ => true⟩ :=
  ⟨by decide, by decide, ⟨by decide, by decide, by simp [IsDigit], by decide⟩,
    ⟨by simp [IsDigit], by decide⟩, by decide,
    by intro p hp; exact absurd hp (by simp), by intro hc; exact absurd hc (by decide)⟩

-- 10.3; the tie 0x1.08p+0 and the tie 0x1.18p+0
example : printf ⟨fun _ => true⟩ sampleDateEnv (js! "%a|%.1a|%.1a|%.0a|%.14a") [doubleArg 0x402499999999999A#64,
    doubleArg 0x3FF0800000000000#64, doubleArg 0x3FF1800000000000#64, doubleArg 0x3FF1800000000000#64,
    doubleArg 0xC02499999999999A#64] =
    .ok (js! "0x1.499999999999ap+3|0x1.0p+0|0x1.2p+0|0x1.2p+0|-0x1.499999999999a0p+3") := by decide +kernel
-- a subnormal is exact without precision and normalised with one; the greatest double rounds up to 2^1024
example : printf ⟨fun _ => true⟩ sampleDateEnv (js! "%a|%.3a|%.3a|%a|%012.3a") [doubleArg 3#64, doubleArg 3#64,
    doubleArg 0x7FEFFFFFFFFFFFFF#64, doubleArg 0x8000000000000000#64, doubleArg 0#64] =
    .ok (js! "0x0.0000000000003p-1022|0x1.800p-1073|0x1.000p+1024|-0x0.0p+0|0x000.000p+0") := by decide +kernel
-- no zero padding and no space for the infinities
example : printf ⟨fun _ => true⟩ sampleDateEnv (js! "%010f|%+.2e|% g|%-9a|") [doubleArg 0x7FF0000000000000#64,
    doubleArg 0x7FF0000000000000#64, doubleArg 0x7FF0000000000000#64, doubleArg 0xFFF8000000000000#64] =
    .ok (js! "  Infinity|+Infinity|Infinity|NaN      |") := by decide +kernel
-- `-0.0` has a sign, a negative NaN has none
example : printf ⟨fun _ => true⟩ sampleDateEnv (js! "%.0f|%f") [doubleArg 0x8000000000000000#64,
    doubleArg 0xFFF8000000000000#64] = .ok (js! "-0|NaN") := by decide +kernel

end FastPrintf
