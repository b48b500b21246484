/-
Property C79: the number forms keep the contract of `NumberForm` and `IntForm`, except at two doubles.
-/
import Verif.Model.NumberForms
import Verif.Proofs.Integers
import Verif.Proofs.DoubleFormat
import Verif.Props.Text
import Verif.Props.Floating
import Verif.Props.BigDecimal
import Verif.Props.Readings
import Verif.Props.DoubleText

namespace FastPrintf
open Spec

/-- `signum()` as documented: -1, 0 or 1 as the number is negative, zero or positive, and the three questions
agree with it. -/
def Spec.SignContract (x : ℚ) (signum : Int) : Prop :=
  (signum = -1 ∧ x < 0 ∨ signum = 0 ∧ x = 0 ∨ signum = 1 ∧ 0 < x) ∧
  (NumberForm.isNegative signum = true ↔ x < 0) ∧ (NumberForm.isZero signum = true ↔ x = 0) ∧
  (NumberForm.isPositive signum = true ↔ 0 < x)

theorem signContract_of {x : ℚ} {k : Int} (h : k = -1 ∧ x < 0 ∨ k = 0 ∧ x = 0 ∨ k = 1 ∧ 0 < x) :
    SignContract x k := by
  refine ⟨h, ?_⟩
  rcases h with ⟨rfl, h⟩ | ⟨rfl, rfl⟩ | ⟨rfl, h⟩
  · refine ⟨by simpa [NumberForm.isNegative] using h, ?_, ?_⟩
    · simpa [NumberForm.isZero] using h.ne
    · simpa [NumberForm.isPositive] using h.le
  · simp [NumberForm.isNegative, NumberForm.isZero, NumberForm.isPositive]
  · refine ⟨by simpa [NumberForm.isNegative] using h.le, ?_, ?_⟩
    · simpa [NumberForm.isZero] using h.ne'
    · simpa [NumberForm.isPositive] using h

theorem signumOf_contract (v : Int) : SignContract (v : ℚ) (signumOf v) := by
  apply signContract_of
  unfold signumOf
  rcases lt_trichotomy v 0 with h | h | h
  · exact .inl ⟨by rw [if_pos h], by exact_mod_cast h⟩
  · subst h; exact .inr (.inl ⟨by simp, by simp⟩)
  · exact .inr (.inr ⟨by rw [if_neg (by omega), if_neg (by omega)], by exact_mod_cast h⟩)

/-- **C79 (integers).** Every integral argument has a form whose `signum()` is the sign of the number, whose
`toDecimalString()` is the absolute value (also of the least `int` and `long`), and whose other texts are the
unsigned reading in their bases; of a negative `BigInteger` they throw a `PrintfException`. -/
theorem C79_integers (jdk : JdkEnv) {x : Integral} {e : Entry} (h : x.Given e) :
    ∃ f, (e.toTraits jdk).asIntForm = .ok f ∧ SignContract (x.value : ℚ) f.signum ∧
      (∃ s, f.toDecimalString = .ok s ∧ Shortest 10 x.value.natAbs s) ∧
      (∀ n, x.unsigned = some n →
        (∃ s, f.toHexString = .ok s ∧ Shortest 16 n s) ∧ (∃ s, f.toOctalString = .ok s ∧ Shortest 8 n s) ∧
        (∃ s, f.toUnsignedDecimalString = .ok s ∧ Shortest 10 n s)) ∧
      (x.unsigned = none → ∀ t ∈ [f.toHexString, f.toOctalString, f.toUnsignedDecimalString],
        t = .error (.printf (.wrongType .negativeUnsigned))) := by
  obtain ⟨f, hf, hm⟩ := h.means jdk
  refine ⟨f, hf, by rw [hm.signum]; exact signumOf_contract _,
    ⟨_, hm.dec, shortest_toRadix (by omega) (by omega) _⟩, ?_, ?_⟩
  · intro n hn
    rw [hm.hex, hm.oct, hm.uns, hn]
    exact ⟨⟨_, rfl, shortest_toRadix (by omega) (by omega) _⟩, ⟨_, rfl, shortest_toRadix (by omega) (by omega) _⟩,
      ⟨_, rfl, shortest_toRadix (by omega) (by omega) _⟩⟩
  · intro hn t ht
    rw [hm.hex, hm.oct, hm.uns, hn] at ht
    simpa [unsignedDigits] using ht

-- the least long, and a negative BigInteger
example : (IntForm.ofLong 0x8000000000000000#64).toDecimalString = .ok (js! "9223372036854775808") ∧
    (IntForm.ofLong 0x8000000000000000#64).signum = -1 ∧
    (IntForm.ofBigInteger (-5)).toHexString = .error (.printf (.wrongType .negativeUnsigned)) := by
  decide +kernel

/-- **C79 (big numbers).** The same for the sign of a `BigDecimal` `u * 10^-scale`, which is neither NaN nor
infinite. -/
theorem C79_big (jdk : JdkEnv) {e : Entry} {u scale : Int} (h : IsBig e u scale) :
    ∃ f, (e.toTraits jdk).asFloatForm = .ok f ∧ SignContract ((u : ℚ) * 10 ^ (-scale)) f.signum ∧
      f.isNaN = false ∧ f.isInfinite = false := by
  refine ⟨_, h.form jdk, ?_, rfl, rfl⟩
  have hT : (0 : ℚ) < 10 ^ (-scale) := by positivity
  apply signContract_of
  unfold FloatForm.ofBigDecimal
  dsimp only
  rcases lt_trichotomy u 0 with hu | hu | hu
  · exact .inl ⟨by rw [if_pos hu], mul_neg_of_neg_of_pos (by exact_mod_cast hu) hT⟩
  · subst hu; exact .inr (.inl ⟨by simp, by simp⟩)
  · exact .inr (.inr ⟨by rw [if_neg (by omega), if_neg (by omega)], mul_pos (by exact_mod_cast hu) hT⟩)

example : SignContract (-25 / 10) (FloatForm.ofBigDecimal (-25) 1).signum := by
  obtain ⟨f, h1, h2, -⟩ := C79_big sampleJdk (IsBig.decimal (-25) 1 someId)
  cases h1
  have e : ((-25 : Int) : ℚ) * 10 ^ (-(1 : Int)) = -25 / 10 := by norm_num
  rwa [e] at h2

/-- **C79 (finite doubles).** The form of a finite `double` keeps the contract exactly if it is not `-0.0`. -/
theorem C79_double (jdk : JdkEnv) {e : Entry} {bits : BitVec 64} (h : IsDouble e bits) (hf : finite bits) :
    ∃ f, (e.toTraits jdk).asFloatForm = .ok f ∧ f.isNaN = false ∧ f.isInfinite = false ∧
      (SignContract (doubleValue bits) f.signum ↔ ¬ (negative bits ∧ magnitude bits = 0)) ∧
      (magnitude bits = 0 → f.signum = if negative bits then -1 else 0) := by
  have hni := (finite_iff bits).1 hf
  simp only [Bool.or_eq_false_iff] at hni
  refine ⟨_, h.form jdk, hni.1, hni.2, ?_⟩
  have hm : 0 ≤ magnitude bits := by unfold magnitude; positivity
  have key : (FloatForm.ofDouble bits).signum =
      if negative bits then -1 else if magnitude bits = 0 then 0 else 1 := by
    show JavaDouble.compareZero bits = _
    unfold JavaDouble.compareZero
    rw [if_neg (by simp [hni.1])]
    by_cases hs : negative bits
    · rw [if_pos (by unfold JavaDouble.signBit; simpa [negative] using hs), if_pos hs]
    · rw [if_neg (by unfold JavaDouble.signBit; simpa [negative] using hs), if_neg hs]
      by_cases h0 : magnitude bits = 0
      · rw [if_pos ((magnitude_zero_iff bits).1 h0), if_pos h0]
      · rw [if_neg (fun hc => h0 ((magnitude_zero_iff bits).2 hc)), if_neg h0]
  rw [key]
  constructor
  · unfold doubleValue signed
    by_cases hs : negative bits
    · simp only [hs, decide_true, if_true]
      constructor
      · rintro ⟨-, h1, -⟩ ⟨-, h0⟩
        rw [h0] at h1
        simp [NumberForm.isNegative] at h1
      · intro h0
        have : 0 < magnitude bits := lt_of_le_of_ne hm (fun hc => h0 ⟨trivial, hc.symm⟩)
        exact signContract_of (.inl ⟨rfl, by linarith⟩)
    · simp only [hs, decide_false, Bool.false_eq_true, if_false, false_and, not_false_iff, iff_true]
      by_cases h0 : magnitude bits = 0
      · rw [if_pos h0]; exact signContract_of (.inr (.inl ⟨rfl, h0⟩))
      · rw [if_neg h0]; exact signContract_of (.inr (.inr ⟨rfl, lt_of_le_of_ne hm (Ne.symm h0)⟩))
  · intro h0; rw [if_pos h0]

-- 1.5, and -0.0, which is not zero to the library
example : (FloatForm.ofDouble 0x3FF8000000000000#64).signum = 1 ∧
    NumberForm.isZero (FloatForm.ofDouble 0x8000000000000000#64).signum = false ∧
    NumberForm.isNegative (FloatForm.ofDouble 0x8000000000000000#64).signum = true := by decide +kernel
example : ¬ SignContract (doubleValue 0x8000000000000000#64) (FloatForm.ofDouble 0x8000000000000000#64).signum := by
  obtain ⟨f, h1, -, -, h2, -⟩ := C79_double sampleJdk (IsDouble.prim 0x8000000000000000#64) (by unfold finite; decide)
  cases h1
  rw [h2, not_not]
  refine ⟨by unfold negative; decide, ?_⟩
  rw [magnitude_zero_iff]; decide

/-- **C79 (other doubles).** An infinity has the sign it should have.  NaN, which has no sign, counts as
positive. -/
theorem C79_nonfinite (jdk : JdkEnv) {e : Entry} {bits : BitVec 64} (h : IsDouble e bits) (hf : ¬ finite bits) :
    ∃ f, (e.toTraits jdk).asFloatForm = .ok f ∧
      (fracBits bits ≠ 0 → f.isNaN = true ∧ f.isInfinite = false ∧ f.signum = 1) ∧
      (fracBits bits = 0 → f.isNaN = false ∧ f.isInfinite = true ∧
        f.signum = if negative bits then -1 else 1) := by
  refine ⟨_, h.form jdk, ?_⟩
  have he : expBits bits = 2047 := by unfold finite at hf; omega
  have e1 := expField_eq bits
  have e2 := fracField_eq bits
  constructor
  · intro h0
    have hn : JavaDouble.isNaN bits = true := by unfold JavaDouble.isNaN; rw [e1, e2, he]; simpa using h0
    refine ⟨hn, ?_, ?_⟩
    · show JavaDouble.isInfinite bits = false
      unfold JavaDouble.isInfinite; rw [e2]; simp [h0]
    · show JavaDouble.compareZero bits = 1
      unfold JavaDouble.compareZero; rw [if_pos hn]
  · intro h0
    have hn : JavaDouble.isNaN bits = false := by unfold JavaDouble.isNaN; rw [e2]; simp [h0]
    refine ⟨hn, ?_, ?_⟩
    · show JavaDouble.isInfinite bits = true
      unfold JavaDouble.isInfinite; rw [e1, e2, he]; simp [h0]
    · show JavaDouble.compareZero bits = _
      unfold JavaDouble.compareZero
      rw [if_neg (by simp [hn])]
      by_cases hs : negative bits
      · rw [if_pos (by unfold JavaDouble.signBit; simpa [negative] using hs), if_pos hs]
      · rw [if_neg (by unfold JavaDouble.signBit; simpa [negative] using hs), if_neg hs]
        rw [if_neg (by unfold JavaDouble.isZero; rw [e1, he]; simp)]

-- negative infinity, and NaN with a sign bit
example : (FloatForm.ofDouble 0xFFF0000000000000#64).signum = -1 ∧
    NumberForm.isPositive (FloatForm.ofDouble 0xFFF8000000000000#64).signum = true := by decide +kernel

/-- **C79 (texts).** `toString()` of a wrapper of an integer is its decimal text; of a `double` that of
`Double.toString`; of a `BigDecimal` a minus sign if it is negative and the text of the absolute value. -/
theorem C79_toString :
    (∀ v, DecimalText v.toInt (ByteWrapper.toString v)) ∧ (∀ v, DecimalText v.toInt (ShortWrapper.toString v)) ∧
    (∀ v, DecimalText v.toInt (IntWrapper.toString v)) ∧ (∀ v, DecimalText v.toInt (LongWrapper.toString v)) ∧
    (∀ v, DecimalText v (BigIntegerWrapper.toString v)) ∧
    (∀ bits, ∃ s, DoubleToDecimal.toString bits = .ok s ∧ DoubleText bits s) ∧
    (∀ jdk u s, BigDecimalWrapper.toString jdk u s =
      (if u < 0 then js! "-" else []) ++ jdk.bigDecimalToString |u| s) := by
  refine ⟨fun _ => decimalText_intToString _, fun _ => decimalText_intToString _, fun _ => decimalText_intToString _,
    fun _ => decimalText_intToString _, fun v => ?_, C53_double_text, fun jdk u s => ?_⟩
  · refine ⟨_, shortest_toRadix (by omega) (by omega) _, ?_⟩
    unfold BigIntegerWrapper.toString
    by_cases h : v < 0
    · rw [if_neg (by unfold signumOf; rw [if_pos h]; omega), if_pos h]; rfl
    · rw [if_pos (by unfold signumOf; rw [if_neg h]; split_ifs <;> omega), if_neg h]; rfl
  · unfold BigDecimalWrapper.toString
    rw [Int.natCast_natAbs]
    by_cases h : u < 0
    · rw [if_neg (by unfold signumOf; rw [if_pos h]; omega), if_pos h]; rfl
    · rw [if_pos (by unfold signumOf; rw [if_neg h]; split_ifs <;> omega), if_neg h]; rfl

example : BigIntegerWrapper.toString (-120) = js! "-120" ∧ LongWrapper.toString (-1) = js! "-1" := by decide +kernel

/-- **C79 (layouts).** `toString()` of a layout is the mantissa, then, if there is an exponent, an `e` and the
exponent, also where the exponent is binary. -/
theorem C79_layout (l : FloatLayout) (hm : l.mantissa.WF) (he : ∀ x, l.exponent = some x → x.WF) :
    l.toString = .ok (l.mantissa.text ++ (match l.exponent with | none => [] | some x => ch! 'e' :: x.text)) := by
  unfold FloatLayout.toString
  rw [Seq.appendToSB_ok hm.sane]
  simp only [bind_ok, List.nil_append]
  cases h : l.exponent with
  | none => simp
  | some x => dsimp only; rw [Seq.appendToSB_ok (he x h).sane]; simp

-- 1.5 in scientific and in hexadecimal layout
example : ((FloatForm.ofDouble 0x3FF8000000000000#64).scientificLayout 1 >>= FloatLayout.toString) = .ok (js! "1.5e+00") ∧
    ((FloatForm.ofDouble 0x3FF8000000000000#64).hexLayout 1 >>= FloatLayout.toString) = .ok (js! "1.8e+0") := by
  decide +kernel

end FastPrintf
