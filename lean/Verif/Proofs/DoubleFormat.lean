/-
`%f`, `%e` and `%g` of a `double`, from the decimal that stands for it to the printed field.
-/
import Verif.Proofs.DecimalFormat
import Verif.Proofs.Integers
import Verif.Proofs.Library
import Verif.Proofs.Width
import Verif.Props.Double

namespace FastPrintf
open Spec SeqFormatter DefaultAppender

/-! ### The fields of a `double` -/

theorem expField_eq (bits : BitVec 64) : JavaDouble.expField bits = expBits bits := rfl
theorem fracField_eq (bits : BitVec 64) : JavaDouble.fracField bits = fracBits bits := rfl

theorem magnitude_zero_iff (bits : BitVec 64) : magnitude bits = 0 ↔ JavaDouble.isZero bits = true := by
  unfold magnitude JavaDouble.isZero
  rw [expField_eq, fracField_eq]
  have h2 : (2 : ℚ) ^ doubleQ bits ≠ 0 := by positivity
  rw [mul_eq_zero_iff_right h2]
  unfold doubleC
  by_cases h : expBits bits = 0
  · simp [h]
  · rw [if_neg h]
    simp only [h, decide_false, Bool.false_and, Bool.false_eq_true, iff_false]
    push_cast
    positivity

theorem finite_iff (bits : BitVec 64) :
    finite bits ↔ (JavaDouble.isNaN bits || JavaDouble.isInfinite bits) = false := by
  unfold finite JavaDouble.isNaN JavaDouble.isInfinite
  rw [expField_eq, fracField_eq]
  by_cases h : expBits bits = 2047 <;> by_cases h' : fracBits bits = 0 <;> simp [h, h']

theorem abs_toNat (bits : BitVec 64) : (JavaDouble.abs bits).toNat = bits.toNat % 2 ^ 63 := by
  unfold JavaDouble.abs
  rw [BitVec.toNat_ofNat]
  exact Nat.mod_eq_of_lt (lt_trans (Nat.mod_lt _ (by positivity)) (by norm_num))

theorem expBits_abs (bits : BitVec 64) : expBits (JavaDouble.abs bits) = expBits bits := by
  unfold expBits; rw [abs_toNat]; omega

theorem fracBits_abs (bits : BitVec 64) : fracBits (JavaDouble.abs bits) = fracBits bits := by
  unfold fracBits; rw [abs_toNat]; omega

theorem finite_abs {bits : BitVec 64} : finite (JavaDouble.abs bits) ↔ finite bits := by
  unfold finite; rw [expBits_abs]

theorem magnitude_abs (bits : BitVec 64) : magnitude (JavaDouble.abs bits) = magnitude bits := by
  unfold magnitude doubleC doubleQ; rw [expBits_abs, fracBits_abs]

theorem javaDecimal_abs {bits : BitVec 64} {d : ℚ} :
    JavaDecimal (JavaDouble.abs bits) d ↔ JavaDecimal bits d := by
  unfold JavaDecimal; rw [magnitude_abs]
  have : doubleC (JavaDouble.abs bits) = doubleC bits := by
    unfold doubleC; rw [expBits_abs, fracBits_abs]
  rw [this]

theorem lastPlace_abs {bits : BitVec 64} {e : Int} :
    LastPlace (JavaDouble.abs bits) e ↔ LastPlace bits e := by
  have h1 : doubleC (JavaDouble.abs bits) = doubleC bits := by
    unfold doubleC; rw [expBits_abs, fracBits_abs]
  have h2 : doubleQ (JavaDouble.abs bits) = doubleQ bits := by unfold doubleQ; rw [expBits_abs]
  unfold LastPlace; rw [magnitude_abs, h1, h2]

/-- The split is only asked of absolute values, where it does not miss the byte array. -/
theorem split_abs (bits : BitVec 64) :
    DoubleToDecimal.split (JavaDouble.abs bits) = DoubleToDecimal.toDecimal (JavaDouble.abs bits) := by
  have h : (JavaDouble.abs bits).slt 0#64 = false := by
    have := abs_toNat bits
    have := Nat.mod_lt bits.toNat (show 2 ^ 63 > 0 by norm_num)
    rw [BitVec.slt_eq_decide, BitVec.toInt_eq_toNat_of_lt (by omega)]
    simp
  unfold DoubleToDecimal.split
  rw [h, if_neg (by simp)]

/-- The sign the library sees. -/
theorem compareZero_neg {bits : BitVec 64} (hf : finite bits) :
    JavaDouble.compareZero bits < 0 ↔ negative bits := by
  have hn : JavaDouble.isNaN bits = false := by
    have := (finite_iff bits).1 hf
    simp only [Bool.or_eq_false_iff] at this
    exact this.1
  unfold JavaDouble.compareZero negative
  rw [hn]
  by_cases hs : 2 ^ 63 ≤ bits.toNat
  · have : JavaDouble.signBit bits = true := by unfold JavaDouble.signBit; simpa using hs
    rw [this]
    exact ⟨fun _ => hs, fun _ => by simp⟩
  · have : JavaDouble.signBit bits = false := by unfold JavaDouble.signBit; simpa using hs
    simp only [this, Bool.false_eq_true, if_false, hs, iff_false]
    split_ifs <;> omega

/-! ### Its decimal -/

namespace FormattedFPDecimal

theorem ofBits_nonzero {bits : BitVec 64} (hf : finite bits) (h0 : magnitude bits ≠ 0) :
    ∃ x f n e, ofBits (JavaDouble.abs bits) = .ok x ∧ x.Nonzero f n e ∧
      JavaDecimal bits ((f : ℚ) * 10 ^ e) ∧ LastPlace bits e := by
  obtain ⟨f, e, n, h1, h2, h3, h4, h5, h6, h7, h8, h9, h10⟩ :=
    (DoubleToDecimal.toDecimal_ok (finite_abs.2 hf) (by rwa [magnitude_abs])).out
  refine ⟨_, f.toNat, n, e, ?_, ⟨rfl, h4, ?_, h5, h6, h7, h8⟩, javaDecimal_abs.1 h9, lastPlace_abs.1 h10⟩
  · unfold ofBits
    rw [split_abs, h1]; rfl
  · by_contra hgt
    have : 10 ^ 17 ≤ 10 ^ (n - 1) := Nat.pow_le_pow_right (by omega) (by omega)
    omega

theorem Dec.Nonzero.down {x : Dec} {f n : Nat} {e : Int} (h : x.Nonzero f n e) :
    DigitsDownTo ((f : ℚ) * 10 ^ e) e n := by
  have h10 : (10 : ℚ) ≠ 0 := by norm_num
  have hp := h.pos
  have l : ((10 : ℚ) ^ (n - 1)) ≤ f := by exact_mod_cast h.lead
  have u : (f : ℚ) < 10 ^ n := by exact_mod_cast h.lt
  constructor
  · rw [show e + n - 1 = ((n - 1 : Nat) : Int) + e by omega, zpow_add₀ h10, zpow_natCast]
    exact mul_le_mul_of_nonneg_right l (by positivity)
  · rw [show e + n = (n : Int) + e by omega, zpow_add₀ h10, zpow_natCast]
    exact mul_lt_mul_of_pos_right u (by positivity)

theorem ofBits_zero {bits : BitVec 64} (h0 : magnitude bits = 0) :
    ofBits (JavaDouble.abs bits) = .ok { f := 0, e := 0, n := 0 } := by
  have h := (magnitude_zero_iff bits).1 h0
  have : JavaDouble.abs bits = 0#64 := by
    apply BitVec.eq_of_toNat_eq
    rw [abs_toNat]
    unfold JavaDouble.isZero JavaDouble.expField JavaDouble.fracField at h
    simp only [Bool.and_eq_true, decide_eq_true_eq] at h
    have : (0#64).toNat = 0 := rfl
    omega
  rw [this]; decide

end FormattedFPDecimal

namespace DoubleWrapper
open FormattedFPDecimal

theorem round_zero (pp : Int) : FormattedFPDecimal.round { f := 0, e := 0, n := 0 } pp = .ok { f := 0, e := 0, n := 1 } := by
  unfold FormattedFPDecimal.round; rw [if_pos (.inl rfl)]

theorem zero_ok : Dec.Ok { f := 0, e := 0, n := 1 } 0 1 0 :=
  ⟨rfl, by omega, by norm_num, .inr ⟨rfl, rfl, rfl⟩⟩

theorem decimal_text {bits : BitVec 64} (hf : finite bits) (p : Nat) (alt : Bool) :
    ∃ l d, decimalLayout bits p = .ok l ∧ DecimalOf bits d ∧
      FixedText (halfUp d p) p alt (fracText l.mantissa.text p alt) := by
  by_cases h0 : magnitude bits = 0
  · obtain ⟨t, t1, t2⟩ := plainChars_fixed zero_ok (p := p) (by omega) alt
    refine ⟨{ mantissa := toSeq t, exponent := none }, 0, ?_, .inl ⟨h0, rfl⟩, ?_⟩
    · unfold decimalLayout plain
      rw [ofBits_zero h0]
      simp only [bind_ok, round_zero, t1, pure_eq_ok]
    · rw [toSeq_text]
      have : halfUp 0 p = 0 := by unfold halfUp; norm_num
      rw [this]
      simpa using t2
  · obtain ⟨x, f, n, e, h1, h2, h3, h4⟩ := ofBits_nonzero hf h0
    obtain ⟨t, t1, t2⟩ := plain_fixed h2 p alt
    refine ⟨{ mantissa := toSeq t, exponent := none }, _, ?_, .inr ⟨h0, h3⟩, ?_⟩
    · unfold decimalLayout
      rw [h1]
      simp only [bind_ok, t1, pure_eq_ok]
    · rwa [toSeq_text]

theorem zeroText_fixed (p : Nat) (alt : Bool) : FixedText 0 p alt (fracText (js! "0") p alt) := by
  have w : Written (js! "0") (js! "0") [] :=
    ⟨⟨by decide, by decide⟩, by simp, .inr ⟨rfl, rfl⟩⟩
  have := w.fixed (.inl rfl) (p := p) (by simp) (.inr rfl) alt
  simpa [valueIn, digitVal] using this

theorem scientific_text {bits : BitVec 64} (hf : finite bits) (p : Nat) (alt : Bool) :
    ∃ m ex, scientificLayout bits p = .ok ⟨m, some ex⟩ ∧
      ((magnitude bits = 0 ∧ FixedText 0 p alt (fracText m.text p alt) ∧ ex.text = js! "+00") ∨
        (∃ d M x, magnitude bits ≠ 0 ∧ JavaDecimal bits d ∧ Significant d (p + 1) M x ∧
          FixedText M p alt (fracText m.text p alt) ∧ ExponentText x ex.text)) := by
  by_cases h0 : magnitude bits = 0
  · refine ⟨Seq.ch (ch! '0'), Seq.wrap (js! "+00"), ?_, .inl ⟨h0, ?_, ?_⟩⟩
    · unfold scientificLayout
      rw [if_pos ((magnitude_zero_iff bits).1 h0)]
    · rw [Seq.ch_text]; exact zeroText_fixed p alt
    · rw [Seq.wrap_text]
  · obtain ⟨x, f, n, e, h1, h2, h3, h4⟩ := ofBits_nonzero hf h0
    obtain ⟨t, s, M, er, t1, t2, t3, t4⟩ := scientific_ok h2 p alt
    refine ⟨toSeq t, toSeq s, ?_, .inr ⟨_, M, er, h0, h3, t3, ?_, ?_⟩⟩
    · unfold scientificLayout
      rw [if_neg (fun h => h0 ((magnitude_zero_iff bits).2 h)), h1]
      simp only [bind_ok, t1, pure_eq_ok]
    · rwa [toSeq_text]
    · rwa [toSeq_text]

theorem general_text {bits : BitVec 64} (hf : finite bits) {P : Nat} (hP : 1 ≤ P) (alt : Bool) :
    ∃ l, generalLayout bits P = .ok l ∧ l.mantissa.flat.length = 1 ∧
      ((magnitude bits = 0 ∧
          if alt then FixedText 0 (P - 1) true (gText alt l P) else gText alt l P = js! "0") ∨
        (∃ d M x, magnitude bits ≠ 0 ∧ JavaDecimal bits d ∧ Significant d P M x ∧
          ∃ e n, LastPlace bits e ∧ DigitsDownTo d e n ∧ GeneralText P n alt M x (gText alt l P))) := by
  by_cases h0 : magnitude bits = 0
  · refine ⟨{ mantissa := Seq.ch (ch! '0'), exponent := none }, ?_, rfl, .inl ⟨h0, ?_⟩⟩
    · unfold generalLayout
      rw [if_pos ((magnitude_zero_iff bits).1 h0)]
    · simp only [gText, gDecimalText, Seq.ch_text]
      cases alt with
      | true =>
        simp only [if_true]
        have h := fixed_point (ip := js! "0") (fp := []) ⟨by decide, by decide⟩ (.inl rfl) (by simp) (P - 1)
          true (by simp)
        have hv : valueIn 10 (js! "0" ++ []) = 0 := by decide
        have hs : sigDigits (js! "0") = 1 := by decide
        have e : padText (js! "0") P = js! "0" ++ 46 :: ([] ++ List.replicate (P - 1) 48) := by
          unfold padText; rw [hs]; rfl
        rw [e]
        rw [hv] at h
        simpa using h
      | false => simp only [Bool.false_eq_true, if_false]; decide
  · obtain ⟨x, f, n, e, h1, h2, h3, h4⟩ := ofBits_nonzero hf h0
    obtain ⟨t, s, M, er, t1, t2, t3⟩ := general_ok h2 hP alt
    refine ⟨{ mantissa := toSeq t, exponent := s.map toSeq }, ?_, rfl,
      .inr ⟨_, M, er, h0, h3, t2, e, n, h4, h2.down, ?_⟩⟩
    · unfold generalLayout
      rw [if_neg (fun h => h0 ((magnitude_zero_iff bits).2 h)), h1]
      simp only [bind_ok, t1, pure_eq_ok]
    · cases s with
      | none => simpa [gText, toSeq_text] using t3
      | some s => simpa [gText, toSeq_text] using t3

end DoubleWrapper

/-! ### The precision -/

theorem precision6_eq {d : Directive} (h : d.Plain) :
    precision6 d.context = ((d.prec.precision.getD 6 : Nat) : Int) := by
  unfold precision6
  have e := h.prec_eq
  rcases h.precOK with hu | hp
  · rw [← e]; simp [precOf, FormatContext.isPrecisionSet, hu]
  · have e1 : UNSET = -1 := rfl
    have hn : d.context.precision ≠ UNSET := by omega
    rw [← e]; simp [precOf, FormatContext.isPrecisionSet, hn]; omega

theorem gPrecision_eq {d : Directive} (h : d.Plain) :
    gPrecision d.context = ((max 1 (d.prec.precision.getD 6) : Nat) : Int) := by
  unfold gPrecision
  have e := h.prec_eq
  rcases h.precOK with hu | hp
  · rw [← e]; simp [precOf, FormatContext.isPrecisionSet, hu]
  · have e1 : UNSET = -1 := rfl
    have hn : d.context.precision ≠ UNSET := by omega
    rw [← e, if_pos (isPrecisionSet_iff _ |>.2 hn)]
    simp only [precOf, hn, if_false, Option.getD_some]
    by_cases h0 : d.context.precision = 0
    · rw [if_pos h0, h0]; rfl
    · rw [if_neg h0]; omega

theorem printf_f {dates : DateSyntax} (env : DateEnv) {d : Directive} (h : d.Ok dates) (hp : d.Plain)
    (hc : d.conv = ch! 'f') {v : Traits} {bits : BitVec 64} (hv : v.asFloatForm = .ok (FloatForm.ofDouble bits))
    (hf : finite bits) (rest : List Traits) :
    ∃ q body, printf dates env d.text (v :: rest) =
        .ok (d.field (signText (flagSet d.flags) (decide (negative bits))) body) ∧ DecimalOf bits q ∧
      FixedText (halfUp q (d.prec.precision.getD 6)) (d.prec.precision.getD 6) (flagSet d.flags).alternate body := by
  obtain ⟨l, q, h1, h2, h3⟩ := DoubleWrapper.decimal_text hf (d.prec.precision.getD 6) (flagSet d.flags).alternate
  have hw := (DoubleWrapper.decimalLayout_wf h1).1
  obtain ⟨r, r1, r2, r3⟩ := f_ok hp.precOK (v := FloatForm.ofDouble bits) ((finite_iff bits).1 hf)
    (by rw [precision6_eq hp]; exact h1) hw
  refine ⟨q, _, ?_, h2, h3⟩
  have hs : formatterFor env (convOf d.conv) d.context v = .ok r := by
    rw [hc, show convOf (ch! 'f') = .f from rfl]
    simp only [formatterFor, hv, bind_ok, r1]
  rw [printf_plain_ok h hp hs r2.sane, r3, hp.width_eq, precision6_eq hp]
  have : decide ((FloatForm.ofDouble bits).signum < 0) = decide (negative bits) := by
    rw [decide_eq_decide]; exact compareZero_neg hf
  rw [this]
  rfl

theorem printf_e {dates : DateSyntax} (env : DateEnv) {d : Directive} (h : d.Ok dates) (hp : d.Plain)
    (hc : d.conv = ch! 'e') {v : Traits} {bits : BitVec 64} (hv : v.asFloatForm = .ok (FloatForm.ofDouble bits))
    (hf : finite bits) (rest : List Traits) :
    ∃ m ex, printf dates env d.text (v :: rest) =
        .ok (d.field (signText (flagSet d.flags) (decide (negative bits))) (m ++ ch! 'e' :: ex)) ∧
      ((magnitude bits = 0 ∧ FixedText 0 (d.prec.precision.getD 6) (flagSet d.flags).alternate m ∧ ex = js! "+00") ∨
        (∃ q M x, magnitude bits ≠ 0 ∧ JavaDecimal bits q ∧ Significant q (d.prec.precision.getD 6 + 1) M x ∧
          FixedText M (d.prec.precision.getD 6) (flagSet d.flags).alternate m ∧ ExponentText x ex)) := by
  obtain ⟨m, ex, h1, h2⟩ := DoubleWrapper.scientific_text hf (d.prec.precision.getD 6) (flagSet d.flags).alternate
  have hw := DoubleWrapper.scientificLayout_wf h1
  obtain ⟨r, r1, r2, r3⟩ := e_ok hp.precOK (v := FloatForm.ofDouble bits) ((finite_iff bits).1 hf)
    (by rw [precision6_eq hp]; exact h1) hw.1 (hw.2 ex rfl)
  refine ⟨_, ex.text, ?_, h2⟩
  have hs : formatterFor env (convOf d.conv) d.context v = .ok r := by
    rw [hc, show convOf (ch! 'e') = .e from rfl]
    simp only [formatterFor, hv, bind_ok, r1]
  rw [printf_plain_ok h hp hs r2.sane, r3, hp.width_eq, precision6_eq hp]
  have : decide ((FloatForm.ofDouble bits).signum < 0) = decide (negative bits) := by
    rw [decide_eq_decide]; exact compareZero_neg hf
  rw [this, List.append_assoc]
  rfl

theorem printf_g {dates : DateSyntax} (env : DateEnv) {d : Directive} (h : d.Ok dates) (hp : d.Plain)
    (hc : d.conv = ch! 'g') {v : Traits} {bits : BitVec 64} (hv : v.asFloatForm = .ok (FloatForm.ofDouble bits))
    (hf : finite bits) (rest : List Traits) {P : Nat} (hP : P = max 1 (d.prec.precision.getD 6)) :
    ∃ body, printf dates env d.text (v :: rest) =
        .ok (d.field (signText (flagSet d.flags) (decide (negative bits))) body) ∧
      ((magnitude bits = 0 ∧
          if (flagSet d.flags).alternate then FixedText 0 (P - 1) true body else body = js! "0") ∨
        (∃ q M x, magnitude bits ≠ 0 ∧ JavaDecimal bits q ∧ Significant q P M x ∧
          ∃ e n, LastPlace bits e ∧ DigitsDownTo q e n ∧
            GeneralText P n (flagSet d.flags).alternate M x body)) := by
  obtain ⟨l, h1, h2, h3⟩ := DoubleWrapper.general_text hf (P := P) (by omega) (flagSet d.flags).alternate
  have hw := DoubleWrapper.generalLayout_wf h1
  obtain ⟨r, r1, r2, r3⟩ := g_ok hp.precOK (v := FloatForm.ofDouble bits) ((finite_iff bits).1 hf)
    (l := l) (by rw [gPrecision_eq hp, ← hP]; exact h1) hw (.inl h2)
  refine ⟨_, ?_, h3⟩
  have hs : formatterFor env (convOf d.conv) d.context v = .ok r := by
    rw [hc, show convOf (ch! 'g') = .g from rfl]
    simp only [formatterFor, hv, bind_ok, r1]
  rw [printf_plain_ok h hp hs r2.sane, r3, hp.width_eq, gPrecision_eq hp, ← hP]
  have : decide ((FloatForm.ofDouble bits).signum < 0) = decide (negative bits) := by
    rw [decide_eq_decide]; exact compareZero_neg hf
  rw [this]
  rfl

end FastPrintf
