/-
Property of `FormattedFPDecimal.valueOf`, a public method, called directly: C117.
-/
import Verif.Model.FPValue
import Verif.Proofs.Layouts

namespace FastPrintf
open Spec FormattedFPDecimal DoubleWrapper

theorem abs_self {bits : BitVec 64} (h : ¬ negative bits) : JavaDouble.abs bits = bits := by
  apply BitVec.eq_of_toNat_eq
  rw [abs_toNat]
  unfold negative at h
  exact Nat.mod_eq_of_lt (by omega)

theorem exponent_field (bits : BitVec 64) : ((bits >>> 52) &&& 0x7FF#64).toNat = expBits bits := by
  unfold expBits
  rw [BitVec.toNat_and, BitVec.toNat_ushiftRight, Nat.shiftRight_eq_div_pow]
  exact Nat.and_two_pow_sub_one_eq_mod _ 11

theorem negative_slt {bits : BitVec 64} (h : negative bits) : bits.slt 0#64 = true := by
  unfold negative at h
  rw [BitVec.slt_eq_decide]
  have := bits.isLt
  rw [BitVec.toInt_eq_toNat_cond, if_neg (by omega)]
  simp
  omega

/-- **C117.**  A finite negative number, also `-0.0`, is refused with a `NullPointerException`, whatever the form. -/
theorem C117_negative (bits : BitVec 64) (hf : finite bits) (hn : negative bits) (p : Int) (form : JChar) :
    valueOf bits p form = .error .nullPointer := by
  have hs : DoubleToDecimal.split bits = .error .nullPointer := by
    unfold DoubleToDecimal.split
    rw [if_pos]
    refine ⟨negative_slt hn, ?_⟩
    rw [exponent_field]
    have h2 : DoubleToDecimal.BQ_MASK = 2047 := rfl
    have : expBits bits < 2048 := by unfold expBits; exact Nat.mod_lt _ (by norm_num)
    unfold finite at hf
    omega
  unfold valueOf ofBits
  rw [hs]; rfl

/-- **C117.**  `NaN` and the infinities give what `0.0` gives. -/
theorem C117_special (bits : BitVec 64) (hf : ¬ finite bits) (p : Int) (form : JChar) :
    valueOf bits p form = valueOf 0#64 p form := by
  have h : ofBits bits = ofBits 0#64 := by
    have he : expBits bits = 2047 := by
      unfold finite at hf
      have : expBits bits < 2048 := by unfold expBits; exact Nat.mod_lt _ (by norm_num)
      omega
    have hq : ((bits >>> 52) &&& 0x7FF#64).toNat = 2047 := by rw [exponent_field, he]
    have h2 : DoubleToDecimal.BQ_MASK = 2047 := rfl
    have h0 : ofBits 0#64 = .ok { f := 0, e := 0, n := 0 } := rfl
    rw [h0]
    unfold ofBits DoubleToDecimal.split DoubleToDecimal.toDecimal
    simp only [hq, h2, lt_irrefl, and_false, if_false]
    split_ifs <;> rfl
  unfold valueOf
  rw [h]

/-- **C117.**  Any other form than `e`, `f` and `g` is refused with an `IllegalArgumentException`. -/
theorem C117_form (bits : BitVec 64) (h : ¬ (finite bits ∧ negative bits)) (p : Int) (form : JChar)
    (h1 : form ≠ ch! 'e') (h2 : form ≠ ch! 'f') (h3 : form ≠ ch! 'g') :
    valueOf bits p form = .error .illegalArgument := by
  have key : ∃ x, ofBits bits = .ok x := by
    by_cases hf : finite bits
    · have hn : ¬ negative bits := fun hn => h ⟨hf, hn⟩
      by_cases h0 : magnitude bits = 0
      · have := ofBits_zero h0
        rw [abs_self hn] at this
        exact ⟨_, this⟩
      · obtain ⟨x, f, n, e, g1, -, -, -⟩ := ofBits_nonzero hf h0
        rw [abs_self hn] at g1
        exact ⟨_, g1⟩
    · have := C117_special bits hf 0 (ch! 'f')
      cases hb : ofBits bits with
      | ok x => exact ⟨x, rfl⟩
      | error e =>
        unfold valueOf at this
        rw [hb] at this
        cases this
  obtain ⟨x, hx⟩ := key
  unfold valueOf
  rw [hx, bind_ok, if_neg h1, if_neg h2, if_neg h3]

/-- The texts of a layout. -/
def FloatLayout.texts (l : FloatLayout) : JStr × Option JStr := (l.mantissa.text, l.exponent.map Seq.text)

/-- **C117.**  Of a positive finite number the mantissa and the exponent are those of the layouts of `FloatForm`, which
C111 describes. -/
theorem C117_layouts (bits : BitVec 64) (hn : ¬ negative bits) (h0 : magnitude bits ≠ 0) (p : Int) :
    ((FloatForm.ofDouble bits).scientificLayout p).map FloatLayout.texts =
        (valueOf bits p (ch! 'e')).map (fun r => (r.mantissa, r.exponent)) ∧
      ((FloatForm.ofDouble bits).decimalLayout p).map FloatLayout.texts =
        (valueOf bits p (ch! 'f')).map (fun r => (r.mantissa, r.exponent)) ∧
      ((FloatForm.ofDouble bits).generalLayout p).map FloatLayout.texts =
        (valueOf bits p (ch! 'g')).map (fun r => (r.mantissa, r.exponent)) := by
  have hz : JavaDouble.isZero bits ≠ true := fun h => h0 ((magnitude_zero_iff bits).2 h)
  have ha := abs_self hn
  refine ⟨?_, ?_, ?_⟩
  · show (DoubleWrapper.scientificLayout bits p).map _ = _
    unfold DoubleWrapper.scientificLayout valueOf FormattedFPDecimal.scientific
    rw [if_neg hz, ha]
    cases ofBits bits with
    | error e => rfl
    | ok x =>
      simp only [bind_ok, if_pos]
      cases FormattedFPDecimal.round x (p + 1) with
      | error e => rfl
      | ok y =>
        simp only [bind_ok]
        cases scientificChars y p with
        | error e => rfl
        | ok r => simp [FloatLayout.texts, toSeq_text, Except.map, pure_eq_ok]
  · show (DoubleWrapper.decimalLayout bits p).map _ = _
    unfold DoubleWrapper.decimalLayout valueOf FormattedFPDecimal.plain
    rw [ha]
    cases ofBits bits with
    | error e => rfl
    | ok x =>
      simp only [bind_ok, if_pos, if_neg (show (ch! 'f') ≠ ch! 'e' by decide)]
      cases FormattedFPDecimal.round x (x.n + x.e + p) with
      | error e => rfl
      | ok y =>
        simp only [bind_ok]
        cases plainChars y with
        | error e => rfl
        | ok r => simp [FloatLayout.texts, toSeq_text, Except.map, pure_eq_ok]
  · show (DoubleWrapper.generalLayout bits p).map _ = _
    unfold DoubleWrapper.generalLayout valueOf FormattedFPDecimal.general
    rw [if_neg hz, ha]
    cases ofBits bits with
    | error e => rfl
    | ok x =>
      simp only [bind_ok, if_pos, if_neg (show (ch! 'g') ≠ ch! 'e' by decide),
        if_neg (show (ch! 'g') ≠ ch! 'f' by decide)]
      cases FormattedFPDecimal.round x p with
      | error e => rfl
      | ok y =>
        simp only [bind_ok]
        by_cases hc : -4 ≤ exponentRounded y ∧ exponentRounded y < p
        · rw [if_pos hc, if_pos hc]
          cases plainChars y with
          | error e => rfl
          | ok r => simp [FloatLayout.texts, toSeq_text, Except.map, pure_eq_ok, bind_ok]
        · rw [if_neg hc, if_neg hc]
          cases scientificChars y (p - 1) with
          | error e => rfl
          | ok r => simp [FloatLayout.texts, toSeq_text, Except.map, pure_eq_ok, bind_ok]

/-- **C117.**  `getExponentRounded()` is the exponent of the decimal that stands for the number, rounded half up to
`p + 1` significant digits, and `getExponent()` writes it. -/
theorem C117_rounded (bits : BitVec 64) (hf : finite bits) (hn : ¬ negative bits) (h0 : magnitude bits ≠ 0) :
    ∃ q, JavaDecimal bits q ∧ ∀ p : Nat, ∃ r ex M, valueOf bits p (ch! 'e') = .ok r ∧ r.exponent = some ex ∧
      Significant q (p + 1) M r.rounded ∧ ExponentText r.rounded ex := by
  obtain ⟨x, f, n, e, h1, h2, h3, -⟩ := ofBits_nonzero hf h0
  rw [abs_self hn] at h1
  refine ⟨_, h3, fun p => ?_⟩
  obtain ⟨x', f', n', e', r1, r2, r3, r4, r5, r6, r7⟩ := round_significant h2 (P := p + 1) (by omega)
  obtain ⟨t, ip, fp, s, t1, t2, -⟩ := scientificChars_written r2 r3 (p := p) (by omega) r5 r6
  have her : exponentRounded x' = n' + e' - 1 := by rw [r2.eq]; rfl
  refine ⟨⟨t, some s, exponentRounded x'⟩, s, _, ?_, rfl, by rw [her]; exact r7, by rw [her]; exact t2⟩
  unfold valueOf
  rw [h1]
  simp only [bind_ok, if_pos]
  rw [show ((p : Int) + 1) = ((p + 1 : Nat) : Int) by push_cast; rfl, r1]
  simp only [bind_ok, t1, pure_eq_ok]

/-- **C117.**  Under form `g` as well, and there is an exponent exactly if it is below -4 or at least the precision. -/
theorem C117_rounded_g (bits : BitVec 64) (hf : finite bits) (hn : ¬ negative bits) (h0 : magnitude bits ≠ 0) :
    ∃ q, JavaDecimal bits q ∧ ∀ p : Nat, 1 ≤ p → ∃ r M, valueOf bits p (ch! 'g') = .ok r ∧
      Significant q p M r.rounded ∧
      if -4 ≤ r.rounded ∧ r.rounded < p then r.exponent = none
      else ∃ ex, r.exponent = some ex ∧ ExponentText r.rounded ex := by
  obtain ⟨x, f, n, e, h1, h2, h3, -⟩ := ofBits_nonzero hf h0
  rw [abs_self hn] at h1
  refine ⟨_, h3, fun p hp => ?_⟩
  obtain ⟨x', f', n', e', r1, r2, r3, r4, r5, r6, r7⟩ := round_significant h2 hp
  have her : exponentRounded x' = n' + e' - 1 := by rw [r2.eq]; rfl
  unfold valueOf
  rw [h1]
  simp only [bind_ok, if_neg (show (ch! 'g') ≠ ch! 'e' by decide), if_neg (show (ch! 'g') ≠ ch! 'f' by decide),
    if_pos, r1, her]
  by_cases hst : -4 ≤ (n' : Int) + e' - 1 ∧ (n' : Int) + e' - 1 < p
  · obtain ⟨t, t1, -⟩ := plainChars_minimal r2
    refine ⟨⟨t, none, n' + e' - 1⟩, _, ?_, r7, ?_⟩
    · rw [if_pos hst, t1]; rfl
    · rw [if_pos hst]
  · obtain ⟨t, ip, fp, s, t1, t2, -⟩ := scientificChars_written r2 r3 (p := p - 1) (by omega) r5 r6
    refine ⟨⟨t, some s, n' + e' - 1⟩, _, ?_, r7, ?_⟩
    · rw [if_neg hst, show (p : Int) - 1 = ((p - 1 : Nat) : Int) by omega, t1]; rfl
    · rw [if_neg hst]; exact ⟨s, rfl, t2⟩

/-- **C117.**  Under form `f` it is the decimal exponent of the number rounded half up to `p` places, and 0 if that
is zero. -/
theorem C117_rounded_f (bits : BitVec 64) (hf : finite bits) (hn : ¬ negative bits) (h0 : magnitude bits ≠ 0) :
    ∃ q, JavaDecimal bits q ∧ ∀ p : Nat, ∃ r, valueOf bits p (ch! 'f') = .ok r ∧ r.exponent = none ∧
      (halfUp q p = 0 → r.rounded = 0) ∧
      (halfUp q p ≠ 0 → (10 : ℚ) ^ (r.rounded + p) ≤ halfUp q p ∧ (halfUp q p : ℚ) < 10 ^ (r.rounded + p + 1)) := by
  have h10 : (10 : ℚ) ≠ 0 := by norm_num
  obtain ⟨x, f, n, e, h1, h, h3, -⟩ := ofBits_nonzero hf h0
  rw [abs_self hn] at h1
  refine ⟨_, h3, fun p => ?_⟩
  obtain ⟨x', f', n', e', r1, r2, r3, r4, -⟩ := round_ok (e := e) (s := e + p) h.pos h.le h.lead h.lt
  have key : 0 ≤ e' + p ∧ f' * 10 ^ (e' + p).toNat = roundNat f (e + p) := by
    by_cases hs : 0 ≤ e + p
    · obtain ⟨rfl, rfl, rfl⟩ := r3 hs
      refine ⟨hs, ?_⟩
      unfold roundNat; rw [if_pos hs]
    · rcases r4 (by omega) with ⟨g1, g2⟩ | ⟨g1, g2, g3⟩
      · refine ⟨by omega, ?_⟩
        rw [← g2]; congr 2; omega
      · rw [g1, g2, g3]; exact ⟨by omega, by simp⟩
  have her : exponentRounded x' = n' + e' - 1 := by rw [r2.eq]; rfl
  obtain ⟨t, t1, -⟩ := plainChars_minimal r2
  refine ⟨⟨t, none, n' + e' - 1⟩, ?_, rfl, ?_, ?_⟩
  · unfold valueOf
    rw [h1, h.eq]
    simp only [bind_ok, if_neg (show (ch! 'f') ≠ ch! 'e' by decide), if_pos]
    rw [show (n : Int) + e + p = n + (e + p) by omega, r1, bind_ok, t1, bind_ok, her]; rfl
  · intro hz
    rw [halfUp_eq, ← key.2] at hz
    rcases r2.lead with hl | ⟨-, hl, he⟩
    · have : 0 < f' := lt_of_lt_of_le (by positivity) hl
      have : 0 < f' * 10 ^ (e' + p).toNat := by positivity
      omega
    · show (n' : Int) + e' - 1 = 0
      omega
  · intro hz
    rw [halfUp_eq, ← key.2] at hz ⊢
    have hpos := r2.pos
    have hl : 10 ^ (n' - 1) ≤ f' := by
      rcases r2.lead with hl | ⟨hl, -, -⟩
      · exact hl
      · rw [hl, Nat.zero_mul] at hz; exact absurd rfl hz
    have e1 : (10 : ℚ) ^ ((n' : Int) + e' - 1 + p) = ((10 ^ (n' - 1) * 10 ^ (e' + p).toNat : Nat) : ℚ) := by
      push_cast
      rw [← pow_add, ← zpow_natCast]; congr 1; omega
    have e2 : (10 : ℚ) ^ ((n' : Int) + e' - 1 + p + 1) = ((10 ^ n' * 10 ^ (e' + p).toNat : Nat) : ℚ) := by
      push_cast
      rw [← pow_add, ← zpow_natCast]; congr 1; omega
    dsimp only
    rw [e1, e2]
    refine ⟨Nat.cast_le.2 (Nat.mul_le_mul_right _ hl), Nat.cast_lt.2 (Nat.mul_lt_mul_of_pos_right r2.lt (by positivity))⟩

/-- **C117.**  `0.0` gives one zero, with a point behind it where there is an exponent and a precision. -/
theorem C117_zero (p : Int) :
    valueOf 0#64 p (ch! 'f') = .ok ⟨js! "0", none, 0⟩ ∧
    valueOf 0#64 p (ch! 'e') = .ok ⟨if p = 0 then js! "0" else js! "0.", some (js! "+00"), 0⟩ ∧
    valueOf 0#64 p (ch! 'g') =
      .ok (if 1 ≤ p then ⟨js! "0", none, 0⟩ else ⟨js! "0.", some (js! "+00"), 0⟩) := by
  have hb : ofBits 0#64 = .ok { f := 0, e := 0, n := 0 } := rfl
  have hr : ∀ k, FormattedFPDecimal.round { f := 0, e := 0, n := 0 } k = .ok { f := 0, e := 0, n := 1 } := fun k => rfl
  have her : exponentRounded { f := 0, e := 0, n := 1 } = 0 := rfl
  have hs : ∀ k : Int, scientificChars { f := 0, e := 0, n := 1 } k =
      .ok (if k = 0 then js! "0" else js! "0.", js! "+00") := by
    intro k
    unfold scientificChars
    by_cases hk : k = 0
    · rw [if_neg (by simpa using hk), if_pos hk]; rfl
    · rw [if_pos hk, if_neg hk]; rfl
  have hp : plainChars { f := 0, e := 0, n := 1 } = .ok (js! "0") := rfl
  refine ⟨?_, ?_, ?_⟩
  · unfold valueOf
    simp only [hb, bind_ok, if_pos, if_neg (show (ch! 'f') ≠ ch! 'e' by decide), hr, hp, her, pure_eq_ok]
  · unfold valueOf
    simp only [hb, bind_ok, if_pos, hr, hs, her, pure_eq_ok]
  · unfold valueOf
    simp only [hb, bind_ok, if_pos, if_neg (show (ch! 'g') ≠ ch! 'e' by decide),
      if_neg (show (ch! 'g') ≠ ch! 'f' by decide), hr, hp, her, hs, pure_eq_ok]
    by_cases h : 1 ≤ p
    · rw [if_pos h, if_pos (by omega)]
    · rw [if_neg h, if_neg (by omega), if_neg (by omega)]

/-! The statements are about something -/

-- 999.5 is rounded to 1000, and 0.4 to zero
example : valueOf 0x408F3C0000000000#64 0 (ch! 'f') = .ok ⟨js! "1000", none, 3⟩ := by decide +kernel
example : valueOf 0x408F3C0000000000#64 3 (ch! 'g') = .ok ⟨js! "1.00", some (js! "+03"), 3⟩ := by decide +kernel
example : valueOf 0x3FD999999999999A#64 0 (ch! 'f') = .ok ⟨js! "0", none, 0⟩ := by decide +kernel
-- 1.5, -1.5, -0.0 and an infinity
example : valueOf 0x3FF8000000000000#64 0 (ch! 'e') = .ok ⟨js! "2", some (js! "+00"), 0⟩ := by decide +kernel
example : valueOf 0x3FF8000000000000#64 3 (ch! 'f') = .ok ⟨js! "1.500", none, 0⟩ := by decide +kernel
example : finite 0xBFF8000000000000#64 ∧ negative 0xBFF8000000000000#64 := by unfold finite expBits negative; decide
example : valueOf 0x8000000000000000#64 3 (ch! 'f') = .error .nullPointer := by decide +kernel
example : ¬ finite 0xFFF0000000000000#64 := by unfold finite expBits; decide
example : valueOf 0xFFF0000000000000#64 3 (ch! 'e') = .ok ⟨js! "0.", some (js! "+00"), 0⟩ := by decide +kernel
example : valueOf 0x3FF8000000000000#64 3 (ch! 'E') = .error .illegalArgument := by decide +kernel

end FastPrintf
