/-
C111: the layouts of a `FloatForm`, asked for directly.  `FloatForm.valueOf` is public and its layout methods
take any `int`; a directive only ever asks with a precision that is not negative, and pads what it gets.
-/
import Verif.Proofs.Layouts
import Verif.Props.BigDecimal
import Verif.Props.Floating

namespace FastPrintf
open Spec DoubleWrapper FormattedFPDecimal

/-- **C111**: the plain layout of a finite `double` is the decimal `q` that stands for it, rounded half up to `p`
places for every `p`, negative ones included; it is not padded to `p` digits. -/
theorem C111_decimal (bits : BitVec 64) (hf : finite bits) :
    ∃ q, DecimalOf bits q ∧ ∀ p : Int, ∃ l, (FloatForm.ofDouble bits).decimalLayout p = .ok l ∧
      l.exponent = none ∧ PlainDecimal (halfUp q p * 10 ^ (-p)) p.toNat l.mantissa.text := by
  by_cases h0 : magnitude bits = 0
  · refine ⟨0, .inl ⟨h0, rfl⟩, fun p => ⟨⟨toSeq (js! "0"), none⟩, ?_, rfl, ?_⟩⟩
    · show DoubleWrapper.decimalLayout bits p = _
      unfold DoubleWrapper.decimalLayout plain
      rw [ofBits_zero h0]
      simp only [bind_ok, DoubleWrapper.round_zero, pure_eq_ok]
      rfl
    · have : halfUp 0 p = 0 := by unfold halfUp; norm_num
      rw [this, toSeq_text]
      exact ⟨js! "0", [], by decide, by unfold IsNumeral; decide, by unfold NoExtraZero; decide, by decide,
        by simp, by norm_num [valueIn, digitVal]⟩
  · obtain ⟨x, f, n, e, h1, h2, h3, h4⟩ := ofBits_nonzero hf h0
    refine ⟨_, .inr ⟨h0, h3⟩, fun p => ?_⟩
    obtain ⟨t, t1, t2⟩ := plain_any h2 p
    refine ⟨⟨toSeq t, none⟩, ?_, rfl, by rwa [toSeq_text]⟩
    show DoubleWrapper.decimalLayout bits p = _
    unfold DoubleWrapper.decimalLayout
    rw [h1]
    simp only [bind_ok, t1, pure_eq_ok]

/-- The layout with an exponent: `q` rounded half up to `p + 1` significant digits.  The point is there for every
`p` but 0, even if no digit follows.  For `p = -1` there is no digit to keep: from half of the next power of ten on
the significand is `1.` and stands for that power, below and for smaller `p` it is `0.`. -/
theorem C111_scientific (bits : BitVec 64) (hf : finite bits) (h0 : magnitude bits ≠ 0) :
    ∃ (q : ℚ) (x0 : Int), JavaDecimal bits q ∧ 10 ^ x0 ≤ q ∧ q < 10 ^ (x0 + 1) ∧ ∀ p : Int, ∃ l ex,
      (FloatForm.ofDouble bits).scientificLayout p = .ok l ∧ l.exponent = some ex ∧
      (0 ≤ p → ∃ M x, Significant q (p.toNat + 1) M x ∧ ExponentText x ex.text ∧
        Significand ((M : ℚ) * 10 ^ (-p)) p.toNat l.mantissa.text) ∧
      (p < 0 → if p = -1 ∧ 5 * 10 ^ x0 ≤ q then l.mantissa.text = js! "1." ∧ ExponentText (x0 + 1) ex.text
        else l.mantissa.text = js! "0." ∧ ex.text = js! "+00") := by
  obtain ⟨x, f, n, e, h1, h2, h3, h4⟩ := ofBits_nonzero hf h0
  have hz : JavaDouble.isZero bits ≠ true := fun h => h0 ((magnitude_zero_iff bits).2 h)
  have hdn := h2.down
  have lift : ∀ {p : Int} {t s : JStr}, scientific x p = .ok (t, s) →
      (FloatForm.ofDouble bits).scientificLayout p = .ok ⟨toSeq t, some (toSeq s)⟩ := by
    intro p t s h
    show DoubleWrapper.scientificLayout bits p = _
    unfold DoubleWrapper.scientificLayout
    rw [if_neg hz, h1]
    simp only [bind_ok, h, pure_eq_ok]
  refine ⟨_, e + n - 1, h3, hdn.1, by rw [sub_add_cancel]; exact hdn.2, fun p => ?_⟩
  have hpos := h2.pos
  have h17 := h2.le
  have hmin := h2.emin
  have hmax := h2.emax
  by_cases hp : 0 ≤ p
  · obtain ⟨k, rfl⟩ := Int.eq_ofNat_of_zero_le hp
    obtain ⟨t, s, M, er, t1, t2, t3, t4⟩ := scientific_any h2 k
    refine ⟨_, _, lift t1, rfl, fun _ => ⟨M, er, t3, by rwa [toSeq_text], ?_⟩, by omega⟩
    rw [toSeq_text]; exact t4
  · have h5 : 5 * (10 : ℚ) ^ (e + n - 1) ≤ f * 10 ^ e ↔ 5 * 10 ^ (n - 1) ≤ f := by
      rw [show e + n - 1 = ((n - 1 : Nat) : Int) + e by omega, zpow_add₀ (by norm_num), zpow_natCast, ← mul_assoc,
        mul_le_mul_iff_left₀ (by positivity)]
      exact_mod_cast Iff.rfl
    by_cases hc : p = -1 ∧ 5 * 10 ^ (n - 1) ≤ f
    · obtain ⟨rfl, hc⟩ := hc
      obtain ⟨s, s1, s2⟩ := scientificChars_one (p := -1) (by omega) (e := e + n) (by omega) (by omega)
      have : scientific x (-1) = .ok (js! "1.", s) := by
        unfold scientific
        rw [show (-1 : Int) + 1 = 0 by rfl, round_none h2, if_pos hc, bind_ok, s1]
      refine ⟨_, _, lift this, rfl, by omega, fun _ => ?_⟩
      rw [if_pos ⟨rfl, h5.2 hc⟩, toSeq_text, toSeq_text, sub_add_cancel]
      exact ⟨rfl, s2⟩
    · have : scientific x p = .ok (js! "0.", js! "+00") := by
        unfold scientific
        by_cases h1 : p = -1
        · subst h1
          rw [show (-1 : Int) + 1 = 0 by rfl, round_none h2, if_neg (fun h => hc ⟨rfl, h⟩), bind_ok,
            scientificChars_zero (by omega)]
        · rw [round_negative x (by omega), bind_ok, scientificChars_zero (by omega)]
      refine ⟨_, _, lift this, rfl, by omega, fun _ => ?_⟩
      rw [if_neg (by rw [h5]; exact hc), toSeq_text, toSeq_text]
      exact ⟨rfl, rfl⟩

/-- The general layout: `q` rounded half up to `P` significant digits, plain if its exponent is from -4 up to below
`P`.  Asked for no digits it rounds to the next power of ten or to `0.` with exponent `+00`. -/
theorem C111_general (bits : BitVec 64) (hf : finite bits) (h0 : magnitude bits ≠ 0) :
    ∃ (q : ℚ) (x0 : Int), JavaDecimal bits q ∧ 10 ^ x0 ≤ q ∧ q < 10 ^ (x0 + 1) ∧ ∀ P : Int, ∃ l,
      (FloatForm.ofDouble bits).generalLayout P = .ok l ∧
      (1 ≤ P → ∃ M x, Significant q P.toNat M x ∧
        if -4 ≤ x ∧ x < P then
          l.exponent = none ∧ PlainDecimal ((M : ℚ) * 10 ^ (x - (P - 1))) (P - 1 - x).toNat l.mantissa.text
        else ∃ ex, l.exponent = some ex ∧ ExponentText x ex.text ∧
          Significand ((M : ℚ) * 10 ^ (-(P - 1))) (P.toNat - 1) l.mantissa.text) ∧
      (P ≤ 0 →
        if P = 0 ∧ 5 * 10 ^ x0 ≤ q then
          if -4 ≤ x0 + 1 ∧ x0 + 1 < 0 then
            l.exponent = none ∧ PlainDecimal (10 ^ (x0 + 1)) (-(x0 + 1)).toNat l.mantissa.text
          else ∃ ex, l.exponent = some ex ∧ l.mantissa.text = js! "1." ∧ ExponentText (x0 + 1) ex.text
        else ∃ ex, l.exponent = some ex ∧ l.mantissa.text = js! "0." ∧ ex.text = js! "+00") := by
  obtain ⟨x, f, n, e, h1, h2, h3, h4⟩ := ofBits_nonzero hf h0
  have hz : JavaDouble.isZero bits ≠ true := fun h => h0 ((magnitude_zero_iff bits).2 h)
  have hdn := h2.down
  have lift : ∀ {p : Int} {t : JStr} {s : Option JStr}, general x p = .ok (t, s) →
      (FloatForm.ofDouble bits).generalLayout p = .ok ⟨toSeq t, s.map toSeq⟩ := by
    intro p t s h
    show DoubleWrapper.generalLayout bits p = _
    unfold DoubleWrapper.generalLayout
    rw [if_neg hz, h1]
    simp only [bind_ok, h, pure_eq_ok]
  refine ⟨_, e + n - 1, h3, hdn.1, by rw [sub_add_cancel]; exact hdn.2, fun P => ?_⟩
  have hpos := h2.pos
  have h17 := h2.le
  have hmin := h2.emin
  have hmax := h2.emax
  by_cases hp : 1 ≤ P
  · obtain ⟨k, rfl⟩ := Int.eq_ofNat_of_zero_le (show 0 ≤ P by omega)
    obtain ⟨t, s, M, er, t1, t2, t3⟩ := general_any h2 (P := k) (by omega)
    refine ⟨_, lift t1, fun _ => ⟨M, er, t2, ?_⟩, by omega⟩
    by_cases hc : -4 ≤ er ∧ er < (k : Int)
    · rw [if_pos hc] at t3 ⊢
      obtain ⟨rfl, t3⟩ := t3
      exact ⟨rfl, by rw [toSeq_text]; exact t3⟩
    · rw [if_neg hc] at t3 ⊢
      obtain ⟨ex, rfl, t3, t4⟩ := t3
      refine ⟨toSeq ex, rfl, by rwa [toSeq_text], ?_⟩
      rw [toSeq_text]; exact t4
  · have h5 : 5 * (10 : ℚ) ^ (e + n - 1) ≤ f * 10 ^ e ↔ 5 * 10 ^ (n - 1) ≤ f := by
      rw [show e + n - 1 = ((n - 1 : Nat) : Int) + e by omega, zpow_add₀ (by norm_num), zpow_natCast, ← mul_assoc,
        mul_le_mul_iff_left₀ (by positivity)]
      exact_mod_cast Iff.rfl
    by_cases hc : P = 0 ∧ 5 * 10 ^ (n - 1) ≤ f
    · obtain ⟨rfl, hc⟩ := hc
      have her : exponentRounded { f := 1, e := e + n, n := 1 } = e + n := by unfold exponentRounded; simp
      by_cases hs : -4 ≤ e + n ∧ e + n < (0 : Int)
      · have hk : Dec.Ok { f := 1, e := e + n, n := 1 } 1 1 (e + n) := ⟨rfl, by omega, by norm_num, .inl (by norm_num)⟩
        obtain ⟨t, t1, t2⟩ := plainChars_decimal hk (k := (-(e + n)).toNat) (by omega)
        have : general x 0 = .ok (t, none) := by
          unfold general
          rw [round_none h2, if_pos hc, bind_ok]
          simp only [her]
          rw [if_pos hs, t1]; rfl
        refine ⟨_, lift this, by omega, fun _ => ?_⟩
        rw [if_pos ⟨rfl, h5.2 hc⟩, sub_add_cancel, if_pos hs]
        refine ⟨rfl, ?_⟩
        rw [toSeq_text]
        simpa using t2
      · obtain ⟨s, s1, s2⟩ := scientificChars_one (p := 0 - 1) (by omega) (e := e + n) (by omega) (by omega)
        have : general x 0 = .ok (js! "1.", some s) := by
          unfold general
          rw [round_none h2, if_pos hc, bind_ok]
          simp only [her]
          rw [if_neg hs, s1]; rfl
        refine ⟨_, lift this, by omega, fun _ => ?_⟩
        rw [if_pos ⟨rfl, h5.2 hc⟩, sub_add_cancel, if_neg hs]
        exact ⟨toSeq s, rfl, by rw [toSeq_text], by rwa [toSeq_text]⟩
    · have her : exponentRounded { f := 0, e := 0, n := 1 } = 0 := rfl
      have : general x P = .ok (js! "0.", some (js! "+00")) := by
        have hr : round x P = .ok { f := 0, e := 0, n := 1 } := by
          by_cases h1 : P = 0
          · subst h1
            rw [round_none h2, if_neg (fun h => hc ⟨rfl, h⟩)]
          · exact round_negative x (by omega)
        unfold general
        rw [hr, bind_ok]
        simp only [her]
        rw [if_neg (by omega), scientificChars_zero (by omega)]; rfl
      refine ⟨_, lift this, by omega, fun _ => ?_⟩
      rw [if_neg (by rw [h5]; exact hc)]
      exact ⟨_, rfl, by rw [toSeq_text], by rw [toSeq_text]⟩

/-- Zeros: `0`, with exponent `+00` in the layout that has one, whatever the precision. -/
theorem C111_zero (bits : BitVec 64) (h0 : magnitude bits = 0) (p : Int) :
    ∃ m ex, (FloatForm.ofDouble bits).scientificLayout p = .ok ⟨m, some ex⟩ ∧
      (FloatForm.ofDouble bits).generalLayout p = .ok ⟨m, none⟩ ∧ m.text = js! "0" ∧ ex.text = js! "+00" := by
  have hz := (magnitude_zero_iff bits).1 h0
  refine ⟨Seq.ch (ch! '0'), Seq.wrap (js! "+00"), ?_, ?_, rfl, rfl⟩
  · show DoubleWrapper.scientificLayout bits p = _
    unfold DoubleWrapper.scientificLayout; rw [if_pos hz]
  · show DoubleWrapper.generalLayout bits p = _
    unfold DoubleWrapper.generalLayout; rw [if_pos hz]

/-- `NaN` and the infinities are laid out as if they were zeros. -/
theorem C111_nonFinite (bits : BitVec 64) (hf : ¬ finite bits) (p : Int) :
    (∃ m, (FloatForm.ofDouble bits).decimalLayout p = .ok ⟨m, none⟩ ∧ m.text = js! "0") ∧
    (∃ m ex, (FloatForm.ofDouble bits).scientificLayout p = .ok ⟨m, some ex⟩ ∧
      m.text = (if p = 0 then js! "0" else js! "0.") ∧ ex.text = js! "+00") ∧
    (∃ m ex, (FloatForm.ofDouble bits).generalLayout p = .ok ⟨m, ex⟩ ∧
      (if 1 ≤ p then m.text = js! "0" ∧ ex = none else m.text = js! "0." ∧ ex.map Seq.text = some (js! "+00"))) := by
  have h1 := ofBits_special hf
  have hnf : (JavaDouble.isNaN bits || JavaDouble.isInfinite bits) = true := by
    rw [finite_iff] at hf
    exact Bool.eq_true_of_not_eq_false hf
  have hz : JavaDouble.isZero bits ≠ true := by
    intro h
    unfold JavaDouble.isZero at h
    unfold JavaDouble.isNaN JavaDouble.isInfinite at hnf
    simp only [Bool.and_eq_true, decide_eq_true_eq, Bool.or_eq_true] at h hnf
    omega
  refine ⟨⟨toSeq (js! "0"), ?_, toSeq_text _⟩, ?_, ?_⟩
  · show DoubleWrapper.decimalLayout bits p = _
    unfold DoubleWrapper.decimalLayout plain
    rw [h1]
    simp only [bind_ok, DoubleWrapper.round_zero, pure_eq_ok]
    rfl
  · show ∃ m ex, DoubleWrapper.scientificLayout bits p = _ ∧ _
    unfold DoubleWrapper.scientificLayout scientific
    rw [if_neg hz, h1]
    simp only [bind_ok, DoubleWrapper.round_zero]
    by_cases hp : p = 0
    · subst hp
      rw [scientificChars_zero']
      exact ⟨_, _, rfl, by rw [toSeq_text, if_pos rfl], toSeq_text _⟩
    · rw [scientificChars_zero hp]
      exact ⟨_, _, rfl, by rw [toSeq_text, if_neg hp], toSeq_text _⟩
  · show ∃ m ex, DoubleWrapper.generalLayout bits p = _ ∧ _
    have her : exponentRounded { f := 0, e := 0, n := 1 } = 0 := rfl
    unfold DoubleWrapper.generalLayout general
    rw [if_neg hz, h1]
    simp only [bind_ok, DoubleWrapper.round_zero, her]
    by_cases hp : 1 ≤ p
    · rw [if_pos (by omega)]
      refine ⟨toSeq (js! "0"), none, rfl, ?_⟩
      rw [if_pos hp]
      exact ⟨toSeq_text _, rfl⟩
    · rw [if_neg (by omega), scientificChars_zero (by omega)]
      refine ⟨_, _, rfl, ?_⟩
      rw [if_neg hp]
      exact ⟨toSeq_text _, by simp [toSeq_text]⟩

/-- The hexadecimal layout asked for no digits keeps all of them, as from 13 digits on. -/
theorem C111_hex (bits : BitVec 64) (p : Int) (hp : 13 ≤ p) :
    (FloatForm.ofDouble bits).hexLayout 0 = (FloatForm.ofDouble bits).hexLayout p := by
  show DoubleWrapper.hexLayout bits 0 = DoubleWrapper.hexLayout bits p
  unfold DoubleWrapper.hexLayout
  rw [if_pos (by simp), if_pos (by simp [hp])]

/-! ### `BigDecimal` -/

/-- **C111**: the plain layout of a `BigDecimal` that is not zero.  Where digits are left to round to, it is the exact
value rounded half up to `p` places.  For a negative `p` there may be none: a value below 1 is laid out as `1 - p` zeros,
a value of at least 1 all of whose digits would go is not rounded at all, and one with fewer digits still is refused. -/
theorem C111_big (u scale : Int) (hu : u ≠ 0) (n : Nat) (hn : DigitCount u.natAbs n) (hs : ScaleOk n scale) (p : Int)
    (hp : -2147483646 ≤ p) :
    (scale ≤ p ∨ 0 ≤ p ∨ (scale < n ∧ scale - p < n) →
      ∃ l, (FloatForm.ofBigDecimal u scale).decimalLayout p = .ok l ∧ l.exponent = none ∧
        PlainDecimal (halfUp (bigValue u.natAbs scale) p * 10 ^ (-p)) p.toNat l.mantissa.text) ∧
    (p < scale → p < 0 → n ≤ scale →
      ∃ l, (FloatForm.ofBigDecimal u scale).decimalLayout p = .ok l ∧ l.exponent = none ∧
        l.mantissa.text = List.replicate (1 + (-p).toNat) (ch! '0')) ∧
    (p < scale → p < 0 → scale < n → scale - p = n →
      ∃ l, (FloatForm.ofBigDecimal u scale).decimalLayout p = .ok l ∧ l.exponent = none ∧
        PlainDecimal (bigValue u.natAbs scale) scale.toNat l.mantissa.text) ∧
    (p < scale → p < 0 → scale < n → n < scale - p →
      (FloatForm.ofBigDecimal u scale).decimalLayout p = .error .illegalArgument) := by
  have hd := hn.digits
  have hpos := hd.pos
  obtain ⟨s1, s2⟩ := hs
  have hu' : u.natAbs ≠ 0 := by omega
  revert hd hu'
  show _ → _ → (_ → ∃ l, BigDecimalWrapper.decimalLayout ⟨u.natAbs, scale⟩ p = _ ∧ _) ∧
    (_ → _ → _ → ∃ l, BigDecimalWrapper.decimalLayout ⟨u.natAbs, scale⟩ p = _ ∧ _) ∧
    (_ → _ → _ → _ → ∃ l, BigDecimalWrapper.decimalLayout ⟨u.natAbs, scale⟩ p = _ ∧ _) ∧
    (_ → _ → _ → _ → BigDecimalWrapper.decimalLayout ⟨u.natAbs, scale⟩ p = _)
  generalize u.natAbs = v
  intro hd hu'
  refine ⟨fun h => ?_, fun h1 h2 h3 => ?_, fun h1 h2 h3 h4 => ?_, fun h1 h2 h3 h4 => ?_⟩
  · exact BigDecimalWrapper.decimal_any hd hu' s1 s2 p h
  · unfold BigDecimalWrapper.decimalLayout
    dsimp only
    rw [if_pos h1, BigDecimalWrapper.precision_eq hd, if_pos h3]
    have e : BigDec.setScaleDown ⟨v, scale⟩ p = ⟨0, p⟩ := by
      unfold BigDec.setScaleDown BigDec.divHalfUp
      have : (2 * v + 10 ^ (scale - p).toNat) / (2 * 10 ^ (scale - p).toNat) = 0 := by
        apply Nat.div_eq_of_lt
        have := Nat.pow_le_pow_right (n := 10) (by omega) (show n + 1 ≤ (scale - p).toNat by omega)
        have := hd.lt
        rw [pow_succ] at *
        omega
      simp only [this]
    have h0 : Digits 0 1 := ⟨le_rfl, by norm_num, .inr ⟨rfl, rfl⟩⟩
    obtain ⟨m, m1, -, m3⟩ := BigDecimalWrapper.decimalLayout0_text (σ := p) h0 (by omega) (by omega)
    rw [e, m1]
    exact ⟨_, rfl, rfl, m3 ⟨rfl, h2⟩⟩
  · unfold BigDecimalWrapper.decimalLayout
    dsimp only
    rw [if_pos h1, BigDecimalWrapper.precision_eq hd, if_neg (by omega), show (n : Int) - (scale - p) = 0 by omega]
    obtain ⟨m, m1, m2, -⟩ := BigDecimalWrapper.decimalLayout0_text (σ := scale) hd (by omega) s2
    rw [show BigDec.withMathContext 0 ⟨v, scale⟩ = .ok ⟨v, scale⟩ from rfl, bind_ok, m1]
    refine ⟨_, rfl, rfl, ?_⟩
    rw [m2 (.inl hu')]
    exact BigDecimalWrapper.plainText_decimal hu' scale (by omega)
  · unfold BigDecimalWrapper.decimalLayout
    dsimp only
    rw [if_pos h1, BigDecimalWrapper.precision_eq hd, if_neg (by omega)]
    unfold BigDec.withMathContext
    rw [if_pos (by omega)]; rfl

/-- The layout with an exponent of a `BigDecimal` that is not zero: its exact value rounded half up to `p + 1`
significant digits.  With `p = -1` all digits are kept, and a smaller `p` is refused. -/
theorem C111_big_scientific (u scale : Int) (hu : u ≠ 0) (n : Nat) (hn : DigitCount u.natAbs n) (hs : ScaleOk n scale)
    (p : Int) :
    (0 ≤ p → ∃ l ex M x, (FloatForm.ofBigDecimal u scale).scientificLayout p = .ok l ∧ l.exponent = some ex ∧
      Significant (bigValue u.natAbs scale) (p.toNat + 1) M x ∧
      PlainDecimal ((M : ℚ) * 10 ^ (-p)) (min p.toNat (n - 1)) l.mantissa.text ∧
      BigExponentText (min (p.toNat + 1) n) x ex.text) ∧
    (p = -1 → (FloatForm.ofBigDecimal u scale).scientificLayout p =
      (FloatForm.ofBigDecimal u scale).scientificLayout (n - 1)) ∧
    (p < -1 → (FloatForm.ofBigDecimal u scale).scientificLayout p = .error .illegalArgument) := by
  have hd := hn.digits
  have hpos := hd.pos
  refine ⟨fun h => ?_, fun h => ?_, fun h => ?_⟩
  · obtain ⟨k, rfl⟩ := Int.eq_ofNat_of_zero_le h
    obtain ⟨m, ex, ip, fp, M, x, s1, s2, s3, s4, s5, s6, s7, -, -, s8, -⟩ :=
      BigDecimalWrapper.scientificLayout_text hd (by omega) hs.1 hs.2 k
    refine ⟨_, ex, M, x, s1, rfl, s7, ⟨ip, fp, s5, s2.int, s3, s2.digits, by simp only [Int.toNat_natCast]; omega, ?_⟩, s8⟩
    rw [← s6]
    push_cast
    rw [mul_assoc, mul_assoc, ← zpow_natCast, ← zpow_natCast, ← zpow_add₀ (by norm_num), ← zpow_add₀ (by norm_num), s4,
      show ((k + 1 - min (k + 1) n : Nat) : Int) + (-(k : Int) + ((min (k + 1) n - 1 : Nat) : Int)) = 0 by omega]
    simp
  · subst h
    show BigDecimalWrapper.scientificLayout ⟨u.natAbs, scale⟩ (-1) = BigDecimalWrapper.scientificLayout ⟨u.natAbs, scale⟩ _
    unfold BigDecimalWrapper.scientificLayout
    rw [BigDecimalWrapper.precision_eq hd]
    dsimp only
    rw [if_neg (by omega), if_neg (by omega), show (-1 : Int) + 1 = 0 by rfl, sub_add_cancel]
    have : BigDec.withMathContext n ⟨u.natAbs, scale⟩ = .ok ⟨u.natAbs, scale⟩ := by
      unfold BigDec.withMathContext BigDec.roundTo
      rw [if_neg (by omega), if_neg (by omega), BigDecimalWrapper.precision_eq hd, if_neg (by simp)]
    rw [this]; rfl
  · show BigDecimalWrapper.scientificLayout ⟨u.natAbs, scale⟩ p = _
    unfold BigDecimalWrapper.scientificLayout BigDec.withMathContext
    rw [BigDecimalWrapper.precision_eq hd]
    dsimp only
    have e : (if p > (n : Int) - 1 then (n : Int) else p + 1) = p + 1 := if_neg (by omega)
    rw [e, if_pos (by omega)]; rfl

/-- The general layout of a `BigDecimal` that is not zero: the style is chosen by the exponent of the value itself (not
of the rounded value), and the layout is that of the other two methods. -/
theorem C111_big_general (u scale : Int) (hu : u ≠ 0) (n : Nat) (hn : DigitCount u.natAbs n) (hs : ScaleOk n scale)
    (x : Int) (hx : 10 ^ x ≤ bigValue u.natAbs scale ∧ bigValue u.natAbs scale < 10 ^ (x + 1)) (P : Int)
    (h1 : -2147483647 ≤ P) (h2 : P ≤ 2147483640) :
    (FloatForm.ofBigDecimal u scale).generalLayout P =
      (if -4 ≤ x ∧ x < P then (FloatForm.ofBigDecimal u scale).decimalLayout (P - 1 - x)
       else (FloatForm.ofBigDecimal u scale).scientificLayout (P - 1)) ∧
    (P ≤ 0 → -4 ≤ x ∧ x < P →
      ∃ l, (FloatForm.ofBigDecimal u scale).generalLayout P = .ok l ∧ l.exponent = none ∧
        PlainDecimal (halfUp (bigValue u.natAbs scale) (P - 1 - x) * 10 ^ (-(P - 1 - x))) (P - 1 - x).toNat
          l.mantissa.text) ∧
    (P = 0 → ¬ (-4 ≤ x ∧ x < P) → (FloatForm.ofBigDecimal u scale).generalLayout P =
      (FloatForm.ofBigDecimal u scale).scientificLayout (n - 1)) ∧
    (P < 0 → ¬ (-4 ≤ x ∧ x < P) → (FloatForm.ofBigDecimal u scale).generalLayout P = .error .illegalArgument) := by
  have hd := hn.digits
  have hpos := hd.pos
  have hu' : u.natAbs ≠ 0 := by omega
  have s1 := hs.1
  have s2 := hs.2
  -- the exponent of the value is that of its first digit
  have hxe : x = (n : Int) - 1 - scale := by
    have hlead : 10 ^ (n - 1) ≤ u.natAbs := hd.lead.resolve_right fun h => hu' h.1
    have e : ∀ k : Nat, ((10 : ℚ) ^ k) * 10 ^ (-scale) = 10 ^ ((k : Int) - scale) := by
      intro k; rw [← zpow_natCast, ← zpow_add₀ (by norm_num)]; rfl
    have hz : (0 : ℚ) < 10 ^ (-scale) := by positivity
    have l1 : (10 : ℚ) ^ ((n : Int) - 1 - scale) ≤ bigValue u.natAbs scale := by
      have : (10 : ℚ) ^ (n - 1) ≤ (u.natAbs : ℚ) := by exact_mod_cast hlead
      have := mul_le_mul_of_nonneg_right this hz.le
      rw [e, show ((n - 1 : Nat) : Int) - scale = (n : Int) - 1 - scale by omega] at this
      exact this
    have l2 : bigValue u.natAbs scale < (10 : ℚ) ^ ((n : Int) - scale) := by
      have : (u.natAbs : ℚ) < (10 : ℚ) ^ n := by exact_mod_cast hd.lt
      have := mul_lt_mul_of_pos_right this hz
      rw [e] at this
      exact this
    have a1 := (zpow_lt_zpow_iff_right₀ (by norm_num : (1 : ℚ) < 10)).1 (lt_of_le_of_lt hx.1 l2)
    have a2 := (zpow_lt_zpow_iff_right₀ (by norm_num : (1 : ℚ) < 10)).1 (lt_of_le_of_lt l1 hx.2)
    omega
  have main : (FloatForm.ofBigDecimal u scale).generalLayout P =
      (if -4 ≤ x ∧ x < P then (FloatForm.ofBigDecimal u scale).decimalLayout (P - 1 - x)
       else (FloatForm.ofBigDecimal u scale).scientificLayout (P - 1)) := by
    show BigDecimalWrapper.generalLayout ⟨u.natAbs, scale⟩ P =
      if _ then BigDecimalWrapper.decimalLayout ⟨u.natAbs, scale⟩ _ else BigDecimalWrapper.scientificLayout ⟨u.natAbs, scale⟩ _
    unfold BigDecimalWrapper.generalLayout
    dsimp only
    have g1 := BigDecimalWrapper.geTenPow_iff (σ := scale) hd hu' (-4)
    have g2 := BigDecimalWrapper.geTenPow_iff (σ := scale) hd hu' P
    by_cases hst : -4 ≤ x ∧ x < P
    · rw [if_pos (.inr ⟨g1.2 (by omega), fun h => by have := g2.1 h; omega⟩), if_pos hst]
      congr 1
      have : (BigDec.digits ⟨u.natAbs, scale⟩).length = n := hd.length
      rw [this, BigDecimalWrapper.wrap32_id (x := -scale) (by omega) (by omega),
        BigDecimalWrapper.wrap32_id (x := -scale + _) (by omega) (by omega), BigDecimalWrapper.wrap32_id (by omega) (by omega)]
      omega
    · rw [if_neg, if_neg hst]
      rintro (⟨h, _⟩ | ⟨h, h'⟩)
      · exact hu' h
      · have := g1.1 h
        have h2 : ¬ P ≤ (n : Int) - 1 - scale := fun h => h' (g2.2 h)
        omega
  refine ⟨main, fun hP hst => ?_, fun hP hst => ?_, fun hP hst => ?_⟩
  · rw [main, if_pos hst]
    exact (C111_big u scale hu n hn hs (P - 1 - x) (by omega)).1 (.inr (.inl (by omega)))
  · subst hP
    rw [main, if_neg hst]
    exact (C111_big_scientific u scale hu n hn hs (0 - 1)).2.1 rfl
  · rw [main, if_neg hst]
    exact (C111_big_scientific u scale hu n hn hs (P - 1)).2.2 (by omega)

/-- No precision makes a hexadecimal layout of a `BigDecimal`. -/
theorem C111_big_hex (u scale p : Int) :
    (FloatForm.ofBigDecimal u scale).hexLayout p = .error (.printf (.wrongType .bigDecimalHex)) := rfl

/-- 0.5, 1.0, 1234.0, 0.0625 and 1e23. -/
def layoutSamples : List (BitVec 64) :=
  [0x3FE0000000000000#64, 0x3FF0000000000000#64, 0x4093480000000000#64, 0x3FB0000000000000#64, 0x44B52D02C7E14AF6#64]

/-- The mantissa and the exponent of a layout. -/
def laidOut (l : Res FloatLayout) : Res (JStr × Option JStr) :=
  l.map fun l => (l.mantissa.text, l.exponent.map Seq.text)

example : layoutSamples.map (fun b => laidOut ((FloatForm.ofDouble b).decimalLayout 2)) =
    [.ok (js! "0.50", none), .ok (js! "1", none), .ok (js! "1234", none), .ok (js! "0.06", none),
      .ok (js! "100000000000000000000000", none)] := by decide +kernel
example : layoutSamples.map (fun b => laidOut ((FloatForm.ofDouble b).scientificLayout 3)) =
    [.ok (js! "5.000", some (js! "-01")), .ok (js! "1.", some (js! "+00")), .ok (js! "1.234", some (js! "+03")),
      .ok (js! "6.250", some (js! "-02")), .ok (js! "1.000", some (js! "+23"))] := by decide +kernel
example : layoutSamples.map (fun b => laidOut ((FloatForm.ofDouble b).scientificLayout (-1))) =
    [.ok (js! "1.", some (js! "+00")), .ok (js! "0.", some (js! "+00")), .ok (js! "0.", some (js! "+00")),
      .ok (js! "1.", some (js! "-01")), .ok (js! "0.", some (js! "+00"))] := by decide +kernel
example : layoutSamples.map (fun b => laidOut ((FloatForm.ofDouble b).generalLayout 3)) =
    [.ok (js! "0.500", none), .ok (js! "1", none), .ok (js! "1.23", some (js! "+03")), .ok (js! "0.0625", none),
      .ok (js! "1.00", some (js! "+23"))] := by decide +kernel
example : layoutSamples.map (fun b => laidOut ((FloatForm.ofDouble b).generalLayout 0)) =
    [.ok (js! "1.", some (js! "+00")), .ok (js! "0.", some (js! "+00")), .ok (js! "0.", some (js! "+00")),
      .ok (js! "0.1", none), .ok (js! "0.", some (js! "+00"))] := by decide +kernel
/-- 12.5, 0.5, 0.004 and 0.00001 with precision 0: all digits with an exponent, or rounded to no digit. -/
example : [((125, 1) : Int × Int), (5, 1), (4, 3), (1, 5)].map
      (fun v => laidOut ((FloatForm.ofBigDecimal v.1 v.2).generalLayout 0)) =
    [.ok (js! "1.25", some (js! "+01")), .ok (js! "1", none), .ok (js! "0.00", none), .ok (js! "1", some (js! "-05"))] := by
  decide +kernel
/-- The documented number of digits after the point need not be there: 1.0 with two places is `1`, and with two places
and an exponent `1.`. -/
theorem C111_not_padded :
    laidOut ((FloatForm.ofDouble 0x3FF0000000000000#64).decimalLayout 2) = .ok (js! "1", none) ∧
    laidOut ((FloatForm.ofDouble 0x3FF0000000000000#64).scientificLayout 2) = .ok (js! "1.", some (js! "+00")) := by
  decide +kernel

example : layoutSamples.all (fun b => decide (expBits b ≠ 2047)) = true := by decide +kernel
example : laidOut ((FloatForm.ofDouble 0x4093480000000000#64).decimalLayout (-2)) = .ok (js! "1200", none) := by
  decide +kernel
example : [-1, -2, -3, -4, -5].map (fun p => laidOut ((FloatForm.ofBigDecimal 12 0).decimalLayout p)) =
    [.ok (js! "10", none), .ok (js! "12", none), .error .illegalArgument, .error .illegalArgument,
      .error .illegalArgument] := by decide +kernel
example : [1, 0, -1, -2].map (fun p => laidOut ((FloatForm.ofBigDecimal 1255 1).scientificLayout p)) =
    [.ok (js! "1.3", some (js! "+02")), .ok (js! "1", some (js! "+02")), .ok (js! "1.255", some (js! "+02")),
      .error .illegalArgument] := by decide +kernel
example : laidOut ((FloatForm.ofBigDecimal 5 1).decimalLayout (-2)) = .ok (js! "000", none) := by decide +kernel

end FastPrintf
