/-
Rounding a `BigDecimal` whose scale is at the edge of `int`, and the layout with an exponent of the outcome.
-/
import Verif.Proofs.BigDecimalFormat

namespace FastPrintf
open Spec SeqFormatter DefaultAppender

namespace BigDecimalWrapper
open FormattedFPDecimal BigDec

theorem checkScale_low {s : Int} (h : s < -2147483648) : checkScale s = .error .arithmetic := by
  unfold checkScale
  have e1 : intMin = -2147483648 := rfl
  rw [if_pos (by omega)]

/-- Rounding to `P` digits, fewer than there are, whatever the scale. -/
theorem roundTo_edge {u n P : Nat} {σ : Int} (hd : Digits u n) (hP : 1 ≤ P) (hlt : P < n) (h2 : σ ≤ 2147483647) :
    ∃ u' k, roundTo P 2 ⟨u, σ⟩ = (if -2147483648 ≤ σ - (n - P : Nat) - (k : Nat) then
        .ok ⟨u', σ - (n - P : Nat) - (k : Nat)⟩ else .error .arithmetic) ∧
      k ≤ 1 ∧ Digits u' P ∧ u' ≠ 0 ∧ u' * 10 ^ k = divHalfUp u (n - P) := by
  have hn := hd.length
  have hlead : 10 ^ (n - 1) ≤ u := by
    rcases hd.lead with h | ⟨_, h⟩
    · exact h
    · omega
  obtain ⟨b1, b2⟩ := divHalfUp_bounds hlead hd.lt (k := n - P) (by omega)
  rw [show n - (n - P) = P by omega] at b1 b2
  have hpp : 0 < 10 ^ (P - 1) := by positivity
  have step : roundTo P 2 ⟨u, σ⟩ = (checkScale (σ - (n - P : Nat)) >>= fun s =>
      roundTo P 1 ⟨divHalfUp u (n - P), s⟩) := by
    rw [roundTo, if_pos (by rw [precision_eq hd]; exact hlt), precision_eq hd]
  rw [step]
  by_cases hc : divHalfUp u (n - P) = 10 ^ P
  · have hd1 : Digits (10 ^ P) (P + 1) := ⟨by omega, Nat.pow_lt_pow_right (by omega) (by omega), .inl (by simp)⟩
    have e : divHalfUp (10 ^ P) 1 = 10 ^ (P - 1) := by
      obtain ⟨j, rfl⟩ : ∃ j, P = j + 1 := ⟨P - 1, by omega⟩
      unfold divHalfUp
      rw [pow_succ, Nat.add_sub_cancel]
      omega
    refine ⟨10 ^ (P - 1), 1, ?_, by omega, ⟨hP, Nat.pow_lt_pow_right (by omega) (by omega), .inl le_rfl⟩, by positivity, ?_⟩
    · by_cases h1 : -2147483648 ≤ σ - (n - P : Nat)
      · rw [checkScale_ok h1 (by omega), bind_ok, roundTo, hc, if_pos (by rw [precision_eq hd1]; omega),
          precision_eq hd1, show P + 1 - P = 1 by omega]
        dsimp only
        by_cases h3 : -2147483648 ≤ σ - (n - P : Nat) - (1 : Nat)
        · rw [if_pos h3, checkScale_ok h3 (by omega), bind_ok, e]; rfl
        · rw [if_neg h3, checkScale_low (by omega)]; rfl
      · rw [checkScale_low (by omega), if_neg (by omega)]; rfl
    · rw [hc, ← pow_add]; congr 1; omega
  · have hd1 : Digits (divHalfUp u (n - P)) P := ⟨hP, by omega, .inl b1⟩
    refine ⟨_, 0, ?_, by omega, hd1, by omega, by simp⟩
    by_cases h1 : -2147483648 ≤ σ - (n - P : Nat)
    · rw [checkScale_ok h1 (by omega), bind_ok, roundTo, if_neg (by rw [precision_eq hd1]; omega), if_pos (by simpa using h1)]
      simp
    · rw [checkScale_low (by omega), if_neg (by omega)]; rfl

/-- Rounding to at most `P` digits succeeds unless the last of them would stand beyond `10^(2^31)`. -/
theorem withMathContext_edge {u n : Nat} {σ : Int} (hd : Digits u n) (hu : u ≠ 0) {P : Nat} (hP : 1 ≤ P)
    (h2 : σ ≤ 2147483647) {c : Int} (hc : c = min (P : Int) n) :
    ∃ u' n' σ', Digits u' n' ∧ u' ≠ 0 ∧ n' = min P n ∧ (n' : Int) - σ' ≤ n - σ + 1 ∧
      Significant ((u : ℚ) * 10 ^ (-σ)) P (u' * 10 ^ (P - n')) (n' - σ' - 1) ∧
      withMathContext c ⟨u, σ⟩ = (if P < n ∧ σ' < -2147483648 then .error .arithmetic else .ok ⟨u', σ'⟩) := by
  have h10 : (10 : ℚ) ≠ 0 := by norm_num
  have hp := hd.pos
  have hlead : 10 ^ (n - 1) ≤ u := by
    rcases hd.lead with h | ⟨h, _⟩
    · exact h
    · exact absurd h hu
  unfold withMathContext
  rw [if_neg (by omega), if_neg (by omega)]
  by_cases hlt : P < n
  · obtain ⟨u', k, r1, r2, r3, r4, r5⟩ := roundTo_edge (σ := σ) hd hP hlt h2
    rw [show c.toNat = P by omega, r1]
    have hval : (u' : ℚ) * 10 ^ (-(σ - (n - P : Nat) - (k : Nat))) =
        roundNat u ((P : Int) - n) * 10 ^ ((n : Int) + (-σ) - P) := by
      rw [show (P : Int) - n = -((n - P : Nat) : Int) by omega, ← divHalfUp_eq u (by omega), ← r5]
      push_cast
      rw [mul_assoc, ← zpow_natCast, ← zpow_add₀ h10]
      congr 2; omega
    have s := significant_of hd.pos hlead hd.lt hP hP (by
      rcases r3.lead with h | ⟨h, _⟩
      · exact h
      · exact absurd h r4) r3.lt le_rfl hval
    refine ⟨u', P, σ - (n - P : Nat) - (k : Nat), r3, r4, by omega, by omega, ?_, ?_⟩
    · rw [show (P : Int) - (σ - (n - P : Nat) - (k : Nat)) - 1 = P + -(σ - (n - P : Nat) - (k : Nat)) - 1 by omega]
      exact s
    · by_cases h3 : -2147483648 ≤ σ - (n - P : Nat) - (k : Nat)
      · rw [if_pos h3, if_neg (by omega)]
      · rw [if_neg h3, if_pos ⟨hlt, by omega⟩]
  · have hval : (u : ℚ) * 10 ^ (-σ) = roundNat u ((P : Int) - n) * 10 ^ ((n : Int) + (-σ) - P) := by
      unfold roundNat
      rw [if_pos (by omega)]
      push_cast
      rw [mul_assoc, ← zpow_natCast, ← zpow_add₀ h10]
      congr 2; omega
    have s := significant_of hd.pos hlead hd.lt hP hd.pos hlead hd.lt (by omega) hval
    have e : roundTo c.toNat 2 ⟨u, σ⟩ = .ok ⟨u, σ⟩ := by
      rw [roundTo, if_neg (by rw [precision_eq hd]; omega)]
    rw [e]
    refine ⟨u, n, σ, hd, hu, by omega, by omega, ?_, by rw [if_neg (by omega)]⟩
    rw [show (n : Int) - σ - 1 = n + -σ - 1 by omega]
    exact s

/-- The layout with an exponent, whatever the scale. -/
theorem scientific_edge {u n : Nat} {σ : Int} (hd : Digits u n) (hu : u ≠ 0) (h2 : σ ≤ 2147483647) (p : Nat) (alt : Bool) :
    ∃ m ex M x, Significant ((u : ℚ) * 10 ^ (-σ)) (p + 1) M x ∧ x ≤ n - σ ∧
      scientificLayout ⟨u, σ⟩ p = (if p + 1 < n ∧ 2147483648 < x - p then .error .arithmetic else .ok ⟨m, some ex⟩) ∧
      FixedText M p alt (fracText m.text p alt) ∧ BigExponentText (min (p + 1) n) x ex.text := by
  have hpos := hd.pos
  obtain ⟨u', n', σ', w2, w3, w4, w9, w10, w1⟩ :=
    withMathContext_edge hd hu (P := p + 1) (by omega) h2 (c := min ((p + 1 : Nat) : Int) n) rfl
  obtain ⟨m, ex, ip, fp, s1, s2, s3, s4, s5, s6, s7⟩ := scientificLayout0_text (σ := σ') w2
  refine ⟨m, ex, _, _, w10, by omega, ?_, ?_, ?_⟩
  · rw [scientificLayout_eq hd, w1]
    by_cases hc : p + 1 < n ∧ σ' < -2147483648
    · rw [if_pos hc, if_pos (by omega)]; rfl
    · rw [if_neg hc, if_neg (by omega), bind_ok, s1]
  · have := s2.fixed s3 (p := p) (by omega) (by
      by_cases hp : p = 0
      · right
        have : fp = [] := List.length_eq_zero_iff.1 (by omega)
        rw [s6, this]; simp [fraction]
      · exact .inl hp) alt
    rwa [s4, show p - (n' - 1) = p + 1 - n' by omega, s5] at this
  · rw [← w4]; exact s7.exp

/-- The general layout of a number too large for its precision is that with an exponent. -/
theorem general_large {u n : Nat} {σ : Int} (hd : Digits u n) (hu : u ≠ 0) {P : Int} (h : P ≤ (n : Int) - 1 - σ) :
    generalLayout ⟨u, σ⟩ P = scientificLayout ⟨u, σ⟩ (P - 1) := by
  unfold generalLayout
  rw [if_neg]
  rintro (⟨h0, _⟩ | ⟨_, h1⟩)
  · exact hu h0
  · exact h1 ((geTenPow_iff hd hu P).2 h)

end BigDecimalWrapper

theorem printf_edge_e {dates : DateSyntax} (env : DateEnv) {d : Directive} (h : d.Ok dates) (hp : d.Plain)
    (hc : d.conv = ch! 'e') {v : Traits} {u σ : Int} (hv : v.asFloatForm = .ok (FloatForm.ofBigDecimal u σ))
    {n : Nat} (hn : DigitCount u.natAbs n) (hs : σ ≤ 2147483647) (hu : u ≠ 0) (rest : List Traits) :
    ∃ m ex M x, Significant (bigValue u.natAbs σ) (d.prec.precision.getD 6 + 1) M x ∧
      printf dates env d.text (v :: rest) =
        (if d.prec.precision.getD 6 + 1 < n ∧ 2147483648 < x - (d.prec.precision.getD 6 : Nat) then .error .arithmetic
         else .ok (d.field (signText (flagSet d.flags) (decide (u < 0))) (m ++ ch! 'e' :: ex))) ∧
      FixedText M (d.prec.precision.getD 6) (flagSet d.flags).alternate m ∧
      BigExponentText (min (d.prec.precision.getD 6 + 1) n) x ex := by
  obtain ⟨m, ex, M, x, s1, -, s2, s3, s4⟩ := BigDecimalWrapper.scientific_edge hn.digits (by omega) hs
    (d.prec.precision.getD 6) (flagSet d.flags).alternate
  refine ⟨_, ex.text, M, x, s1, ?_, s3, s4⟩
  have hf : formatterFor env (convOf d.conv) d.context v = SeqFormatter.e d.context (FloatForm.ofBigDecimal u σ) := by
    rw [hc, show convOf (ch! 'e') = .e from rfl]
    simp only [formatterFor, hv, bind_ok]
  by_cases hx : d.prec.precision.getD 6 + 1 < n ∧ 2147483648 < x - (d.prec.precision.getD 6 : Nat)
  · rw [if_pos hx] at s2 ⊢
    have he : SeqFormatter.e d.context (FloatForm.ofBigDecimal u σ) = .error .arithmetic := by
      have hl : (FloatForm.ofBigDecimal u σ).scientificLayout (precision6 d.context) = .error .arithmetic := by
        rw [precision6_eq hp]; exact s2
      unfold SeqFormatter.e
      rw [hl]; rfl
    rw [printf_plain h hp, hf, he]; rfl
  · rw [if_neg hx] at s2 ⊢
    have hw := BigDecimalWrapper.scientificLayout_wf s2
    obtain ⟨r, r1, r2, r3⟩ := e_ok hp.precOK (v := FloatForm.ofBigDecimal u σ) rfl
      (by rw [precision6_eq hp]; exact s2) hw.1 (hw.2 ex rfl)
    rw [printf_plain_ok h hp (hf.trans r1) r2.sane, r3, hp.width_eq, precision6_eq hp, bigSign, List.append_assoc]
    rfl

theorem printf_edge_zero {dates : DateSyntax} (env : DateEnv) {d : Directive} (h : d.Ok dates) (hp : d.Plain)
    (hc : d.conv = ch! 'e') {v : Traits} {σ : Int} (hv : v.asFloatForm = .ok (FloatForm.ofBigDecimal 0 σ))
    (rest : List Traits) :
    ∃ m ex, printf dates env d.text (v :: rest) =
        .ok (d.field (signText (flagSet d.flags) false) (m ++ ch! 'e' :: ex)) ∧
      FixedText 0 (d.prec.precision.getD 6) (flagSet d.flags).alternate m ∧ ExponentText (-σ) ex := by
  obtain ⟨m, ex, s1, s2, s3⟩ := BigDecimalWrapper.scientific_zero σ (d.prec.precision.getD 6)
  have hw := BigDecimalWrapper.scientificLayout_wf s1
  obtain ⟨r, r1, r2, r3⟩ := e_ok hp.precOK (v := FloatForm.ofBigDecimal 0 σ) rfl
    (by rw [precision6_eq hp]; exact s1) hw.1 (hw.2 ex rfl)
  refine ⟨_, ex.text, ?_, DoubleWrapper.zeroText_fixed (d.prec.precision.getD 6) (flagSet d.flags).alternate, s3⟩
  have hs : formatterFor env (convOf d.conv) d.context v = .ok r := by
    rw [hc, show convOf (ch! 'e') = .e from rfl]
    simp only [formatterFor, hv, bind_ok, r1]
  rw [printf_plain_ok h hp hs r2.sane, r3, hp.width_eq, precision6_eq hp, bigSign, List.append_assoc, s2]
  rfl

/-- `%g` fails where the layout with an exponent does. -/
theorem printf_edge_g {dates : DateSyntax} (env : DateEnv) {d : Directive} (h : d.Ok dates) (hp : d.Plain)
    (hc : d.conv = ch! 'g') {v : Traits} {u σ : Int} (hv : v.asFloatForm = .ok (FloatForm.ofBigDecimal u σ))
    {n : Nat} (hn : DigitCount u.natAbs n) (hs : σ ≤ 2147483647) (hu : u ≠ 0) (rest : List Traits) {P M : Nat} {x : Int}
    (hP : P = max 1 (d.prec.precision.getD 6)) (hx : Significant (bigValue u.natAbs σ) P M x) (hPn : P < n)
    (hl : 2147483648 < x - (P - 1)) :
    printf dates env d.text (v :: rest) = .error .arithmetic := by
  obtain ⟨m, ex, M', x', s1, sx, s2, -, -⟩ := BigDecimalWrapper.scientific_edge hn.digits (by omega) hs (P - 1) false
  rw [show P - 1 + 1 = P by omega] at s1 s2
  obtain ⟨rfl, rfl⟩ := Significant.unique hx s1
  rw [if_pos ⟨hPn, by omega⟩] at s2
  have hf : formatterFor env (convOf d.conv) d.context v = SeqFormatter.g d.context (FloatForm.ofBigDecimal u σ) := by
    rw [hc, show convOf (ch! 'g') = .g from rfl]
    simp only [formatterFor, hv, bind_ok]
  have he : SeqFormatter.g d.context (FloatForm.ofBigDecimal u σ) = .error .arithmetic := by
    have hl : (FloatForm.ofBigDecimal u σ).generalLayout (gPrecision d.context) = .error .arithmetic := by
      rw [gPrecision_eq hp, ← hP]
      refine (BigDecimalWrapper.general_large hn.digits (by omega) (by omega)).trans ?_
      rw [show (P : Int) - 1 = ((P - 1 : Nat) : Int) by omega]
      exact s2
    unfold SeqFormatter.g
    rw [hl]; rfl
  rw [printf_plain h hp, hf, he]; rfl

end FastPrintf
