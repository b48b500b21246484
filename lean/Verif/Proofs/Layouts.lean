/-
The layouts of `DoubleWrapper` and `BigDecimalWrapper` for any precision, negative ones included.
-/
import Verif.Proofs.BigDecimalFormat
import Verif.Proofs.DoubleFormat
import Verif.Spec.Layouts

namespace FastPrintf
open Spec

namespace FormattedFPDecimal

/-- The plain form of a decimal, read as a number. -/
theorem plainChars_decimal {x : Dec} {f n : Nat} {e : Int} (h : x.Ok f n e) {k : Nat} (hk : -e ≤ k) :
    ∃ t, plainChars x = .ok t ∧ PlainDecimal ((f : ℚ) * 10 ^ e) k t := by
  obtain ⟨t, ip, fp, h1, h2, h3, h4, h5, h6, -⟩ := plainChars_written h
  refine ⟨t, h1, ip, fp, ?_, h2.int, h3, h2.digits, by omega, ?_⟩
  · unfold fraction
    rcases h2.eq with he | ⟨he, hf⟩
    · by_cases h0 : 0 ≤ e
      · have := h6 h0
        rw [this] at he
        have := congrArg List.length he
        simp at this
      · rw [if_neg (fun hc => by rw [hc.1] at h4; simp at h4; omega)]; exact he
    · rw [if_pos ⟨hf, rfl⟩, List.append_nil]; exact he
  · rw [h5, mul_assoc, ← zpow_natCast (10 : ℚ) fp.length, ← zpow_add₀ (by norm_num), h4]
    push_cast
    rw [← zpow_natCast]
    congr 2; omega

theorem plain_any {x : Dec} {f n : Nat} {e : Int} (h : x.Nonzero f n e) (p : Int) :
    ∃ t, plain x p = .ok t ∧
      PlainDecimal (halfUp ((f : ℚ) * 10 ^ e) p * 10 ^ (-p)) p.toNat t := by
  have h10 : (10 : ℚ) ≠ 0 := by norm_num
  obtain ⟨x', f', n', e', h1, h2, h3, h4, -⟩ := round_ok (e := e) (s := e + p) h.pos h.le h.lead h.lt
  have key : -e' ≤ p.toNat ∧ (f' : ℚ) * 10 ^ e' = roundNat f (e + p) * 10 ^ (-p) := by
    by_cases hs : 0 ≤ e + p
    · obtain ⟨rfl, rfl, rfl⟩ := h3 hs
      refine ⟨by omega, ?_⟩
      unfold roundNat; rw [if_pos hs]
      push_cast
      rw [mul_assoc, ← zpow_natCast, ← zpow_add₀ h10]; congr 2; omega
    · rcases h4 (by omega) with ⟨g1, g2⟩ | ⟨g1, g2, g3⟩
      · refine ⟨by omega, ?_⟩
        rw [← g2]
        push_cast
        rw [mul_assoc, ← zpow_natCast, ← zpow_add₀ h10]; congr 2; omega
      · rw [g1, g2, g3]; exact ⟨by omega, by simp⟩
  obtain ⟨t, t1, t2⟩ := plainChars_decimal h2 key.1
  refine ⟨t, ?_, ?_⟩
  · unfold plain
    rw [h.eq]
    dsimp only
    rw [show (n : Int) + e + p = n + (e + p) by omega, h1, bind_ok, t1]
  · rw [halfUp_eq, ← key.2]; exact t2

/-- The significand of a decimal. -/
theorem scientificChars_significand {x : Dec} {f n : Nat} {e : Int} (h : x.Ok f n e) (hf : f ≠ 0) {p : Nat}
    (hn : n ≤ p + 1) (he1 : -999 ≤ n + e - 1) (he2 : n + e - 1 ≤ 999) :
    ∃ t s, scientificChars x p = .ok (t, s) ∧ ExponentText (n + e - 1) s ∧
      Significand ((f : ℚ) * 10 ^ (-((n : Int) - 1))) p t := by
  have hpos := h.pos
  obtain ⟨s, s1, s2⟩ := expChars_ok (x := x) (er := n + e - 1) (by rw [h.eq]; rfl) he1 he2
  have h3 : 10 ^ (n - 1) ≤ f := by
    rcases h.lead with h | ⟨h, _⟩
    · exact h
    · exact absurd h hf
  have hd : f / 10 ^ (n - 1) < 10 := by
    rw [Nat.div_lt_iff_lt_mul (by positivity), ← pow_succ']
    have := h.lt
    rwa [show n - 1 + 1 = n by omega]
  have hd1 : 1 ≤ f / 10 ^ (n - 1) := by rwa [Nat.le_div_iff_mul_le (by positivity), one_mul]
  have hdig : IsDigitIn 10 (48 + f / 10 ^ (n - 1)) := by
    unfold IsDigitIn; rw [digitVal_48 hd]; exact ⟨.inl ⟨by omega, by omega⟩, hd⟩
  have hval : valueIn 10 ((48 + f / 10 ^ (n - 1)) :: digitsOf (n - 1) f) = f := by
    rw [← List.singleton_append, valueIn_append, valueIn_singleton, digitVal_48 hd, valueIn_digitsOf,
      digitsOf_length]
    have := Nat.div_add_mod f (10 ^ (n - 1))
    linarith
  have hq : (f : ℚ) = f * 10 ^ (-((n : Int) - 1)) * 10 ^ (n - 1) := by
    rw [mul_assoc, ← zpow_natCast, ← zpow_add₀ (by norm_num)]
    rw [show -((n : Int) - 1) + ((n - 1 : Nat) : Int) = 0 by omega]; simp
  unfold scientificChars
  by_cases hp : p = 0
  · obtain rfl : n = 1 := by omega
    rw [if_neg (by simpa using hp), scientificCharsNoFraction_ok h rfl]
    simp only [bind_ok, s1, pure_eq_ok]
    simp only [Nat.sub_self, pow_zero, Nat.div_one, digitsOf] at hdig hval hd1
    exact ⟨_, s, rfl, s2, 48 + f, [], by simp [fraction, hp], hdig, by omega, by simp, by simp,
      by rw [hval]; simp⟩
  · rw [if_pos (by simpa using hp), scientificCharsWithFraction_ok h]
    simp only [bind_ok, s1, pure_eq_ok]
    exact ⟨_, s, rfl, s2, 48 + f / 10 ^ (n - 1), digitsOf (n - 1) f, by simp [fraction, hp], hdig, by omega,
      digitsOf_isDigit _ _, by simp; omega, by rw [hval, digitsOf_length]; exact hq⟩

theorem scientific_any {x : Dec} {f n : Nat} {e : Int} (h : x.Nonzero f n e) (p : Nat) :
    ∃ t s m er, scientific x p = .ok (t, s) ∧ ExponentText er s ∧
      Significant ((f : ℚ) * 10 ^ e) (p + 1) m er ∧ Significand ((m : ℚ) * 10 ^ (-(p : Int))) p t := by
  obtain ⟨x', f', n', e', h1, h2, h3, h4', h5, h6, h7⟩ := round_significant h (P := p + 1) (by omega)
  have hpos := h2.pos
  obtain ⟨t, s, t1, t2, t3⟩ := scientificChars_significand h2 h3 (p := p) (by omega) h5 h6
  refine ⟨t, s, _, _, ?_, t2, h7, ?_⟩
  · unfold scientific
    rw [show ((p : Int) + 1) = ((p + 1 : Nat) : Int) by omega, h1, bind_ok, t1]
  · convert t3 using 1
    push_cast
    rw [mul_assoc, ← zpow_natCast, ← zpow_add₀ (by norm_num)]; congr 2; omega

theorem general_any {x : Dec} {f n : Nat} {e : Int} (h : x.Nonzero f n e) {P : Nat} (hP : 1 ≤ P) :
    ∃ t s m er, general x P = .ok (t, s) ∧ Significant ((f : ℚ) * 10 ^ e) P m er ∧
      if -4 ≤ er ∧ er < P then
        s = none ∧ PlainDecimal ((m : ℚ) * 10 ^ (er - ((P : Int) - 1))) ((P : Int) - 1 - er).toNat t
      else ∃ ex, s = some ex ∧ ExponentText er ex ∧ Significand ((m : ℚ) * 10 ^ (-((P : Int) - 1))) (P - 1) t := by
  have h10 : (10 : ℚ) ≠ 0 := by norm_num
  obtain ⟨x', f', n', e', h1, h2, h3, h4', h5, h6, h7⟩ := round_significant h hP
  have hpos := h2.pos
  have her : exponentRounded x' = n' + e' - 1 := by rw [h2.eq]; rfl
  unfold general
  rw [h1, bind_ok]
  simp only [her]
  by_cases hst : -4 ≤ (n' : Int) + e' - 1 ∧ (n' : Int) + e' - 1 < P
  · rw [if_pos hst]
    obtain ⟨t, t1, t2⟩ := plainChars_decimal h2 (k := ((P : Int) - 1 - (n' + e' - 1)).toNat) (by omega)
    refine ⟨t, none, _, _, by simp only [t1, bind_ok, pure_eq_ok], h7, ?_⟩
    rw [if_pos hst]
    refine ⟨rfl, ?_⟩
    convert t2 using 1
    push_cast
    rw [mul_assoc, ← zpow_natCast, ← zpow_add₀ h10]; congr 2; omega
  · rw [if_neg hst]
    obtain ⟨t, s, t1, t2, t3⟩ := scientificChars_significand h2 h3 (p := P - 1) (by omega) h5 h6
    rw [show ((P : Int) - 1) = ((P - 1 : Nat) : Int) by omega, t1]
    refine ⟨t, some s, _, _, rfl, h7, ?_⟩
    rw [if_neg hst]
    refine ⟨s, rfl, t2, ?_⟩
    convert t3 using 1
    push_cast
    rw [mul_assoc, ← zpow_natCast, ← zpow_add₀ h10]; congr 2; omega

/-! ### No digit asked for -/

theorem round_negative (x : Dec) {p : Int} (h : p < 0) : round x p = .ok { f := 0, e := 0, n := 1 } := by
  unfold round; rw [if_pos (.inr h)]

/-- Rounding to no digit at all: up to the next power of ten, or down to nothing. -/
theorem round_none {x : Dec} {f n : Nat} {e : Int} (h : x.Nonzero f n e) :
    round x 0 = .ok (if 5 * 10 ^ (n - 1) ≤ f then { f := 1, e := e + n, n := 1 } else { f := 0, e := 0, n := 1 }) := by
  have hpos := h.pos
  have hlt := h.lt
  unfold round
  rw [h.eq]
  dsimp only
  rw [if_neg (by omega), if_neg (by omega), sub_zero, pow10_ok h.le, bind_ok, if_pos rfl]
  obtain ⟨j, rfl⟩ : ∃ j, n = j + 1 := ⟨n - 1, by omega⟩
  have e2 : 10 ^ (j + 1) / 2 = 5 * 10 ^ j := by rw [pow_succ]; omega
  have e1 : 10 ^ (j + 1) = 10 * 10 ^ j := by rw [pow_succ]; omega
  have hp : 0 < 10 ^ j := by positivity
  simp only [Nat.add_sub_cancel, e2]
  by_cases h5 : 5 * 10 ^ j ≤ f
  · have : (f + 5 * 10 ^ j) / 10 ^ (j + 1) = 1 := by
      rw [Nat.div_eq_iff (by positivity)]; omega
    rw [if_pos h5, this]; simp
  · have : (f + 5 * 10 ^ j) / 10 ^ (j + 1) = 0 := Nat.div_eq_of_lt (by omega)
    rw [if_neg h5, this]; simp

theorem scientificChars_zero {p : Int} (h : p ≠ 0) :
    scientificChars { f := 0, e := 0, n := 1 } p = .ok (js! "0.", js! "+00") := by
  unfold scientificChars
  rw [if_pos h]; decide

theorem scientificChars_zero' : scientificChars { f := 0, e := 0, n := 1 } 0 = .ok (js! "0", js! "+00") := by
  decide

theorem scientificChars_one {p : Int} (h : p ≠ 0) {e : Int} (h1 : -999 ≤ e) (h2 : e ≤ 999) :
    ∃ s, scientificChars { f := 1, e := e, n := 1 } p = .ok (js! "1.", s) ∧ ExponentText e s := by
  have hk : Dec.Ok { f := 1, e := e, n := 1 } 1 1 e := ⟨rfl, by omega, by norm_num, .inl (by norm_num)⟩
  obtain ⟨s, s1, s2⟩ := expChars_ok (x := { f := 1, e := e, n := 1 }) (er := e)
    (by unfold exponentRounded; simp) h1 h2
  refine ⟨s, ?_, s2⟩
  unfold scientificChars
  rw [if_pos h, scientificCharsWithFraction_ok hk]
  simp only [bind_ok, s1, pure_eq_ok]
  rfl

theorem ofBits_special {bits : BitVec 64} (hf : ¬ finite bits) :
    ofBits (JavaDouble.abs bits) = .ok { f := 0, e := 0, n := 0 } := by
  have he : expBits (JavaDouble.abs bits) = 2047 := by
    rw [expBits_abs]
    unfold finite at hf
    have : expBits bits < 2048 := by unfold expBits; exact Nat.mod_lt _ (by norm_num)
    omega
  unfold ofBits
  rw [split_abs]
  by_cases h0 : fracBits (JavaDouble.abs bits) = 0
  · have : JavaDouble.abs bits = 0x7FF0000000000000#64 := by
      apply BitVec.eq_of_toNat_eq
      have h1 := abs_toNat bits
      have h2 := Nat.mod_lt bits.toNat (show 2 ^ 63 > 0 by norm_num)
      unfold expBits at he
      unfold fracBits at h0
      have : (0x7FF0000000000000#64).toNat = 0x7FF0000000000000 := rfl
      omega
    rw [(C26_special _).2.2.1 this]; rfl
  · rw [(C26_special _).2.2.2.2 he h0]; rfl

end FormattedFPDecimal

namespace BigDecimalWrapper
open FormattedFPDecimal BigDec

theorem plainText_decimal {u : Nat} (hu : u ≠ 0) (σ : Int) {k : Nat} (hk : σ ≤ k) :
    PlainDecimal (bigValue u σ) k (plainText u (-σ)) := by
  have hd := dec_ok (Digits.toRadix u) hu (-σ)
  obtain ⟨t, t1, t2⟩ := plainChars_decimal hd (k := k) (by omega)
  rw [plainText_eq hd] at t1
  cases t1
  exact t2

theorem plainText_zero (p : Nat) : PlainDecimal 0 p (plainText 0 (-(p : Int))) := by
  have hn := toRadix_isNumeral (b := 10) (by omega) (by omega) 0
  have hm := toRadix_minimal (b := 10) (by omega) 0
  unfold plainText
  by_cases h : p = 0
  · subst h
    exact ⟨toRadix 10 0, [], by simp [fraction], hn, hm, by simp, by simp, by
      rw [List.append_nil, valueIn_toRadix (by omega) (by omega)]; simp⟩
  · rw [if_neg (by omega), neg_neg, Int.toNat_natCast, Nat.zero_div]
    refine ⟨toRadix 10 0, digitsOf p 0, ?_, hn, hm, digitsOf_isDigit _ _, by simp, ?_⟩
    · unfold fraction
      rw [if_neg (fun hc => by have := congrArg List.length hc.1; simp at this; omega)]
    · rw [valueIn_append, valueIn_toRadix (by omega) (by omega), valueIn_digitsOf]; simp

theorem decimal_any {u n : Nat} {σ : Int} (hd : Digits u n) (hu : u ≠ 0) (h1 : -2147483646 ≤ σ - n)
    (h2 : σ ≤ 2147483647) (p : Int) (h : σ ≤ p ∨ 0 ≤ p ∨ (σ < n ∧ σ - p < n)) :
    ∃ l, decimalLayout ⟨u, σ⟩ p = .ok l ∧ l.exponent = none ∧
      PlainDecimal (halfUp (bigValue u σ) p * 10 ^ (-p)) p.toNat l.mantissa.text := by
  have h10 : (10 : ℚ) ≠ 0 := by norm_num
  have hpos := hd.pos
  have shift : ∀ (u' : Nat) (σ' : Int), σ' ≤ p → u' * 10 ^ (p - σ').toNat = roundNat u (p - σ) →
      (halfUp (bigValue u σ) p : ℚ) * 10 ^ (-p) = bigValue u' σ' := by
    intro u' σ' g1 g2
    unfold bigValue
    rw [halfUp_eq, show -σ + p = p - σ by omega, ← g2]
    push_cast
    rw [mul_assoc, ← zpow_natCast, ← zpow_add₀ h10]; congr 2; omega
  by_cases hp : 0 ≤ p
  · obtain ⟨k, rfl⟩ := Int.eq_ofNat_of_zero_le hp
    obtain ⟨m, m1, m2, -⟩ := decimalLayout_text hd h1 h2 k
    obtain ⟨u', σ', a1, a2, a3, a4, -, a6⟩ := m2 (.inl hu)
    refine ⟨_, m1, rfl, ?_⟩
    rw [shift u' σ' a3 a4, Int.toNat_natCast]
    dsimp only
    rw [a1]
    by_cases h0 : u' = 0
    · subst h0
      have : σ' = k := by
        rcases a6 with ⟨-, b, -⟩ | ⟨-, -, b⟩ | ⟨b1, b2, b3⟩
        · exact absurd b.symm hu
        · exact b
        · rcases b3.lead with b | ⟨-, b⟩
          · have : 0 < 10 ^ (((n : Int) - (σ - k)).toNat - 1) := by positivity
            omega
          · exfalso
            have : roundNat u (k - σ) = 0 := by rw [← a4]; simp
            unfold roundNat at this
            rw [if_neg (by omega), Nat.div_eq_zero_iff] at this
            have hl : 10 ^ (n - 1) ≤ u := by
              rcases hd.lead with h | ⟨h, _⟩
              · exact h
              · exact absurd h hu
            have hle := Nat.pow_le_pow_right (n := 10) (by omega) (show (-((k : Int) - σ)).toNat ≤ n - 1 by omega)
            rcases this with h | h
            · have : 0 < 10 ^ (-((k : Int) - σ)).toNat := by positivity
              omega
            · omega
      subst this
      unfold bigValue
      simpa using plainText_zero k
    · exact plainText_decimal h0 σ' (by omega)
  · by_cases hs : σ ≤ p
    · obtain ⟨m, m1, m2, -⟩ := decimalLayout0_text hd (by omega : -2147483647 ≤ σ - n) h2
      refine ⟨⟨m, none⟩, ?_, rfl, ?_⟩
      · unfold decimalLayout
        dsimp only
        rw [if_neg (by omega), m1]
      · rw [shift u σ hs (by unfold roundNat; rw [if_pos (by omega)])]
        dsimp only
        rw [m2 (.inl hu)]
        exact plainText_decimal hu σ (by omega)
    · obtain ⟨P, hP⟩ : ∃ P : Nat, (n : Int) - (σ - p) = P := ⟨((n : Int) - (σ - p)).toNat, by omega⟩
      obtain ⟨u', k, r1, r2, r3, r4, r5⟩ := roundTo_ok (σ := σ) hd (P := P) (by omega) (by omega) (by omega) h2
      have e : withMathContext ((n : Int) - (σ - p)) ⟨u, σ⟩ = .ok ⟨u', σ - (n - P : Nat) - (k : Nat)⟩ := by
        unfold withMathContext
        rw [if_neg (by omega), if_neg (by omega), hP, Int.toNat_natCast, r1]
      obtain ⟨m, m1, m2, -⟩ := decimalLayout0_text (σ := σ - (n - P : Nat) - (k : Nat)) r3 (by omega) (by omega)
      refine ⟨⟨m, none⟩, ?_, rfl, ?_⟩
      · unfold decimalLayout
        dsimp only
        rw [if_pos (by omega), precision_eq hd, if_neg (by omega), e, bind_ok, m1]
      · rw [shift u' (σ - (n - P : Nat) - (k : Nat)) (by omega) (by
          rw [show (p - (σ - (n - P : Nat) - (k : Nat))).toNat = k by omega, r5, divHalfUp_eq u (by omega)]
          congr 1; omega)]
        dsimp only
        rw [m2 (.inl r4)]
        exact plainText_decimal r4 _ (by omega)

end BigDecimalWrapper
end FastPrintf
