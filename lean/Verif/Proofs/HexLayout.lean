/-
`DoubleWrapper.hexLayout` rounds to nearest, ties to even.
-/
import Verif.Proofs.HexText

namespace FastPrintf
open Spec JavaDouble SeqFormatter
namespace DoubleWrapper

theorem nearestEven_error (f : Nat) {s : Nat} (hs : 0 < s) :
    |(f : ℚ) - nearestEven f s * 2 ^ s| ≤ 2 ^ s / 2 ∧
      (|(f : ℚ) - nearestEven f s * 2 ^ s| = 2 ^ s / 2 → nearestEven f s % 2 = 0) := by
  obtain ⟨t, rfl⟩ : ∃ t, s = t + 1 := ⟨s - 1, by omega⟩
  have h0 := Nat.div_add_mod f (2 ^ (t + 1))
  have h1 : f % 2 ^ (t + 1) < 2 ^ (t + 1) := Nat.mod_lt _ (by positivity)
  have h2 : (2 : ℚ) ^ (t + 1) / 2 = 2 ^ t := by rw [pow_succ]; ring
  unfold nearestEven
  rw [Nat.add_sub_cancel, h2]
  generalize f / 2 ^ (t + 1) = k at *
  generalize f % 2 ^ (t + 1) = r at *
  have h3 : (f : ℚ) = 2 ^ (t + 1) * k + r := by rw [← h0]; push_cast; ring
  have hp : (2 : ℚ) ^ (t + 1) = 2 * 2 ^ t := by rw [pow_succ]; ring
  have h1' : (r : ℚ) < 2 * 2 ^ t := by rw [← hp]; exact_mod_cast h1
  rw [h3, hp]
  by_cases h : 2 ^ t ≤ r ∧ (r ≠ 2 ^ t ∨ k % 2 = 1)
  · rw [if_pos h]
    have hr : (2 : ℚ) ^ t ≤ r := by exact_mod_cast h.1
    have e : (2 * 2 ^ t * (k : ℚ) + r - ((k + 1 : ℕ) : ℚ) * (2 * 2 ^ t)) = r - 2 * 2 ^ t := by push_cast; ring
    rw [e, abs_of_nonpos (by linarith)]
    refine ⟨by linarith, fun hx => ?_⟩
    have : (r : ℚ) = 2 ^ t := by linarith
    have : r = 2 ^ t := by exact_mod_cast this
    rcases h.2 with h' | h'
    · exact absurd this h'
    · omega
  · rw [if_neg h]
    have e : (2 * 2 ^ t * (k : ℚ) + r - (k : ℚ) * (2 * 2 ^ t)) = r := by ring
    rw [e, abs_of_nonneg (by positivity)]
    have hcase : r < 2 ^ t ∨ (r = 2 ^ t ∧ k % 2 = 0) := by
      by_cases h4 : r < 2 ^ t
      · exact .inl h4
      · have h5 : ¬ (r ≠ 2 ^ t ∨ k % 2 = 1) := fun hx => h ⟨by omega, hx⟩
        push Not at h5
        exact .inr ⟨h5.1, by omega⟩
    rcases hcase with hc | ⟨hc, hk⟩
    · have : (r : ℚ) < 2 ^ t := by exact_mod_cast hc
      exact ⟨this.le, fun hx => absurd hx this.ne⟩
    · have : (r : ℚ) = 2 ^ t := by exact_mod_cast hc
      exact ⟨this.le, fun _ => hk⟩

theorem nearestEven_le {f s n : Nat} (hf : f < n * 2 ^ s) : nearestEven f s ≤ n := by
  have : f / 2 ^ s < n := (Nat.div_lt_iff_lt_mul (by positivity)).2 hf
  unfold nearestEven
  split_ifs <;> omega

theorem nearestEven_add (f s e : Nat) (n : Nat) (hn : n % 2 = 0) :
    nearestEven (e * (n * 2 ^ s) + f) s = e * n + nearestEven f s := by
  have h1 : (e * (n * 2 ^ s) + f) / 2 ^ s = e * n + f / 2 ^ s := by
    rw [show e * (n * 2 ^ s) + f = f + 2 ^ s * (e * n) by ring, Nat.add_mul_div_left _ _ (by positivity)]
    ring
  have h2 : (e * (n * 2 ^ s) + f) % 2 ^ s = f % 2 ^ s := by
    rw [show e * (n * 2 ^ s) + f = f + 2 ^ s * (e * n) by ring, Nat.add_mul_mod_self_left]
  have h3 : (e * n + f / 2 ^ s) % 2 = f / 2 ^ s % 2 := by
    rw [Nat.add_mod, Nat.mul_mod, hn]; simp
  unfold nearestEven
  rw [h1, h2, h3]
  split_ifs <;> ring

/-- The fields of the rounded value. -/
theorem roundBits_fields {d : BitVec 64} {q : Nat} (h1 : 1 ≤ q) (h2 : q ≤ 12) (he : expBits d ≠ 0)
    (hf : finite d) :
    expBits (roundBits d q) ≠ 0 ∧ expBits (roundBits d q) ≤ expBits d + 1 ∧ 16 ^ (13 - q) ∣ fracBits (roundBits d q) ∧
      (expBits (roundBits d q) = 2047 → fracBits (roundBits d q) = 0) ∧
      HexRounded (magnitude d) q
        ((1 + (fracBits (roundBits d q) : ℚ) / 2 ^ 52) * 2 ^ ((expBits (roundBits d q) : ℤ) - 1023)) := by
  unfold finite at hf
  have hlt : fracBits d < 2 ^ 52 := Nat.mod_lt _ (by positivity)
  have hle : expBits d < 2048 := Nat.mod_lt _ (by positivity)
  have hlow : d.toNat % 2 ^ 63 = expBits d * 2 ^ 52 + fracBits d := by
    unfold expBits fracBits; omega
  obtain ⟨s, hs⟩ : ∃ s, s = 52 - 4 * q := ⟨_, rfl⟩
  have hsplit : 2 ^ 52 = 16 ^ q * 2 ^ s := by
    rw [show (16 : ℕ) = 2 ^ 4 by norm_num, ← pow_mul, ← pow_add]; congr 1; omega
  have h16 : 2 ^ s = 16 ^ (13 - q) := by
    rw [show (16 : ℕ) = 2 ^ 4 by norm_num, ← pow_mul]; congr 1; omega
  have hr := roundBits_toNat (d := d) h1 h2 (by rw [hlow]; omega)
  have heven : 16 ^ q % 2 = 0 := by
    obtain ⟨q', rfl⟩ : ∃ q', q = q' + 1 := ⟨q - 1, by omega⟩
    rw [pow_succ]; omega
  rw [hlow, ← hs, show expBits d * 2 ^ 52 + fracBits d = expBits d * (16 ^ q * 2 ^ s) + fracBits d by
    rw [hsplit], nearestEven_add _ _ _ _ heven] at hr
  have hk : nearestEven (fracBits d) s ≤ 16 ^ q := nearestEven_le (by rw [← hsplit]; exact hlt)
  have herr := nearestEven_error (fracBits d) (s := s) (by omega)
  have hsgn : d.toNat / 2 ^ 63 < 2 := by have := d.isLt; omega
  have hmag : magnitude d = (2 ^ 52 + fracBits d) * 2 ^ ((expBits d : ℤ) - 1075) := by
    unfold magnitude doubleC doubleQ; rw [if_neg he, if_neg he]; push_cast; rfl
  generalize nearestEven (fracBits d) s = k at *
  generalize hE : expBits d = e at *
  generalize hF : fracBits d = f at *
  -- the value
  have hround : HexRounded (magnitude d) q ((1 + (k : ℚ) / 16 ^ q) * 2 ^ ((e : ℤ) - 1023)) := by
    have hu : (2 : ℚ) ^ ((e : ℤ) - 1023 - 4 * q) = 2 ^ s * 2 ^ ((e : ℤ) - 1075) := by
      rw [← zpow_natCast, ← zpow_add₀ (by norm_num)]; congr 1; omega
    have h52 : (2 : ℚ) ^ ((e : ℤ) - 1023) = 2 ^ 52 * 2 ^ ((e : ℤ) - 1075) := by
      rw [← zpow_natCast, ← zpow_add₀ (by norm_num)]; congr 1; push_cast; ring
    have hsplitQ : (2 : ℚ) ^ 52 = 16 ^ q * 2 ^ s := by exact_mod_cast hsplit
    have hw : (1 + (k : ℚ) / 16 ^ q) * 2 ^ ((e : ℤ) - 1023) =
        ((16 ^ q + k : ℕ) : ℚ) * 2 ^ ((e : ℤ) - 1023 - 4 * q) := by
      rw [hu, h52, hsplitQ]; push_cast; field_simp
    have hz : (0 : ℚ) < 2 ^ ((e : ℤ) - 1075) := by positivity
    have hltQ : (f : ℚ) < 2 ^ 52 := by exact_mod_cast hlt
    refine ⟨(e : ℤ) - 1023, 16 ^ q + k, ?_, ?_, hw, ?_, ?_⟩
    · rw [hmag, h52]
      apply mul_le_mul_of_nonneg_right _ hz.le
      have : (0 : ℚ) ≤ f := by positivity
      linarith
    · rw [hmag, zpow_add₀ (by norm_num), zpow_one, h52]
      rw [show (2 : ℚ) ^ 52 * 2 ^ ((e : ℤ) - 1075) * 2 = (2 ^ 52 * 2) * 2 ^ ((e : ℤ) - 1075) by ring]
      apply mul_lt_mul_of_pos_right _ hz
      linarith
    all_goals
      rw [hw, hmag, hu]
      have hdiff : (2 ^ 52 + (f : ℚ)) * 2 ^ ((e : ℤ) - 1075) -
          ((16 ^ q + k : ℕ) : ℚ) * (2 ^ s * 2 ^ ((e : ℤ) - 1075)) =
          ((f : ℚ) - k * 2 ^ s) * 2 ^ ((e : ℤ) - 1075) := by
        rw [hsplitQ]; push_cast; ring
      rw [hdiff, abs_mul, abs_of_pos hz]
    · rw [show (2 : ℚ) ^ s * 2 ^ ((e : ℤ) - 1075) / 2 = (2 ^ s / 2) * 2 ^ ((e : ℤ) - 1075) by ring]
      exact mul_le_mul_of_nonneg_right herr.1 hz.le
    · intro hx
      rw [show (2 : ℚ) ^ s * 2 ^ ((e : ℤ) - 1075) / 2 = (2 ^ s / 2) * 2 ^ ((e : ℤ) - 1075) by ring] at hx
      have := herr.2 (mul_right_cancel₀ hz.ne' hx)
      omega
  have hks : (e * 16 ^ q + k) * 2 ^ s = e * 2 ^ 52 + k * 2 ^ s := by rw [hsplit]; ring
  rw [hks] at hr
  rcases Nat.lt_or_ge k (16 ^ q) with hlt' | hge
  · have hfl : k * 2 ^ s < 2 ^ 52 := by
      rw [hsplit]; exact Nat.mul_lt_mul_of_pos_right hlt' (by positivity)
    have hRe : expBits (roundBits d q) = e := by unfold expBits; rw [hr]; omega
    have hRf : fracBits (roundBits d q) = k * 2 ^ s := by unfold fracBits; rw [hr]; omega
    rw [hRe, hRf]
    refine ⟨he, by omega, h16 ▸ Dvd.intro_left _ rfl, fun h => absurd h hf, ?_⟩
    have : ((k * 2 ^ s : ℕ) : ℚ) / 2 ^ 52 = k / 16 ^ q := by
      have hsplitQ : (2 : ℚ) ^ 52 = 16 ^ q * 2 ^ s := by exact_mod_cast hsplit
      rw [hsplitQ]; push_cast; field_simp
    rw [this]; exact hround
  · have hkeq : k = 16 ^ q := le_antisymm hk hge
    rw [hkeq, ← hsplit] at hr
    have hRe : expBits (roundBits d q) = e + 1 := by unfold expBits; rw [hr]; omega
    have hRf : fracBits (roundBits d q) = 0 := by unfold fracBits; rw [hr]; omega
    rw [hRe, hRf]
    refine ⟨by omega, by omega, by simp, fun _ => rfl, ?_⟩
    rw [hkeq] at hround
    have : (1 + ((0 : ℕ) : ℚ) / 2 ^ 52) * 2 ^ (((e + 1 : ℕ) : ℤ) - 1023) =
        (1 + ((16 ^ q : ℕ) : ℚ) / 16 ^ q) * 2 ^ ((e : ℤ) - 1023) := by
      rw [show ((e + 1 : ℕ) : ℤ) - 1023 = (e : ℤ) - 1023 + 1 by push_cast; ring,
        zpow_add₀ (by norm_num), zpow_one]
      push_cast
      rw [div_self (by positivity)]; ring
    rw [this]; exact hround

theorem scaleUp54_ok {bits : BitVec 64} (h0 : expBits bits = 0) (hf : fracBits bits ≠ 0) :
    expBits (scaleUp54 bits) ≠ 0 ∧ expBits (scaleUp54 bits) ≤ 54 ∧
      magnitude (scaleUp54 bits) = magnitude bits * 2 ^ 54 := by
  have hlt : fracBits bits < 2 ^ 52 := Nat.mod_lt _ (by positivity)
  obtain ⟨l, hl⟩ : ∃ l, l = (fracBits bits).log2 := ⟨_, rfl⟩
  have hl1 : 2 ^ l ≤ fracBits bits := by rw [hl]; exact Nat.log2_self_le hf
  have hl2 : fracBits bits < 2 ^ (l + 1) := by rw [hl]; exact Nat.lt_log2_self
  have hl51 : l ≤ 51 := by
    by_contra h
    have : 2 ^ 52 ≤ 2 ^ l := Nat.pow_le_pow_right (by norm_num) (by omega)
    omega
  have hm1 : 2 ^ 52 ≤ fracBits bits * 2 ^ (52 - l) := by
    calc 2 ^ 52 = 2 ^ l * 2 ^ (52 - l) := by rw [← pow_add]; congr 1; omega
      _ ≤ _ := Nat.mul_le_mul_right _ hl1
  have hm2 : fracBits bits * 2 ^ (52 - l) < 2 ^ 53 := by
    calc fracBits bits * 2 ^ (52 - l) < 2 ^ (l + 1) * 2 ^ (52 - l) :=
          Nat.mul_lt_mul_of_pos_right hl2 (by positivity)
      _ = 2 ^ 53 := by rw [← pow_add]; congr 1; omega
  have hto : (scaleUp54 bits).toNat = (if signBit bits then 2 ^ 63 else 0) + (l + 3) * 2 ^ 52 +
      (fracBits bits * 2 ^ (52 - l) - 2 ^ 52) := by
    unfold scaleUp54
    dsimp only
    rw [fracField_eq, ← hl, BitVec.toNat_ofNat, Nat.mod_eq_of_lt]
    generalize fracBits bits * 2 ^ (52 - l) = m at *
    split_ifs <;> omega
  obtain ⟨m, hm⟩ : ∃ m, m = fracBits bits * 2 ^ (52 - l) := ⟨_, rfl⟩
  rw [← hm] at hm1 hm2 hto
  have hE : expBits (scaleUp54 bits) = l + 3 := by
    unfold expBits; rw [hto]; split_ifs <;> omega
  have hF : fracBits (scaleUp54 bits) = m - 2 ^ 52 := by
    unfold fracBits; rw [hto]; split_ifs <;> omega
  refine ⟨by omega, by omega, ?_⟩
  unfold magnitude doubleC doubleQ
  rw [hE, hF, if_neg (by omega), if_neg (by omega), if_pos h0, if_pos h0,
    show 2 ^ 52 + (m - 2 ^ 52) = m by omega, hm]
  rw [Nat.cast_mul, Nat.cast_pow, mul_assoc, mul_assoc, Nat.cast_ofNat, ← zpow_natCast (2 : ℚ) (52 - l),
    ← zpow_natCast (2 : ℚ) 54, ← zpow_add₀ (by norm_num), ← zpow_add₀ (by norm_num)]
  have : ((52 - l : ℕ) : ℤ) + (((l + 3 : ℕ) : ℤ) - 1075) = -1074 + ((54 : ℕ) : ℤ) := by omega
  rw [this]

theorem HexRounded_scale {v w : ℚ} {q : Nat} (h : HexRounded (v * 2 ^ 54) q w) :
    HexRounded v q (w * 2 ^ (-54 : ℤ)) := by
  obtain ⟨E, k, h1, h2, h3, h4, h5⟩ := h
  have hz : (0 : ℚ) < 2 ^ (-54 : ℤ) := by positivity
  have hv : v = v * 2 ^ 54 * 2 ^ (-54 : ℤ) := by
    rw [mul_assoc, ← zpow_natCast, ← zpow_add₀ (by norm_num)]; norm_num
  have hu : (2 : ℚ) ^ (E - 54 - 4 * q) = 2 ^ (E - 4 * q) * 2 ^ (-54 : ℤ) := by
    rw [← zpow_add₀ (by norm_num)]; congr 1; ring
  have hd : |v - w * 2 ^ (-54 : ℤ)| = |v * 2 ^ 54 - w| * 2 ^ (-54 : ℤ) := by
    rw [← abs_of_pos hz, ← abs_mul, abs_of_pos hz, sub_mul, ← hv]
  refine ⟨E - 54, k, ?_, ?_, ?_, ?_, ?_⟩
  · rw [hv, show E - 54 = E + -54 by ring, zpow_add₀ (by norm_num)]
    exact mul_le_mul_of_nonneg_right h1 hz.le
  · rw [hv, show E - 54 + 1 = (E + 1) + -54 by ring, zpow_add₀ (by norm_num : (2 : ℚ) ≠ 0) (E + 1)]
    exact mul_lt_mul_of_pos_right h2 hz
  · rw [hu, h3]; ring
  · rw [hd, hu, show (2 : ℚ) ^ (E - 4 * q) * 2 ^ (-54 : ℤ) / 2 = 2 ^ (E - 4 * q) / 2 * 2 ^ (-54 : ℤ) by ring]
    exact mul_le_mul_of_nonneg_right h4 hz.le
  · rw [hd, hu, show (2 : ℚ) ^ (E - 4 * q) * 2 ^ (-54 : ℤ) / 2 = 2 ^ (E - 4 * q) / 2 * 2 ^ (-54 : ℤ) by ring]
    intro hx
    exact h5 (mul_right_cancel₀ hz.ne' hx)

/-- The exponent text. -/
abbrev expText (x : Int) : JStr := (if x < 0 then ch! '-' else ch! '+') :: natToString x.natAbs

/-- **Up to twelve digits.** -/
theorem hexLayout_rounded {bits : BitVec 64} (hf : finite bits) (hz : magnitude bits ≠ 0) {q : Nat}
    (h1 : 1 ≤ q) (h2 : q ≤ 12) :
    ∃ m ex fp x, hexLayout bits q = .ok ⟨m, some ex⟩ ∧ m.text = 49 :: 46 :: fp ∧
      (∀ c ∈ fp, IsDigitIn 16 c) ∧ fp.length ≤ q ∧ ex.text = expText x ∧
      HexRounded (magnitude bits) q (hexValue 1 fp x) := by
  have hnz : isZero bits = false := by
    rw [← Bool.not_eq_true]; exact fun h => hz ((magnitude_zero_iff bits).2 h)
  have hfin := (finite_iff bits).1 hf
  unfold hexLayout
  rw [if_neg (by rw [hfin, hnz]; simp; omega)]
  dsimp only
  rw [Int.toNat_natCast]
  have hsub : getExponent bits = -1023 ↔ expBits bits = 0 := by
    unfold getExponent; rw [expField_eq]; omega
  -- the rounded bits
  have key : ∀ d : BitVec 64, expBits d ≠ 0 → finite d →
      hexMant (roundBits d q) = 49 :: 46 :: hexFrac (fracBits (roundBits d q)) ∧
      hexExp (roundBits d q) = (expBits (roundBits d q) : ℤ) - 1023 ∧
      (∀ c ∈ hexFrac (fracBits (roundBits d q)), IsDigitIn 16 c) ∧
      (hexFrac (fracBits (roundBits d q))).length ≤ q ∧
      HexRounded (magnitude d) q
        (hexValue 1 (hexFrac (fracBits (roundBits d q))) ((expBits (roundBits d q) : ℤ) - 1023)) ∧
      expBits (roundBits d q) ≤ expBits d + 1 := by
    intro d hd hfd
    obtain ⟨k1, k0, k2, k3, k4⟩ := roundBits_fields h1 h2 hd hfd
    have hlt : fracBits (roundBits d q) < 2 ^ 52 := Nat.mod_lt _ (by positivity)
    have hm : magnitude (roundBits d q) ≠ 0 := by
      rw [Ne, magnitude_zero_iff]; unfold isZero; rw [expField_eq]; simp [k1]
    refine ⟨?_, ?_, (hexFrac_ok hlt).1, ?_, ?_, k0⟩
    · unfold hexMant hexLead; rw [if_neg k1]
    · unfold hexExp; rw [if_neg hm, if_neg k1]
    · have := hexFrac_length hlt (by omega) k2; omega
    · unfold hexValue; rw [hexFrac_value hlt]; push_cast; exact k4
  have hinf : ∀ d : BitVec 64, isInfinite d = true → expBits d = 2047 ∧ fracBits d = 0 := by
    intro d; unfold isInfinite; rw [expField_eq, fracField_eq]; simp
  by_cases h0 : expBits bits = 0
  · have hfr : fracBits bits ≠ 0 := by
      intro h; unfold isZero at hnz; rw [expField_eq, fracField_eq, h0, h] at hnz; simp at hnz
    obtain ⟨s1, s2, s3⟩ := scaleUp54_ok h0 hfr
    obtain ⟨k1, k2, k3, k4, k5, k6⟩ := key (scaleUp54 bits) s1 (by unfold finite; omega)
    rw [if_pos (hsub.2 h0), decide_eq_true (hsub.2 h0)]
    generalize roundBits (scaleUp54 bits) q = r at *
    rw [s3] at k5
    have hni : isInfinite r = false := by
      rw [← Bool.not_eq_true]
      intro hi
      have := (hinf r hi).1
      omega
    rw [hni]
    simp only [Bool.false_eq_true, if_false, Bool.not_true]
    obtain ⟨m, c1, c2, c3, c4⟩ := cut_ok (signBit r) (M := hexMant r) (X := intToString (hexExp r))
      (hexMant_no_p r)
    rw [← toHexString_eq] at c1 c3 c4
    rw [if_pos c3]
    refine ⟨m, addPlus (intToString (hexExp r - 54)), hexFrac (fracBits r), hexExp r - 54, ?_,
      by rw [c2, k1], k3, k4, addPlus_text _, ?_⟩
    · simp only [c1, bind_ok, c4, parseExponent_intToString, pure_eq_ok]
    · have := HexRounded_scale k5
      rw [k2]
      have e : hexValue 1 (hexFrac (fracBits r)) ((expBits r : ℤ) - 1023 - 54) =
          hexValue 1 (hexFrac (fracBits r)) ((expBits r : ℤ) - 1023) * 2 ^ (-54 : ℤ) := by
        unfold hexValue
        rw [mul_assoc, ← zpow_add₀ (by norm_num)]; congr 2
      rw [e]; exact this
  · obtain ⟨k1, k2, k3, k4, k5, k6⟩ := key bits h0 hf
    rw [if_neg (fun h => h0 (hsub.1 h)), decide_eq_false (fun h => h0 (hsub.1 h))]
    generalize roundBits bits q = r at *
    by_cases hi : isInfinite r = true
    · rw [if_pos hi]
      obtain ⟨i1, i2⟩ := hinf r hi
      refine ⟨_, _, hexFrac (fracBits r), (expBits r : ℤ) - 1023, rfl, ?_, k3, k4, ?_, k5⟩
      · rw [i2, Seq.wrap_text]; rfl
      · rw [i1, Seq.wrap_text]; decide
    · rw [if_neg hi, if_pos (by rfl)]
      obtain ⟨m, ex, e1, e2, e3⟩ := simpleHexLayout_ok r
      exact ⟨m, ex, hexFrac (fracBits r), (expBits r : ℤ) - 1023, e1, by rw [e2, k1], k3, k4,
        by rw [e3, k2], k5⟩

end DoubleWrapper
end FastPrintf
