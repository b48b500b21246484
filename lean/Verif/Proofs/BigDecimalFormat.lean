/-
The three layouts of `BigDecimalWrapper` in terms of the rounded value.
-/
import Verif.Proofs.BigDecimalLaid
import Verif.Proofs.DoubleFormat
import Verif.Proofs.DecimalUnique
import Verif.Spec.BigDecimal

namespace FastPrintf
open Spec SeqFormatter DefaultAppender

namespace BigDecimalWrapper
open FormattedFPDecimal BigDec

theorem divHalfUp_le (u : Nat) {k : Nat} (hk : 0 < k) : divHalfUp u k ≤ u := by
  unfold divHalfUp
  obtain ⟨j, rfl⟩ : ∃ j, k = j + 1 := ⟨k - 1, by omega⟩
  have hp : 0 < 10 ^ (j + 1) := by positivity
  rw [← Nat.lt_succ_iff, Nat.div_lt_iff_lt_mul (by positivity)]
  have : 2 * u * 1 ≤ 2 * u * 10 ^ (j + 1) := Nat.mul_le_mul_left _ hp
  calc 2 * u + 10 ^ (j + 1) < 2 * u * 10 ^ (j + 1) + 2 * 10 ^ (j + 1) := by omega
    _ = _ := by rw [Nat.succ_eq_add_one]; ring

/-! ### The plain layout -/

theorem decimalLayout_text {u n : Nat} {σ : Int} (hd : Digits u n) (h1 : -2147483646 ≤ σ - n)
    (h2 : σ ≤ 2147483647) (p : Nat) :
    ∃ m, decimalLayout ⟨u, σ⟩ p = .ok ⟨m, none⟩ ∧
      (u ≠ 0 ∨ 0 ≤ σ → ∃ (u' : Nat) (σ' : Int), m.text = plainText u' (-σ') ∧ (u' ≠ 0 ∨ 0 ≤ σ') ∧ σ' ≤ p ∧
        u' * 10 ^ (p - σ').toNat = roundNat u (p - σ) ∧ (u' ≠ 0 → Laid m u') ∧
        ((σ ≤ p ∧ u' = u ∧ σ' = σ) ∨ (p < σ ∧ n ≤ σ ∧ σ' = p) ∨
          (p < σ ∧ σ < n ∧ Digits u' ((n : Int) - (σ - p)).toNat))) ∧
      (u = 0 ∧ σ < 0 → m.text = List.replicate (1 + (-σ).toNat) 48) := by
  have hpos := hd.pos
  unfold decimalLayout
  dsimp only
  by_cases hs : σ > p
  · rw [if_pos hs, precision_eq hd]
    by_cases hn : (n : Int) ≤ σ
    · rw [if_pos hn]
      obtain ⟨k, hk⟩ : ∃ k : Nat, σ - p = k := ⟨(σ - p).toNat, by omega⟩
      have hle := divHalfUp_le u (k := k) (by omega)
      have hl : (toRadix 10 (divHalfUp u k)).length ≤ n := by
        rw [toRadix_length_le (by omega) (by omega) hpos]; exact lt_of_le_of_lt hle hd.lt
      obtain ⟨m, m1, m2, m3⟩ := decimalLayout0_text (σ := p) (Digits.toRadix (divHalfUp u k)) (by omega) (by omega)
      have e : setScaleDown ⟨u, σ⟩ p = ⟨divHalfUp u k, p⟩ := by
        unfold setScaleDown; simp only [hk, Int.toNat_natCast]
      rw [e, m1]
      refine ⟨m, rfl, fun _ => ⟨_, p, m2 (.inr (by omega)), .inr (by omega), le_rfl, ?_,
        fun hu => decimalLayout0_laid (Digits.toRadix _) hu (by omega) (by omega) m1, .inr (.inl ⟨by omega, hn, rfl⟩)⟩, by omega⟩
      rw [sub_self, Int.toNat_zero, pow_zero, mul_one, divHalfUp_eq u (by omega)]
      congr 1; omega
    · rw [if_neg hn]
      obtain ⟨P, hP⟩ : ∃ P : Nat, (n : Int) - (σ - p) = P := ⟨((n : Int) - (σ - p)).toNat, by omega⟩
      obtain ⟨u', k, r1, r2, r3, r4, r5⟩ := roundTo_ok (σ := σ) hd (P := P) (by omega) (by omega) (by omega) h2
      have e : withMathContext ((n : Int) - (σ - p)) ⟨u, σ⟩ = .ok ⟨u', σ - (n - P : Nat) - (k : Nat)⟩ := by
        unfold withMathContext
        rw [if_neg (by omega), if_neg (by omega), hP, Int.toNat_natCast, r1]
      rw [e, bind_ok]
      obtain ⟨m, m1, m2, m3⟩ := decimalLayout0_text (σ := σ - (n - P : Nat) - (k : Nat)) r3 (by omega) (by omega)
      rw [m1]
      refine ⟨m, rfl, fun _ => ⟨u', _, m2 (.inl r4), .inl r4, by omega, ?_,
        fun hu => decimalLayout0_laid r3 hu (by omega) (by omega) m1, .inr (.inr ⟨by omega, by omega, by rw [hP, Int.toNat_natCast]; exact r3⟩)⟩, by omega⟩
      rw [show ((p : Int) - (σ - (n - P : Nat) - (k : Nat))).toNat = k by omega, r5, divHalfUp_eq u (by omega)]
      congr 1; omega
  · rw [if_neg hs]
    obtain ⟨m, m1, m2, m3⟩ := decimalLayout0_text hd (by omega : -2147483647 ≤ σ - n) h2
    refine ⟨m, m1, fun h => ⟨u, σ, m2 h, h, by omega, ?_,
      fun hu => decimalLayout0_laid hd hu (by omega) h2 m1, .inl ⟨by omega, rfl, rfl⟩⟩, m3⟩
    unfold roundNat
    rw [if_pos (by omega)]

theorem decimal_text {u n : Nat} {σ : Int} (hd : Digits u n) (h1 : -2147483646 ≤ σ - n)
    (h2 : σ ≤ 2147483647) (p : Nat) (alt : Bool) :
    ∃ m, decimalLayout ⟨u, σ⟩ p = .ok ⟨m, none⟩ ∧
      (u ≠ 0 ∨ 0 ≤ σ → FixedText (halfUp ((u : ℚ) * 10 ^ (-σ)) p) p alt (fracText m.text p alt)) ∧
      (u = 0 ∧ σ < 0 → fracText m.text p alt =
        List.replicate (1 + (-σ).toNat) 48 ++ fraction alt (List.replicate p 48)) := by
  obtain ⟨m, m1, m2, m3⟩ := decimalLayout_text hd h1 h2 p
  refine ⟨m, m1, fun h => ?_, fun h => ?_⟩
  · obtain ⟨u', σ', a1, a2, a3, a4, -⟩ := m2 h
    rw [a1, halfUp_eq, show -σ + (p : Int) = p - σ by omega, ← a4, show (p : Int) - σ' = -σ' + p by omega]
    exact plainText_fixed (by omega) (by omega) alt
  · rw [m3 h, fracText_none]
    intro hc
    have := (List.mem_replicate.1 hc).2
    omega

/-! ### The scientific layout -/

theorem scientificLayout_eq {u n : Nat} (hd : Digits u n) (σ : Int) (p : Nat) :
    scientificLayout ⟨u, σ⟩ p = (withMathContext (min ((p + 1 : Nat) : Int) n) ⟨u, σ⟩ >>= scientificLayout0) := by
  unfold scientificLayout
  rw [precision_eq hd]
  dsimp only
  have : (if (p : Int) > (n : Int) - 1 then (n : Int) else (p : Int) + 1) = min ((p + 1 : Nat) : Int) n := by
    split_ifs <;> omega
  rw [this]

theorem PrintedExponent.exp {n : Nat} {σ : Int} {s : JStr} (h : PrintedExponent n σ s) :
    BigExponentText n ((n : Int) - σ - 1) s := by
  unfold PrintedExponent at h
  unfold BigExponentText
  by_cases hc : σ = 0 ∧ n = 10
  · rw [if_pos hc] at h
    rwa [if_pos (by omega)]
  · rw [if_neg hc] at h
    rw [if_neg (by omega)]
    rwa [show (n : Int) - σ - 1 = n - 1 - σ by omega]

/-- The scientific layout of a nonzero value. -/
theorem scientificLayout_text {u n : Nat} {σ : Int} (hd : Digits u n) (hu : u ≠ 0)
    (h1 : -2147483646 ≤ σ - n) (h2 : σ ≤ 2147483647) (p : Nat) :
    ∃ m ex ip fp M x, scientificLayout ⟨u, σ⟩ p = .ok ⟨m, some ex⟩ ∧ Written m.text ip fp ∧ NoExtraZero ip ∧
      fp.length = min (p + 1) n - 1 ∧ m.text = ip ++ fraction false fp ∧
      valueIn 10 (ip ++ fp) * 10 ^ (p + 1 - min (p + 1) n) = M ∧
      Significant ((u : ℚ) * 10 ^ (-σ)) (p + 1) M x ∧ (n : Int) - 1 - σ ≤ x ∧ x ≤ n - σ ∧
      BigExponentText (min (p + 1) n) x ex.text ∧ Laid m (valueIn 10 (ip ++ fp)) := by
  have hpos := hd.pos
  obtain ⟨u', n', σ', w1, w2, w3, w4, w5, w6, w7, w8, w9, w10⟩ :=
    withMathContext_ok hd hu (P := p + 1) (by omega) h1 h2 (c := min ((p + 1 : Nat) : Int) n) rfl
  obtain ⟨m, ex, ip, fp, s1, s2, s3, s4, s5, s6, s7⟩ := scientificLayout0_text (σ := σ') w2
  refine ⟨m, ex, ip, fp, _, _, ?_, s2, s3, by rw [s4, w4], s6, ?_, w10, by omega, by omega, ?_,
    by rw [s5]; exact scientificLayout0_laid w3 s1⟩
  · rw [scientificLayout_eq hd, w1, bind_ok, s1]
  · rw [s5, ← w4]
  · rw [← w4]; exact s7.exp

theorem scientific_text {u n : Nat} {σ : Int} (hd : Digits u n) (hu : u ≠ 0)
    (h1 : -2147483646 ≤ σ - n) (h2 : σ ≤ 2147483647) (p : Nat) (alt : Bool) :
    ∃ m ex M x, scientificLayout ⟨u, σ⟩ p = .ok ⟨m, some ex⟩ ∧
      Significant ((u : ℚ) * 10 ^ (-σ)) (p + 1) M x ∧ FixedText M p alt (fracText m.text p alt) ∧
      BigExponentText (min (p + 1) n) x ex.text := by
  have hpos := hd.pos
  obtain ⟨m, ex, ip, fp, M, x, s1, s2, s3, s4, s5, s6, s7, s8, s9, s10, -⟩ := scientificLayout_text hd hu h1 h2 p
  refine ⟨m, ex, M, x, s1, s7, ?_, s10⟩
  have := s2.fixed s3 (p := p) (by omega) (by
    by_cases hp : p = 0
    · right
      have : fp = [] := List.length_eq_zero_iff.1 (by omega)
      rw [s5, this]; simp [fraction]
    · exact .inl hp) alt
  rwa [s4, show p - (min (p + 1) n - 1) = p + 1 - min (p + 1) n by omega, s6] at this

theorem scientific_zero (σ : Int) (p : Nat) :
    ∃ m ex, scientificLayout ⟨0, σ⟩ p = .ok ⟨m, some ex⟩ ∧ m.text = js! "0" ∧ ExponentText (-σ) ex.text := by
  have hd : Digits 0 1 := ⟨le_rfl, by norm_num, .inr ⟨rfl, rfl⟩⟩
  obtain ⟨m, ex, ip, fp, s1, s2, s3, s4, s5, s6, s7⟩ := scientificLayout0_text (σ := σ) hd
  have hfp : fp = [] := List.length_eq_zero_iff.1 (by omega)
  subst hfp
  have h0 : ip = js! "0" := by
    have := toRadix_unique (b := 10) (by omega) (by omega) s2.int s3
    rw [List.append_nil] at s5
    rw [s5] at this
    rw [← this]; decide
  refine ⟨m, ex, ?_, ?_, ?_⟩
  · rw [scientificLayout_eq hd, show min ((p + 1 : Nat) : Int) (1 : Nat) = 1 by omega]
    have : withMathContext 1 ⟨0, σ⟩ = .ok ⟨0, σ⟩ := rfl
    rw [this, bind_ok, s1]
  · rw [s6, h0]; simp [fraction]
  · unfold PrintedExponent at s7
    rw [if_neg (by omega)] at s7
    rwa [show ((1 : Nat) : Int) - 1 - σ = -σ by omega] at s7

/-! ### The general layout -/

theorem geTenPow_iff {u n : Nat} {σ : Int} (hd : Digits u n) (hu : u ≠ 0) (k : Int) :
    geTenPow ⟨u, σ⟩ k = true ↔ k ≤ (n : Int) - 1 - σ := by
  have hlead : 10 ^ (n - 1) ≤ u := by
    rcases hd.lead with h | ⟨h, _⟩
    · exact h
    · exact absurd h hu
  have hpos := hd.pos
  unfold geTenPow
  dsimp only
  by_cases h : k + σ ≥ 0
  · rw [if_pos h, decide_eq_true_eq]
    constructor
    · intro hle
      have : 10 ^ (k + σ).toNat < 10 ^ n := lt_of_le_of_lt hle hd.lt
      have := (Nat.pow_lt_pow_iff_right (by omega : 1 < 10)).1 this
      omega
    · intro hle
      exact le_trans (Nat.pow_le_pow_right (by omega) (by omega)) hlead
  · rw [if_neg h, decide_eq_true_eq]
    exact ⟨fun _ => by omega, fun _ => by omega⟩

theorem geTenPow_zero (σ k : Int) : geTenPow ⟨0, σ⟩ k = false := by
  unfold geTenPow
  by_cases h : k + σ ≥ 0
  · rw [if_pos h, decide_eq_false_iff_not]
    have : 0 < 10 ^ (k + σ).toNat := by positivity
    dsimp only; omega
  · rw [if_neg h]; rfl

/-- Padding the plain form to `P` significant digits. -/
theorem plainText_padded {f n : Nat} {e : Int} (hd : Digits f n) (hf : f ≠ 0) (P : Nat) :
    ∃ k : Nat, (k : Int) = max 0 (-e) + max 0 ((P : Int) - n - max 0 e) ∧
      FixedText (f * 10 ^ (e + k).toNat) k true (padText (plainText f e) P) := by
  obtain ⟨t, ip, fp, h1, h2, h3, h4, h5, h6, h7⟩ := plainChars_written (dec_ok hd hf e)
  rw [plainText_eq (dec_ok hd hf e)] at h1
  cases h1
  have hs := h7 hf
  unfold padText
  by_cases he : 0 ≤ e
  · obtain rfl := h6 he
    rw [if_neg h2.no_dot]
    obtain rfl : fp = [] := List.length_eq_zero_iff.1 (by omega)
    have := fixed_point h2.int h3 (fp := []) (by simp) (P - sigDigits (plainText f e)) true (by simp)
    rw [h5, mul_assoc, ← pow_add] at this
    refine ⟨P - sigDigits (plainText f e), by omega, ?_⟩
    rw [show (e + ((P - sigDigits (plainText f e) : Nat) : Int)).toNat = e.toNat + (P - sigDigits (plainText f e)) by omega]
    simpa using this
  · have heq : plainText f e = ip ++ 46 :: fp := by
      rcases h2.eq with h | ⟨_, h⟩
      · exact h
      · rw [h] at h4; simp at h4; omega
    have hs' : sigDigits (plainText f e) = n := by omega
    rw [hs', if_pos (by rw [heq]; simp), heq]
    have := fixed_point h2.int h3 h2.digits (P - n) true (by simp)
    refine ⟨fp.length + (P - n), by push_cast; omega, ?_⟩
    rw [h5, show e.toNat = 0 by omega, pow_zero, mul_one] at this
    rw [show (e + ((fp.length + (P - n) : Nat) : Int)).toNat = P - n by omega]
    simpa using this

theorem roundNat_bounds {u n P : Nat} (hlead : 10 ^ (n - 1) ≤ u) (hlt : u < 10 ^ n) (hn : 1 ≤ n) (hP : 1 ≤ P) :
    10 ^ (P - 1) ≤ roundNat u ((P : Int) - n) ∧ roundNat u ((P : Int) - n) ≤ 10 ^ P := by
  by_cases h : P < n
  · have := divHalfUp_bounds hlead hlt (k := n - P) (by omega)
    rw [divHalfUp_eq u (by omega), show -((n - P : Nat) : Int) = (P : Int) - n by omega,
      show n - (n - P) = P by omega] at this
    exact this
  · unfold roundNat
    rw [if_pos (by omega), show ((P : Int) - n).toNat = P - n by omega]
    constructor
    · calc 10 ^ (P - 1) = 10 ^ (n - 1) * 10 ^ (P - n) := by rw [← pow_add]; congr 1; omega
        _ ≤ _ := Nat.mul_le_mul_right _ hlead
    · calc u * 10 ^ (P - n) ≤ 10 ^ n * 10 ^ (P - n) := Nat.mul_le_mul_right _ hlt.le
        _ = _ := by rw [← pow_add]; congr 1; omega

/-- Rounding to `P` significant digits, with its carry. -/
theorem significant_roundNat {u n P : Nat} {σ : Int} (hd : Digits u n) (hu : u ≠ 0) (hP : 1 ≤ P) :
    ∃ (M : Nat) (x : Int), Significant ((u : ℚ) * 10 ^ (-σ)) P M x ∧ ((n : Int) - 1 - σ = x ∨ (n : Int) - σ = x) ∧
      (M : ℚ) * 10 ^ (x - (P - 1)) = roundNat u ((P : Int) - n) * 10 ^ ((n : Int) - σ - P) := by
  have h10 : (10 : ℚ) ≠ 0 := by norm_num
  have hlead : 10 ^ (n - 1) ≤ u := by
    rcases hd.lead with h | ⟨h, _⟩
    · exact h
    · exact absurd h hu
  have hpos := hd.pos
  obtain ⟨b1, b2⟩ := roundNat_bounds hlead hd.lt hpos hP
  generalize hR : roundNat u ((P : Int) - n) = R at *
  by_cases hc : R = 10 ^ P
  · have hval : ((10 ^ (P - 1) : Nat) : ℚ) * 10 ^ ((n : Int) - σ - P + 1) =
        roundNat u ((P : Int) - n) * 10 ^ ((n : Int) + -σ - P) := by
      rw [hR, hc]; push_cast
      rw [← zpow_natCast, ← zpow_natCast, ← zpow_add₀ h10, ← zpow_add₀ h10]
      congr 1; omega
    have s := significant_of hpos hlead hd.lt hP hP le_rfl
      (Nat.pow_lt_pow_right (by omega) (by omega)) le_rfl hval
    refine ⟨_, _, s, .inr (by omega), ?_⟩
    rw [hc, Nat.sub_self, pow_zero, mul_one]
    push_cast
    rw [← zpow_natCast, ← zpow_natCast, ← zpow_add₀ h10, ← zpow_add₀ h10]
    congr 1; omega
  · have hval : (R : ℚ) * 10 ^ ((n : Int) - σ - P) = roundNat u ((P : Int) - n) * 10 ^ ((n : Int) + -σ - P) := by
      rw [hR]; congr 2
    have s := significant_of hpos hlead hd.lt hP hP b1 (by omega) le_rfl hval
    refine ⟨_, _, s, .inl (by omega), ?_⟩
    rw [Nat.sub_self, pow_zero, mul_one]
    congr 2; omega

/-- The exponent of a value from its digits. -/
theorem exponent_eq {u' P M : Nat} {σ' x : Int} (hu' : u' ≠ 0) (hP : 1 ≤ P)
    (h1 : 10 ^ (P - 1) ≤ M) (h2 : M < 10 ^ P) (hv : (u' : ℚ) * 10 ^ (-σ') = M * 10 ^ (x - (P - 1))) {n' : Nat}
    (hd' : Digits u' n') : (n' : Int) - σ' - 1 = x := by
  have h10 : (10 : ℚ) ≠ 0 := by norm_num
  have l1 : 10 ^ (n' - 1) ≤ u' := by
    rcases hd'.lead with h | ⟨h, _⟩
    · exact h
    · exact absurd h hu'
  have q1 : (10 : ℚ) ^ ((n' : Int) - 1 - σ') ≤ u' * 10 ^ (-σ') := by
    have : ((10 : ℚ) ^ (n' - 1)) ≤ u' := by exact_mod_cast l1
    calc (10 : ℚ) ^ ((n' : Int) - 1 - σ') = 10 ^ (n' - 1) * 10 ^ (-σ') := by
          rw [← zpow_natCast, ← zpow_add₀ h10]; congr 1; have := hd'.pos; omega
      _ ≤ _ := mul_le_mul_of_nonneg_right this (by positivity)
  have q2 : (u' : ℚ) * 10 ^ (-σ') < 10 ^ ((n' : Int) - σ') := by
    have : (u' : ℚ) < 10 ^ n' := by exact_mod_cast hd'.lt
    calc (u' : ℚ) * 10 ^ (-σ') < 10 ^ n' * 10 ^ (-σ') := mul_lt_mul_of_pos_right this (by positivity)
      _ = _ := by rw [← zpow_natCast, ← zpow_add₀ h10]; congr 1
  have q3 : (10 : ℚ) ^ x ≤ M * 10 ^ (x - (P - 1)) := by
    have : ((10 : ℚ) ^ (P - 1)) ≤ M := by exact_mod_cast h1
    calc (10 : ℚ) ^ x = 10 ^ (P - 1) * 10 ^ (x - (P - 1)) := by
          rw [← zpow_natCast, ← zpow_add₀ h10]; congr 1; omega
      _ ≤ _ := mul_le_mul_of_nonneg_right this (by positivity)
  have q4 : (M : ℚ) * 10 ^ (x - (P - 1)) < 10 ^ (x + 1) := by
    have : (M : ℚ) < 10 ^ P := by exact_mod_cast h2
    calc (M : ℚ) * 10 ^ (x - (P - 1)) < 10 ^ P * 10 ^ (x - (P - 1)) := mul_lt_mul_of_pos_right this (by positivity)
      _ = _ := by rw [← zpow_natCast, ← zpow_add₀ h10]; congr 1; omega
  rw [hv] at q1 q2
  have r1 := (zpow_lt_zpow_iff_right₀ (by norm_num : (1 : ℚ) < 10)).1 (lt_of_le_of_lt q1 q4)
  have r2 := (zpow_lt_zpow_iff_right₀ (by norm_num : (1 : ℚ) < 10)).1 (lt_of_le_of_lt q3 q2)
  omega

/-- Equal values with exponents `k` apart. -/
theorem shift_eq {a b : Nat} {e f : Int} {k : Nat} (h : (a : ℚ) * 10 ^ e = b * 10 ^ f) (hk : f = e + k) :
    a = b * 10 ^ k := by
  have h10 : (10 : ℚ) ≠ 0 := by norm_num
  have hp : (0 : ℚ) < 10 ^ e := by positivity
  have : (a : ℚ) = b * 10 ^ k := by
    apply mul_right_cancel₀ hp.ne'
    rw [h, hk, zpow_add₀ h10, zpow_natCast]; ring
  exact_mod_cast this

/-- When rounding carries, the digits are a one and zeros. -/
theorem carry_digits {u n P M : Nat} {σ x : Int} (hd : Digits u n) (hu : u ≠ 0) (hP : 1 ≤ P)
    (hs : Significant ((u : ℚ) * 10 ^ (-σ)) P M x) (hx : x ≠ (n : Int) - 1 - σ) :
    M = 10 ^ (P - 1) ∧ P < n := by
  have hpos := hd.pos
  have hlead : 10 ^ (n - 1) ≤ u := by
    rcases hd.lead with h | ⟨h, _⟩
    · exact h
    · exact absurd h hu
  obtain ⟨M', x', s1, s2, s3⟩ := significant_roundNat (σ := σ) hd hu hP
  obtain ⟨rfl, rfl⟩ := hs.unique s1
  obtain ⟨b1, b2⟩ := roundNat_bounds hlead hd.lt hpos hP
  have e := shift_eq (a := roundNat u ((P : Int) - n)) (b := M) (k := 1) s3.symm (by omega)
  rw [e, pow_one] at b2
  have hp : 10 ^ P = 10 ^ (P - 1) * 10 := by rw [← pow_succ]; congr 1; omega
  refine ⟨by have := hs.1; omega, ?_⟩
  by_contra hc
  unfold roundNat at e
  rw [if_pos (by omega)] at e
  have h1 : u * 10 ^ ((P : Int) - n).toNat < 10 ^ P := by
    calc u * 10 ^ ((P : Int) - n).toNat < 10 ^ n * 10 ^ ((P : Int) - n).toNat :=
          Nat.mul_lt_mul_of_pos_right hd.lt (by positivity)
      _ = _ := by rw [← pow_add]; congr 1; omega
  have := hs.1
  omega

theorem IsDigitIn.ne_e {c : JChar} (h : IsDigitIn 10 c) : c ≠ 101 := by
  rintro rfl; revert h; unfold IsDigitIn; decide

theorem minimal_no_e {v : ℚ} {s : JStr} (h : MinimalText v s) : 101 ∉ s := by
  obtain ⟨ip, fp, rfl, h1, _, h3, _⟩ := h
  intro hc
  rcases List.mem_append.1 hc with hc | hc
  · exact IsDigitIn.ne_e (h1.2 _ hc) rfl
  · unfold fraction at hc
    split_ifs at hc
    · simp at hc
    · simp only [List.mem_cons] at hc
      rcases hc with hc | hc
      · omega
      · exact IsDigitIn.ne_e (h3 _ hc) rfl

theorem mantissaOf_plain {s : JStr} (h : 101 ∉ s) : mantissaOf s = s := by
  unfold mantissaOf
  induction s with
  | nil => rfl
  | cons c s ih =>
    simp only [List.mem_cons, not_or] at h
    rw [List.takeWhile_cons_of_pos (by simpa using fun hc => h.1 hc.symm), ih h.2]

theorem mantissaOf_exp {s : JStr} (h : 101 ∉ s) (t : JStr) : mantissaOf (s ++ 101 :: t) = s := by
  unfold mantissaOf
  induction s with
  | nil => simp
  | cons c s ih =>
    simp only [List.mem_cons, not_or] at h
    rw [List.cons_append, List.takeWhile_cons_of_pos (by simpa using fun hc => h.1 hc.symm), ih h.2]

theorem ite_iff {p q : Prop} [Decidable p] [Decidable q] {a : Nat} (h : p ↔ q) :
    (if p then a else 0) = if q then a else 0 := by
  simp only [h]

theorem plainText_no_dot {f : Nat} {e : Int} (h : 0 ≤ e) : 46 ∉ plainText f e := by
  unfold plainText; rw [if_pos h]; exact toRadix_no_dot _

theorem general_text {u n : Nat} {σ : Int} (hd : Digits u n) (hu : u ≠ 0)
    (h1 : -2147483646 ≤ σ - n) (h2 : σ ≤ 2147483647) {P : Nat} (hP : 1 ≤ P) (hP2 : P ≤ 2147483640) (alt : Bool) :
    ∃ l M x, generalLayout ⟨u, σ⟩ P = .ok l ∧ Significant ((u : ℚ) * 10 ^ (-σ)) P M x ∧
      BigGeneralText P n alt ((n : Int) - 1 - σ) M x (gText alt l P) ∧
      gLength alt l P + generalHidden P n alt ((n : Int) - 1 - σ) M x (gText alt l P) = (gText alt l P).length := by
  have h10 : (10 : ℚ) ≠ 0 := by norm_num
  have hpos := hd.pos
  have hlead : 10 ^ (n - 1) ≤ u := by
    rcases hd.lead with h | ⟨h, _⟩
    · exact h
    · exact absurd h hu
  have halt : ∀ (l : FloatLayout) (x0 : Int) (M : Nat) (x : Int) (body : JStr),
      gLength true l P + generalHidden P n true x0 M x body = (gText true l P).length := by
    intro l x0 M x body; simp [gLength, generalHidden]
  unfold generalLayout
  dsimp only
  by_cases hst : -4 ≤ (n : Int) - 1 - σ ∧ (n : Int) - 1 - σ < P
  · rw [if_pos (.inr ⟨(geTenPow_iff hd hu _).2 hst.1, fun h => by have := (geTenPow_iff hd hu _).1 h; omega⟩)]
    obtain ⟨p', hp'⟩ : ∃ p' : Nat, (p' : Int) = (P : Int) - 1 - (n - 1 - σ) :=
      ⟨((P : Int) - 1 - (n - 1 - σ)).toNat, by omega⟩
    have hw : wrap32 ((P : Int) - wrap32 (wrap32 (-σ) + ((digits ⟨u, σ⟩).length - 1)) - 1) = p' := by
      have : (digits ⟨u, σ⟩).length = n := hd.length
      rw [this, wrap32_id (x := -σ) (by omega) (by omega), wrap32_id (x := -σ + _) (by omega) (by omega),
        wrap32_id (by omega) (by omega)]
      omega
    rw [hw]
    obtain ⟨m, m1, m2, m3⟩ := decimalLayout_text hd h1 h2 p'
    obtain ⟨u', σ', a1, a2, a3, a4, aL, a5⟩ := m2 (.inl hu)
    obtain ⟨M, x, s1, s2, s3⟩ := significant_roundNat (σ := σ) hd hu hP
    rw [show (p' : Int) - σ = P - n by omega] at a4
    obtain ⟨b1, b2⟩ := roundNat_bounds hlead hd.lt hpos hP
    have hR0 : 0 < 10 ^ (P - 1) := by positivity
    have hu' : u' ≠ 0 := by
      rintro rfl
      rw [zero_mul] at a4; omega
    -- the printed value
    have hv : (u' : ℚ) * 10 ^ (-σ') = M * 10 ^ (x - (P - 1)) := by
      rw [s3, ← a4]; push_cast
      rw [← zpow_natCast, mul_assoc, ← zpow_add₀ h10]
      congr 2; omega
    have hd' := Digits.toRadix u'
    generalize hn' : (toRadix 10 u').length = n' at hd'
    have hx := exponent_eq hu' hP s1.1 s1.2.1 hv hd'
    refine ⟨_, M, x, m1, s1, ?_, ?_⟩
    · unfold BigGeneralText
      rw [if_pos hst]
      simp only [gText, gDecimalText, a1]
      cases alt with
      | false =>
        simp only [Bool.false_eq_true, if_false]
        rw [← hv]; exact plainText_minimal hu'
      | true =>
        simp only [if_true]
        obtain ⟨k, k1, k2⟩ := plainText_padded (e := -σ') hd' hu' P
        have hk : k = (if (n : Int) - 1 - σ < 0 then (P : Int) - 1 - ((n : Int) - 1 - σ) else P - 1 - x).toNat := by
          clear m2 m3 aL
          rcases a5 with ⟨c1, rfl, rfl⟩ | ⟨c1, c2, rfl⟩ | ⟨c1, c2, c3⟩
          · have : n' = n := by rw [← hn', hd.length]
            split_ifs <;> omega
          · rw [if_pos (by omega)]; omega
          · have : n' = P := by rw [← hn', c3.length]; omega
            rw [if_neg (by omega)]; omega
        rw [← hk]
        refine ⟨_, ?_, k2⟩
        rw [← hv]; push_cast
        rw [← zpow_natCast, mul_assoc, ← zpow_add₀ h10]
        congr 2; omega
    · cases alt with
      | true => exact halt _ _ _ _ _
      | false =>
        have hmin : MinimalText ((u' : ℚ) * 10 ^ (-σ')) (stripText m.text) := by
          rw [a1]; exact plainText_minimal hu'
        have hl := (aL hu').length
        have hcond : (if 10 ^ (P - min P n + 1) ∣ M ∨ x ≠ (n : Int) - 1 - σ then hiddenLength (stripText m.text) else 0) =
            (if 10 ∣ u' then hiddenLength (stripText m.text) else 0) := by
          clear m2 m3 aL
          rcases a5 with ⟨c1, rfl, rfl⟩ | ⟨c1, c2, rfl⟩ | ⟨c1, c2, c3⟩
          · have e1 : n' = n := by rw [← hn', hd.length]
            apply ite_iff
            have hMu : M = u' * 10 ^ (P - n) := shift_eq hv.symm (by omega)
            have : ¬ x ≠ (n : Int) - 1 - σ' := by omega
            simp only [this, or_false]
            rw [hMu, show P - min P n + 1 = 1 + (P - n) by omega, pow_add, pow_one]
            exact Nat.mul_dvd_mul_iff_right (by positivity)
          · apply ite_iff
            rcases s2 with s2 | s2
            · have hMu : M = u' := by simpa using shift_eq (k := 0) hv.symm (by omega)
              have : ¬ x ≠ (n : Int) - 1 - σ := by omega
              simp only [this, or_false]
              rw [hMu, show P - min P n + 1 = 1 by omega, pow_one]
            · have hMu : u' = M * 10 ^ 1 := shift_eq hv (by omega)
              have : x ≠ (n : Int) - 1 - σ := by omega
              simp only [this, ne_eq, not_false_eq_true, or_true, true_iff]
              rw [hMu]; simp
          · have e1 : n' = P := by rw [← hn', c3.length]; omega
            have hMu : M = u' := by simpa using shift_eq (k := 0) hv.symm (by omega)
            by_cases hxx : x = (n : Int) - 1 - σ
            · apply ite_iff
              simp only [hxx, ne_eq, not_true_eq_false, or_false]
              rw [hMu, show P - min P n + 1 = 1 by omega, pow_one]
            · obtain ⟨hM, _⟩ := carry_digits hd hu hP s1 hxx
              by_cases hP1 : P = 1
              · have hz : hiddenLength (stripText m.text) = 0 := by
                  have hnd : 46 ∉ m.text := by rw [a1]; exact plainText_no_dot (by omega)
                  have : stripText m.text = m.text := by unfold stripText; rw [if_neg hnd]
                  rw [this]; exact hiddenLength_none hnd
                rw [hz]; simp
              · apply ite_iff
                simp only [hxx, ne_eq, not_false_eq_true, or_true, true_iff]
                rw [← hMu, hM, show P - 1 = P - 2 + 1 by omega, pow_succ]; simp
        simp only [gText, gDecimalText, gLength, generalHidden, Bool.false_eq_true, if_false]
        rw [mantissaOf_plain (minimal_no_e hmin), hcond]
        exact hl
  · rw [if_neg (by
      rintro (h | ⟨h3, h4⟩)
      · exact hu h.1
      · have h3' := (geTenPow_iff hd hu _).1 h3
        have h4' : ¬ (P : Int) ≤ (n : Int) - 1 - σ := fun hc => h4 ((geTenPow_iff hd hu _).2 hc)
        omega)]
    rw [show (P : Int) - 1 = ((P - 1 : Nat) : Int) by omega]
    obtain ⟨m, ex, ip, fp, M, x, s1, s2, s3, s4, s5, s6, s7, s8, s9, s10, s11⟩ := scientificLayout_text hd hu h1 h2 (P - 1)
    rw [show P - 1 + 1 = P by omega] at s4 s6 s7 s10
    have hmin : MinimalText ((M : ℚ) * 10 ^ (-((P : Int) - 1))) (stripText m.text) := by
      refine s2.minimal s3 ?_
      rw [← s6, s4]
      push_cast
      rw [mul_assoc, mul_assoc, ← zpow_natCast, ← zpow_natCast, ← zpow_add₀ h10, ← zpow_add₀ h10]
      rw [show ((P - min P n : Nat) : Int) + (-((P : Int) - 1) + ((min P n - 1 : Nat) : Int)) = 0 by omega]
      simp
    refine ⟨_, M, x, s1, s7, ?_, ?_⟩
    · unfold BigGeneralText
      rw [if_neg hst]
      unfold BigExponentText at s10
      rw [if_neg (by omega)] at s10
      simp only [gText, gScientificText]
      cases alt with
      | true =>
        refine ⟨m.text, ex.text, by simp, s10, ?_⟩
        rw [if_pos rfl]
        exact ⟨_, s6.symm, ip, fp, s5, s2.int, s3, s2.digits, s4, rfl⟩
      | false =>
        refine ⟨stripText m.text, ex.text, by simp, s10, ?_⟩
        rw [if_neg (by simp)]
        exact hmin
    · cases alt with
      | true => exact halt _ _ _ _ _
      | false =>
        have hl := s11.length
        have hcond : (if 10 ^ (P - min P n + 1) ∣ M ∨ x ≠ (n : Int) - 1 - σ then hiddenLength (stripText m.text) else 0) =
            (if 10 ∣ valueIn 10 (ip ++ fp) then hiddenLength (stripText m.text) else 0) := by
          have hdvd : 10 ^ (P - min P n + 1) ∣ M ↔ 10 ∣ valueIn 10 (ip ++ fp) := by
            rw [← s6, add_comm, pow_add, pow_one]
            exact Nat.mul_dvd_mul_iff_right (by positivity)
          simp only [hdvd]
          by_cases hxx : x = (n : Int) - 1 - σ
          · simp [hxx]
          · obtain ⟨hM, hPn⟩ := carry_digits hd hu hP s7 hxx
            by_cases hP1 : P = 1
            · have hz : hiddenLength (stripText m.text) = 0 := by
                have hfp : fp = [] := List.length_eq_zero_iff.1 (by omega)
                have hnd : 46 ∉ m.text := by
                  rw [s5, hfp]; simp only [fraction, true_and, if_true, List.append_nil]
                  exact s2.no_dot
                have : stripText m.text = m.text := by unfold stripText; rw [if_neg hnd]
                rw [this]; exact hiddenLength_none hnd
              rw [hz]; simp
            · have : 10 ∣ valueIn 10 (ip ++ fp) := by
                rw [← hdvd, hM, show P - min P n + 1 = 1 by omega, show P - 1 = P - 2 + 1 by omega, pow_succ]; simp
              simp [this]
        simp only [gText, gScientificText, gLength, generalHidden, Bool.false_eq_true, if_false, List.append_assoc,
          List.cons_append, List.nil_append]
        rw [mantissaOf_exp (minimal_no_e hmin), hcond]
        simp only [List.length_append, List.length_cons]
        omega

theorem general_zero {P : Nat} (hP : 1 ≤ P) (hP2 : P ≤ 2147483640) (σ : Int) (alt : Bool) :
    ∃ l, generalLayout ⟨0, σ⟩ P = .ok l ∧
      (σ = 0 → if alt then FixedText 0 (P - 1) true (gText alt l P) else gText alt l P = js! "0") ∧
      (σ ≠ 0 → ∃ xs, gText alt l P = js! "0e" ++ xs ∧ ExponentText (-σ) xs) ∧
      gLength alt l P = (gText alt l P).length := by
  have hd : Digits 0 1 := ⟨le_rfl, by norm_num, .inr ⟨rfl, rfl⟩⟩
  have hstrip : stripText (js! "0") = js! "0" := by decide
  unfold generalLayout
  dsimp only
  by_cases h0 : σ = 0
  · subst h0
    rw [if_pos (.inl ⟨rfl, rfl⟩)]
    have hw : wrap32 ((P : Int) - wrap32 (wrap32 (-0) + ((digits ⟨0, 0⟩).length - 1)) - 1) = (P - 1 : Nat) := by
      have e : wrap32 (wrap32 (-0) + ((digits ⟨0, 0⟩).length - 1)) = 0 := by decide
      rw [e, wrap32_id (by omega) (by omega)]; omega
    rw [hw]
    obtain ⟨m, m1, m2, m3⟩ := decimalLayout_text hd (σ := 0) (by omega) (by omega) (P - 1)
    have hm : m.text = js! "0" := by
      unfold decimalLayout at m1
      simp only [show ¬ ((0 : Int) > ((P - 1 : Nat) : Int)) by omega, if_false] at m1
      have : decimalLayout0 ⟨0, 0⟩ = .ok ⟨Seq.wrap (js! "0"), none⟩ := rfl
      rw [this] at m1
      cases m1; decide
    refine ⟨_, m1, fun _ => ?_, fun h => absurd rfl h, by
      cases alt <;> simp [gLength, gText, gDecimalText, strippedLength, hm, hstrip]⟩
    simp only [gText, gDecimalText, hm]
    cases alt with
    | true =>
      simp only [if_true]
      have h := fixed_point (ip := js! "0") (fp := []) ⟨by decide, by decide⟩ (.inl rfl) (by simp) (P - 1)
        true (by simp)
      have hv : valueIn 10 (js! "0" ++ []) = 0 := by decide
      have hs : sigDigits (js! "0") = 1 := by decide
      have e : padText (js! "0") P = js! "0" ++ 46 :: ([] ++ List.replicate (P - 1) 48) := by
        unfold padText; rw [hs]; rfl
      rw [e]
      rw [hv] at h
      simpa using h
    | false => simp only [Bool.false_eq_true, if_false]; decide
  · rw [if_neg (by
      rintro (h | ⟨h, _⟩)
      · exact h0 h.2
      · rw [geTenPow_zero] at h; cases h),
      show (P : Int) - 1 = ((P - 1 : Nat) : Int) by omega]
    obtain ⟨m, ex, s1, s2, s3⟩ := scientific_zero σ (P - 1)
    refine ⟨_, s1, fun h => absurd h h0, fun _ => ⟨ex.text, ?_, s3⟩, by
      cases alt <;> simp [gLength, gText, gScientificText, strippedLength, s2, hstrip]
      omega⟩
    simp only [gText, gScientificText, s2]
    rw [hstrip]
    cases alt <;> rfl

end BigDecimalWrapper

/-! ### From the layouts to the output -/

open BigDecimalWrapper

theorem Spec.DigitCount.digits {u n : Nat} (h : DigitCount u n) : Digits u n := by
  obtain ⟨ds, h1, rfl⟩ := h
  rw [h1.eq (by omega) (by omega)]
  exact Digits.toRadix u

theorem getD_precision_le {dates : DateSyntax} {d : Directive} (h : d.Ok dates) :
    d.prec.precision.getD 6 ≤ 65536 := by
  have hp := h.prec
  cases he : d.prec with
  | digits ds =>
    rw [he] at hp
    exact hp.2
  | _ => decide

theorem bigSign (u s : Int) : decide ((FloatForm.ofBigDecimal u s).signum < 0) = decide (u < 0) := by
  rw [decide_eq_decide]
  unfold FloatForm.ofBigDecimal
  dsimp only
  split_ifs <;> omega

theorem printf_big_f {dates : DateSyntax} (env : DateEnv) {d : Directive} (h : d.Ok dates) (hp : d.Plain)
    (hc : d.conv = ch! 'f') {v : Traits} {u σ : Int} (hv : v.asFloatForm = .ok (FloatForm.ofBigDecimal u σ))
    {n : Nat} (hn : DigitCount u.natAbs n) (hs : ScaleOk n σ) (rest : List Traits) :
    ∃ body, printf dates env d.text (v :: rest) =
        .ok (d.field (signText (flagSet d.flags) (decide (u < 0))) body) ∧
      (u ≠ 0 ∨ 0 ≤ σ → FixedText (halfUp (bigValue u.natAbs σ) (d.prec.precision.getD 6))
        (d.prec.precision.getD 6) (flagSet d.flags).alternate body) ∧
      (u = 0 ∧ σ < 0 → body = List.replicate (1 + (-σ).toNat) 48 ++
        fraction (flagSet d.flags).alternate (List.replicate (d.prec.precision.getD 6) 48)) := by
  obtain ⟨m, h1, h2, h3⟩ := decimal_text hn.digits hs.1 hs.2 (d.prec.precision.getD 6) (flagSet d.flags).alternate
  have hw := (BigDecimalWrapper.decimalLayout_wf h1).1
  obtain ⟨r, r1, r2, r3⟩ := f_ok hp.precOK (v := FloatForm.ofBigDecimal u σ) rfl
    (by rw [precision6_eq hp]; exact h1) hw
  refine ⟨_, ?_, fun hz => h2 (by omega), fun hz => h3 (by omega)⟩
  have hs : formatterFor env (convOf d.conv) d.context v = .ok r := by
    rw [hc, show convOf (ch! 'f') = .f from rfl]
    simp only [formatterFor, hv, bind_ok, r1]
  rw [printf_plain_ok h hp hs r2.sane, r3, hp.width_eq, precision6_eq hp, bigSign]
  rfl

theorem printf_big_e {dates : DateSyntax} (env : DateEnv) {d : Directive} (h : d.Ok dates) (hp : d.Plain)
    (hc : d.conv = ch! 'e') {v : Traits} {u σ : Int} (hv : v.asFloatForm = .ok (FloatForm.ofBigDecimal u σ))
    {n : Nat} (hn : DigitCount u.natAbs n) (hs : ScaleOk n σ) (rest : List Traits) :
    ∃ m ex, printf dates env d.text (v :: rest) =
        .ok (d.field (signText (flagSet d.flags) (decide (u < 0))) (m ++ ch! 'e' :: ex)) ∧
      (u ≠ 0 → ∃ M x, Significant (bigValue u.natAbs σ) (d.prec.precision.getD 6 + 1) M x ∧
        FixedText M (d.prec.precision.getD 6) (flagSet d.flags).alternate m ∧
        BigExponentText (min (d.prec.precision.getD 6 + 1) n) x ex) ∧
      (u = 0 → FixedText 0 (d.prec.precision.getD 6) (flagSet d.flags).alternate m ∧ ExponentText (-σ) ex) := by
  have key : ∃ m ex, BigDecimalWrapper.scientificLayout ⟨u.natAbs, σ⟩ (d.prec.precision.getD 6 : Nat) = .ok ⟨m, some ex⟩ ∧
      (u ≠ 0 → ∃ M x, Significant (bigValue u.natAbs σ) (d.prec.precision.getD 6 + 1) M x ∧
        FixedText M (d.prec.precision.getD 6) (flagSet d.flags).alternate
          (fracText m.text (d.prec.precision.getD 6) (flagSet d.flags).alternate) ∧
        BigExponentText (min (d.prec.precision.getD 6 + 1) n) x ex.text) ∧
      (u = 0 → FixedText 0 (d.prec.precision.getD 6) (flagSet d.flags).alternate
        (fracText m.text (d.prec.precision.getD 6) (flagSet d.flags).alternate) ∧ ExponentText (-σ) ex.text) := by
    by_cases h0 : u = 0
    · subst h0
      obtain ⟨m, ex, s1, s2, s3⟩ := scientific_zero σ (d.prec.precision.getD 6)
      refine ⟨m, ex, s1, fun h => absurd rfl h, fun _ => ⟨?_, s3⟩⟩
      rw [s2]; exact DoubleWrapper.zeroText_fixed _ _
    · obtain ⟨m, ex, M, x, s1, s2, s3, s4⟩ := scientific_text hn.digits (by omega) hs.1 hs.2
        (d.prec.precision.getD 6) (flagSet d.flags).alternate
      exact ⟨m, ex, s1, fun _ => ⟨M, x, s2, s3, s4⟩, fun h => absurd h h0⟩
  obtain ⟨m, ex, h1, h2, h3⟩ := key
  have hw := BigDecimalWrapper.scientificLayout_wf h1
  obtain ⟨r, r1, r2, r3⟩ := e_ok hp.precOK (v := FloatForm.ofBigDecimal u σ) rfl
    (by rw [precision6_eq hp]; exact h1) hw.1 (hw.2 ex rfl)
  refine ⟨_, ex.text, ?_, h2, h3⟩
  have hs : formatterFor env (convOf d.conv) d.context v = .ok r := by
    rw [hc, show convOf (ch! 'e') = .e from rfl]
    simp only [formatterFor, hv, bind_ok, r1]
  rw [printf_plain_ok h hp hs r2.sane, r3, hp.width_eq, precision6_eq hp, bigSign, List.append_assoc]
  rfl

theorem bigValue_exponent {u n : Nat} (σ : Int) (hd : Digits u n) (hu : u ≠ 0) :
    (10 : ℚ) ^ ((n : Int) - 1 - σ) ≤ bigValue u σ ∧ bigValue u σ < 10 ^ ((n : Int) - 1 - σ + 1) := by
  have h10 : (10 : ℚ) ≠ 0 := by norm_num
  have l1 : 10 ^ (n - 1) ≤ u := by
    rcases hd.lead with h | ⟨h, _⟩
    · exact h
    · exact absurd h hu
  unfold bigValue
  constructor
  · have : ((10 : ℚ) ^ (n - 1)) ≤ u := by exact_mod_cast l1
    calc (10 : ℚ) ^ ((n : Int) - 1 - σ) = 10 ^ (n - 1) * 10 ^ (-σ) := by
          rw [← zpow_natCast, ← zpow_add₀ h10]; congr 1; have := hd.pos; omega
      _ ≤ _ := mul_le_mul_of_nonneg_right this (by positivity)
  · have : (u : ℚ) < 10 ^ n := by exact_mod_cast hd.lt
    calc (u : ℚ) * 10 ^ (-σ) < 10 ^ n * 10 ^ (-σ) := mul_lt_mul_of_pos_right this (by positivity)
      _ = _ := by rw [← zpow_natCast, ← zpow_add₀ h10]; congr 1; omega

theorem fieldBy_padWith (left zero : Bool) (w len : Nat) (pre body : JStr) :
    fieldBy left zero w len pre body = padWith left zero (w - (pre.length + len)) pre body := rfl

theorem printf_big_g {dates : DateSyntax} (env : DateEnv) {d : Directive} (h : d.Ok dates) (hp : d.Plain)
    (hc : d.conv = ch! 'g') {v : Traits} {u σ : Int} (hv : v.asFloatForm = .ok (FloatForm.ofBigDecimal u σ))
    {n : Nat} (hn : DigitCount u.natAbs n) (hs : ScaleOk n σ) (rest : List Traits) {P : Nat}
    (hP : P = max 1 (d.prec.precision.getD 6)) :
    ∃ body k, printf dates env d.text (v :: rest) =
        .ok (padWith (flagSet d.flags).leftJustify (flagSet d.flags).zeroPad k
          (signText (flagSet d.flags) (decide (u < 0))) body) ∧
      (u ≠ 0 → ∃ x0 M x, 10 ^ x0 ≤ bigValue u.natAbs σ ∧ bigValue u.natAbs σ < 10 ^ (x0 + 1) ∧
        Significant (bigValue u.natAbs σ) P M x ∧
        BigGeneralText P n (flagSet d.flags).alternate x0 M x body ∧
        k = d.width.width - ((signText (flagSet d.flags) (decide (u < 0))).length +
          (body.length - generalHidden P n (flagSet d.flags).alternate x0 M x body))) ∧
      (u = 0 → k = d.width.width - ((signText (flagSet d.flags) (decide (u < 0))).length + body.length)) ∧
      (u = 0 ∧ σ = 0 →
        if (flagSet d.flags).alternate then FixedText 0 (P - 1) true body else body = js! "0") ∧
      (u = 0 ∧ σ ≠ 0 → ∃ xs, body = js! "0e" ++ xs ∧ ExponentText (-σ) xs) := by
  have hcap := getD_precision_le h
  have key : ∃ l, BigDecimalWrapper.generalLayout ⟨u.natAbs, σ⟩ P = .ok l ∧
      (u ≠ 0 → ∃ x0 M x, 10 ^ x0 ≤ bigValue u.natAbs σ ∧ bigValue u.natAbs σ < 10 ^ (x0 + 1) ∧
        Significant (bigValue u.natAbs σ) P M x ∧
        BigGeneralText P n (flagSet d.flags).alternate x0 M x (gText (flagSet d.flags).alternate l P) ∧
        gLength (flagSet d.flags).alternate l P +
          generalHidden P n (flagSet d.flags).alternate x0 M x (gText (flagSet d.flags).alternate l P) =
          (gText (flagSet d.flags).alternate l P).length) ∧
      (u = 0 → gLength (flagSet d.flags).alternate l P = (gText (flagSet d.flags).alternate l P).length) ∧
      (u = 0 ∧ σ = 0 → if (flagSet d.flags).alternate then
          FixedText 0 (P - 1) true (gText (flagSet d.flags).alternate l P)
        else gText (flagSet d.flags).alternate l P = js! "0") ∧
      (u = 0 ∧ σ ≠ 0 → ∃ xs, gText (flagSet d.flags).alternate l P = js! "0e" ++ xs ∧ ExponentText (-σ) xs) := by
    by_cases h0 : u = 0
    · subst h0
      obtain ⟨l, s1, s2, s3, s4⟩ := general_zero (P := P) (by omega) (by omega) σ (flagSet d.flags).alternate
      exact ⟨l, s1, fun h => absurd rfl h, fun _ => s4, fun h => s2 h.2, fun h => s3 h.2⟩
    · obtain ⟨l, M, x, s1, s2, s3, s4⟩ := general_text hn.digits (by omega) hs.1 hs.2 (P := P) (by omega) (by omega)
        (flagSet d.flags).alternate
      obtain ⟨b1, b2⟩ := bigValue_exponent σ hn.digits (by omega)
      exact ⟨l, s1, fun _ => ⟨_, M, x, b1, b2, s2, s3, s4⟩, fun h => absurd h h0, fun h => absurd h.1 h0,
        fun h => absurd h.1 h0⟩
  obtain ⟨l, h1, h2, h3, h4⟩ := key
  have hw := BigDecimalWrapper.generalLayout_wf h1
  have hl : (FloatForm.ofBigDecimal u σ).generalLayout (gPrecision d.context) = .ok l := by
    rw [gPrecision_eq hp, ← hP]; exact h1
  have hfin : ((FloatForm.ofBigDecimal u σ).isNaN || (FloatForm.ofBigDecimal u σ).isInfinite) = false := rfl
  have fin : ∀ r, g d.context (FloatForm.ofBigDecimal u σ) = .ok r → r.Sane →
      printf dates env d.text (v :: rest) = .ok r.text := by
    intro r r1 r2
    refine printf_plain_ok h hp ?_ r2 rest
    rw [hc, show convOf (ch! 'g') = .g from rfl]
    simp only [formatterFor, hv, bind_ok, r1]
  obtain ⟨r, r1, r2, r3⟩ := g_exact hp.precOK hfin hl hw
  rw [gPrecision_eq hp, ← hP, Int.toNat_natCast] at r3
  refine ⟨gText (flagSet d.flags).alternate l P,
    d.width.width - ((signText (flagSet d.flags) (decide (u < 0))).length + gLength (flagSet d.flags).alternate l P),
    ?_, fun hu => ?_, fun hu => by rw [h3 hu], h4⟩
  · rw [fin r r1 r2, r3, hp.width_eq, bigSign]
    rfl
  · obtain ⟨x0, M, x, g1, g2, g3, g4, g5⟩ := h2 hu
    refine ⟨x0, M, x, g1, g2, g3, g4, ?_⟩
    congr 2; omega

end FastPrintf
