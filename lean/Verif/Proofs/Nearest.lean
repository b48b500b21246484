/-
`JavaDouble.nearest` is IEEE 754 rounding.
-/
import Verif.Model.JavaDouble
import Verif.Proofs.Rounding

namespace FastPrintf
open Spec

namespace JavaDouble

theorem roundHalfEven_spec {a b : Nat} (hb : 0 < b) :
    let c := roundHalfEven a b
    2 * a ≤ (2 * c + 1) * b ∧ 2 * c * b ≤ 2 * a + b ∧
      (2 * a = (2 * c + 1) * b → c % 2 = 0) ∧ (2 * c * b = 2 * a + b → c % 2 = 0) := by
  intro c
  have hd := Nat.div_add_mod a b
  have hm := Nat.mod_lt a hb
  have hc : c = roundHalfEven a b := rfl
  unfold roundHalfEven at hc
  dsimp only at hc
  generalize a / b = q at *
  generalize a % b = r at *
  subst hd
  clear_value c
  split_ifs at hc with h
  · subst hc
    rcases h with h | ⟨h, h'⟩
    · refine ⟨by nlinarith, by nlinarith, fun e => ?_, fun e => ?_⟩
      · exfalso; nlinarith
      · exfalso; nlinarith
    · exact ⟨by nlinarith, by nlinarith, fun e => by omega, fun e => by omega⟩
  · subst hc
    have h1 : 2 * r ≤ b := by omega
    refine ⟨by nlinarith, by nlinarith, fun e => ?_, fun e => ?_⟩
    · have : 2 * r = b := by nlinarith
      omega
    · have : 2 * r + b = 0 := by nlinarith
      omega

/-- The defining property of `floorLog2`. -/
theorem floorLog2_spec {num den : Nat} (hn : 0 < num) (hd : 0 < den) :
    (2 : ℚ) ^ floorLog2 num den ≤ (num : ℚ) / den ∧ (num : ℚ) / den < 2 ^ (floorLog2 num den + 1) := by
  have hdq : (0 : ℚ) < den := by exact_mod_cast hd
  have n1 : (2 : ℚ) ^ num.log2 ≤ num := by exact_mod_cast Nat.log2_self_le hn.ne'
  have n2 : (num : ℚ) < 2 ^ (num.log2 + 1) := by exact_mod_cast Nat.lt_log2_self
  have d1 : (2 : ℚ) ^ den.log2 ≤ den := by exact_mod_cast Nat.log2_self_le hd.ne'
  have d2 : (den : ℚ) < 2 ^ (den.log2 + 1) := by exact_mod_cast Nat.lt_log2_self
  unfold floorLog2
  dsimp only
  set e : Int := (num.log2 : Int) - den.log2 with he
  have hcond : den * 2 ^ e.toNat ≤ num * 2 ^ (-e).toNat ↔ (2 : ℚ) ^ e ≤ num / den := by
    rw [le_div_iff₀ hdq]
    have : ((2 : ℚ) ^ e) = 2 ^ e.toNat / 2 ^ (-e).toNat := by
      rw [eq_div_iff (by positivity), ← zpow_natCast, ← zpow_natCast, ← zpow_add₀ (by norm_num)]
      congr 1; omega
    rw [this, div_mul_eq_mul_div, div_le_iff₀ (by positivity)]
    constructor
    · intro h
      have : ((den * 2 ^ e.toNat : Nat) : ℚ) ≤ ((num * 2 ^ (-e).toNat : Nat) : ℚ) := by exact_mod_cast h
      push_cast at this; linarith
    · intro h
      have : ((den * 2 ^ e.toNat : Nat) : ℚ) ≤ ((num * 2 ^ (-e).toNat : Nat) : ℚ) := by
        push_cast; linarith
      exact_mod_cast this
  have up : (num : ℚ) / den < 2 ^ (e + 1) := by
    rw [div_lt_iff₀ hdq]
    have : (2 : ℚ) ^ (e + 1) * 2 ^ den.log2 = 2 ^ (num.log2 + 1) := by
      rw [← zpow_natCast, ← zpow_natCast, ← zpow_add₀ (by norm_num)]
      congr 1; push_cast; omega
    have hp : (0 : ℚ) < 2 ^ (e + 1) := by positivity
    nlinarith
  have lo : (2 : ℚ) ^ (e - 1) < num / den := by
    rw [lt_div_iff₀ hdq]
    have : (2 : ℚ) ^ (e - 1) * 2 ^ (den.log2 + 1) = 2 ^ num.log2 := by
      rw [← zpow_natCast, ← zpow_natCast, ← zpow_add₀ (by norm_num)]
      congr 1; push_cast; omega
    have hp : (0 : ℚ) < 2 ^ (e - 1) := by positivity
    nlinarith
  split_ifs with h
  · exact ⟨hcond.1 h, up⟩
  · rw [hcond, not_le] at h
    refine ⟨lo.le, ?_⟩
    rwa [sub_add_cancel]

/-- The fields of raw bits made of a sign, an exponent part and a significand with its leading one. -/
theorem fields {s k c : Nat} {bits : BitVec 64} (hb : bits.toNat = s * 2 ^ 63 + (k * 2 ^ 52 + c))
    (h1 : 2 ^ 52 ≤ c) (h2 : c < 2 ^ 53) (hk : k < 2046) :
    finite bits ∧ doubleC bits = c ∧ doubleQ bits = (k : Int) - 1074 := by
  have e1 : expBits bits = k + 1 := by unfold expBits; rw [hb]; omega
  have e2 : fracBits bits = c - 2 ^ 52 := by unfold fracBits; rw [hb]; omega
  refine ⟨by unfold finite; omega, ?_, ?_⟩
  · unfold doubleC; rw [e1, e2, if_neg (by omega)]; omega
  · unfold doubleQ; rw [e1, if_neg (by omega)]; push_cast; omega

/-- In the normal range `nearest` rounds to nearest, ties to even. -/
theorem nearest_spec {num den : Nat} (hn : 0 < num) (hd : 0 < den)
    (hlow : -1022 ≤ floorLog2 num den) (hhigh : floorLog2 num den ≤ 1022) {s : Nat} {bits : BitVec 64}
    (hb : bits.toNat = s * 2 ^ 63 + nearest num den) :
    finite bits ∧ magnitude bits ≠ 0 ∧
      RoundsTo (magnitude bits) (doubleC bits % 2 = 0) ((num : ℚ) / den) := by
  obtain ⟨x1, x2⟩ := floorLog2_spec hn hd
  have hq : max (floorLog2 num den - 52) (-1074) = floorLog2 num den - 52 := by omega
  unfold nearest at hb
  rw [hq] at hb
  generalize hf : floorLog2 num den = f at *
  obtain ⟨q, rfl⟩ : ∃ q, f = q + 52 := ⟨f - 52, by omega⟩
  rw [show q + 52 - 52 = q by omega] at hb
  have hdq : (0 : ℚ) < den := by exact_mod_cast hd
  have hbpos : 0 < den * 2 ^ q.toNat := by positivity
  have hr := roundHalfEven_spec (a := num * 2 ^ (-q).toNat) hbpos
  dsimp only at hb hr
  generalize roundHalfEven (num * 2 ^ (-q).toNat) (den * 2 ^ q.toNat) = c at *
  obtain ⟨r1, r2, r3, r4⟩ := hr
  -- in terms of `t = x / 2^q`
  have hw : (0 : ℚ) < 2 ^ q := by positivity
  obtain ⟨t, ht⟩ : ∃ t : ℚ, (num : ℚ) / den = t * 2 ^ q := ⟨num / den / 2 ^ q, by field_simp⟩
  have hab : ((num * 2 ^ (-q).toNat : Nat) : ℚ) = t * ((den * 2 ^ q.toNat : Nat) : ℚ) := by
    have e : (2 : ℚ) ^ q * 2 ^ (-q).toNat = 2 ^ q.toNat := by
      rw [← zpow_natCast, ← zpow_natCast, ← zpow_add₀ (by norm_num)]
      congr 1; omega
    have : (num : ℚ) = t * 2 ^ q * den := by rw [← ht]; field_simp
    push_cast
    rw [this, ← e]; ring
  have hBq : (0 : ℚ) < ((den * 2 ^ q.toNat : Nat) : ℚ) := by exact_mod_cast hbpos
  have r1' : t ≤ c + 1 / 2 := by
    have : 2 * ((num * 2 ^ (-q).toNat : Nat) : ℚ) ≤ (2 * c + 1) * ((den * 2 ^ q.toNat : Nat) : ℚ) := by
      exact_mod_cast r1
    rw [hab] at this
    nlinarith
  have r2' : (c : ℚ) ≤ t + 1 / 2 := by
    have : 2 * (c : ℚ) * ((den * 2 ^ q.toNat : Nat) : ℚ) ≤
        2 * ((num * 2 ^ (-q).toNat : Nat) : ℚ) + ((den * 2 ^ q.toNat : Nat) : ℚ) := by
      exact_mod_cast r2
    rw [hab] at this
    nlinarith
  have r3' : t = c + 1 / 2 → c % 2 = 0 := by
    intro h
    apply r3
    have : 2 * ((num * 2 ^ (-q).toNat : Nat) : ℚ) = (2 * c + 1) * ((den * 2 ^ q.toNat : Nat) : ℚ) := by
      rw [hab, h]; ring
    exact_mod_cast this
  have r4' : (c : ℚ) = t + 1 / 2 → c % 2 = 0 := by
    intro h
    apply r4
    have : 2 * (c : ℚ) * ((den * 2 ^ q.toNat : Nat) : ℚ) =
        2 * ((num * 2 ^ (-q).toNat : Nat) : ℚ) + ((den * 2 ^ q.toNat : Nat) : ℚ) := by
      rw [hab, h]; ring
    exact_mod_cast this
  have t1 : (2 : ℚ) ^ 52 ≤ t := by
    rw [ht, zpow_add₀ (by norm_num)] at x1
    have : (2 : ℚ) ^ (52 : Int) = 2 ^ 52 := by norm_num
    rw [this] at x1
    nlinarith
  have t2 : t < 2 ^ 53 := by
    rw [ht, show q + 52 + 1 = q + 53 by ring, zpow_add₀ (by norm_num)] at x2
    have : (2 : ℚ) ^ (53 : Int) = 2 ^ 53 := by norm_num
    rw [this] at x2
    nlinarith
  have c1 : 2 ^ 52 ≤ c := by
    have : (2 : ℚ) ^ 52 < (c + 1 : Nat) := by push_cast; linarith
    have : 2 ^ 52 < c + 1 := by exact_mod_cast this
    omega
  have c2 : c ≤ 2 ^ 53 := by
    have : (c : ℚ) < (2 ^ 53 + 1 : Nat) := by push_cast; linarith
    have : c < 2 ^ 53 + 1 := by exact_mod_cast this
    omega
  rw [min_eq_left (by omega)] at hb
  rw [ht]
  rcases Nat.lt_or_ge c (2 ^ 53) with hlt | hge
  · obtain ⟨f1, f2, f3⟩ := fields hb c1 hlt (by omega)
    have hQ : doubleQ bits = q := by rw [f3]; omega
    have hcan : Canonical c q := ⟨by omega, hlt, by omega, .inr c1⟩
    have hmag : magnitude bits = c * 2 ^ q := by rw [magnitude, f2, hQ]
    refine ⟨f1, ?_, ?_⟩
    · rw [hmag]
      have : (0 : ℚ) < c := by exact_mod_cast (by omega : 0 < c)
      positivity
    · rw [hmag, f2, roundsTo_iff hcan]
      generalize (2 : ℚ) ^ q = w at *
      refine ⟨?_, ?_⟩
      · unfold lowQuarters
        split_ifs with hl
        · left
          have : (c : ℚ) = 2 ^ 52 := by exact_mod_cast hl.1
          push_cast
          nlinarith
        · rcases lt_or_eq_of_le r2' with h | h
          · left; push_cast; nlinarith
          · right; exact ⟨r4' h, by push_cast; rw [h]; ring⟩
      · rcases lt_or_eq_of_le r1' with h | h
        · left; nlinarith
        · right; exact ⟨r3' h, by rw [h]; ring⟩
  · obtain rfl : c = 2 ^ 53 := by omega
    have hb' : bits.toNat = s * 2 ^ 63 + ((q + 1074).toNat * 2 ^ 52 + 2 ^ 52 + 2 ^ 52) := by
      rw [hb]; omega
    rw [show (q + 1074).toNat * 2 ^ 52 + 2 ^ 52 = ((q + 1074).toNat + 1) * 2 ^ 52 by ring] at hb'
    obtain ⟨f1, f2, f3⟩ := fields hb' le_rfl (by norm_num) (by omega)
    have hQ : doubleQ bits = q + 1 := by rw [f3]; omega
    have hcan : Canonical (2 ^ 52) (q + 1) := ⟨by norm_num, by norm_num, by omega, .inr le_rfl⟩
    have hmag : magnitude bits = (2 ^ 52 : Nat) * 2 ^ (q + 1) := by rw [magnitude, f2, hQ]
    refine ⟨f1, ?_, ?_⟩
    · rw [hmag]; positivity
    · rw [hmag, f2, roundsTo_iff hcan]
      rw [zpow_add₀ (by norm_num), zpow_one]
      generalize (2 : ℚ) ^ q = w at *
      have hl : lowQuarters (2 ^ 52) (q + 1) = 1 := by unfold lowQuarters; rw [if_pos ⟨rfl, by omega⟩]
      rw [hl]
      push_cast at *
      refine ⟨?_, ?_⟩
      · rcases lt_or_eq_of_le r2' with h | h
        · left; nlinarith
        · right; exact ⟨by norm_num, by nlinarith⟩
      · left; nlinarith

end JavaDouble
end FastPrintf
