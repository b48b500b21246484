/-
The rounding of the significand in `DoubleWrapper.hexLayout`, from bits to numbers.
-/
import Verif.Model.DoubleWrapper
import Mathlib.Tactic.Ring
import Mathlib.Tactic.Linarith
import Mathlib.Data.Nat.Bitwise

namespace FastPrintf.DoubleWrapper

/-- `a / 2^s` rounded to nearest, ties to even (for `s > 0`). -/
def nearestEven (a s : Nat) : Nat :=
  if 2 ^ (s - 1) ≤ a % 2 ^ s ∧ (a % 2 ^ s ≠ 2 ^ (s - 1) ∨ a / 2 ^ s % 2 = 1) then a / 2 ^ s + 1
  else a / 2 ^ s

theorem toNat_and_low (x : BitVec 64) : (x &&& 0x7FFFFFFFFFFFFFFF#64).toNat = x.toNat % 2 ^ 63 := by
  rw [BitVec.toNat_and]
  exact Nat.and_two_pow_sub_one_eq_mod x.toNat 63

theorem toNat_and_sign (x : BitVec 64) :
    (x &&& 0x8000000000000000#64).toNat = x.toNat / 2 ^ 63 * 2 ^ 63 := by
  rw [BitVec.toNat_and]
  have := Nat.and_two_pow x.toNat 63
  rw [show (0x8000000000000000#64).toNat = 2 ^ 63 from rfl, this, Nat.testBit_eq_decide_div_mod_eq]
  have hx := x.isLt
  have h2 : x.toNat / 2 ^ 63 < 2 := by omega
  generalize x.toNat / 2 ^ 63 = k at *
  obtain rfl | rfl : k = 0 ∨ k = 1 := by omega
  · rfl
  · rfl

theorem toNat_low_mask {s : Nat} (hs : s < 64) : (BitVec.ofNat 64 (2 ^ s - 1)).toNat = 2 ^ s - 1 := by
  rw [BitVec.toNat_ofNat, Nat.mod_eq_of_lt]
  have : 2 ^ s ≤ 2 ^ 64 := Nat.pow_le_pow_right (by norm_num) hs.le
  have := Nat.one_le_two_pow (n := s)
  omega

theorem toNat_and_low_mask (x : BitVec 64) {s : Nat} (hs : s < 64) :
    (x &&& BitVec.ofNat 64 (2 ^ s - 1)).toNat = x.toNat % 2 ^ s := by
  rw [BitVec.toNat_and, toNat_low_mask hs]
  exact Nat.and_two_pow_sub_one_eq_mod x.toNat s

theorem not_shift {s : Nat} (hs : s < 64) : ~~~((-1#64) <<< s) = BitVec.ofNat 64 (2 ^ s - 1) := by
  apply BitVec.eq_of_toNat_eq
  rw [toNat_low_mask hs, BitVec.toNat_not, BitVec.toNat_shiftLeft, Nat.shiftLeft_eq,
    show (-1#64).toNat = 2 ^ 64 - 1 from rfl]
  have h1 : 2 ^ s ≤ 2 ^ 63 := Nat.pow_le_pow_right (by norm_num) (by omega)
  have h2 := Nat.one_le_two_pow (n := s)
  generalize 2 ^ s = u at *
  obtain ⟨v, rfl⟩ : ∃ v, u = v + 1 := ⟨u - 1, by omega⟩
  rw [show (2 ^ 64 - 1) * (v + 1) = 2 ^ 64 * v + (2 ^ 64 - 1 - v) by omega, Nat.mul_add_mod,
    Nat.mod_eq_of_lt (by omega)]
  omega

theorem not_bit_and {x : BitVec 64} {t : Nat} (ht : t < 63) (hx : x.toNat < 2 ^ (t + 1)) :
    (~~~(1#64 <<< t) &&& x).toNat = x.toNat % 2 ^ t := by
  rw [← toNat_and_low_mask x (by omega : t < 64)]
  congr 1
  apply BitVec.eq_of_getLsbD_eq
  intro i hi
  have h0 : t < i → x.getLsbD i = false := fun h =>
    Nat.testBit_lt_two_pow (lt_of_lt_of_le hx (Nat.pow_le_pow_right (by norm_num) h))
  have h1 : (BitVec.ofNat 64 (2 ^ t - 1)).getLsbD i = decide (i < t) := by
    unfold BitVec.getLsbD
    rw [toNat_low_mask (by omega), Nat.testBit_two_pow_sub_one]
  have h2 : (1#64 <<< t).getLsbD i = decide (i = t) := by
    rw [← BitVec.twoPow_eq, BitVec.getLsbD_twoPow]
    by_cases h : i = t
    · subst h; simp; omega
    · simp [h]; omega
  rw [BitVec.getLsbD_and, BitVec.getLsbD_and, BitVec.getLsbD_not, h1, h2]
  rcases lt_trichotomy i t with h | h | h
  · have h3 : i ≠ t := by omega
    simp [h, h3, hi]
  · subst h; simp
  · simp [h0 h]

theorem bit_and {x : BitVec 64} {t : Nat} (ht : t < 63) (hx : x.toNat < 2 ^ (t + 1)) :
    ((1#64 <<< t) &&& x != 0#64) = decide (2 ^ t ≤ x.toNat) := by
  have h : ((1#64 <<< t) &&& x).toNat = (x.toNat.testBit t).toNat * 2 ^ t := by
    rw [BitVec.toNat_and, Nat.and_comm, ← Nat.and_two_pow, ← BitVec.twoPow_eq, BitVec.toNat_twoPow,
      Nat.mod_eq_of_lt]
    exact Nat.pow_lt_pow_right (by norm_num) (by omega)
  have hp : 0 < 2 ^ t := by positivity
  rw [bne, Bool.eq_iff_iff]
  simp only [Bool.not_eq_true', beq_eq_false_iff_ne, ne_eq, decide_eq_true_eq, BitVec.toNat_eq, h]
  rw [Nat.testBit_eq_decide_div_mod_eq]
  have h2 : x.toNat / 2 ^ t < 2 := by
    rw [Nat.div_lt_iff_lt_mul hp, ← pow_succ']; exact hx
  constructor
  · intro h3
    by_contra h4
    apply h3
    rw [Nat.div_eq_of_lt (by omega)]
    simp
  · intro h3 h4
    have h5 : 1 ≤ x.toNat / 2 ^ t := by rwa [Nat.le_div_iff_mul_le hp, one_mul]
    have h6 : x.toNat / 2 ^ t = 1 := by omega
    rw [h6] at h4
    simp at h4

theorem and_one (x : BitVec 64) : ((x &&& 1#64) == 0#64) = decide (x.toNat % 2 = 0) := by
  rw [Bool.eq_iff_iff]
  simp only [beq_iff_eq, decide_eq_true_eq, BitVec.toNat_eq]
  rw [BitVec.toNat_and, show (1#64).toNat = 1 from rfl, Nat.and_one_is_mod]
  rfl

/-- **The rounding of the significand.** -/
theorem roundBits_toNat {d : BitVec 64} {q : Nat} (h1 : 1 ≤ q) (h2 : q ≤ 12)
    (hd : d.toNat % 2 ^ 63 < 2047 * 2 ^ 52) :
    (roundBits d q).toNat =
      d.toNat / 2 ^ 63 * 2 ^ 63 + nearestEven (d.toNat % 2 ^ 63) (52 - 4 * q) * 2 ^ (52 - 4 * q) := by
  unfold roundBits
  rw [show 53 - (1 + q * 4) = 52 - 4 * q by omega]
  obtain ⟨t, ht⟩ : ∃ t, 52 - 4 * q = t + 1 := ⟨51 - 4 * q, by omega⟩
  have ht3 : 3 ≤ t := by omega
  have ht47 : t ≤ 47 := by omega
  rw [ht]
  dsimp only
  have hlow := toNat_and_low d
  generalize hlb : d &&& 0x7FFFFFFFFFFFFFFF#64 = low at hlow
  have hlt : low.toNat < 2 ^ 63 := by rw [hlow]; exact Nat.mod_lt _ (by positivity)
  have hsh : (low.sshiftRight (t + 1)).toNat = low.toNat / 2 ^ (t + 1) := by
    rw [BitVec.sshiftRight_eq_of_msb_false, BitVec.toNat_ushiftRight, Nat.shiftRight_eq_div_pow]
    rw [BitVec.msb_eq_decide]; simp; omega
  have hm := toNat_and_low_mask d (s := t + 1) (by omega)
  rw [not_shift (by omega)]
  generalize hrb : d &&& BitVec.ofNat 64 (2 ^ (t + 1) - 1) = rb at hm
  have hrl : rb.toNat = low.toNat % 2 ^ (t + 1) := by
    rw [hm, hlow, Nat.mod_mod_of_dvd]; exact pow_dvd_pow 2 (by omega)
  have hrt : rb.toNat < 2 ^ (t + 1) := by rw [hm]; exact Nat.mod_lt _ (by positivity)
  rw [and_one, hsh, Nat.add_sub_cancel, bit_and (by omega) hrt]
  have hst : (~~~(1#64 <<< t) &&& rb != 0#64) = decide (rb.toNat % 2 ^ t ≠ 0) := by
    rw [bne, Bool.eq_iff_iff]
    simp only [Bool.not_eq_true', beq_eq_false_iff_ne, ne_eq, decide_eq_true_eq, BitVec.toNat_eq]
    rw [not_bit_and (by omega) hrt]
    rfl
  rw [hst]
  have hcond : ((decide (low.toNat / 2 ^ (t + 1) % 2 = 0) && decide (2 ^ t ≤ rb.toNat) &&
        (decide (t + 1 > 1) && decide (rb.toNat % 2 ^ t ≠ 0)) ||
        !decide (low.toNat / 2 ^ (t + 1) % 2 = 0) && decide (2 ^ t ≤ rb.toNat)) = true) ↔
      (2 ^ t ≤ low.toNat % 2 ^ (t + 1) ∧
        (low.toNat % 2 ^ (t + 1) ≠ 2 ^ t ∨ low.toNat / 2 ^ (t + 1) % 2 = 1)) := by
    rw [← hrl]
    simp only [Bool.or_eq_true, Bool.and_eq_true, decide_eq_true_eq, Bool.not_eq_true', decide_eq_false_iff_not]
    have hmod : 2 ^ t ≤ rb.toNat → (rb.toNat % 2 ^ t ≠ 0 ↔ rb.toNat ≠ 2 ^ t) := by
      intro hle
      have : rb.toNat = 2 ^ t + (rb.toNat - 2 ^ t) := by omega
      have hlt2 : rb.toNat - 2 ^ t < 2 ^ t := by rw [pow_succ] at hrt; omega
      rw [this, Nat.add_mod_left, Nat.mod_eq_of_lt hlt2]
      omega
    generalize low.toNat / 2 ^ (t + 1) = k
    constructor
    · rintro (⟨⟨a, b⟩, _, c⟩ | ⟨a, b⟩)
      · exact ⟨b, .inl ((hmod b).1 c)⟩
      · exact ⟨b, .inr (by omega)⟩
    · rintro ⟨b, c⟩
      by_cases hk : k % 2 = 0
      · refine .inl ⟨⟨hk, b⟩, by omega, (hmod b).2 ?_⟩
        rcases c with c | c
        · exact c
        · omega
      · exact .inr ⟨hk, b⟩
  have hb52 : 2 ^ (t + 1) ∣ 2 ^ 52 := pow_dvd_pow 2 (by omega)
  have hkle : (low.toNat / 2 ^ (t + 1) + 1) * 2 ^ (t + 1) ≤ 2047 * 2 ^ 52 := by
    obtain ⟨z, hz⟩ := hb52
    rw [← hlow] at hd
    rw [hz, show 2047 * (2 ^ (t + 1) * z) = (2047 * z) * 2 ^ (t + 1) by ring] at hd ⊢
    apply Nat.mul_le_mul_right
    have := (Nat.div_lt_iff_lt_mul (by positivity)).2 hd
    omega
  have hns : ∀ c : Bool, (c = true ↔ (2 ^ t ≤ low.toNat % 2 ^ (t + 1) ∧
        (low.toNat % 2 ^ (t + 1) ≠ 2 ^ t ∨ low.toNat / 2 ^ (t + 1) % 2 = 1))) →
      (if c = true then low.sshiftRight (t + 1) + 1#64 else low.sshiftRight (t + 1)).toNat =
        nearestEven low.toNat (t + 1) ∧ nearestEven low.toNat (t + 1) * 2 ^ (t + 1) ≤ 2047 * 2 ^ 52 := by
    intro c hc
    unfold nearestEven
    rw [Nat.add_sub_cancel]
    by_cases h : c = true
    · rw [if_pos h, if_pos (hc.1 h), BitVec.toNat_add, hsh]
      refine ⟨?_, hkle⟩
      rw [show (1#64).toNat = 1 from rfl, Nat.mod_eq_of_lt]
      have := Nat.div_le_self low.toNat (2 ^ (t + 1))
      omega
    · rw [if_neg h, if_neg (fun hx => h (hc.2 hx)), hsh]
      refine ⟨rfl, le_trans (Nat.mul_le_mul_right _ (Nat.le_succ _)) hkle⟩
  obtain ⟨e1, e2⟩ := hns _ hcond
  rw [← hlow, BitVec.toNat_or, toNat_and_sign, BitVec.toNat_shiftLeft, e1, Nat.shiftLeft_eq,
    Nat.mod_eq_of_lt (by omega), mul_comm (d.toNat / 2 ^ 63)]
  exact (Nat.two_pow_add_eq_or_of_lt (by omega) _).symm

end FastPrintf.DoubleWrapper
