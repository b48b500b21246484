/-
Property C26: the decimal computed for a `double`.
-/
import Verif.Proofs.Schubfach
import Verif.Proofs.Unique

namespace FastPrintf
open Spec DoubleToDecimal

/-- **C26.**  For every finite nonzero `double` the core yields a significand `f` of exactly `n` digits
(at most 17) and an exponent `e` such that `f * 10^e` is the decimal that stands for the double: it rounds
to the double, no decimal that does is shorter (two digits being the least length considered), and among
those of that length it is the closest, with ties resolved to an even last digit.  The exponent `e` is the
last place (so `f` can end in zeros). -/
theorem C26_decimal (bits : BitVec 64) (hf : finite bits) (h0 : magnitude bits ≠ 0) :
    ∃ (f : BitVec 64) (e : Int) (n : Nat), toDecimal bits = .ok (.dec f e n) ∧
      10 ^ (n - 1) ≤ f.toNat ∧ f.toNat < 10 ^ n ∧ 1 ≤ n ∧ n ≤ 17 ∧ JavaDecimal bits (f.toNat * 10 ^ e) ∧
      LastPlace bits e := by
  obtain ⟨f, e, n, h1, h2, h3, h4, h5, h6, h7, h8, h9⟩ := (toDecimal_ok hf h0).out
  refine ⟨f, e, n, h1, h5, h6, h4, ?_, h9⟩
  by_contra hgt
  have : 10 ^ 17 ≤ 10 ^ (n - 1) := Nat.pow_le_pow_right (by omega) (by omega)
  omega

/-- The decimal is determined by the rule. -/
theorem C26_unique {bits : BitVec 64} (hf : finite bits) (h0 : magnitude bits ≠ 0) {d d' : ℚ}
    (h : JavaDecimal bits d) (h' : JavaDecimal bits d') : d = d' := h.unique hf h0 h'

/-- It rounds back to the double. -/
theorem C26_roundtrip {bits : BitVec 64} {d : ℚ} (h : JavaDecimal bits d) :
    RoundsTo (magnitude bits) (doubleC bits % 2 = 0) d := by
  obtain ⟨_, _, h, _⟩ := h; exact h

/-- Different magnitudes have different decimals, so the decimal identifies the double up to its sign. -/
theorem C26_injective {bits bits' : BitVec 64} (hf : finite bits) (h0 : magnitude bits ≠ 0)
    (hf' : finite bits') (h0' : magnitude bits' ≠ 0) {d : ℚ} (h : JavaDecimal bits d)
    (h' : JavaDecimal bits' d) : magnitude bits = magnitude bits' := by
  have c1 := (double_canonical hf h0).1
  have c2 := (double_canonical hf' h0').1
  have r1 := C26_roundtrip h
  have r2 := C26_roundtrip h'
  unfold magnitude at *
  rcases lt_trichotomy ((doubleC bits : ℚ) * 2 ^ doubleQ bits) (doubleC bits' * 2 ^ doubleQ bits') with h | h | h
  · exact (roundsTo_disjoint c1 c2 h r1 r2).elim
  · exact h
  · exact (roundsTo_disjoint c2 c1 h r2 r1).elim

/-- `split` gives the decimal of a number that is not negative; of a finite negative number it is a null pointer
exception. -/
theorem C26_split (bits : BitVec 64) :
    (¬ negative bits ∨ ¬ finite bits → split bits = toDecimal bits) ∧
    (negative bits → finite bits → split bits = .error .nullPointer) := by
  have hs : bits.slt 0#64 = true ↔ negative bits := by
    unfold negative
    rw [BitVec.slt_zero_iff_msb_cond, BitVec.msb_eq_decide]
    simp
  have hb : ((bits >>> 52) &&& 0x7FF#64).toNat < BQ_MASK ↔ finite bits := by
    rw [bqField_toNat]
    unfold finite expBits BQ_MASK
    omega
  unfold split
  constructor
  · intro h
    rw [if_neg]
    rintro ⟨h1, h2⟩
    rcases h with h | h
    · exact h (hs.1 h1)
    · exact h (hb.1 h2)
  · intro h1 h2
    rw [if_pos ⟨hs.2 h1, hb.2 h2⟩]

/-- The zeros, the infinities and NaN are told apart from the finite nonzero doubles. -/
theorem C26_special (bits : BitVec 64) :
    (bits = 0#64 → toDecimal bits = .ok .plusZero) ∧
    (bits = 0x8000000000000000#64 → toDecimal bits = .ok .minusZero) ∧
    (bits = 0x7FF0000000000000#64 → toDecimal bits = .ok .plusInf) ∧
    (bits = 0xFFF0000000000000#64 → toDecimal bits = .ok .minusInf) ∧
    (expBits bits = 2047 → fracBits bits ≠ 0 → toDecimal bits = .ok .nan) := by
  refine ⟨by rintro rfl; decide, by rintro rfl; decide, by rintro rfl; decide, by rintro rfl; decide, ?_⟩
  intro h1 h2
  unfold toDecimal
  simp only [bqField_toNat, h1]
  rw [if_neg (by decide), if_pos]
  intro h
  apply h2
  rw [← tField_toNat, h]; decide

-- Non-vacuity: 0.1, the smallest double, the largest double, and 2^53 - 1.
example : toDecimal 0x3FB999999999999A#64 = .ok (.dec 10000000000000000#64 (-17) 17) := by decide +kernel
example : toDecimal 1#64 = .ok (.dec 49#64 (-325) 2) := by decide +kernel
example : toDecimal 0x7FEFFFFFFFFFFFFF#64 = .ok (.dec 17976931348623157#64 292 17) := by decide +kernel
example : toDecimal 0x433FFFFFFFFFFFFF#64 = .ok (.dec 9007199254740991#64 0 16) := by decide +kernel
example : finite 0x3FB999999999999A#64 := by unfold finite; decide
example : magnitude 0x3FB999999999999A#64 ≠ 0 := by
  unfold magnitude
  have h : (0 : ℚ) < doubleC 0x3FB999999999999A#64 := by
    have : 0 < doubleC 0x3FB999999999999A#64 := by decide
    exact_mod_cast this
  positivity

/-- The decimal of the double nearest to 0.1 is 0.1. -/
example (hf : finite 0x3FB999999999999A#64) (h0 : magnitude 0x3FB999999999999A#64 ≠ 0) :
    JavaDecimal 0x3FB999999999999A#64 (1 / 10) := by
  obtain ⟨f, e, n, h1, -, -, -, -, h2, -⟩ := C26_decimal _ hf h0
  have h3 : toDecimal 0x3FB999999999999A#64 = .ok (.dec 10000000000000000#64 (-17) 17) := by decide +kernel
  rw [h3] at h1
  cases h1
  norm_num at h2 ⊢
  exact h2

-- -0.5 and -0.0
example : split 0xBFE0000000000000#64 = .error .nullPointer ∧ split 0x8000000000000000#64 = .error .nullPointer := by
  decide +kernel

/-- The digits of the least `double` go down to the place -325. -/
example : LastPlace 1#64 (-325) := by
  have h : ¬ (magnitude 1#64).den = 1 := by
    rw [show magnitude 1#64 = 1 / 2 ^ 1074 from by
      norm_num [magnitude, doubleC, doubleQ, expBits, fracBits]]
    rw [show (1 : ℚ) / 2 ^ 1074 = ((2 ^ 1074 : Nat) : ℚ)⁻¹ from by rw [one_div, Nat.cast_pow]; rfl, Rat.inv_natCast_den]
    decide +kernel
  rw [LastPlace, if_neg (fun h' => h h'.2), if_pos (by decide)]

end FastPrintf
