/-
IEEE 754 binary64 and the decimal that stands for a `double`, written independently of the library.
-/
import Mathlib.Data.Rat.Defs
import Mathlib.Algebra.Order.Field.Rat
import Mathlib.Algebra.Order.Field.Power
import Mathlib.Order.Bounds.Basic

namespace FastPrintf.Spec

/-- The fields of a binary64 value. -/
def expBits (bits : BitVec 64) : Nat := (bits.toNat / 2 ^ 52) % 2048
def fracBits (bits : BitVec 64) : Nat := bits.toNat % 2 ^ 52
def negative (bits : BitVec 64) : Prop := 2 ^ 63 ≤ bits.toNat

instance (bits : BitVec 64) : Decidable (negative bits) := inferInstanceAs (Decidable (_ ≤ _))

/-- The integer significand and the exponent of a finite binary64: its magnitude is `c * 2^q`. -/
def doubleC (bits : BitVec 64) : Nat :=
  if expBits bits = 0 then fracBits bits else 2 ^ 52 + fracBits bits
def doubleQ (bits : BitVec 64) : Int :=
  if expBits bits = 0 then -1074 else (expBits bits : Int) - 1075

def finite (bits : BitVec 64) : Prop := expBits bits ≠ 2047

/-- The magnitude of a finite binary64. -/
def magnitude (bits : BitVec 64) : ℚ := doubleC bits * 2 ^ doubleQ bits

/-- A magnitude representable in 53 bits with exponent at least -1074.  The exponent is not bounded
above: IEEE 754 rounds as if it were not, and then overflows. -/
def IsFloat (x : ℚ) : Prop := ∃ (c : Nat) (q : Int), c < 2 ^ 53 ∧ -1074 ≤ q ∧ x = c * 2 ^ q

/-- Rounding to nearest, ties to even: `d` rounds to the magnitude `x` (`even` says that the significand
of `x` is even). -/
def RoundsTo (x : ℚ) (even : Prop) (d : ℚ) : Prop :=
  ∀ y, IsFloat y → y = x ∨ |d - x| < |d - y| ∨ (|d - x| = |d - y| ∧ even)

/-- `d` is a decimal of length `n`: `s * 10^i` with an `n`-digit integer `s`. -/
def HasLength (n : Nat) (d : ℚ) : Prop :=
  ∃ (s : Nat) (i : Int), 10 ^ (n - 1) ≤ s ∧ s < 10 ^ n ∧ d = s * 10 ^ i

/-- `d` is a decimal of length `n` with an even last digit. -/
def HasEvenLength (n : Nat) (d : ℚ) : Prop :=
  ∃ (s : Nat) (i : Int), 10 ^ (n - 1) ≤ s ∧ s < 10 ^ n ∧ s % 2 = 0 ∧ d = s * 10 ^ i

/-- The decimal chosen by the documentation of `Double.toString` (JDK 19): among the decimals in `R`
(those that round to `x`) let `m` be the least length and `n` the larger of `m` and 2; then `d` is the
decimal of length `n` in `R` that is closest to `x`, or if there are two, the one with an even last
digit. -/
def Chosen (R : ℚ → Prop) (x d : ℚ) : Prop :=
  ∃ m, IsLeast {m | 1 ≤ m ∧ ∃ d', R d' ∧ HasLength m d'} m ∧
    R d ∧ HasLength (max m 2) d ∧
    ∀ d', R d' → HasLength (max m 2) d' → d' = d ∨ |d - x| < |d' - x| ∨
      (|d - x| = |d' - x| ∧ HasEvenLength (max m 2) d)

/-- The decimal that stands for a finite nonzero `double` in Java. -/
def JavaDecimal (bits : BitVec 64) (d : ℚ) : Prop :=
  Chosen (RoundsTo (magnitude bits) (doubleC bits % 2 = 0)) (magnitude bits) d

/-- The place down to which the library computes digits, trailing zeros included: the units for an
integer below `2^52`; otherwise the greatest power of ten that is at most the distance between the
midpoints around the number (`2^q`, or three quarters of it at a power of two); one place further for the
two smallest numbers. -/
def LastPlace (bits : BitVec 64) (e : Int) : Prop :=
  if magnitude bits < 2 ^ 52 ∧ (magnitude bits).den = 1 then e = 0
  else if doubleC bits < 3 then e = -325
  else (10 : ℚ) ^ e ≤ (if doubleC bits = 2 ^ 52 ∧ doubleQ bits ≠ -1074 then 3 / 4 else 1) * 2 ^ doubleQ bits ∧
    (if doubleC bits = 2 ^ 52 ∧ doubleQ bits ≠ -1074 then 3 / 4 else 1) * (2 : ℚ) ^ doubleQ bits < 10 ^ (e + 1)

end FastPrintf.Spec
