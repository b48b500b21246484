/-
What the comments in `MathUtils` promise: floors of logarithms, and ten to a power as a 126-bit number.
-/
import Mathlib.Algebra.Order.Floor.Ring
import Mathlib.Data.Rat.Floor
import Mathlib.Algebra.Order.Field.Power

namespace FastPrintf.Spec

/-- `k` is the floor of the logarithm of `x` to the given base. -/
def FloorLog (base x : ℚ) (k : Int) : Prop := base ^ k ≤ x ∧ x < base ^ (k + 1)

/-- `g` is the number for the exponent `k` of ten, with binary exponent `r`: `10^-k = β * 2^r` with
`2^125 ≤ β < 2^126`, and `g` is the floor of `β`, plus 1. -/
def TenPower (k r : Int) (g : Nat) : Prop :=
  ∃ β : ℚ, (10 : ℚ) ^ (-k) = β * 2 ^ r ∧ 2 ^ 125 ≤ β ∧ β < 2 ^ 126 ∧ (g : Int) = ⌊β⌋ + 1

end FastPrintf.Spec
