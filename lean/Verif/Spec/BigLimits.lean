/-
Which `BigDecimal`s are beyond the reach of `BigInteger`.
-/
import Verif.Model.BigLimits
import Verif.Spec.BigDecimal
import Verif.Spec.Arguments

namespace FastPrintf.Spec

/-- `2^k`, in a form that is not evaluated. -/
@[irreducible] def twoPow (k : Nat) : Nat := 2 ^ k

/-- What the documentation of `BigInteger` promises: all magnitudes below `2^Integer.MAX_VALUE`. -/
@[irreducible] def promised : Nat := twoPow 2147483647

/-- The number is written with so many places that rounding it to `p` of them divides by a power of ten that
is out of reach; `n` is the number of digits. -/
def TooFine (limit n : Nat) (scale : Int) (p : Nat) : Prop :=
  p < scale ∧ n ≤ scale ∧ limit ≤ 10 ^ (scale - p).toNat

/-- The integer part cannot be computed: it is out of reach, or the power of ten by which the unscaled value
would be divided is. -/
def NoInteger (limit : Nat) (u scale : Int) : Prop :=
  (0 < scale ∧ limit ≤ 10 ^ scale.toNat) ∨
    (scale ≤ 0 ∧ u ≠ 0 ∧ (scale = -2147483648 ∨ limit ≤ u.natAbs * 10 ^ (-scale).toNat))

/-- A big number whose unscaled value can be represented at all. -/
def Held (limit : Nat) (u scale : Int) : Prop :=
  u.natAbs < limit ∧ -2147483648 ≤ scale ∧ scale ≤ 2147483647

/-- An argument that stays within reach, whatever is asked of it: for a `BigDecimal`, the unscaled value, the
integer part and the power of ten of the scale can be represented. -/
def InReach (limit : Nat) : Entry → Prop
  | .ref (.bigDecimal u scale _) => Held limit u scale ∧ 10 ^ scale.toNat < limit ∧ ¬ NoInteger limit u scale
  | .ref (.bigInteger v _) => v.natAbs < limit
  | _ => True

end FastPrintf.Spec
