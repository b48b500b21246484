/-
Hexadecimal floating-point texts, written independently of the library.
-/
import Verif.Spec.Double
import Verif.Spec.CPrintf

namespace FastPrintf.Spec

/-- The text `h.hhhp±d` (without `0x`): a leading digit, a point, hex digits, `p`, and the binary exponent
with its sign and no superfluous zero. -/
def HexText (lead : Nat) (fp : JStr) (x : Int) (s : JStr) : Prop :=
  lead ≤ 1 ∧ (∀ c ∈ fp, IsDigitIn 16 c) ∧
    ∃ ds, Shortest 10 x.natAbs ds ∧
      s = (48 + lead) :: ch! '.' :: fp ++ ch! 'p' :: (if x < 0 then ch! '-' else ch! '+') :: ds

/-- The number denoted by such a text. -/
def hexValue (lead : Nat) (fp : JStr) (x : Int) : ℚ :=
  (lead + (valueIn 16 fp : ℚ) / 16 ^ fp.length) * 2 ^ x

/-- `w` is `v > 0` rounded to `q` hex digits after the leading one: to nearest, ties to even. -/
def HexRounded (v : ℚ) (q : Nat) (w : ℚ) : Prop :=
  ∃ (E : Int) (k : Nat), 2 ^ E ≤ v ∧ v < 2 ^ (E + 1) ∧ w = k * 2 ^ (E - 4 * q) ∧
    |v - w| ≤ 2 ^ (E - 4 * q) / 2 ∧ (|v - w| = 2 ^ (E - 4 * q) / 2 → k % 2 = 0)

example : HexText 1 (js! "8") (-3) (js! "1.8p-3") :=
  ⟨by decide, by decide, js! "3", by unfold Shortest IsNumeral NoExtraZero; decide, by decide⟩
example : hexValue 1 (js! "8") (-3) = 3 / 16 := by norm_num [hexValue, valueIn, digitVal]
-- a tie
example : HexRounded (1 + 3 / 32) 1 (1 + 2 / 16) :=
  ⟨0, 18, by norm_num, by norm_num, by norm_num, by norm_num [abs_of_neg], by norm_num⟩

/-- What stands for a non-finite `double`. -/
def nonFiniteName (bits : BitVec 64) (plus : Bool) : JStr :=
  if fracBits bits ≠ 0 then js! "NaN"
  else if negative bits then js! "-Infinity" else if plus then js! "+Infinity" else js! "Infinity"

end FastPrintf.Spec
