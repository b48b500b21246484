/-
Decimal texts of nonnegative rationals, written independently of the library: rounding half up to a
number of places or of significant digits, and the shape of the printed digits.
-/
import Verif.Spec.Double
import Verif.Spec.CPrintf
import Mathlib.Algebra.Order.Floor.Semiring
import Mathlib.Data.Rat.Floor

namespace FastPrintf.Spec

/-- `d` rounded half up to `p` places, in units of `10^-p`. -/
def halfUp (d : ℚ) (p : Int) : Nat := ⌊d * 10 ^ p + 1 / 2⌋₊

/-- A point and the fraction digits; the point alone if there are none and `alt` asks for it. -/
def fraction (alt : Bool) (fp : JStr) : JStr := if fp = [] ∧ alt = false then [] else ch! '.' :: fp

/-- `s` is a plain decimal with exactly `p` fraction digits that denotes `m * 10^-p`. -/
def FixedText (m p : Nat) (alt : Bool) (s : JStr) : Prop :=
  ∃ ip fp, s = ip ++ fraction alt fp ∧ IsNumeral 10 ip ∧ NoExtraZero ip ∧
    (∀ c ∈ fp, IsDigitIn 10 c) ∧ fp.length = p ∧ valueIn 10 (ip ++ fp) = m

/-- `d > 0` rounded half up to `n` significant digits is `m * 10^(x - (n-1))` with `m` of `n` digits: `x`
is the decimal exponent of the rounded value. -/
def Significant (d : ℚ) (n m : Nat) (x : Int) : Prop :=
  10 ^ (n - 1) ≤ m ∧ m < 10 ^ n ∧
    ∃ x0 : Int, 10 ^ x0 ≤ d ∧ d < 10 ^ (x0 + 1) ∧
      (m : ℚ) * 10 ^ (x - (n - 1)) = halfUp d (n - 1 - x0) * 10 ^ (x0 - (n - 1))

/-- The exponent part: a sign and at least two digits. -/
def ExponentText (x : Int) (s : JStr) : Prop :=
  ∃ ds, Shortest 10 x.natAbs ds ∧
    s = (if x < 0 then ch! '-' else ch! '+') :: (List.replicate (2 - ds.length) 48 ++ ds)

/-- `s` is a plain decimal without superfluous zeros that denotes `v`: no point unless a fraction
follows, and the fraction does not end in a zero. -/
def MinimalText (v : ℚ) (s : JStr) : Prop :=
  ∃ ip fp, s = ip ++ fraction false fp ∧ IsNumeral 10 ip ∧ NoExtraZero ip ∧
    (∀ c ∈ fp, IsDigitIn 10 c) ∧ fp.getLast? ≠ some 48 ∧ (valueIn 10 (ip ++ fp) : ℚ) = v * 10 ^ fp.length

/-- `d` has `n` digits from its first down to the place `10^e`. -/
def DigitsDownTo (d : ℚ) (e : Int) (n : Nat) : Prop := (10 : ℚ) ^ (e + n - 1) ≤ d ∧ d < 10 ^ (e + n)

/-- The two styles of `%g` with `P` significant digits, for a value that rounds to `m * 10^(x-(P-1))`:
plain if `-4 ≤ x < P`, else with an exponent.  Without `#` superfluous zeros go; with `#` the plain
style keeps them (`P` significant digits), and the exponent style has at most the `n` digits that were
computed. -/
def GeneralText (P n : Nat) (alt : Bool) (m : Nat) (x : Int) (body : JStr) : Prop :=
  if -4 ≤ x ∧ x < P then
    if alt then FixedText m ((P : Int) - 1 - x).toNat true body
    else MinimalText ((m : ℚ) * 10 ^ (x - (P - 1))) body
  else ∃ ms xs, body = ms ++ ch! 'e' :: xs ∧ ExponentText x xs ∧
    if alt then ∃ m', m = m' * 10 ^ (P - min P n) ∧ FixedText m' (min P n - 1) (P ≠ 1) ms
    else MinimalText ((m : ℚ) * 10 ^ (-((P : Int) - 1))) ms

/-- The decimal that stands for a finite `double`. -/
def DecimalOf (bits : BitVec 64) (d : ℚ) : Prop :=
  (magnitude bits = 0 ∧ d = 0) ∨ (magnitude bits ≠ 0 ∧ JavaDecimal bits d)

example : FixedText 1050 2 false (js! "10.50") :=
  ⟨js! "10", js! "50", by decide, by unfold IsNumeral; decide, by unfold NoExtraZero; decide, by decide,
    by decide, by decide⟩
example : ExponentText (-7) (js! "-07") :=
  ⟨js! "7", by unfold Shortest IsNumeral NoExtraZero; decide, by decide⟩
example : MinimalText (21 / 2) (js! "10.5") :=
  ⟨js! "10", js! "5", by decide, by unfold IsNumeral; decide, by unfold NoExtraZero; decide, by decide,
    by decide, by norm_num [valueIn, digitVal]⟩
example : MinimalText 0 (js! "0") :=
  ⟨js! "0", [], by decide, by unfold IsNumeral; decide, by unfold NoExtraZero; decide, by decide,
    by decide, by norm_num [valueIn, digitVal]⟩

end FastPrintf.Spec
