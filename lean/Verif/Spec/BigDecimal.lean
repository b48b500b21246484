/-
What the library prints for a `BigDecimal` (`unscaled * 10^-scale`) under `%f`, `%e` and `%g`.
-/
import Verif.Spec.Decimal

namespace FastPrintf.Spec

/-- `u` has `n` digits in decimal (zero has one). -/
def DigitCount (u n : Nat) : Prop := ∃ ds, Shortest 10 u ds ∧ ds.length = n

/-- The value of a nonnegative `BigDecimal`. -/
def bigValue (u : Nat) (scale : Int) : ℚ := (u : ℚ) * 10 ^ (-scale)

/-- The scale is an `int`, and so is the scale less the number `n` of digits, with a margin of two: the
position of the first digit can be computed without overflow. -/
def ScaleOk (n : Nat) (scale : Int) : Prop := -2147483646 ≤ scale - n ∧ scale ≤ 2147483647

/-- The exponent of `%e` when `k` digits are laid out: as in C, except that exponent 9 of ten digits has
lost its leading zero. -/
def BigExponentText (k : Nat) (x : Int) (s : JStr) : Prop :=
  if k = 10 ∧ x = 9 then s = js! "+9" else ExponentText x s

/-- The body of `%g` with `P` significant digits, for a value with `n` digits and decimal exponent `x0`
that rounds to `M * 10^(x-(P-1))`.  The style goes by the exponent before rounding.  With `#` the plain
style has the places that `P` significant digits need (for a value below 1 the places needed before
rounding, which is one more when rounding carried to `x = x0 + 1`); the exponent style has the digits
there are. -/
def BigGeneralText (P n : Nat) (alt : Bool) (x0 : Int) (M : Nat) (x : Int) (body : JStr) : Prop :=
  if -4 ≤ x0 ∧ x0 < P then
    if alt then
      let k := (if x0 < 0 then (P : Int) - 1 - x0 else P - 1 - x).toNat
      ∃ m' : Nat, (m' : ℚ) * 10 ^ (-(k : Int)) = M * 10 ^ (x - (P - 1)) ∧ FixedText m' k true body
    else MinimalText ((M : ℚ) * 10 ^ (x - (P - 1))) body
  else ∃ ms xs, body = ms ++ ch! 'e' :: xs ∧ ExponentText x xs ∧
    if alt then ∃ m', M = m' * 10 ^ (P - min P n) ∧ FixedText m' (min P n - 1) false ms
    else MinimalText ((M : ℚ) * 10 ^ (-((P : Int) - 1))) ms

/-- A field with `k` padding characters. -/
def padWith (left zero : Bool) (k : Nat) (pre body : JStr) : JStr :=
  if left then pre ++ body ++ List.replicate k 32
  else if zero then pre ++ List.replicate k 48 ++ body
  else List.replicate k 32 ++ pre ++ body

example : DigitCount 1050 4 := ⟨js! "1050", by unfold Shortest IsNumeral NoExtraZero; decide, rfl⟩
example : ScaleOk 4 (-2147483642) ∧ ¬ ScaleOk 4 (-2147483643) := by unfold ScaleOk; omega
example : BigExponentText 10 9 (js! "+9") ∧ BigExponentText 9 9 (js! "+09") :=
  ⟨by unfold BigExponentText; simp, by
    unfold BigExponentText; rw [if_neg (by omega)]
    exact ⟨js! "9", by unfold Shortest IsNumeral NoExtraZero; decide, by decide⟩⟩
example (left zero : Bool) (w : Nat) (pre body : JStr) :
    padWith left zero (w - (pre.length + body.length)) pre body = field left zero w pre body := rfl

end FastPrintf.Spec
