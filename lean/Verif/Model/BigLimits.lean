/-
`BigDecimal` arguments in a JDK whose `BigInteger` has a largest number.

The other models compute with integers of any size.  A `BigInteger` is only promised up to
`2^Integer.MAX_VALUE`; an operation with a result outside what the JDK supports throws an
`ArithmeticException`.  A `BigDecimal` with a short text can need such numbers, because
`BigDecimal.setScale` divides by a power of ten (or multiplies with one) that it computes first.

Here every power of ten and every product is compared with the largest number.  Not checked:
`compareTo`, which first compares the positions of the leading digits and so only needs powers that are
not above the unscaled values compared.
-/
import Verif.Model.Args
import Verif.Model.Engine

namespace FastPrintf

/-- What differs between JDKs: `BigInteger` supports the magnitudes below `limit` (at least `10^19`, since
smaller numbers are kept in a `long`), and `BigDecimal.intValue()` either goes through `toBigInteger()` (JDK 8)
or finds the low bits without it.  Met by number/BigDecimalWrapper.java:114-171 and
traits/BigDecimalTraits.java:17, 32. -/
structure BigLimits where
  limit : Nat
  viaInteger : Bool

namespace Limited

variable (lim : BigLimits)

/-- `BigInteger.TEN.pow(n)`.  Done by the JDK in number/BigDecimalWrapper.java:151, 164, 167. -/
def tenPow (n : Nat) : Res Nat := if 10 ^ n < lim.limit then .ok (10 ^ n) else .error .arithmetic

/-- Division by `10^n` with `HALF_UP`; the divisor is computed first.  Done by the JDK in
number/BigDecimalWrapper.java:151, 164, 167. -/
def divHalfUp (u n : Nat) : Res Nat := do
  let p ← tenPow lim n
  return (2 * u + p) / (2 * p)

/-- `new BigDecimal(unscaled, scale, new MathContext(p))`, see `BigDec.roundTo`.  Called in
number/BigDecimalWrapper.java:151, 167. -/
def roundTo (p : Nat) : (fuel : Nat) → BigDec → Res BigDec
  | 0, v => .ok v
  | fuel + 1, v =>
    if v.precision > p then do
      let drop := v.precision - p
      let s ← BigDec.checkScale (v.scale - drop)
      let u ← divHalfUp lim v.unscaled drop
      roundTo p fuel { unscaled := u, scale := s }
    else .ok v

/-- See `BigDec.withMathContext`.  Called in number/BigDecimalWrapper.java:150-151, 167. -/
def withMathContext (p : Int) (v : BigDec) : Res BigDec :=
  if p < 0 then .error .illegalArgument
  else if p = 0 then .ok v
  else roundTo lim p.toNat 2 v

/-- `setScale(newScale, HALF_UP)` for `newScale < scale`.  Called in number/BigDecimalWrapper.java:164. -/
def setScaleDown (v : BigDec) (newScale : Int) : Res BigDec := do
  return { unscaled := ← divHalfUp lim v.unscaled (v.scale - newScale).toNat, scale := newScale }

/-- `scientificLayout` (number/BigDecimalWrapper.java:140-153). -/
def scientificLayout (v : BigDec) (precision : Int) : Res FloatLayout := do
  let origPrec : Int := v.precision
  let compPrec := if precision > origPrec - 1 then origPrec else precision + 1
  BigDecimalWrapper.scientificLayout0 (← withMathContext lim compPrec v)

/-- `decimalLayout` (number/BigDecimalWrapper.java:156-171). -/
def decimalLayout (v : BigDec) (precision : Int) : Res FloatLayout :=
  if v.scale > precision then
    if (v.precision : Int) ≤ v.scale then do
      BigDecimalWrapper.decimalLayout0 (← setScaleDown lim v precision)
    else do
      BigDecimalWrapper.decimalLayout0 (← withMathContext lim (v.precision - (v.scale - precision)) v)
  else BigDecimalWrapper.decimalLayout0 v

/-- `generalLayout` (number/BigDecimalWrapper.java:114-137). -/
def generalLayout (v : BigDec) (precision : Int) : Res FloatLayout :=
  if (v.unscaled = 0 ∧ v.scale = 0) ∨ (v.geTenPow (-4) ∧ ¬ v.geTenPow precision) then
    let e := wrap32 (wrap32 (-v.scale) + (v.digits.length - 1))
    decimalLayout lim v (wrap32 (precision - e - 1))
  else scientificLayout lim v (precision - 1)

/-- `FloatForm.valueOf(BigDecimal)` and `BigDecimalWrapper(BigInteger, int)`
(number/BigDecimalWrapper.java:15-23, 99-111, 174-176). -/
def floatForm (unscaled scale : Int) : FloatForm where
  isNaN := false
  isInfinite := false
  signum := if unscaled < 0 then -1 else if unscaled = 0 then 0 else 1
  generalLayout := generalLayout lim ⟨unscaled.natAbs, scale⟩
  scientificLayout := scientificLayout lim ⟨unscaled.natAbs, scale⟩
  decimalLayout := decimalLayout lim ⟨unscaled.natAbs, scale⟩
  hexLayout _ := .error (.printf (.wrongType .bigDecimalHex))

/-- `BigDecimal.toBigInteger()`, which is `setScale(0, DOWN)`: a positive scale divides by a power of ten, a
negative one multiplies with it.  A zero is never multiplied, and the exponent must be an `int`.  Called in
traits/BigDecimalTraits.java:17. -/
def truncate (unscaled scale : Int) : Res Int :=
  if scale > 0 then do
    let p ← tenPow lim scale.toNat
    return Int.tdiv unscaled p
  else if unscaled = 0 then .ok 0
  else if -scale > intMax then .error .arithmetic
  else if unscaled.natAbs * 10 ^ (-scale).toNat < lim.limit then .ok (unscaled * 10 ^ (-scale).toNat)
  else .error .arithmetic

/-- `BigDecimal.intValue()`.  Called in traits/BigDecimalTraits.java:32. -/
def intValue (unscaled scale : Int) : Res Int :=
  if lim.viaInteger then do return wrap32 (← truncate lim unscaled scale)
  else .ok (wrap32 (bigDecimalTruncate unscaled scale))

/-- `BigDecimalTraits` (traits/BigDecimalTraits.java:7-39). -/
def bigDecimalTraits (env : JdkEnv) (unscaled scale : Int) (ref : RefSlot) : Traits where
  asIntForm := do return IntForm.ofBigInteger (← truncate lim unscaled scale)
  asFloatForm := .ok (floatForm lim unscaled scale)
  asTemporal := noTemporal
  asSeq := .ok (Seq.wrap (env.bigDecimalToString unscaled scale))
  asInt := intValue lim unscaled scale
  asChar := do return toChar (← intValue lim unscaled scale)
  ref := ref

/-- The `FormatTraits` of an argument (ArgsImpl.java:192-222). -/
def toTraits (env : JdkEnv) : Entry → Traits
  | .ref (.bigDecimal u s id) => bigDecimalTraits lim env u s id.ref
  | .ref (.bigInteger v id) => { bigIntegerTraits v id.ref with asFloatForm := .ok (floatForm lim v 0) }
  | e => e.toTraits env

end Limited
end FastPrintf
