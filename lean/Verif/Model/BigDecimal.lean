/-
Model of `io.fastprintf.number.BigDecimalWrapper` and of the parts of `java.math.BigDecimal` it uses.

A non-negative `BigDecimal` is its unscaled value and its scale; it denotes `unscaled * 10^-scale`.
-/
import Verif.Model.Forms

namespace FastPrintf

/-- A `BigDecimal` with non-negative unscaled value.  The field `value` of
number/BigDecimalWrapper.java:12, which is `value.abs()` (line 16). -/
structure BigDec where
  unscaled : Nat
  scale : Int
  deriving DecidableEq, Repr

namespace BigDec

/-- `unscaledValue().toString()` (number/BigDecimalWrapper.java:36, 72, 120). -/
def digits (v : BigDec) : JStr := toRadix 10 v.unscaled

/-- `precision()`: the number of digits of the unscaled value, 1 for zero.  Called in
number/BigDecimalWrapper.java:142, 161. -/
def precision (v : BigDec) : Nat := v.digits.length

/-- Division by `10^n` with `RoundingMode.HALF_UP`, as documented (`n` positive).  Done by the JDK in
number/BigDecimalWrapper.java:151, 164, 167. -/
def divHalfUp (u n : Nat) : Nat := (2 * u + 10 ^ n) / (2 * 10 ^ n)

/-- `checkScale`: a scale outside the `int` range throws.  Done by the JDK in
number/BigDecimalWrapper.java:151, 167. -/
def checkScale (s : Int) : Res Int :=
  if s < intMin ∨ s > intMax then .error .arithmetic else .ok s

/-- `new BigDecimal(unscaled, scale, new MathContext(p))` as documented, `p ≥ 1` and rounding
`HALF_UP`: digits are dropped until at most `p` are left.  After one rounding the digits can be one
too many (`99.5` to `100`), so the JDK loops; `fuel` bounds the loop.  Called in
number/BigDecimalWrapper.java:151, 167. -/
def roundTo (p : Nat) : (fuel : Nat) → BigDec → Res BigDec
  | 0, v => .ok v
  | fuel + 1, v =>
    if v.precision > p then do
      let drop := v.precision - p
      let s ← checkScale (v.scale - drop)
      roundTo p fuel { unscaled := divHalfUp v.unscaled drop, scale := s }
    else .ok v

/-- `new MathContext(setPrecision)` throws when negative; 0 means unlimited precision.  Called in
number/BigDecimalWrapper.java:150-151, 167. -/
def withMathContext (p : Int) (v : BigDec) : Res BigDec :=
  if p < 0 then .error .illegalArgument
  else if p = 0 then .ok v
  else roundTo p.toNat 2 v

/-- `setScale(newScale, HALF_UP)` for `newScale < scale`.  Called in number/BigDecimalWrapper.java:164. -/
def setScaleDown (v : BigDec) (newScale : Int) : BigDec :=
  { unscaled := divHalfUp v.unscaled (v.scale - newScale).toNat, scale := newScale }

/-- `compareTo(10^k) >= 0`.  Called in number/BigDecimalWrapper.java:118. -/
def geTenPow (v : BigDec) (k : Int) : Bool :=
  if k + v.scale ≥ 0 then v.unscaled ≥ 10 ^ (k + v.scale).toNat else v.unscaled ≥ 1

end BigDec

namespace BigDecimalWrapper

open BigDec

/-- `insertDotAfterFirstChar` (number/BigDecimalWrapper.java:25-31). -/
def insertDotAfterFirstChar (s : JStr) : Res Seq := do
  let mant := Seq.ch (← charAtRaw s 0)
  let mant := mant.append (Seq.ch (ch! '.'))
  return mant.append (Seq.atom (← Atomic.wrapRange s 1 s.length))

/-- The exponent text (number/BigDecimalWrapper.java:53-64). -/
def exponentSeq (adjusted : Int) : Seq :=
  if adjusted ≠ 0 then
    let exp := Seq.ch (if adjusted < 0 then ch! '-' else ch! '+')
    let exp := if adjusted.natAbs < 10 then exp.append (Seq.ch (ch! '0')) else exp
    exp.append (Seq.wrap (toRadix 10 adjusted.natAbs))
  else Seq.wrap (js! "+00")

/-- `scientificLayout0` (number/BigDecimalWrapper.java:33-67).  `adjusted` is a `long`, which cannot
overflow here. -/
def scientificLayout0 (v : BigDec) : Res FloatLayout :=
  let s := v.digits
  if v.scale = 0 then
    if s.length > 1 then do
      let mant ← insertDotAfterFirstChar s
      let n := toRadix 10 (s.length - 1)
      let exp := if s.length < 10 then Seq.wrap (js! "+0" ++ n) else Seq.wrap (js! "+" ++ n)
      return { mantissa := mant, exponent := some exp }
    else .ok { mantissa := Seq.wrap s, exponent := some (Seq.wrap (js! "+00")) }
  else do
    let mant ← if s.length > 1 then insertDotAfterFirstChar s else pure (Seq.wrap s)
    return { mantissa := mant, exponent := some (exponentSeq (-v.scale + (s.length - 1))) }

/-- `decimalLayout0` (number/BigDecimalWrapper.java:69-96); `pad`, `-pad`, `-scale` are `int`. -/
def decimalLayout0 (v : BigDec) : Res FloatLayout :=
  let s := v.digits
  if v.scale = 0 then .ok { mantissa := Seq.wrap s, exponent := none }
  else
    let pad := wrap32 (v.scale - s.length)
    if pad ≥ 0 then do
      let mant := Seq.wrap s
      let mant ← if pad > 0 then (do return mant.prepend (← Seq.repeated (ch! '0') pad)) else pure mant
      return { mantissa := mant.prepend (Seq.wrap (js! "0.")), exponent := none }
    else if wrap32 (-pad) < s.length then do
      let mant := Seq.atom (← Atomic.wrapRange s 0 (wrap32 (-pad)))
      let mant := mant.append (Seq.ch (ch! '.'))
      let mant := mant.append (Seq.atom (← Atomic.wrapRange s (wrap32 (-pad)) s.length))
      return { mantissa := mant, exponent := none }
    else do
      let mant := (Seq.wrap s).append (← Seq.repeated (ch! '0') (wrap32 (-v.scale)))
      return { mantissa := mant, exponent := none }

/-- `scientificLayout` (number/BigDecimalWrapper.java:140-153). -/
def scientificLayout (v : BigDec) (precision : Int) : Res FloatLayout := do
  let origPrec : Int := v.precision
  let compPrec := if precision > origPrec - 1 then origPrec else precision + 1
  scientificLayout0 (← withMathContext compPrec v)

/-- `decimalLayout` (number/BigDecimalWrapper.java:156-171). -/
def decimalLayout (v : BigDec) (precision : Int) : Res FloatLayout :=
  if v.scale > precision then
    if (v.precision : Int) ≤ v.scale then decimalLayout0 (v.setScaleDown precision)
    else do decimalLayout0 (← withMathContext (v.precision - (v.scale - precision)) v)
  else decimalLayout0 v

/-- `generalLayout` (number/BigDecimalWrapper.java:114-137). `equals(BigDecimal.ZERO)` also compares
the scale; `e` and the new precision are `int`. -/
def generalLayout (v : BigDec) (precision : Int) : Res FloatLayout :=
  if (v.unscaled = 0 ∧ v.scale = 0) ∨ (v.geTenPow (-4) ∧ ¬ v.geTenPow precision) then
    let e := wrap32 (wrap32 (-v.scale) + (v.digits.length - 1))
    decimalLayout v (wrap32 (precision - e - 1))
  else scientificLayout v (precision - 1)

end BigDecimalWrapper

/-- `FloatForm.valueOf(BigDecimal)` and `BigDecimalWrapper(BigInteger, int)`
(number/BigDecimalWrapper.java:15-23, 99-111, 174-176). -/
def FloatForm.ofBigDecimal (unscaled scale : Int) : FloatForm where
  isNaN := false
  isInfinite := false
  signum := if unscaled < 0 then -1 else if unscaled = 0 then 0 else 1
  generalLayout := BigDecimalWrapper.generalLayout ⟨unscaled.natAbs, scale⟩
  scientificLayout := BigDecimalWrapper.scientificLayout ⟨unscaled.natAbs, scale⟩
  decimalLayout := BigDecimalWrapper.decimalLayout ⟨unscaled.natAbs, scale⟩
  hexLayout _ := .error (.printf (.wrongType .bigDecimalHex))

end FastPrintf
