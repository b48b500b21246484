/-
JDK operations on `double` and `float` used by the library, on raw bits, from their documentation.
-/
import Verif.Model.Digits
import Verif.Model.Utils

namespace FastPrintf.JavaDouble

/-- The biased exponent field of a `double` (util/internal/DoubleToDecimal.java:225-227). -/
def expField (bits : BitVec 64) : Nat := (bits.toNat / 2 ^ 52) % 2048
/-- The fraction field of a `double` (util/internal/DoubleToDecimal.java:225-227). -/
def fracField (bits : BitVec 64) : Nat := bits.toNat % 2 ^ 52
/-- The sign bit of a `double` (number/DoubleWrapper.java:129). -/
def signBit (bits : BitVec 64) : Bool := bits.toNat ≥ 2 ^ 63

/-- `Double.isNaN` (number/DoubleWrapper.java:49). -/
def isNaN (bits : BitVec 64) : Bool := expField bits = 2047 && fracField bits ≠ 0
/-- `Double.isInfinite` (number/DoubleWrapper.java:54, 133). -/
def isInfinite (bits : BitVec 64) : Bool := expField bits = 2047 && fracField bits = 0
/-- `value == 0D`: both zeros (number/DoubleWrapper.java:64, 72, 88). -/
def isZero (bits : BitVec 64) : Bool := expField bits = 0 && fracField bits = 0

/-- `Math.abs(double)`: clears the sign bit (number/DoubleWrapper.java:58). -/
def abs (bits : BitVec 64) : BitVec 64 := BitVec.ofNat 64 (bits.toNat % 2 ^ 63)

/-- `Double.compare(value, 0D)` (used by number/DoubleWrapper.java:43-45): `-0.0` is below `0.0`, `NaN`
above everything. -/
def compareZero (bits : BitVec 64) : Int :=
  if isNaN bits then 1
  else if signBit bits then -1
  else if isZero bits then 0
  else 1

/-- The significand `c` and exponent `q` of a finite `double`: its magnitude is `c * 2^q`
(util/internal/DoubleToDecimal.java:225-252). -/
def significand (bits : BitVec 64) : Nat :=
  if expField bits = 0 then fracField bits else 2 ^ 52 + fracField bits
/-- The exponent `q` of a finite `double`, see `significand` (util/internal/DoubleToDecimal.java:225-252). -/
def exponent (bits : BitVec 64) : Int :=
  if expField bits = 0 then -1074 else (expField bits : Int) - 1075

/-- `Math.getExponent(double)`: the unbiased exponent field; `MIN_EXPONENT - 1 = -1023` for zeros and
subnormals (number/DoubleWrapper.java:93, 102). -/
def getExponent (bits : BitVec 64) : Int := (expField bits : Int) - 1023

/-- Remove trailing `0`s.  Done by `Double.toHexString`, number/DoubleWrapper.java:27, 139. -/
def dropTrailingZeros (s : JStr) : JStr := (s.reverse.dropWhile (· == 48)).reverse

/-- The thirteen hex digits of a fraction field: `Long.toHexString(..).substring(3, 16)` in the JDK.  Done
by `Double.toHexString`, number/DoubleWrapper.java:27, 139. -/
def hex13 (frac : Nat) : JStr := (toRadix 16 (2 ^ 52 + frac)).drop 1

/-- `Double.toHexString` of a finite value, as documented: `0x1.` or (subnormal) `0x0.`, the hex digits
of the fraction with trailing zeros removed (at least one digit), `p`, the exponent in decimal
(number/DoubleWrapper.java:27, 139). -/
def toHexString (bits : BitVec 64) : JStr :=
  (if signBit bits then js! "-" else []) ++ js! "0x" ++
  (if isZero bits then js! "0.0p0"
   else
    (if expField bits = 0 then js! "0." else js! "1.") ++
    (if fracField bits = 0 then js! "0" else dropTrailingZeros (hex13 (fracField bits))) ++
    js! "p" ++ intToString (if expField bits = 0 then -1022 else getExponent bits))

/-- Multiplication of a subnormal `double` by `2^54` (number/DoubleWrapper.java:100, `d *= SCALE_UP`),
which is exact: the significand is normalised. -/
def scaleUp54 (bits : BitVec 64) : BitVec 64 :=
  let l := (fracField bits).log2          -- the leading one is at position `l`
  let m := fracField bits * 2 ^ (52 - l)  -- `2^52 ≤ m < 2^53`
  let e : Nat := l + 3                    -- `l - 1074 + 54 + 1023`
  BitVec.ofNat 64 ((if signBit bits then 2 ^ 63 else 0) + e * 2 ^ 52 + (m - 2 ^ 52))

/-- `a / b` rounded to an integer, ties to even.  Done by the arithmetic of
traits/TemporalAccessorTraits.java:31-32 and traits/ObjectTraits.java:85, 88. -/
def roundHalfEven (a b : Nat) : Nat :=
  let q := a / b
  let r := a % b
  if 2 * r > b ∨ (2 * r = b ∧ q % 2 = 1) then q + 1 else q

/-- The `e` with `2^e ≤ num / den < 2^(e+1)`, for positive `num` and `den`.  Used to state the arithmetic
of traits/TemporalAccessorTraits.java:31-32 and traits/ObjectTraits.java:85, 88. -/
def floorLog2 (num den : Nat) : Int :=
  let e : Int := (num.log2 : Int) - den.log2
  if den * 2 ^ e.toNat ≤ num * 2 ^ (-e).toNat then e else e - 1

/-- The raw bits of the `double` nearest to `num / den` (both positive), ties to even, as IEEE 754
prescribes for conversions, sums and quotients: a significand of 53 bits, or fewer when the exponent would
fall below -1074; infinity when it gets too large.  When the rounded significand is `2^53`, the carry
moves into the exponent field.  The arithmetic of traits/TemporalAccessorTraits.java:31-32 and
traits/ObjectTraits.java:85, 88. -/
def nearest (num den : Nat) : Nat :=
  let q := max (floorLog2 num den - 52) (-1074)
  let c := roundHalfEven (num * 2 ^ (-q).toNat) (den * 2 ^ q.toNat)
  min ((q + 1074).toNat * 2 ^ 52 + c) (2047 * 2 ^ 52)

/-- The `double` nearest to `num / den`, for positive `den`; `+0.0` for 0
(traits/TemporalAccessorTraits.java:31-32, traits/ObjectTraits.java:85, 88). -/
def ofRatio (num : Int) (den : Nat) : BitVec 64 :=
  if num = 0 then 0#64
  else BitVec.ofNat 64 ((if num < 0 then 2 ^ 63 else 0) + nearest num.natAbs den)

/-- Conversion of a `long` or `int` to `double`: round to nearest, ties to even (JLS 5.1.2)
(traits/TemporalAccessorTraits.java:31, traits/ObjectTraits.java:85, 88, and the integer traits, such as
traits/LongTraits.java). -/
def ofInt (v : Int) : BitVec 64 := ofRatio v 1

/-- The value of a finite `double` times `2^1074`, an integer.  Used to state the sum of
traits/TemporalAccessorTraits.java:32. -/
def scaled (bits : BitVec 64) : Int :=
  let m : Nat := significand bits * 2 ^ (exponent bits + 1074).toNat
  if signBit bits then -m else m

/-- `a + b` for finite `a`, `b` (JLS 15.18.2), when not both are `-0.0`
(traits/TemporalAccessorTraits.java:32). -/
def add (a b : BitVec 64) : BitVec 64 := ofRatio (scaled a + scaled b) (2 ^ 1074)

/-- `a / n` for finite `a`, other than `-0.0`, and a positive integer `n` below `2^53` (JLS 15.17.2)
(traits/ObjectTraits.java:85, 88, traits/TemporalAccessorTraits.java:32). -/
def divNat (a : BitVec 64) (n : Nat) : BitVec 64 := ofRatio (scaled a) (2 ^ 1074 * n)

/-- The truncation of a finite `double` toward zero (traits/DoubleTraits.java:22). -/
def truncate (bits : BitVec 64) : Int :=
  let q := exponent bits
  let m : Nat := if q ≥ 0 then significand bits * 2 ^ q.toNat else significand bits / 2 ^ (-q).toNat
  if signBit bits then -m else m

/-- Limit to a range: the saturation of `(int)`/`(long)` casts from floating point (JLS 5.1.3)
(traits/DoubleTraits.java:22, traits/FloatTraits.java:22). -/
def clamp (lo hi v : Int) : Int := if v < lo then lo else if v > hi then hi else v

/-- `Long.MIN_VALUE`, `Long.MAX_VALUE`.  The bounds of the cast in traits/DoubleTraits.java:22. -/
def longMin : Int := -9223372036854775808
/-- `Long.MAX_VALUE`, see `longMin` (traits/DoubleTraits.java:22). -/
def longMax : Int := 9223372036854775807

/-- `(long) d` (traits/DoubleTraits.java:22). -/
def toLong (bits : BitVec 64) : Int :=
  if isNaN bits then 0
  else if isInfinite bits then (if signBit bits then longMin else longMax)
  else clamp longMin longMax (truncate bits)

/-- `floor(d + 1/2)` of a finite `double`.  Done by `Math.round`, traits/DoubleTraits.java:37 and
traits/FloatTraits.java:37. -/
def roundHalfUp (bits : BitVec 64) : Int :=
  let q := exponent bits
  let c : Int := if signBit bits then -(significand bits) else significand bits
  if q ≥ 0 then c * 2 ^ q.toNat
  else (2 * c + 2 ^ (-q).toNat) / 2 ^ ((-q).toNat + 1)

/-- `Math.round(double)`: closest long, ties up, saturating; NaN is 0 (traits/DoubleTraits.java:37). -/
def mathRound (bits : BitVec 64) : Int :=
  if isNaN bits then 0
  else if isInfinite bits then (if signBit bits then longMin else longMax)
  else clamp longMin longMax (roundHalfUp bits)

/-- Widening of a `float` (raw bits) to `double`: exact (traits/FloatTraits.java:27, 37). -/
def ofFloat (bits : BitVec 32) : BitVec 64 :=
  let s : Nat := if bits.toNat ≥ 2 ^ 31 then 2 ^ 63 else 0
  let e := (bits.toNat / 2 ^ 23) % 256
  let m := bits.toNat % 2 ^ 23
  if e = 255 then BitVec.ofNat 64 (s + 2047 * 2 ^ 52 + m * 2 ^ 29)
  else if e ≠ 0 then BitVec.ofNat 64 (s + (e + 896) * 2 ^ 52 + m * 2 ^ 29)
  else if m = 0 then BitVec.ofNat 64 s
  else
    let l := m.log2
    BitVec.ofNat 64 (s + (l + 874) * 2 ^ 52 + (m * 2 ^ (52 - l) - 2 ^ 52))

end FastPrintf.JavaDouble
