/-
Model of the `IntForm` implementations.

The JDK text functions used (`Integer.toString`, `toHexString`, `toOctalString`, `toUnsignedString`,
their `Long` counterparts and `BigInteger.toString(radix)`) are modelled by their documentation: the
shortest digits of the (unsigned) value, lower case.
-/
import Verif.Model.Forms

namespace FastPrintf

/-- `Integer.signum`, `Long.signum`, `BigInteger.signum` (number/IntWrapper.java:13,
number/LongWrapper.java:13, number/ByteWrapper.java:13, number/ShortWrapper.java:13,
number/BigIntegerWrapper.java:13). -/
def signumOf (v : Int) : Int := if v < 0 then -1 else if v = 0 then 0 else 1

/-- `Math.abs(int)`: wraps for `Integer.MIN_VALUE`.  Called in number/ByteWrapper.java:18 and
number/ShortWrapper.java:18. -/
def mathAbs32 (v : Int) : Int := if v < 0 then wrap32 (-v) else v

/-- `ByteWrapper` (number/ByteWrapper.java:7-34): `toUnsignedInt` of the byte is `v mod 2^8`. -/
def IntForm.ofByte (v : BitVec 8) : IntForm where
  signum := signumOf v.toInt
  toDecimalString := .ok (intToString (mathAbs32 v.toInt))
  toHexString := .ok (toRadix 16 v.toNat)
  toOctalString := .ok (toRadix 8 v.toNat)
  toUnsignedDecimalString := .ok (toRadix 10 v.toNat)

/-- `ShortWrapper` (number/ShortWrapper.java:7-34). -/
def IntForm.ofShort (v : BitVec 16) : IntForm where
  signum := signumOf v.toInt
  toDecimalString := .ok (intToString (mathAbs32 v.toInt))
  toHexString := .ok (toRadix 16 v.toNat)
  toOctalString := .ok (toRadix 8 v.toNat)
  toUnsignedDecimalString := .ok (toRadix 10 v.toNat)

/-- `IntWrapper` (number/IntWrapper.java:7-40). -/
def IntForm.ofInt (v : BitVec 32) : IntForm where
  signum := signumOf v.toInt
  toDecimalString := .ok
    (if v.toInt ≥ 0 then intToString v.toInt
     else if v.toInt > intMin then intToString (wrap32 (-v.toInt))
     else js! "2147483648")
  toHexString := .ok (toRadix 16 v.toNat)
  toOctalString := .ok (toRadix 8 v.toNat)
  toUnsignedDecimalString := .ok (toRadix 10 v.toNat)

/-- `LongWrapper` (number/LongWrapper.java:7-40). -/
def IntForm.ofLong (v : BitVec 64) : IntForm where
  signum := signumOf v.toInt
  toDecimalString := .ok
    (if v.toInt ≥ 0 then intToString v.toInt
     else if v.toInt > -9223372036854775808 then intToString (wrap64 (-v.toInt))
     else js! "9223372036854775808")
  toHexString := .ok (toRadix 16 v.toNat)
  toOctalString := .ok (toRadix 8 v.toNat)
  toUnsignedDecimalString := .ok (toRadix 10 v.toNat)

/-- `BigIntegerWrapper.ensureNonNegative` (number/BigIntegerWrapper.java:53-57) followed by the text. -/
def nonNegativeOnly (v : Int) (s : JStr) : Res JStr :=
  if signumOf v < 0 then .error (.printf (.wrongType .negativeUnsigned)) else .ok s

/-- `BigIntegerWrapper` (number/BigIntegerWrapper.java:11-58): keeps `|v|` and the sign. -/
def IntForm.ofBigInteger (v : Int) : IntForm where
  signum := signumOf v
  toDecimalString := .ok (toRadix 10 v.natAbs)
  toHexString := nonNegativeOnly v (toRadix 16 v.natAbs)
  toOctalString := nonNegativeOnly v (toRadix 8 v.natAbs)
  toUnsignedDecimalString := nonNegativeOnly v (toRadix 10 v.natAbs)

end FastPrintf
