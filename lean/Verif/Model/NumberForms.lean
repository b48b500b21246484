/-
The parts of the number package that the formatting engine does not call: the default methods of
`NumberForm` and the `toString()` of the wrappers and of `FloatLayout`.
-/
import Verif.Model.IntForms
import Verif.Model.BigDecimal
import Verif.Model.DoubleToString
import Verif.Model.Args

namespace FastPrintf

namespace NumberForm

/-- `NumberForm.isNegative` (number/NumberForm.java:26-33), from what `signum()` returns. -/
def isNegative (signum : Int) : Bool := signum < 0
/-- `NumberForm.isPositive` (number/NumberForm.java:35-42). -/
def isPositive (signum : Int) : Bool := signum > 0
/-- `NumberForm.isZero` (number/NumberForm.java:44-51). -/
def isZero (signum : Int) : Bool := signum = 0

end NumberForm

/-- `ByteWrapper.toString` (number/ByteWrapper.java:36-39). -/
def ByteWrapper.toString (v : BitVec 8) : JStr := intToString v.toInt
/-- `ShortWrapper.toString` (number/ShortWrapper.java:36-39). -/
def ShortWrapper.toString (v : BitVec 16) : JStr := intToString v.toInt
/-- `IntWrapper.toString` (number/IntWrapper.java:43-46). -/
def IntWrapper.toString (v : BitVec 32) : JStr := intToString v.toInt
/-- `LongWrapper.toString` (number/LongWrapper.java:43-46). -/
def LongWrapper.toString (v : BitVec 64) : JStr := intToString v.toInt
/-- `BigIntegerWrapper.toString` (number/BigIntegerWrapper.java:44-51): the wrapper keeps the absolute value. -/
def BigIntegerWrapper.toString (v : Int) : JStr :=
  if signumOf v ≥ 0 then toRadix 10 v.natAbs else ch! '-' :: toRadix 10 v.natAbs
/-- `BigDecimalWrapper.toString` (number/BigDecimalWrapper.java:178-185); `BigDecimal.toString` is the JDK's. -/
def BigDecimalWrapper.toString (jdk : JdkEnv) (unscaled scale : Int) : JStr :=
  if signumOf unscaled ≥ 0 then jdk.bigDecimalToString unscaled.natAbs scale
  else ch! '-' :: jdk.bigDecimalToString unscaled.natAbs scale

/-- `FloatLayout.toString` (number/FloatLayout.java:23-34).  A mantissa of the library is never `null`. -/
def FloatLayout.toString (l : FloatLayout) : Res JStr := do
  let sb ← l.mantissa.appendToSB []
  match l.exponent with
  | none => .ok sb
  | some x => x.appendToSB (sb ++ [ch! 'e'])

end FastPrintf
