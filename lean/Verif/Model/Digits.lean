/-
Positional rendering of natural numbers.  The library never renders integers itself: it calls the
JDK (`Long.toString`, `Long.toHexString`, `BigInteger.toString(radix)`, `StringBuilder.append(int)`,
...).  `toRadix` is the meaning given to those JDK calls; it is part of the trusted reading of the JDK.
-/
import Mathlib.Data.Nat.Digits.Defs
import Verif.Model.Java

namespace FastPrintf

/-- `Character.forDigit(d, radix)` for `d < radix ≤ 16`.  Used by the JDK for the texts of
number/LongWrapper.java:17-45 and the other wrappers. -/
def digitChar (d : Nat) : JChar := if d < 10 then 48 + d else 87 + d

/-- Digits of `n` in base `b`, most significant first, `0` for zero; no other leading zero.  The texts of
number/LongWrapper.java:19-39, number/IntWrapper.java:19-40, number/BigIntegerWrapper.java:22-42. -/
def toRadix (b n : Nat) : JStr :=
  if n = 0 then [48] else (Nat.digits b n).reverse.map digitChar

/-- Decimal text of a natural number (number/LongWrapper.java:19, number/BigIntegerWrapper.java:23,
number/BigDecimalWrapper.java:36, 61, 72). -/
def natToString (n : Nat) : JStr := toRadix 10 n

/-- Decimal text of an integer, as `Long.toString`, `BigInteger.toString` and
`StringBuilder.append(int)` print it (number/LongWrapper.java:44, number/DoubleWrapper.java:147,
FormatContext.java:135, 164, 169, util/Utils.java:138). -/
def intToString (n : Int) : JStr :=
  if n < 0 then 45 :: natToString n.natAbs else natToString n.natAbs

example : intToString (-120) = js! "-120" := by decide
example : toRadix 16 48879 = js! "beef" := by decide

end FastPrintf
