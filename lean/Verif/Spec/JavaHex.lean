/-
`Double.toHexString`, as its documentation describes it.  `String.format` prints it under `%a` without a precision.
-/
import Verif.Spec.Hex
import Verif.Spec.Double
import Verif.Spec.JavaFormatter

namespace FastPrintf.Spec

/-- What follows `0x` in `Double.toHexString` of a finite `double`.  "The significand is represented by the characters
"0x1." followed by a lowercase hexadecimal representation of the rest of the significand as a fraction. Trailing zeros
[...] are removed unless all the digits are zero, in which case a single zero is used. Next, the exponent is
represented by "p" followed by a decimal string of the unbiased exponent as if produced by a call to
Integer.toString"; `0x0.` and `p-1022` for a subnormal number, `0x0.0p0` for zero. -/
def HexString (bits : BitVec 64) (body : JStr) : Prop :=
  ∃ (fp : JStr) (x : Int) (ds : JStr),
    (∀ c ∈ fp, IsDigitIn 16 c) ∧ fp ≠ [] ∧ (fp = js! "0" ∨ fp.getLast? ≠ some 48) ∧
    x = (if magnitude bits = 0 then 0 else if expBits bits = 0 then -1022 else (expBits bits : Int) - 1023) ∧
    hexValue (if expBits bits = 0 then 0 else 1) fp x = magnitude bits ∧ Shortest 10 x.natAbs ds ∧
    body = (if expBits bits = 0 then ch! '0' else ch! '1') :: ch! '.' :: fp ++
      ch! 'p' :: ((if x < 0 then js! "-" else []) ++ ds)

end FastPrintf.Spec
