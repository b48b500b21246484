/-
Handing a printed number back as a text: which directives print enough digits, and what the JDK is expected to
make of the text.
-/
import Verif.Spec.ReadBack
import Verif.Spec.Readings

namespace FastPrintf.Spec

/-- The directive prints enough digits to tell all doubles apart. -/
def EnoughDigits (d : Directive) : Prop :=
  ((d.conv = ch! 'e' ∨ d.conv = ch! 'E') ∧ 16 ≤ d.prec.precision.getD 6) ∨
    ((d.conv = ch! 'g' ∨ d.conv = ch! 'G') ∧ 17 ≤ d.prec.precision.getD 6) ∨
    ((d.conv = ch! 'f' ∨ d.conv = ch! 'F') ∧ 325 ≤ d.prec.precision.getD 6) ∨
    ((d.conv = ch! 'a' ∨ d.conv = ch! 'A') ∧ ∀ p, d.prec.precision = some p → 13 ≤ p)

/-- What the documentation of `Double.parseDouble` (`valueOf`) says about the texts in question: numbers are
rounded to nearest, the names of the non-finite values are accepted with this case only, and spaces around do
not count. -/
structure ParsesDoubles (jdk : JdkEnv) : Prop where
  number : ∀ s bits, finite bits → ReadsAs bits s → jdk.parseDouble s = some bits
  infinite : ∀ s, trimmed s = js! "Infinity" ∨ trimmed s = js! "+Infinity" →
    jdk.parseDouble s = some 0x7FF0000000000000#64
  minusInfinite : ∀ s, trimmed s = js! "-Infinity" → jdk.parseDouble s = some 0xFFF0000000000000#64
  nan : ∀ s, trimmed s = js! "NaN" → ∃ b, expBits b = 2047 ∧ fracBits b ≠ 0 ∧ jdk.parseDouble s = some b
  capitals : ∀ s, trimmed s ∈ [js! "INFINITY", js! "+INFINITY", js! "-INFINITY", js! "NAN"] →
    jdk.parseDouble s = none

/-- What `Character.digit(c, 10)` says about the digits 0 to 9, the space and the signs. -/
structure KnowsDigits (jdk : JdkEnv) : Prop where
  digit : ∀ c, 48 ≤ c → c ≤ 57 → jdk.digit c = some (c - 48)
  space : jdk.digit 32 = none
  plus : jdk.digit 43 = none
  minus : jdk.digit 45 = none

end FastPrintf.Spec
