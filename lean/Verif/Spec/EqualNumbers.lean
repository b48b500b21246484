/-
Numbers of different types and representations that are equal.
-/
import Verif.Spec.Readings
import Verif.Spec.BigDecimal
import Verif.Spec.Decimal

namespace FastPrintf.Spec

/-- The argument stands for the integer `v` under the integer conversions: it is an integer, or is read as one
(a number with its fraction dropped, a text that spells it, a date in milliseconds). -/
def Counts (jdk : JdkEnv) (e : Entry) (v : Int) : Prop :=
  ∃ x : Integral, x.value = v ∧ (x.Given e ∨ IntReading jdk e (.ok x))

/-- The argument is a number of value `v`: an integer below `2^53` in absolute value; a `BigInteger` or `BigDecimal`
(of nonnegative scale if it is zero, and the scale not at the end of the `int` range); or a `double`, other than
-0.0, whose shortest decimal is `v` (the one `Double.toString` writes and `BigDecimal.valueOf` takes). -/
inductive Worth : Entry → ℚ → Prop
  | integer {x : Integral} {e : Entry} (h : x.Given e) (hb : ∀ v, x ≠ .big v) (hv : x.value.natAbs < 2 ^ 53) :
      Worth e x.value
  | big {e : Entry} {u scale : Int} (h : IsBig e u scale) {n : Nat} (hn : DigitCount u.natAbs n)
      (hs : ScaleOk n scale) (hz : u ≠ 0 ∨ 0 ≤ scale) : Worth e (u * 10 ^ (-scale))
  | double {e : Entry} {bits : BitVec 64} (h : IsDouble e bits) (hf : finite bits)
      (hz : magnitude bits = 0 → ¬ negative bits) {q : ℚ} (hq : DecimalOf bits q) :
      Worth e (signed (negative bits) q)

/-- Rounding `v` to `P` significant digits leaves its decimal exponent as it is. -/
def NoCarry (v : ℚ) (P : Nat) : Prop := ∃ M x, Significant |v| P M x ∧ 10 ^ x ≤ |v| ∧ |v| < 10 ^ (x + 1)

end FastPrintf.Spec
