/-
The order of numbers of all types.
-/
import Verif.Spec.Readings
import Verif.Spec.BigDecimal
import Verif.Spec.ReadBack

namespace FastPrintf.Spec

/-- Both texts are numbers, as `Double.parseDouble` understands them, and the first is not greater than the second. -/
def NotGreater (s s' : JStr) : Prop :=
  ∃ n x n' x', javaNumber s = some (n, x) ∧ javaNumber s' = some (n', x') ∧ signed n x ≤ signed n' x'

/-- The floating-point conversions take the argument as this `double`. -/
def TakenAs (jdk : JdkEnv) (e : Entry) (bits : BitVec 64) : Prop :=
  IsDouble e bits ∨ FloatReading jdk e (.ok (.double bits))

/-- The decimal that the decimal conversions round: the exact value of a `BigInteger` or `BigDecimal` (whose scale is
not at the end of the `int` range); for an argument taken as a `double`, its shortest decimal with its sign. -/
inductive Amount (jdk : JdkEnv) : Entry → ℚ → Prop
  | big {e : Entry} {u scale : Int} (h : IsBig e u scale) {n : Nat} (hn : DigitCount u.natAbs n)
      (hs : ScaleOk n scale) : Amount jdk e (u * 10 ^ (-scale))
  | double {e : Entry} {bits : BitVec 64} (h : TakenAs jdk e bits) (hf : finite bits) {q : ℚ}
      (hq : DecimalOf bits q) : Amount jdk e (signed (negative bits) q)

/-- The value of an integer, a `float` or a `double` that is a number, as Java compares them. -/
inductive Magnitude : Entry → ℚ → Prop
  | integer {x : Integral} {e : Entry} (h : x.Given e) (hb : ∀ v, x ≠ .big v) : Magnitude e x.value
  | float {e : Entry} {b : BitVec 32} (h : Holds e (.float b)) {neg : Bool} {v : ℚ}
      (hv : floatDatum b = .number neg v) : Magnitude e v
  | double {e : Entry} {b : BitVec 64} (h : IsDouble e b) {neg : Bool} {v : ℚ}
      (hv : doubleDatum b = .number neg v) : Magnitude e v

/-- A `Date` or `Calendar`, and its milliseconds. -/
inductive MillisOf : Entry → Int → Prop
  | date (ms : BitVec 64) (i : Res Temporal) (t : Res JStr) (id : Identity) :
      MillisOf (.ref (.object (.date ms i) t id)) ms.toInt
  | calendar (ms : BitVec 64) (t : Res JStr) (id : Identity) :
      MillisOf (.ref (.object (.calendar ms) t id)) ms.toInt

/-- A point in time of `java.time`, and its seconds and nanoseconds. -/
inductive MomentOf (jdk : JdkEnv) : Entry → Int → Nat → Prop
  | temporal {t : Temporal} {sec : Int} {nano : Nat} (h : jdk.instantFrom t = some (sec, nano))
      (h3 : nano < 1000000000) (s : Res JStr) (id : Identity) : MomentOf jdk (.ref (.temporal t s id)) sec nano

/-- The conversions that print decimals. -/
def decimalConvs : List JChar := js! "eEfFgG"

example : NotGreater (js! "-1.50e+01") (js! "0x1.8p-3") :=
  ⟨true, 150 * 10 ^ (-1 : Int), false, 24 * 2 ^ (-7 : Int), by decide +kernel, by decide +kernel, by decide +kernel⟩
example : ¬ NotGreater (js! "2") (js! "1.5") := by
  rintro ⟨n, x, n', x', h1, h2, h3⟩
  rw [show javaNumber (js! "2") = some (false, 2) by decide +kernel] at h1
  rw [show javaNumber (js! "1.5") = some (false, 3 / 2) by decide +kernel] at h2
  cases h1; cases h2
  norm_num [signed] at h3

end FastPrintf.Spec
