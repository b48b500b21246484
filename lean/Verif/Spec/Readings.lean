/-
The number an argument of another type stands for, written independently of the library: IEEE 754
values, the rounding of a number to an integer or to a `double`, and tables that say how each type is
read by the integer conversions, by the floating-point conversions, and under `*`.
-/
import Verif.Spec.Arguments
import Verif.Spec.Double
import Mathlib.Algebra.Order.Floor.Semiring
import Mathlib.Data.Rat.Floor

namespace FastPrintf.Spec

/-- A floating-point value: not a number, an infinity, or a number with a sign (zero has one too). -/
inductive Datum
  | nan
  | infinite (neg : Bool)
  | number (neg : Bool) (x : ℚ)

/-- The sign put before a magnitude. -/
def signed (neg : Bool) (m : ℚ) : ℚ := if neg then -m else m

/-- The value of a `double`. -/
def doubleDatum (bits : BitVec 64) : Datum :=
  if expBits bits = 2047 then
    if fracBits bits = 0 then .infinite (negative bits) else .nan
  else .number (negative bits) (signed (negative bits) (magnitude bits))

/-- The fields of a binary32 value, and its magnitude when finite. -/
def expBits32 (bits : BitVec 32) : Nat := (bits.toNat / 2 ^ 23) % 256
def fracBits32 (bits : BitVec 32) : Nat := bits.toNat % 2 ^ 23
def negative32 (bits : BitVec 32) : Bool := 2 ^ 31 ≤ bits.toNat
def magnitude32 (bits : BitVec 32) : ℚ :=
  if expBits32 bits = 0 then fracBits32 bits * 2 ^ (-149 : Int)
  else ((2 ^ 23 + fracBits32 bits : Nat) : ℚ) * 2 ^ ((expBits32 bits : Int) - 150)

/-- The value of a `float`. -/
def floatDatum (bits : BitVec 32) : Datum :=
  if expBits32 bits = 255 then
    if fracBits32 bits = 0 then .infinite (negative32 bits) else .nan
  else .number (negative32 bits) (signed (negative32 bits) (magnitude32 bits))

/-- Rounding toward zero. -/
def truncation (x : ℚ) : Int := if x < 0 then ⌈x⌉ else ⌊x⌋

/-- Rounding to the nearest integer, halves upward. -/
def roundUp (x : ℚ) : Int := ⌊x + 1 / 2⌋

/-- A floating-point value as an integer between `lo` and `hi`, rounded by `r`: NaN is 0, values out of
range give the nearest bound (JLS 5.1.3). -/
def Datum.toInteger (lo hi : Int) (r : ℚ → Int) : Datum → Int
  | nan => 0
  | infinite neg => if neg then lo else hi
  | number _ x => max lo (min hi (r x))

/-- The bounds of `int` and `long`. -/
def minInt : Int := -2 ^ 31
def maxInt : Int := 2 ^ 31 - 1
def minLong : Int := -2 ^ 63
def maxLong : Int := 2 ^ 63 - 1

/-- The `int` with the same low 32 bits. -/
def Narrows (v n : Int) : Prop := minInt ≤ n ∧ n ≤ maxInt ∧ ∃ k, v = n + k * 2 ^ 32

/-- `bits` is the `double` nearest to `x`, ties to even; 0 gives positive zero. -/
def NearestDouble (x : ℚ) (bits : BitVec 64) : Prop :=
  finite bits ∧ (negative bits ↔ x < 0) ∧ RoundsTo (magnitude bits) (doubleC bits % 2 = 0) |x|

/-- The value of a finite `double`. -/
def doubleValue (bits : BitVec 64) : ℚ := signed (negative bits) (magnitude bits)

/-- The number written by the digits of a text; `digit` says what a character counts. -/
inductive DigitsOf (digit : JChar → Option Nat) : JStr → Nat → Prop
  | nil : DigitsOf digit [] 0
  | snoc {ds : JStr} {n k : Nat} {c : JChar} (h : DigitsOf digit ds n) (hc : digit c = some k) :
      DigitsOf digit (ds ++ [c]) (10 * n + k)

/-- A text that `parseInt` and `parseLong` accept: an optional sign and at least one digit. -/
def IntegerText (digit : JChar → Option Nat) (s : JStr) (v : Int) : Prop :=
  ∃ ds n, ds ≠ [] ∧ DigitsOf digit ds n ∧
    ((s = ch! '-' :: ds ∧ v = -(n : Int)) ∨ (s = ch! '+' :: ds ∧ v = n) ∨
      (s = ds ∧ v = n ∧ s.head? ≠ some (ch! '-') ∧ s.head? ≠ some (ch! '+')))

/-- The argument is a primitive value, or its box. -/
inductive Holds : Entry → Prim → Prop
  | prim (p : Prim) : Holds (.prim p) p
  | boxed (p : Prim) (id : Identity) : Holds (.ref (.boxed p id)) p

/-- A rope that has this text, and begins as it does. -/
structure RopeText (q : Seq) (s : JStr) : Prop where
  text : q.toStr = .ok s
  empty : s = [] → q.length = 0
  first : ∀ c r, s = c :: r → 0 < q.length ∧ q.charAt 0 = .ok c

/-- The argument is a `CharSequence` with this text. -/
inductive HoldsText : Entry → JStr → Prop
  | string (s : JStr) (id : Identity) : HoldsText (.ref (.string s id)) s
  | charSeq (s : JStr) (id : Identity) : HoldsText (.ref (.charSeq s id)) s
  | seq {q : Seq} {s : JStr} (h : RopeText q s) (id : Identity) : HoldsText (.ref (.seq q id)) s

/-- The refusal of a conversion: a `PrintfException` with the message of this place. -/
def refused (why : Refusal) : Err := .printf (.wrongType why)

/-- How `%d`, `%i`, `%u`, `%o`, `%x`, `%X` read an argument that is not of an integral type: as the value
of an integral type, or with an exception. -/
inductive IntReading (jdk : JdkEnv) : Entry → Res Integral → Prop
  | float {e : Entry} {b : BitVec 32} (h : Holds e (.float b)) :
      IntReading jdk e (.ok (.int (BitVec.ofInt 32 ((floatDatum b).toInteger minInt maxInt truncation))))
  | double {e : Entry} {b : BitVec 64} (h : Holds e (.double b)) :
      IntReading jdk e
        (.ok (.long (BitVec.ofInt 64 ((doubleDatum b).toInteger minLong maxLong truncation))))
  | bigDecimal (u s : Int) (id : Identity) :
      IntReading jdk (.ref (.bigDecimal u s id)) (.ok (.big (truncation ((u : ℚ) * 10 ^ (-s)))))
  | text {e : Entry} {s : JStr} (h : HoldsText e s) {v : Int} (hv : IntegerText jdk.digit s v)
      (h1 : minLong ≤ v) (h2 : v ≤ maxLong) : IntReading jdk e (.ok (.long (BitVec.ofInt 64 v)))
  | noNumber {e : Entry} {s : JStr} (h : HoldsText e s)
      (hv : ¬ ∃ v, IntegerText jdk.digit s v ∧ minLong ≤ v ∧ v ≤ maxLong) :
      IntReading jdk e (.error (refused .textToInt))
  | number (l d : BitVec 64) (i : BitVec 32) (t : Res JStr) (id : Identity) :
      IntReading jdk (.ref (.object (.number l d i) t id)) (.ok (.long l))
  | date (ms : BitVec 64) (i : Res Temporal) (t : Res JStr) (id : Identity) :
      IntReading jdk (.ref (.object (.date ms i) t id)) (.ok (.long ms))
  | calendar (ms : BitVec 64) (t : Res JStr) (id : Identity) :
      IntReading jdk (.ref (.object (.calendar ms) t id)) (.ok (.long ms))
  | temporal {t : Temporal} {sec : Int} {nano : Nat} (h : jdk.instantFrom t = some (sec, nano))
      {ms : Int} (hms : ms = ⌊(sec * 1000 + nano / 1000000 : ℚ)⌋) (h1 : minLong ≤ ms) (h2 : ms ≤ maxLong)
      (s : Res JStr) (id : Identity) :
      IntReading jdk (.ref (.temporal t s id)) (.ok (.long (BitVec.ofInt 64 ms)))
  | tooFar {t : Temporal} {sec : Int} {nano : Nat} (h : jdk.instantFrom t = some (sec, nano))
      {ms : Int} (hms : ms = ⌊(sec * 1000 + nano / 1000000 : ℚ)⌋) (h1 : ms < minLong ∨ maxLong < ms)
      (s : Res JStr) (id : Identity) : IntReading jdk (.ref (.temporal t s id)) (.error .arithmetic)
  | noInstant {t : Temporal} (h : jdk.instantFrom t = none) (s : Res JStr) (id : Identity) :
      IntReading jdk (.ref (.temporal t s id)) (.error (refused .noEpochMillis))
  | null : IntReading jdk (.ref .null) (.error (refused .nullToInt))
  | other (t : Res JStr) (id : Identity) : IntReading jdk (.ref (.object .other t id)) (.error (refused .notANumber))

/-- What the floating-point conversions print: a `double` or a `BigDecimal`. -/
inductive Floating
  | double (bits : BitVec 64)
  | big (unscaled scale : Int)

/-- How `%f`, `%e`, `%g`, `%a` read an argument that is neither a `double` nor a `BigDecimal`. -/
inductive FloatReading (jdk : JdkEnv) : Entry → Res Floating → Prop
  | integral {x : Integral} {e : Entry} (h : x.Given e) (hb : ∀ v, x ≠ .big v) {b : BitVec 64}
      (hn : NearestDouble x.value b) : FloatReading jdk e (.ok (.double b))
  | bigInteger (v : Int) (id : Identity) : FloatReading jdk (.ref (.bigInteger v id)) (.ok (.big v 0))
  | float {e : Entry} {b : BitVec 32} (h : Holds e (.float b)) {b' : BitVec 64}
      (hb : doubleDatum b' = floatDatum b) : FloatReading jdk e (.ok (.double b'))
  | text {e : Entry} {s : JStr} (h : HoldsText e s) {b : BitVec 64} (hb : jdk.parseDouble s = some b) :
      FloatReading jdk e (.ok (.double b))
  | noNumber {e : Entry} {s : JStr} (h : HoldsText e s) (hb : jdk.parseDouble s = none) :
      FloatReading jdk e (.error (refused .textToFloat))
  | number (l d : BitVec 64) (i : BitVec 32) (t : Res JStr) (id : Identity) :
      FloatReading jdk (.ref (.object (.number l d i) t id)) (.ok (.double d))
  | date {ms a b : BitVec 64} (ha : NearestDouble ms.toInt a) (hb : NearestDouble (doubleValue a / 1000) b)
      (i : Res Temporal) (t : Res JStr) (id : Identity) :
      FloatReading jdk (.ref (.object (.date ms i) t id)) (.ok (.double b))
  | calendar {ms a b : BitVec 64} (ha : NearestDouble ms.toInt a)
      (hb : NearestDouble (doubleValue a / 1000) b) (t : Res JStr) (id : Identity) :
      FloatReading jdk (.ref (.object (.calendar ms) t id)) (.ok (.double b))
  | temporal {t : Temporal} {sec : Int} {nano : Nat} (h : jdk.instantFrom t = some (sec, nano))
      (h1 : minLong ≤ sec) (h2 : sec ≤ maxLong) (h3 : nano < 1000000000) {a b c : BitVec 64}
      (ha : NearestDouble sec a) (hb : NearestDouble ((nano : ℚ) / 1000000000) b)
      (hc : NearestDouble (doubleValue a + doubleValue b) c) (s : Res JStr) (id : Identity) :
      FloatReading jdk (.ref (.temporal t s id)) (.ok (.double c))
  | noInstant {t : Temporal} (h : jdk.instantFrom t = none) (s : Res JStr) (id : Identity) :
      FloatReading jdk (.ref (.temporal t s id)) (.error (refused .noEpochSeconds))
  | null : FloatReading jdk (.ref .null) (.error (refused .nullToFloat))
  | other (t : Res JStr) (id : Identity) : FloatReading jdk (.ref (.object .other t id)) (.error (refused .notANumber))

/-- How an argument is read under `*`: as an `int`. -/
inductive StarReading (jdk : JdkEnv) : Entry → Res Int → Prop
  | integral {x : Integral} {e : Entry} (h : x.Given e) {n : Int} (hn : Narrows x.value n) :
      StarReading jdk e (.ok n)
  | float {e : Entry} {b : BitVec 32} (h : Holds e (.float b)) :
      StarReading jdk e (.ok ((floatDatum b).toInteger minInt maxInt roundUp))
  | double {e : Entry} {b : BitVec 64} (h : Holds e (.double b)) {n : Int}
      (hn : Narrows ((doubleDatum b).toInteger minLong maxLong roundUp) n) : StarReading jdk e (.ok n)
  | bigDecimal (u s : Int) (id : Identity) {n : Int} (hn : Narrows (truncation ((u : ℚ) * 10 ^ (-s))) n) :
      StarReading jdk (.ref (.bigDecimal u s id)) (.ok n)
  | text {e : Entry} {s : JStr} (h : HoldsText e s) {v : Int} (hv : IntegerText jdk.digit s v)
      (h1 : minInt ≤ v) (h2 : v ≤ maxInt) : StarReading jdk e (.ok v)
  | noNumber {e : Entry} {s : JStr} (h : HoldsText e s)
      (hv : ¬ ∃ v, IntegerText jdk.digit s v ∧ minInt ≤ v ∧ v ≤ maxInt) :
      StarReading jdk e (.error (refused .textToInt))
  | number (l d : BitVec 64) (i : BitVec 32) (t : Res JStr) (id : Identity) :
      StarReading jdk (.ref (.object (.number l d i) t id)) (.ok i.toInt)
  | date (ms : BitVec 64) (i : Res Temporal) (t : Res JStr) (id : Identity) {n : Int}
      (hn : Narrows (truncation (ms.toInt / 1000 : ℚ)) n) :
      StarReading jdk (.ref (.object (.date ms i) t id)) (.ok n)
  | calendar (ms : BitVec 64) (t : Res JStr) (id : Identity) {n : Int}
      (hn : Narrows (truncation (ms.toInt / 1000 : ℚ)) n) :
      StarReading jdk (.ref (.object (.calendar ms) t id)) (.ok n)
  | temporal {t : Temporal} {sec : Int} {nano : Nat} (h : jdk.instantFrom t = some (sec, nano)) {n : Int}
      (hn : Narrows sec n) (s : Res JStr) (id : Identity) :
      StarReading jdk (.ref (.temporal t s id)) (.ok n)
  | noInstant {t : Temporal} (h : jdk.instantFrom t = none) (s : Res JStr) (id : Identity) :
      StarReading jdk (.ref (.temporal t s id)) (.error (refused .noEpochSeconds))
  | null : StarReading jdk (.ref .null) (.error (refused .nullToInt))
  | other (t : Res JStr) (id : Identity) : StarReading jdk (.ref (.object .other t id)) (.error (refused .objectToInt))

/-- How `%c` reads an argument: a character is itself, a text gives its first code unit, any other
argument the low 16 bits of the `int` it is read as under `*`; but a point in time is refused. -/
inductive CharReading (jdk : JdkEnv) : Entry → Res JChar → Prop
  | char {c : BitVec 16} {e : Entry} (h : (Integral.char c).Given e) : CharReading jdk e (.ok c.toNat)
  | text {e : Entry} {c : JChar} {s : JStr} (h : HoldsText e (c :: s)) : CharReading jdk e (.ok c)
  | emptyText {e : Entry} (h : HoldsText e []) : CharReading jdk e (.error (refused .emptyToChar))
  | point (t : Temporal) (s : Res JStr) (id : Identity) :
      CharReading jdk (.ref (.temporal t s id)) (.error (refused .temporalToChar))
  | number {e : Entry} {r : Res Int} (h : StarReading jdk e r) (hs : ∀ s, ¬ HoldsText e s)
      (ht : ∀ t s id, e ≠ .ref (.temporal t s id)) :
      CharReading jdk e (r.map fun n => (n % 65536).toNat)

/-- The argument stands for this `long` under `%t`: a `long`, the low 64 bits of a `BigInteger`, the
`longValue` of another `Number`. -/
inductive CountsTime : Entry → Int → Prop
  | long {v : BitVec 64} {e : Entry} (h : (Integral.long v).Given e) : CountsTime e v.toInt
  | big {v n : Int} (h1 : minLong ≤ n) (h2 : n ≤ maxLong) {k : Int} (hk : v = n + k * 2 ^ 64)
      (id : Identity) : CountsTime (.ref (.bigInteger v id)) n
  | number (l d : BitVec 64) (i : BitVec 32) (t : Res JStr) (id : Identity) :
      CountsTime (.ref (.object (.number l d i) t id)) l.toInt

/-- The arguments that `%t` refuses, and where. -/
inductive NoTime : Entry → Refusal → Prop
  | small {x : Integral} {e : Entry} (h : x.Given e) (h1 : ∀ v, x ≠ .int v) (h2 : ∀ v, x ≠ .long v)
      (h3 : ∀ v, x ≠ .big v) (h4 : ∀ c, x ≠ .char c) : NoTime e .noTemporal
  | char {c : BitVec 16} {e : Entry} (h : (Integral.char c).Given e) : NoTime e .charToTemporal
  | float {e : Entry} {b : BitVec 32} (h : Holds e (.float b)) : NoTime e .noTemporal
  | double {e : Entry} {b : BitVec 64} (h : Holds e (.double b)) : NoTime e .noTemporal
  | bigDecimal (u s : Int) (id : Identity) : NoTime (.ref (.bigDecimal u s id)) .noTemporal
  | text {e : Entry} {s : JStr} (h : HoldsText e s) : NoTime e .noTemporal
  | null : NoTime (.ref .null) .nullToTemporal
  | other (t : Res JStr) (id : Identity) : NoTime (.ref (.object .other t id)) .objectToTemporal

/-- How `%t` reads an argument: as a point in time.  An `int` is unsigned; a `Date` is what its `toInstant()`
says. -/
inductive TimeReading : Entry → Res Temporal → Prop
  | int {v : BitVec 32} {e : Entry} (h : (Integral.int v).Given e) :
      TimeReading e (.ok (.stamp (.epochSecond v.toNat)))
  | seconds {e : Entry} {n : Int} (h : CountsTime e n) (h1 : 0 ≤ n) (h2 : n < 2 ^ 32) :
      TimeReading e (.ok (.stamp (.epochSecond n)))
  | millis {e : Entry} {n : Int} (h : CountsTime e n) (h1 : 2 ^ 32 ≤ n) :
      TimeReading e (.ok (.stamp (.epochMilli n)))
  | negative {e : Entry} {n : Int} (h : CountsTime e n) (h1 : n < 0) :
      TimeReading e (.error .illegalArgument)
  | date (ms : BitVec 64) (i : Res Temporal) (t : Res JStr) (id : Identity) :
      TimeReading (.ref (.object (.date ms i) t id)) i
  | calendar (ms : BitVec 64) (t : Res JStr) (id : Identity) :
      TimeReading (.ref (.object (.calendar ms) t id)) (.ok (.stamp (.epochMilli ms.toInt)))
  | temporal (t : Temporal) (s : Res JStr) (id : Identity) : TimeReading (.ref (.temporal t s id)) (.ok t)
  | none {e : Entry} {why : Refusal} (h : NoTime e why) : TimeReading e (.error (refused why))

/-- The JDK formatter that `%t` applies, and to what: the given pattern, or else an ISO format chosen by
the type, an `Instant` being placed in the system's time zone; some types have none. -/
inductive Formatted : Option JStr → Temporal → Option (DateFmt × Temporal) → Prop
  | pattern (p : JStr) (t : Temporal) : Formatted (some p) t (some (.pattern p, t))
  | instant {t : Temporal} (h : t.kind = .instant) :
      Formatted none t (some (.isoOffsetDateTime, .atSystemZone t))
  | offset {t : Temporal} (h : t.kind = .offsetDateTime ∨ t.kind = .zonedDateTime) :
      Formatted none t (some (.isoOffsetDateTime, t))
  | localDateTime {t : Temporal} (h : t.kind = .localDateTime) : Formatted none t (some (.isoLocalDateTime, t))
  | localDate {t : Temporal} (h : t.kind = .localDate) : Formatted none t (some (.isoLocalDate, t))
  | other {t : Temporal} (h : t.kind = .other) : Formatted none t none

/-- The arguments the tables are about: any but an implementation of `FormatTraits` by the caller, with
16-bit characters and with ropes that have a text. -/
def Listed : Entry → Prop
  | .prim (.char c) => c < 65536
  | .ref (.boxed (.char c) _) => c < 65536
  | .ref (.seq q _) => ∃ s, RopeText q s
  | .ref (.traits _) => False
  | _ => True

/-- `Instant.from` yields what an `Instant` can hold. -/
def InstantsFit (jdk : JdkEnv) : Prop :=
  ∀ t sec nano, jdk.instantFrom t = some (sec, nano) → minLong ≤ sec ∧ sec ≤ maxLong ∧ nano < 1000000000

end FastPrintf.Spec
