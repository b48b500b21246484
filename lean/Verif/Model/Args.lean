/-
Model of `io.fastprintf.traits` and `io.fastprintf.ArgsImpl`: how each kind of argument is read by the
conversions.
-/
import Verif.Model.IntForms
import Verif.Model.BigDecimal
import Verif.Model.DoubleWrapper

namespace FastPrintf

/-- JDK services the traits rely on, left abstract.  Used in traits/DoubleTraits.java:32,
traits/FloatTraits.java:32, traits/CharSequenceTraits.java:23-55, traits/BigDecimalTraits.java:26-28 and
traits/TemporalAccessorTraits.java:24-64. -/
structure JdkEnv where
  /-- `Double.toString`. -/
  doubleToString : BitVec 64 → JStr
  /-- `Float.toString`. -/
  floatToString : BitVec 32 → JStr
  /-- `Double.parseDouble`; `none` is a `NumberFormatException`. -/
  parseDouble : JStr → Option (BitVec 64)
  /-- `Character.digit(c, 10)`; `none` is -1. -/
  digit : JChar → Option Nat
  /-- `BigDecimal.toString` of an unscaled value and a scale. -/
  bigDecimalToString : Int → Int → JStr
  /-- `Instant.from`: epoch second and nanosecond; `none` is a `DateTimeException`. -/
  instantFrom : Temporal → Option (Int × Nat)

/-- `Instant.toEpochMilli` of an epoch second and a nanosecond, as documented: rounded down; `none` is an
`ArithmeticException` (not caught by the library).  Called in traits/TemporalAccessorTraits.java:50. -/
def epochMilli (i : Int × Nat) : Option (BitVec 64) :=
  let ms := i.1 * 1000 + i.2 / 1000000
  if JavaDouble.longMin ≤ ms ∧ ms ≤ JavaDouble.longMax then some (BitVec.ofInt 64 ms) else none

/-- `seconds + nano / 1_000_000_000.0D` in `double` arithmetic
(traits/TemporalAccessorTraits.java:31-32). -/
def instantSeconds (i : Int × Nat) : BitVec 64 :=
  JavaDouble.add (JavaDouble.ofInt i.1) (JavaDouble.divNat (JavaDouble.ofInt i.2) 1000000000)

/-- `ms / 1000D` in `double` arithmetic (traits/ObjectTraits.java:85, 88). -/
def millisToSeconds (ms : BitVec 64) : BitVec 64 := JavaDouble.divNat (JavaDouble.ofInt ms.toInt) 1000

/-- A primitive value.  The parameter types of Args.java:159-279 that are primitive. -/
inductive Prim
  | bool (b : Bool)
  | char (c : JChar)
  | byte (v : BitVec 8)
  | short (v : BitVec 16)
  | int (v : BitVec 32)
  | long (v : BitVec 64)
  | float (bits : BitVec 32)
  | double (bits : BitVec 64)
  deriving DecidableEq, Repr

/-- `(char) i` for an `int`: the low 16 bits.  The casts in traits/FormatTraits.java:104,
traits/ByteTraits.java:42 and traits/ShortTraits.java:42. -/
def toChar (i : Int) : JChar := (i % 65536).toNat

/-- The default `asTemporalAccessor` (traits/FormatTraits.java:92-94). -/
def noTemporal : Res Temporal := .error (.printf (.wrongType .noTemporal))

/-- `BooleanTraits` (traits/BooleanTraits.java:7-60); `asChar` is the default `(char) asInt()`. -/
def boolTraits (b : Bool) (ref : RefSlot) : Traits where
  asIntForm := .ok (IntForm.ofInt (if b then 1#32 else 0#32))
  asFloatForm := .ok (FloatForm.ofDouble (JavaDouble.ofInt (if b then 1 else 0)))
  asTemporal := noTemporal
  asSeq := .ok (Seq.wrap (if b then js! "true" else js! "false"))
  asInt := .ok (if b then 1 else 0)
  asChar := .ok (toChar (if b then 1 else 0))
  ref := ref

/-- `CharacterTraits` (traits/CharacterTraits.java:10-68); overload resolution widens `char` to `int`
and to `double`. -/
def charTraits (c : JChar) (ref : RefSlot) : Traits where
  asIntForm := .ok (IntForm.ofInt (BitVec.ofNat 32 c))
  asFloatForm := .ok (FloatForm.ofDouble (JavaDouble.ofInt c))
  asTemporal := .error (.printf (.wrongType .charToTemporal))
  asSeq := .ok (Seq.ch c)
  asInt := .ok c
  asChar := .ok c
  ref := ref

/-- `ByteTraits` (traits/ByteTraits.java:6-54). -/
def byteTraits (v : BitVec 8) (ref : RefSlot) : Traits where
  asIntForm := .ok (IntForm.ofByte v)
  asFloatForm := .ok (FloatForm.ofDouble (JavaDouble.ofInt v.toInt))
  asTemporal := noTemporal
  asSeq := .ok (Seq.wrap (intToString v.toInt))
  asInt := .ok v.toInt
  asChar := .ok (toChar v.toInt)
  ref := ref

/-- `ShortTraits` (traits/ShortTraits.java:6-54). -/
def shortTraits (v : BitVec 16) (ref : RefSlot) : Traits where
  asIntForm := .ok (IntForm.ofShort v)
  asFloatForm := .ok (FloatForm.ofDouble (JavaDouble.ofInt v.toInt))
  asTemporal := noTemporal
  asSeq := .ok (Seq.wrap (intToString v.toInt))
  asInt := .ok v.toInt
  asChar := .ok (toChar v.toInt)
  ref := ref

/-- `IntTraits` (traits/IntTraits.java:10-82); the cache of instances (12-21, 31-36) is invisible.
`asSeq` is lazy with the precomputed length. -/
def intTraits (v : BitVec 32) (ref : RefSlot) : Traits where
  asIntForm := .ok (IntForm.ofInt v)
  asFloatForm := .ok (FloatForm.ofDouble (JavaDouble.ofInt v.toInt))
  asTemporal := do return .stamp (← longToInstant v.toNat)
  asSeq := do return Seq.atom (← Atomic.mkLazy (intToString v.toInt) (stringSize32 v.toInt))
  asInt := .ok v.toInt
  asChar := .ok (toChar v.toInt)
  ref := ref

/-- `LongTraits` (traits/LongTraits.java:10-68). -/
def longTraits (v : BitVec 64) (ref : RefSlot) : Traits where
  asIntForm := .ok (IntForm.ofLong v)
  asFloatForm := .ok (FloatForm.ofDouble (JavaDouble.ofInt v.toInt))
  asTemporal := do return .stamp (← longToInstant v.toInt)
  asSeq := do return Seq.atom (← Atomic.mkLazy (intToString v.toInt) (stringSize64 v.toInt))
  asInt := .ok (wrap32 v.toInt)
  asChar := .ok (toChar (wrap32 v.toInt))
  ref := ref

/-- `(int) f` and `Math.round(float)`, by way of the exact widening to `double`
(traits/FloatTraits.java:22, 37). -/
def floatToInt (bits : BitVec 32) : Int :=
  JavaDouble.clamp intMin intMax (JavaDouble.toLong (JavaDouble.ofFloat bits))
/-- `Math.round(float)` (traits/FloatTraits.java:37), see `floatToInt`. -/
def floatRound (bits : BitVec 32) : Int :=
  JavaDouble.clamp intMin intMax (JavaDouble.mathRound (JavaDouble.ofFloat bits))

/-- `FloatTraits` (traits/FloatTraits.java:6-49). -/
def floatTraits (env : JdkEnv) (bits : BitVec 32) (ref : RefSlot) : Traits where
  asIntForm := .ok (IntForm.ofInt (BitVec.ofInt 32 (floatToInt bits)))
  asFloatForm := .ok (FloatForm.ofDouble (JavaDouble.ofFloat bits))
  asTemporal := noTemporal
  asSeq := .ok (Seq.wrap (env.floatToString bits))
  asInt := .ok (floatRound bits)
  asChar := .ok (toChar (floatRound bits))
  ref := ref

/-- `DoubleTraits` (traits/DoubleTraits.java:6-49). -/
def doubleTraits (env : JdkEnv) (bits : BitVec 64) (ref : RefSlot) : Traits where
  asIntForm := .ok (IntForm.ofLong (BitVec.ofInt 64 (JavaDouble.toLong bits)))
  asFloatForm := .ok (FloatForm.ofDouble bits)
  asTemporal := noTemporal
  asSeq := .ok (Seq.wrap (env.doubleToString bits))
  asInt := .ok (wrap32 (JavaDouble.mathRound bits))
  asChar := .ok (toChar (wrap32 (JavaDouble.mathRound bits)))
  ref := ref

/-- The traits of a primitive or boxed value (ArgsImpl.java:75-152). -/
def Prim.traits (env : JdkEnv) (ref : RefSlot) : Prim → Traits
  | bool b => boolTraits b ref
  | char c => charTraits c ref
  | byte v => byteTraits v ref
  | short v => shortTraits v ref
  | int v => intTraits v ref
  | long v => longTraits v ref
  | float v => floatTraits env v ref
  | double v => doubleTraits env v ref

/-- `NullTraits` (traits/NullTraits.java:9-59); `asChar` is the default `(char) asInt()`. -/
def nullTraits : Traits where
  asIntForm := .error (.printf (.wrongType .nullToInt))
  asFloatForm := .error (.printf (.wrongType .nullToFloat))
  asTemporal := .error (.printf (.wrongType .nullToTemporal))
  asSeq := .ok (Seq.wrap (js! "null"))
  asInt := .error (.printf (.wrongType .nullToInt))
  asChar := .error (.printf (.wrongType .nullToInt))
  ref := .null

/-- `BigIntegerTraits` (traits/BigIntegerTraits.java:10-47): `intValue`, `longValue` keep the low
bits. -/
def bigIntegerTraits (v : Int) (ref : RefSlot) : Traits where
  asIntForm := .ok (IntForm.ofBigInteger v)
  asFloatForm := .ok (FloatForm.ofBigDecimal v 0)
  asTemporal := do return .stamp (← longToInstant (wrap64 v))
  asSeq := .ok (Seq.wrap (intToString v))
  asInt := .ok (wrap32 v)
  asChar := .ok (toChar (wrap32 v))
  ref := ref

/-- `BigDecimal.toBigInteger`: truncation toward zero.  Called in traits/BigDecimalTraits.java:17;
`intValue()` in line 32 truncates the same way. -/
def bigDecimalTruncate (unscaled scale : Int) : Int :=
  if scale ≤ 0 then unscaled * 10 ^ (-scale).toNat else Int.tdiv unscaled (10 ^ scale.toNat)

/-- `BigDecimalTraits` (traits/BigDecimalTraits.java:7-39). -/
def bigDecimalTraits (env : JdkEnv) (unscaled scale : Int) (ref : RefSlot) : Traits where
  asIntForm := .ok (IntForm.ofBigInteger (bigDecimalTruncate unscaled scale))
  asFloatForm := .ok (FloatForm.ofBigDecimal unscaled scale)
  asTemporal := noTemporal
  asSeq := .ok (Seq.wrap (env.bigDecimalToString unscaled scale))
  asInt := .ok (wrap32 (bigDecimalTruncate unscaled scale))
  asChar := .ok (toChar (wrap32 (bigDecimalTruncate unscaled scale)))
  ref := ref

/-- The digits of `Integer.parseInt` and `Long.parseLong`: at least one, all decimal.  Called in
traits/CharSequenceTraits.java:25, 42. -/
def parseDigits (env : JdkEnv) : JStr → Option Nat
  | [] => none
  | s => s.foldl (fun acc c => do return (← acc) * 10 + (← env.digit c)) (some 0)

/-- `Integer.parseInt` / `Long.parseLong` as documented: an optional sign, digits, within the range.
Called in traits/CharSequenceTraits.java:25, 42. -/
def parseSigned (env : JdkEnv) (lo hi : Int) (s : JStr) : Res Int :=
  let v : Option Int := match s with
    | 45 :: ds => (parseDigits env ds).map fun (n : Nat) => -(n : Int)
    | 43 :: ds => (parseDigits env ds).map fun (n : Nat) => (n : Int)
    | ds => (parseDigits env ds).map fun (n : Nat) => (n : Int)
  match v with
  | some n => if lo ≤ n ∧ n ≤ hi then .ok n else .error .numberFormat
  | none => .error .numberFormat

/-- `catch (NumberFormatException e) { throw new PrintfException(..) }`
(traits/CharSequenceTraits.java:26-28, 43-45, 52-54). -/
def orPrintf {α : Type} : Res α → Res α
  | .error .numberFormat => .error (.printf (.wrongType .textToInt))
  | r => r

/-- `CharSequenceTraits` (traits/CharSequenceTraits.java:9-77) of a sequence with text `s`; `asSeq`
(67-76) depends on the class and is passed in. -/
def charSequenceTraits (env : JdkEnv) (s : JStr) (asSeq : Res Seq) (ref : RefSlot) : Traits where
  asIntForm := do
    return IntForm.ofLong (BitVec.ofInt 64
      (← orPrintf (parseSigned env JavaDouble.longMin JavaDouble.longMax s)))
  asFloatForm := match env.parseDouble s with
    | some bits => .ok (FloatForm.ofDouble bits)
    | none => .error (.printf (.wrongType .textToFloat))
  asTemporal := noTemporal
  asSeq := asSeq
  asInt := orPrintf (parseSigned env intMin intMax s)
  asChar := match s with
    | c :: _ => .ok c
    | [] => .error (.printf (.wrongType .emptyToChar))
  ref := ref

/-- `CharSequenceTraits` (traits/CharSequenceTraits.java:9-77) of a rope: the numbers are read from its
`toString()`, and `asChar` (31-37) asks its `length()` and `charAt(0)`. -/
def seqTraits (env : JdkEnv) (q : Seq) (ref : RefSlot) : Traits where
  asIntForm := do (charSequenceTraits env (← q.toStr) (.ok q) ref).asIntForm
  asFloatForm := do (charSequenceTraits env (← q.toStr) (.ok q) ref).asFloatForm
  asTemporal := noTemporal
  asSeq := .ok q
  asInt := do (charSequenceTraits env (← q.toStr) (.ok q) ref).asInt
  asChar := if q.length ≥ 1 then q.charAt 0 else .error (.printf (.wrongType .emptyToChar))
  ref := ref

/-- `TemporalAccessorTraits` (traits/TemporalAccessorTraits.java:10-85); `text` is `toString()`. -/
def temporalTraits (env : JdkEnv) (t : Temporal) (text : Res JStr) (ref : RefSlot) : Traits where
  asIntForm := match env.instantFrom t with
    | none => .error (.printf (.wrongType .noEpochMillis))
    | some i => match epochMilli i with
      | some ms => .ok (IntForm.ofLong ms)
      | none => .error .arithmetic
  asFloatForm := match env.instantFrom t with
    | none => .error (.printf (.wrongType .noEpochSeconds))
    | some i => .ok (FloatForm.ofDouble (instantSeconds i))
  asTemporal := .ok t
  asSeq := do return Seq.wrap (← text)
  asInt := match env.instantFrom t with
    | none => .error (.printf (.wrongType .noEpochSeconds))
    | some i => .ok (wrap32 i.1)
  asChar := .error (.printf (.wrongType .temporalToChar))
  ref := ref

/-- What `ObjectTraits` distinguishes about an object (traits/ObjectTraits.java:66-119).  `Date.toInstant` is
an overridable method: `java.sql.Date` and `java.sql.Time` throw an `UnsupportedOperationException` there,
and a `java.sql.Timestamp` counts nanoseconds; a `Calendar` cannot override it. -/
inductive ObjectKind
  | number (long : BitVec 64) (double : BitVec 64) (int : BitVec 32)
  | date (ms : BitVec 64) (toInstant : Res Temporal)
  | calendar (ms : BitVec 64)
  | other

/-- A `java.util.Date`: its `toInstant()` is the instant of its milliseconds
(traits/ObjectTraits.java:70-72, 84-86, 95-97, 112-114). -/
def ObjectKind.utilDate (ms : BitVec 64) : ObjectKind := .date ms (.ok (.stamp (.epochMilli ms.toInt)))

/-- `ms / 1000L` narrowed to `int`; Java division truncates (traits/ObjectTraits.java:113, 116). -/
def millisToInt (ms : BitVec 64) : Int := wrap32 (Int.tdiv ms.toInt 1000)

/-- `ObjectTraits` (traits/ObjectTraits.java:14-125); `text` is `asString()` (56-63). -/
def objectTraits (kind : ObjectKind) (text : Res JStr) (ref : RefSlot) : Traits where
  asIntForm := match kind with
    | .number l _ _ => .ok (IntForm.ofLong l)
    | .date ms _ => .ok (IntForm.ofLong ms)
    | .calendar ms => .ok (IntForm.ofLong ms)
    | .other => .error (.printf (.wrongType .notANumber))
  asFloatForm := match kind with
    | .number _ d _ => .ok (FloatForm.ofDouble d)
    | .date ms _ => .ok (FloatForm.ofDouble (millisToSeconds ms))
    | .calendar ms => .ok (FloatForm.ofDouble (millisToSeconds ms))
    | .other => .error (.printf (.wrongType .notANumber))
  asTemporal := match kind with
    | .date _ i => i
    | .calendar ms => .ok (.stamp (.epochMilli ms.toInt))
    | .number l _ _ => do return .stamp (← longToInstant l.toInt)
    | .other => .error (.printf (.wrongType .objectToTemporal))
  asSeq := do return Seq.wrap (← text)
  asInt := match kind with
    | .number _ _ i => .ok i.toInt
    | .date ms _ => .ok (millisToInt ms)
    | .calendar ms => .ok (millisToInt ms)
    | .other => .error (.printf (.wrongType .objectToInt))
  asChar := match kind with
    | .number _ _ i => .ok (toChar i.toInt)
    | .date ms _ => .ok (toChar (millisToInt ms))
    | .calendar ms => .ok (toChar (millisToInt ms))
    | .other => .error (.printf (.wrongType .objectToInt))
  ref := ref

/-- Class name and identity hash code of an object: what `%p` shows (appender/SeqFormatter.java:353-373;
the object is held by traits/RefSlot.java:28-32). -/
structure Identity where
  className : JStr
  hash : BitVec 32
  deriving DecidableEq, Repr

/-- `RefSlot.of(value)` for an object with this identity (traits/RefSlot.java:42-47). -/
def Identity.ref (i : Identity) : RefSlot := .object i.className i.hash

/-- A Java reference as `Args.put(Object)` sees it; the classes are tested in the order of
ArgsImpl.java:192-222, and an object is listed here under the first test it passes. -/
inductive Obj
  | null
  | boxed (p : Prim) (id : Identity)
  | string (s : JStr) (id : Identity)
  | seq (q : Seq) (id : Identity)
  | charSeq (s : JStr) (id : Identity)
  | bigInteger (v : Int) (id : Identity)
  | bigDecimal (unscaled scale : Int) (id : Identity)
  | temporal (t : Temporal) (text : Res JStr) (id : Identity)
  | traits (t : Traits)
  | object (kind : ObjectKind) (text : Res JStr) (id : Identity)

/-- An element of `ArgsImpl.traits`: either made from a primitive (`ofPrimitive`) or from a
reference (ArgsImpl.java:30-58). -/
inductive Entry
  | prim (p : Prim)
  | ref (o : Obj)

/-- The `FormatTraits` that `put` creates (ArgsImpl.java:30-58, 179-184, 192-222).  A `Seq` argument
keeps its own rope; its `toString` is `Seq.toStr`. -/
def Obj.toTraits (env : JdkEnv) : Obj → Traits
  | null => nullTraits
  | boxed p id => p.traits env id.ref
  | string s id => charSequenceTraits env s (.ok (Seq.wrap s)) id.ref
  | seq q id => seqTraits env q id.ref
  | charSeq s id =>
    charSequenceTraits env s (do return Seq.atom (← Atomic.mkLazy s s.length)) id.ref
  | bigInteger v id => bigIntegerTraits v id.ref
  | bigDecimal u s id => bigDecimalTraits env u s id.ref
  | temporal t text id => temporalTraits env t text id.ref
  | traits t => t
  | object kind text id => objectTraits kind text id.ref

/-- The `FormatTraits` of an entry (ArgsImpl.java:30-58). -/
def Entry.toTraits (env : JdkEnv) : Entry → Traits
  | prim p => p.traits env .primitive
  | ref o => o.toTraits env

end FastPrintf
