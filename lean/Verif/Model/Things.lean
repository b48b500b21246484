/-
Model of the objects of a user's own classes as arguments: an object may be several things at once, and its methods
may throw.
-/
import Verif.Model.Foreign

namespace FastPrintf

/-- The class an object extends, among those that `ArgsImpl.put` (ArgsImpl.java:213-216) and `ObjectTraits`
(traits/ObjectTraits.java:66-119) look for, with what the methods called there answer or throw.  Java has single
inheritance, so it is one of these.  Simplified: a subclass of `BigInteger` or `BigDecimal` is taken to override
nothing. -/
inductive Base
  /-- none of the classes below -/
  | plain
  | bigInteger (v : Int)
  | bigDecimal (unscaled scale : Int)
  /-- another `Number`: `longValue()`, `doubleValue()`, `intValue()` -/
  | number (long double : Res (BitVec 64)) (int : Res (BitVec 32))
  /-- a `Date`: `getTime()`, `toInstant()` -/
  | date (ms : Res (BitVec 64)) (toInstant : Res Temporal)
  /-- a `Calendar`: `getTimeInMillis()`, which throws if the fields are wrong and the calendar is not lenient;
  `toInstant()` is final and calls it -/
  | calendar (ms : Res (BitVec 64))

/-- The methods of `CharSequence` that an object adds to `toString()`, as in `ForeignSeq`.  Called in
traits/CharSequenceTraits.java:18-76. -/
structure CharMethods where
  length : Res Int
  charAt : Nat → Res JChar
  left : JStr := []

/-- An object that is no box, `String` or `Seq`.  The methods are taken to answer the same each time.  What
ArgsImpl.java:179-184, 192-227 and traits/*.java call on it. -/
structure Thing where
  base : Base
  /-- it implements `CharSequence` -/
  chars : Option CharMethods := none
  /-- it implements `TemporalAccessor` -/
  time : Option Temporal := none
  /-- it implements `FormatTraits` -/
  traits : Option Traits := none
  /-- `toString()` -/
  text : Res JStr
  id : Identity

namespace Thing

/-- `ObjectTraits` (traits/ObjectTraits.java:14-125), each answer being made from the answer of one method. -/
def methodTraits (base : Base) (text : Res JStr) (ref : RefSlot) : Traits where
  asIntForm := match base with
    | .number l _ _ => do return IntForm.ofLong (← l)
    | .date ms _ => do return IntForm.ofLong (← ms)
    | .calendar ms => do return IntForm.ofLong (← ms)
    | _ => .error (.printf (.wrongType .notANumber))
  asFloatForm := match base with
    | .number _ d _ => do return FloatForm.ofDouble (← d)
    | .date ms _ => do return FloatForm.ofDouble (millisToSeconds (← ms))
    | .calendar ms => do return FloatForm.ofDouble (millisToSeconds (← ms))
    | _ => .error (.printf (.wrongType .notANumber))
  asTemporal := match base with
    | .date _ i => i
    | .calendar ms => do return .stamp (.epochMilli (← ms).toInt)
    | .number l _ _ => do return .stamp (← longToInstant (← l).toInt)
    | _ => .error (.printf (.wrongType .objectToTemporal))
  asSeq := do return Seq.wrap (← text)
  asInt := match base with
    | .number _ _ i => do return (← i).toInt
    | .date ms _ => do return millisToInt (← ms)
    | .calendar ms => do return millisToInt (← ms)
    | _ => .error (.printf (.wrongType .objectToInt))
  asChar := match base with
    | .number _ _ i => do return toChar (← i).toInt
    | .date ms _ => do return toChar (millisToInt (← ms))
    | .calendar ms => do return toChar (millisToInt (← ms))
    | _ => .error (.printf (.wrongType .objectToInt))
  ref := ref

/-- The `CharSequence` that the object is.  The object held by traits/CharSequenceTraits.java:11. -/
def foreign (t : Thing) (m : CharMethods) : ForeignSeq := ⟨m.length, m.charAt, t.text, m.left⟩

/-- `ArgsImpl.putCharSequence` (ArgsImpl.java:154-157). -/
def putCharSequence (jdk : JdkEnv) (t : Thing) (m : CharMethods) : Traits := (t.foreign m).traits jdk t.id

/-- `ArgsImpl.putBigInteger` (ArgsImpl.java:159-162). -/
def putBigInteger (t : Thing) (v : Int) : Traits := bigIntegerTraits v t.id.ref

/-- `ArgsImpl.putBigDecimal` (ArgsImpl.java:164-167). -/
def putBigDecimal (jdk : JdkEnv) (t : Thing) (unscaled scale : Int) : Traits :=
  bigDecimalTraits jdk unscaled scale t.id.ref

/-- `ArgsImpl.putDateTime` (ArgsImpl.java:169-172). -/
def putDateTime (jdk : JdkEnv) (t : Thing) (x : Temporal) : Traits := temporalTraits jdk x t.text t.id.ref

/-- `ArgsImpl.putObject` (ArgsImpl.java:179-184). -/
def putObject (t : Thing) : Traits :=
  match t.traits with
  | some x => x
  | none => methodTraits t.base t.text t.id.ref

/-- `ArgsImpl.put(Object)` (ArgsImpl.java:192-222) of an object that is no box: the tests of lines 211-221 in
their order. -/
def put (jdk : JdkEnv) (t : Thing) : Traits :=
  match t.chars with
  | some m => t.putCharSequence jdk m
  | none =>
    match t.base with
    | .bigInteger v => t.putBigInteger v
    | .bigDecimal u s => t.putBigDecimal jdk u s
    | _ =>
      match t.time with
      | some x => t.putDateTime jdk x
      | none => t.putObject

end Thing
end FastPrintf
