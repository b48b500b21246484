/-
Model of contexts made by hand and of the texts that describe contexts and argument lists:
`FormatContext.create(String, int, int)`, `FormatContext.toString` and `ArgsImpl.toString`.
-/
import Verif.Model.Args
import Verif.Model.Format

namespace FastPrintf
namespace FormatContext

/-- The loop of `create(String, int, int)` (FormatContext.java:67-69).  `EnumSet.add(null)` throws a
`NullPointerException`. -/
def addFlags (flagSet : Flags) : JStr → Res Flags
  | [] => .ok flagSet
  | c :: rest =>
    match Flag.valueOf c with
    | some f => addFlags (flagSet.add f) rest
    | none => .error .nullPointer

/-- `create(String, int, int)` (FormatContext.java:64-72); `none` is a null reference. -/
def createFrom (flags : Option JStr) (w p : Int) : Res FormatContext := do
  let flagSet ← match flags with
    | none => pure {}
    | some s => if s.isEmpty then pure {} else addFlags {} s
  create flagSet w p none

/-- `create(String)` (FormatContext.java:59-61). -/
def createFlags (flags : Option JStr) : Res FormatContext := createFrom flags UNSET UNSET

/-- `Enum.name()` of a flag (Flag.java:7-28). -/
def flagName : Flag → JStr
  | .leftJustify => js! "LEFT_JUSTIFY"
  | .alternate => js! "ALTERNATE"
  | .plus => js! "PLUS"
  | .leadingSpace => js! "LEADING_SPACE"
  | .zeroPad => js! "ZERO_PAD"

/-- The loop of `AbstractCollection.toString` of the JDK, after the first element.  Called in
FormatContext.java:135, where the flags are an `EnumSet`. -/
def collectionLoop (sb : JStr) : List JStr → JStr
  | [] => sb ++ js! "]"
  | a :: rest => collectionLoop (sb ++ js! ", " ++ a) rest

/-- `AbstractCollection.toString` of the JDK.  Called in FormatContext.java:135, where the flags are an
`EnumSet`. -/
def collection : List JStr → JStr
  | [] => js! "[]"
  | a :: rest => collectionLoop (js! "[" ++ a) rest

/-- `FormatContext.toString` (FormatContext.java:133-136). -/
def toStr (c : FormatContext) : JStr :=
  js! "{" ++ js! "flags=" ++ collection (c.flags.toList.map flagName) ++ js! ", width=" ++
    intToString c.width ++ js! ", precision=" ++ intToString c.precision ++ js! "}"

end FormatContext

/-- `FormatTraits.asString` of a primitive (traits/BooleanTraits.java:37-39, traits/CharacterTraits.java:35-37,
traits/ByteTraits.java:31-33, traits/ShortTraits.java:31-33, traits/IntTraits.java:49-51,
traits/LongTraits.java:35-37, traits/FloatTraits.java:31-33, traits/DoubleTraits.java:31-33). -/
def Prim.asString (jdk : JdkEnv) : Prim → JStr
  | bool b => if b then js! "true" else js! "false"
  | char c => [c]
  | byte v => intToString v.toInt
  | short v => intToString v.toInt
  | int v => intToString v.toInt
  | long v => intToString v.toInt
  | float v => jdk.floatToString v
  | double v => jdk.doubleToString v

/-- `FormatTraits.asString` of an entry (traits/NullTraits.java:41-43, traits/CharSequenceTraits.java:18-20,
traits/BigIntegerTraits.java:29-31, traits/BigDecimalTraits.java:26-28,
traits/TemporalAccessorTraits.java:43-45, traits/ObjectTraits.java:56-63); `custom` answers for
implementations by the caller. -/
def Entry.asString (jdk : JdkEnv) (custom : Traits → Res JStr) : Entry → Res JStr
  | .prim p => .ok (p.asString jdk)
  | .ref .null => .ok (js! "null")
  | .ref (.boxed p _) => .ok (p.asString jdk)
  | .ref (.string s _) => .ok s
  | .ref (.seq q _) => q.toStr
  | .ref (.charSeq s _) => .ok s
  | .ref (.bigInteger v _) => .ok (intToString v)
  | .ref (.bigDecimal u s _) => .ok (jdk.bigDecimalToString u s)
  | .ref (.temporal _ text _) => text
  | .ref (.traits t) => custom t
  | .ref (.object _ text _) => text

/-- `Collectors.joining(", ", "[", "]")` of the JDK, i.e. `StringJoiner`: `value` is what has been joined so
far, `none` if nothing has.  Called in ArgsImpl.java:188. -/
def joining (jdk : JdkEnv) (custom : Traits → Res JStr) (value : Option JStr) : List Entry → Res JStr
  | [] => .ok (js! "[" ++ value.getD [] ++ js! "]")
  | e :: rest => do
    let s ← e.asString jdk custom
    joining jdk custom (some (match value with | some v => v ++ js! ", " ++ s | none => s)) rest

/-- `ArgsImpl.toString` (ArgsImpl.java:186-189). -/
def argsToString (jdk : JdkEnv) (custom : Traits → Res JStr) (args : List Entry) : Res JStr :=
  joining jdk custom none args

end FastPrintf
