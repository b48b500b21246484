/-
Model of the texts of the exceptions that the library throws: the descriptions given by `Compiler` and the messages
of the `PrintfException`s.
-/
import Verif.Model.Args
import Verif.Model.Describe
import Verif.Model.Messages

namespace FastPrintf.Messages

/-- The message given to `checkSource` (Compiler.java:43, 88, 117, 192). -/
def endText : EndPlace → JStr
  | .afterPercent => js! "Format string terminates in the middle of a format specifier"
  | .atWidth => js! "Format string lacks width or specifier"
  | .afterDot => js! "Format string terminates after '.'"
  | .atSpecifier => js! "Format string lacks specifier"

/-- The `desc` of the `PrintfSyntaxException` (Compiler.java:73, 83, 108, 140, 173, 178, 187, 197).  A flag in a
string concatenation is `Enum.toString()`, its name; `null`, which line 69 excludes, would be `null`. -/
def description (why : SyntaxWhy) (index : Nat) : JStr :=
  match why with
  | .duplicateFlag c =>
    js! "Duplicate flag '" ++ (match Flag.valueOf c with
      | some f => FormatContext.flagName f
      | none => js! "null") ++ js! "'"
  | .unexpectedEnd place => endText place
  | .invalidWidth w => js! "Invalid width: '" ++ w ++ js! "'"
  | .invalidPrecision p => js! "Invalid precision: '" ++ p ++ js! "'"
  | .unclosedDatePattern => js! "Unclosed date/time pattern starting at index " ++ intToString index
  | .emptyDatePattern => js! "Empty date/time pattern"
  | .invalidDatePattern pattern => js! "Invalid date/time pattern: '" ++ pattern ++ js! "'"
  | .unknownSpecifier c => js! "Unknown format conversion specifier '" ++ [c] ++ js! "'"

/-- `getMessage()` of the exception with which `FastPrintf.compile(format)` ends (PrintfSyntaxException.java:71-86). -/
def rejection (nl format : JStr) : Err → Option JStr
  | .syntaxErr why index => some (syntaxMessage nl (description why index) (some format) index)
  | _ => none

/-- The values that a `PrintfException` may quote.  The second parameter of PrintfException.java:7 and the
texts built in traits/CharSequenceTraits.java:27, 44, 53. -/
structure Quoted where
  /-- the field `value` of the traits or of the number -/
  value : Shown
  /-- the `DateTimeException` that was caught -/
  cause : Shown
  /-- the `RefSlot`, which does not override `toString` -/
  slot : Shown
  /-- the class of the temporal object -/
  className : JStr

/-- The name given to `checkValue` (FormatContext.java:44, 48). -/
def numName : NumName → JStr
  | .width => js! "Width"
  | .precision => js! "Precision"

/-- The message of a refusal, at the places named in `Refusal`.  A message in a constructor call with a cause is a
concatenation and is used as it is (PrintfException.java:11-13); there `toString()` of the argument has just been
called, so it is not modelled again that it may throw.  In the calls with the argument and the `DateTimeException`
(traits/TemporalAccessorTraits.java:38, 52, 62) the other constructor applies (PrintfException.java:7-9). -/
def refusalText (q : Quoted) : Refusal → JStr
  | .nullToInt => lenientFormat (some (js! "null cannot be converted to int")) (some [])
  | .nullToFloat => lenientFormat (some (js! "null cannot be converted to float")) (some [])
  | .nullToTemporal => lenientFormat (some (js! "null cannot be converted to TemporalAccessor")) (some [])
  | .textToInt => js! "Cannot convert \"" ++ appended (lenientToString q.value) ++ js! "\" to int"
  | .textToFloat => js! "Cannot convert \"" ++ appended (lenientToString q.value) ++ js! "\" to float"
  | .emptyToChar => lenientFormat (some (js! "Empty string cannot be converted to char")) (some [])
  | .noEpochSeconds => lenientFormat (some (js! "Can't get epoch seconds from: %s")) (some [q.value, q.cause])
  | .noEpochMillis => lenientFormat (some (js! "Can't get epoch milliseconds from: %s")) (some [q.value, q.cause])
  | .temporalToChar => lenientFormat (some (js! "Can't convert TemporalAccessor to char")) (some [])
  | .notANumber => lenientFormat (some (js! "%s is not a number")) (some [q.value])
  | .objectToTemporal => lenientFormat (some (js! "%s cannot be converted to TemporalAccessor")) (some [q.value])
  | .objectToInt => lenientFormat (some (js! "%s cannot be converted to int")) (some [q.value])
  | .charToTemporal => lenientFormat (some (js! "Cannot convert Character to TemporalAccessor")) (some [])
  | .noTemporal => lenientFormat (some (js! "Cannot convert [%s] to TemporalAccessor")) (some [q.slot])
  | .negativeUnsigned =>
    lenientFormat (some (js! "Negative BigInteger(-%s) cannot be converted to unsigned")) (some [q.value])
  | .bigDecimalHex => lenientFormat (some (js! "hexLayout not supported for BigDecimal: %s")) (some [q.value])

/-- The message when a `*` finds no argument (appender/DefaultAppender.java:93; Specifier.java:47-49). -/
def missingStarText (conv : JChar) : JStr :=
  lenientFormat (some (js! "Missing argument for specifier: %s")) (some [.text [conv]])

/-- The message of a `PrintfException` (appender/DefaultAppender.java:116, FormatContext.java:35, 38-39,
appender/SeqFormatter.java:356, 383-384). -/
def printfText (q : Quoted) : PrintfWhy → JStr
  | .missingArgument conv => lenientFormat (some (js! "Missing argument for specifier: " ++ [conv])) (some [])
  | .negativeValue name v => lenientFormat (some (js! "%s cannot be negative, but was: %s"))
      (some [.text (numName name), .text (intToString v)])
  | .exceedsMaximum name v => lenientFormat (some (js! "%s %s exceeds the maximum allowed value of %s"))
      (some [.text (numName name), .text (intToString v), .text (intToString MAX_WIDTH_OR_PRECISION)])
  | .wrongType why => refusalText q why
  | .primitivePointer =>
    lenientFormat (some (js! "The '%p' specifier cannot be used with primitive types.")) (some [])
  | .noDefaultFormatter =>
    lenientFormat (some (js! "No default DateTimeFormatter for type: %s")) (some [.text q.className])

/-- `toString()` of an object: an array has that of `Object`, also if `text`, which is what `ObjectTraits.asString`
answers, lists its elements.  The names of the array classes and of no other begin with `[`; the hash code of an
array is its identity hash code.  `exc` is the class of the exception, if one is thrown.  Called in
util/Utils.java:138, and by string concatenation in traits/CharSequenceTraits.java:27, 44, 53. -/
def ownText (exc : JStr) (text : Res JStr) (id : Identity) : Shown :=
  if id.className.head? = some (ch! '[') then .text (id.className ++ js! "@" ++ toRadix 16 id.hash.toNat)
  else match text with
    | .ok s => .text s
    | .error _ => .throws id.className id.hash exc

/-- The value that a refusal of an argument quotes: the object itself; but `BigIntegerWrapper` and
`BigDecimalWrapper` hold absolute values (number/BigIntegerWrapper.java:12, number/BigDecimalWrapper.java:15, 20). -/
def refusedValue (env : JdkEnv) (exc : JStr) (e : Entry) (why : Refusal) : Shown :=
  match e with
  | .ref (.string s _) => .text s
  | .ref (.charSeq s _) => .text s
  | .ref (.seq q id) =>
    match q.toStr with
    | .ok s => .text s
    | .error _ => .throws id.className id.hash exc
  | .ref (.temporal _ text id) => ownText exc text id
  | .ref (.object _ text id) => ownText exc text id
  | .ref (.bigInteger v _) =>
    .text (if why = .negativeUnsigned then intToString v.natAbs else env.bigDecimalToString v.natAbs 0)
  | .ref (.bigDecimal u s _) =>
    .text (if why = .negativeUnsigned then intToString (bigDecimalTruncate u s).natAbs
      else env.bigDecimalToString u.natAbs s)
  | _ => .null

/-- The message when an argument is refused.  `exc` is the class of an exception that `toString()` throws, `cause` the
text of the `DateTimeException`, `slot` that of the `RefSlot`.  The messages are built in traits/*.java and
number/*.java, see `Refusal`. -/
def complaint (env : JdkEnv) (exc cause slot : JStr) (e : Entry) (why : Refusal) : JStr :=
  refusalText { value := refusedValue env exc e why, cause := .text cause, slot := .text slot, className := [] } why

end FastPrintf.Messages
