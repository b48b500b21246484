/-
What the exceptions carry besides their message: the cause, and whether they have a stack trace and take suppressed
exceptions.
-/
import Verif.Model.Java

namespace FastPrintf.Causes

/-- The exceptions that the library catches and may pass on as a cause (traits/CharSequenceTraits.java:26, 43, 52,
Compiler.java:185, FastPrintfImpl.java:111). -/
inductive Cause
  | numberFormat
  | badPattern
  | io
  deriving DecidableEq, Repr

/-- What an exception carries: `getCause()`, whether `getStackTrace()` is filled in, and whether `addSuppressed` is
heeded.  The last two are the flags of the constructor of `RuntimeException` (PrintfException.java:8). -/
structure Carried where
  cause : Option Cause
  stackTrace : Bool
  suppressed : Bool
  deriving DecidableEq, Repr

/-- `PrintfException(String, Object...)` (PrintfException.java:7-9): no cause, and the two flags are false. -/
def formatted : Carried := ⟨none, false, false⟩

/-- `PrintfException(String, Throwable)` (PrintfException.java:11-13); also the constructors of the JDK's exceptions,
whose flags are true. -/
def caused (cause : Option Cause) : Carried := ⟨cause, true, true⟩

/-- Which constructor a refusal calls.  `new PrintfException(message, value, e)` in
traits/TemporalAccessorTraits.java:38, 52, 62 has three arguments, so the exception that was caught is one of the values
to be quoted; a lone value, whose static type is `Object`, is one too (traits/ObjectTraits.java:76, 90, 104, 118). -/
def ofRefusal : Refusal → Carried
  | .textToInt => caused (some .numberFormat)      -- traits/CharSequenceTraits.java:27, 44
  | .textToFloat => caused (some .numberFormat)    -- traits/CharSequenceTraits.java:53
  | .nullToInt | .nullToFloat | .nullToTemporal    -- traits/NullTraits.java:27, 32, 37, 47
  | .emptyToChar                                   -- traits/CharSequenceTraits.java:36
  | .noEpochSeconds | .noEpochMillis | .temporalToChar  -- traits/TemporalAccessorTraits.java:38, 52, 62, 83
  | .notANumber | .objectToTemporal | .objectToInt -- traits/ObjectTraits.java:76, 90, 104, 118
  | .charToTemporal                                -- traits/CharacterTraits.java:56
  | .noTemporal                                    -- traits/FormatTraits.java:93
  | .negativeUnsigned                              -- number/BigIntegerWrapper.java:55
  | .bigDecimalHex => formatted                    -- number/BigDecimalWrapper.java:175

/-- Which constructor the other throws of a `PrintfException` call (appender/DefaultAppender.java:93, 116,
FormatContext.java:35, 38-39, appender/SeqFormatter.java:356, 383-384). -/
def ofPrintf : PrintfWhy → Carried
  | .wrongType why => ofRefusal why
  | .missingArgument _ | .negativeValue _ _ | .exceedsMaximum _ _ | .primitivePointer | .noDefaultFormatter => formatted

/-- The `PrintfSyntaxException`s (PrintfSyntaxException.java:18-37): the constructor without a cause is called in
Compiler.java:73, 83, 108, 140, 172, 178, 196, the one with a cause in Compiler.java:186.  Those of lines 108 and 140
stand in a `catch` of a `NumberFormatException`. -/
def ofSyntax : SyntaxWhy → Carried
  | .invalidDatePattern _ => caused (some .badPattern)
  | .duplicateFlag _ | .unexpectedEnd _ | .invalidWidth _ | .invalidPrecision _ | .unclosedDatePattern
  | .emptyDatePattern | .unknownSpecifier _ => caused none

/-- What an exception of the library carries; `none` for exceptions of the JDK and of the user's code.  An
`UncheckedIOException` is thrown in FastPrintfImpl.java:112, the others by the constructors above
(PrintfException.java:7-13, PrintfSyntaxException.java:18-37). -/
def carried : Err → Option Carried
  | .printf why => some (ofPrintf why)
  | .syntaxErr why _ => some (ofSyntax why)
  | .uncheckedIO => some (caused (some .io))
  | _ => none

end FastPrintf.Causes
