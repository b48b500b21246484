/-
Java primitives used by the model.

A Java `char` is a UTF-16 code unit.  The model represents it by a natural number; only values
below 65536 arise from Java, and no theorem needs that bound unless it states it.  A Java `String`
(and a `char[]`, which the modelled code never mutates after publication) is a list of code units,
so unpaired surrogates and the code unit 0 are ordinary values.
-/
import Lean.Elab.Macro

namespace FastPrintf

/-- `JChar`: a Java `char` (UTF-16 code unit).  A macro, so that arithmetic tactics see `Nat`. -/
macro "JChar" : term => `(Nat)
/-- `JStr`: a Java `String` / `char[]`. -/
macro "JStr" : term => `(List Nat)

open Lean in
/-- `js! "abc"` is the list of UTF-16 code units of a literal (BMP literals only). -/
macro "js!" s:str : term => do
  let cs : Array (TSyntax `term) :=
    (s.getString.toList.map fun c => (Syntax.mkNumLit (toString c.toNat) : TSyntax `term)).toArray
  `(([$cs,*] : JStr))

open Lean in
/-- `ch! 'a'` is the code unit of a literal character. -/
macro "ch!" c:char : term => do
  `(($(Syntax.mkNumLit (toString c.getChar.toNat)) : JChar))

/-- Narrowing of an arbitrary integer to a Java `int` (two's complement wrap-around).  The language does
this; used for traits/LongTraits.java:41, traits/TemporalAccessorTraits.java:68 and `int` arithmetic. -/
def wrap32 (x : Int) : Int := x.bmod (2 ^ 32)

/-- Narrowing of an arbitrary integer to a Java `long`.  The language does this; used for `long` arithmetic
and traits/BigIntegerTraits.java:40. -/
def wrap64 (x : Int) : Int := x.bmod (2 ^ 64)

/-- `Integer.MIN_VALUE` (FormatContext.java:10, number/IntWrapper.java:21). -/
def intMin : Int := -2147483648
/-- `Integer.MAX_VALUE`.  The bound of `Integer.parseInt` (Compiler.java:106, 138) and of the cast in
traits/FloatTraits.java:22. -/
def intMax : Int := 2147483647

/-- What `Compiler` was reading when the format string ended (Compiler.java:43, 88, 117, 192). -/
inductive EndPlace
  | afterPercent | atWidth | afterDot | atSpecifier
  deriving DecidableEq, Repr

/-- Why `Compiler` raised a `PrintfSyntaxException`: the `description` argument, with the values it quotes.  A
flag is given by its character (Compiler.java:43, 73, 88, 108, 117, 140, 172-196; the argument is
PrintfSyntaxException.java:17). -/
inductive SyntaxWhy
  | duplicateFlag (c : JChar) | unexpectedEnd (place : EndPlace) | invalidWidth (w : JStr)
  | invalidPrecision (p : JStr) | emptyDatePattern | unclosedDatePattern | invalidDatePattern (pattern : JStr)
  | unknownSpecifier (c : JChar)
  deriving DecidableEq, Repr

/-- Which of its two numbers a `FormatContext` checks (FormatContext.java:43-49). -/
inductive NumName
  | width | precision
  deriving DecidableEq, Repr

/-- The places where an argument is refused with a `PrintfException`; each has its own message
(Model/Descriptions.lean).  They are in traits/*.java, number/BigIntegerWrapper.java:55,
number/BigDecimalWrapper.java:175. -/
inductive Refusal
  | nullToInt          -- traits/NullTraits.java:27, 47
  | nullToFloat        -- traits/NullTraits.java:32
  | nullToTemporal     -- traits/NullTraits.java:37
  | textToInt          -- traits/CharSequenceTraits.java:27, 44
  | textToFloat        -- traits/CharSequenceTraits.java:53
  | emptyToChar        -- traits/CharSequenceTraits.java:36
  | noEpochSeconds     -- traits/TemporalAccessorTraits.java:38, 62
  | noEpochMillis      -- traits/TemporalAccessorTraits.java:52
  | temporalToChar     -- traits/TemporalAccessorTraits.java:83
  | notANumber         -- traits/ObjectTraits.java:76, 90
  | objectToTemporal   -- traits/ObjectTraits.java:104
  | objectToInt        -- traits/ObjectTraits.java:118
  | charToTemporal     -- traits/CharacterTraits.java:56
  | noTemporal         -- traits/FormatTraits.java:93
  | negativeUnsigned   -- number/BigIntegerWrapper.java:55
  | bigDecimalHex      -- number/BigDecimalWrapper.java:175
  deriving DecidableEq, Repr

/-- Why a `PrintfException` (not a syntax exception) was raised, with the values that the message quotes except the
argument itself.  FormatContext.java:35-39, appender/DefaultAppender.java:93, 116,
appender/SeqFormatter.java:383-384 and those of `Refusal` in traits/*.java. -/
inductive PrintfWhy
  | missingArgument (conv : JChar)                -- DefaultAppender: iterator exhausted; the specifier's character
  | negativeValue (name : NumName) (v : Int)      -- FormatContext.checkValue, negative
  | exceedsMaximum (name : NumName) (v : Int)     -- FormatContext.checkValue, above 65536
  | wrongType (why : Refusal)                     -- an argument that cannot be read as the requested type
  | primitivePointer       -- %p on a primitive
  | noDefaultFormatter     -- %t without a default formatter for the type
  deriving DecidableEq, Repr

/-- The exceptions that the modelled code can raise.  Thrown by util/Preconditions.java, Compiler.java,
appender/*.java, traits/*.java, number/*.java, seq/*.java, and by the JDK methods called there. -/
inductive Err
  | syntaxErr (why : SyntaxWhy) (index : Nat)   -- io.fastprintf.PrintfSyntaxException
  | printf (why : PrintfWhy)                    -- io.fastprintf.PrintfException
  | illegalArgument                             -- java.lang.IllegalArgumentException
  | illegalState                                -- java.lang.IllegalStateException
  | indexOutOfBounds                            -- java.lang.IndexOutOfBoundsException
  | nullPointer                                 -- java.lang.NullPointerException
  | assertion                                   -- java.lang.AssertionError
  | arithmetic                                  -- java.lang.ArithmeticException
  | uncheckedIO                                 -- java.io.UncheckedIOException
  | numberFormat                                -- java.lang.NumberFormatException
  | dateTime                                    -- java.time.DateTimeException (from the JDK)
  | classCast                                   -- java.lang.ClassCastException
  | external                                    -- an exception thrown by user or JDK code
  deriving DecidableEq, Repr

/-- The result of a Java computation that may throw.  For all methods modelled, which are those of
Compiler.java, appender/*.java, seq/*.java and so on. -/
abbrev Res (α : Type) := Except Err α

@[simp] theorem bind_ok {α β : Type} (a : α) (f : α → Res β) :
    ((Except.ok a : Res α) >>= f) = f a := rfl
@[simp] theorem bind_error {α β : Type} (e : Err) (f : α → Res β) :
    ((Except.error e : Res α) >>= f) = Except.error e := rfl
@[simp] theorem pure_eq_ok {α : Type} (a : α) : (pure a : Res α) = Except.ok a := rfl
@[simp] theorem throw_eq_error {α : Type} (e : Err) : (throw e : Res α) = Except.error e := rfl

/-- `String.charAt` / array access: a bounds-checked read.  Called in seq/StrView.java:32, 46,
seq/CharArray.java:85, 96, Compiler.java:33 and elsewhere. -/
def charAtRaw (s : JStr) (i : Nat) : Res JChar :=
  match s[i]? with
  | some c => .ok c
  | none => .error .indexOutOfBounds

/-- `s.substring(start, start + length)`; callers guarantee the range.  Called in seq/StrView.java:57, 96,
127 and Compiler.java:101, 132, 176, 207, 211. -/
def slice (s : JStr) (start length : Nat) : JStr := (s.drop start).take length

/-- `String.indexOf(c, from)`: the first index `≥ from` holding `c`, as a Java result (`-1`: none).  Called
in seq/StrView.java:61 and Compiler.java:205. -/
def indexOfFrom (s : JStr) (c : JChar) (start : Nat) : Int :=
  match (s.drop start).findIdx? (· == c) with
  | some i => (start : Int) + i
  | none => -1

end FastPrintf
