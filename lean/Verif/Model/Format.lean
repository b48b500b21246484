/-
Flags, specifiers and format contexts: Flag.java, Specifier.java, FormatContext.java.
-/
import Verif.Model.Utils
import Verif.Model.Digits

namespace FastPrintf

/-- `enum Flag` (Flag.java:4-28), in declaration order. -/
inductive Flag
  | leftJustify | alternate | plus | leadingSpace | zeroPad
  deriving DecidableEq, Repr

/-- `Flag.valueOf(char)` (Flag.java:30-45); `null` is `none`. -/
def Flag.valueOf (c : JChar) : Option Flag :=
  if c = ch! '-' then some .leftJustify
  else if c = ch! '#' then some .alternate
  else if c = ch! '+' then some .plus
  else if c = ch! ' ' then some .leadingSpace
  else if c = ch! '0' then some .zeroPad
  else none

/-- `EnumSet<Flag>`: a set of the five flags, kept as five booleans.  Iteration is in declaration
order, which is the field order (Flag.java:4-28; the field is FormatContext.java:17). -/
structure Flags where
  leftJustify : Bool := false
  alternate : Bool := false
  plus : Bool := false
  leadingSpace : Bool := false
  zeroPad : Bool := false
  deriving DecidableEq, Repr

/-- `EnumSet.contains`.  Called in FormatContext.java:116, 126 and Compiler.java:65-79. -/
def Flags.contains (s : Flags) : Flag → Bool
  | .leftJustify => s.leftJustify
  | .alternate => s.alternate
  | .plus => s.plus
  | .leadingSpace => s.leadingSpace
  | .zeroPad => s.zeroPad

/-- `EnumSet.add`.  Called in FormatContext.java:69, 121 and Compiler.java:65-79. -/
def Flags.add (s : Flags) : Flag → Flags
  | .leftJustify => { s with leftJustify := true }
  | .alternate => { s with alternate := true }
  | .plus => { s with plus := true }
  | .leadingSpace => { s with leadingSpace := true }
  | .zeroPad => { s with zeroPad := true }

/-- Iteration over an `EnumSet`, in declaration order (FormatContext.java:135, 142). -/
def Flags.toList (s : Flags) : List Flag :=
  [Flag.leftJustify, .alternate, .plus, .leadingSpace, .zeroPad].filter s.contains

/-- `enum Specifier` (Specifier.java:5-25), in declaration order. -/
inductive Specifier
  | d | u | o | x | upperX | f | upperF | e | upperE | g | upperG | a | upperA
  | c | s | upperS | t | upperT | n | p | percent
  deriving DecidableEq, Repr

/-- The character of a specifier (Specifier.java:5-25, field `c`). -/
def Specifier.char : Specifier → JChar
  | d => ch! 'd' | u => ch! 'u' | o => ch! 'o' | x => ch! 'x' | upperX => ch! 'X'
  | f => ch! 'f' | upperF => ch! 'F' | e => ch! 'e' | upperE => ch! 'E'
  | g => ch! 'g' | upperG => ch! 'G' | a => ch! 'a' | upperA => ch! 'A'
  | c => ch! 'c' | s => ch! 's' | upperS => ch! 'S' | t => ch! 't' | upperT => ch! 'T'
  | n => ch! 'n' | p => ch! 'p' | percent => ch! '%'

/-- `Specifier.values()` (Specifier.java:27). -/
def Specifier.values : List Specifier :=
  [d, u, o, x, upperX, f, upperF, e, upperE, g, upperG, a, upperA, c, s, upperS, t, upperT, n, p,
    percent]

/-- `Specifier.valueOf(char)` (Specifier.java:34-44). -/
def Specifier.valueOf (c : JChar) : Option Specifier :=
  if c = ch! 'i' then some .d else Specifier.values.find? (fun sp => sp.char == c)

/-- `Specifier.isDateTimeSpecifier` (Specifier.java:51-53). -/
def Specifier.isDateTime (sp : Specifier) : Bool := sp == .t || sp == .upperT

/-- `FormatContext.PRECEDING` (FormatContext.java:10). -/
def PRECEDING : Int := intMin
/-- `FormatContext.UNSET` (FormatContext.java:11). -/
def UNSET : Int := -1
/-- `FormatContext.MAX_WIDTH_OR_PRECISION` (FormatContext.java:14). -/
def MAX_WIDTH_OR_PRECISION : Int := 65536

/-- `class FormatContext` (FormatContext.java:17-28).  A `DateTimeFormatter` is represented by the
pattern it was made from (it is immutable and has no other input here). -/
structure FormatContext where
  flags : Flags
  width : Int
  precision : Int
  dateTimeFormatter : Option JStr
  deriving DecidableEq, Repr

namespace FormatContext

/-- `checkValue` (FormatContext.java:31-41), used by `checkWidth`/`checkPrecision` (43-49). -/
def checkValue (name : NumName) (value : Int) : Res Unit :=
  if value < 0 ∧ value ≠ UNSET ∧ value ≠ PRECEDING then .error (.printf (.negativeValue name value))
  else if value > MAX_WIDTH_OR_PRECISION then .error (.printf (.exceedsMaximum name value))
  else .ok ()

/-- `create(EnumSet, int, int, DateTimeFormatter)` (FormatContext.java:51-57). -/
def create (flags : Flags) (width precision : Int) (dtf : Option JStr) : Res FormatContext := do
  checkValue .width width
  checkValue .precision precision
  return { flags, width, precision, dateTimeFormatter := dtf }

/-- `setWidth` (FormatContext.java:79-83). -/
def setWidth (c : FormatContext) (w : Int) : Res FormatContext := do
  checkValue .width w
  return { c with width := w }

/-- `isWidthSet` (FormatContext.java:85-87). -/
def isWidthSet (c : FormatContext) : Bool := c.width != UNSET

/-- `setPrecision` (FormatContext.java:93-97). -/
def setPrecision (c : FormatContext) (p : Int) : Res FormatContext := do
  checkValue .precision p
  return { c with precision := p }

/-- `isPrecisionSet` (FormatContext.java:99-101). -/
def isPrecisionSet (c : FormatContext) : Bool := c.precision != UNSET

/-- `isPrecedingWidth` (FormatContext.java:103-105). -/
def isPrecedingWidth (c : FormatContext) : Bool := c.width == PRECEDING

/-- `isPrecedingPrecision` (FormatContext.java:107-109). -/
def isPrecedingPrecision (c : FormatContext) : Bool := c.precision == PRECEDING

/-- `hasFlag` (FormatContext.java:125-127), for a non-null flag. -/
def hasFlag (c : FormatContext) (f : Flag) : Bool := c.flags.contains f

/-- `addFlag` (FormatContext.java:115-123), for a non-null flag. -/
def addFlag (c : FormatContext) (f : Flag) : FormatContext :=
  if c.flags.contains f then c else { c with flags := c.flags.add f }

/-- The flag characters of `toPatternString` (FormatContext.java:143-159). -/
def flagChar : Flag → JChar
  | .alternate => ch! '#'
  | .plus => ch! '+'
  | .leftJustify => ch! '-'
  | .zeroPad => ch! '0'
  | .leadingSpace => ch! ' '

/-- `toPatternString` (FormatContext.java:138-173). -/
def toPatternString (c : FormatContext) (sp : Specifier) : JStr :=
  [ch! '%'] ++ c.flags.toList.map flagChar ++
  (if c.width = PRECEDING then [ch! '*'] else if c.width ≠ UNSET then intToString c.width else []) ++
  (if c.precision = PRECEDING then [ch! '.', ch! '*']
   else if c.precision ≠ UNSET then ch! '.' :: intToString c.precision else []) ++
  [sp.char]

end FormatContext
end FastPrintf
