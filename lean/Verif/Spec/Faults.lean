/-
What can be wrong with a directive, as a declarative specification: the faults of a format string that the
grammar (Spec/Grammar.lean) does not cover.
-/
import Verif.Spec.Grammar
import Verif.Spec.CPrintf

namespace FastPrintf.Spec

/-- The flags `fl` are read in full before `after`, and none is repeated. -/
structure FlagsRead (fl after : JStr) : Prop where
  flags : ∀ c ∈ fl, c ∈ flagChars
  noRepeat : fl.Nodup
  all : ∀ c, after.head? = some c → c ∉ flagChars

/-- A run of digits that ends where `after` begins. -/
structure DigitsRead (ds after : JStr) : Prop where
  digits : ∀ c ∈ ds, IsDigit c
  all : ∀ c, after.head? = some c → ¬ IsDigit c

/-- The largest number that Java's `int` holds. -/
def javaIntMax : Nat := 2147483647

/-- The width `w` is read in full before `after`. -/
def WidthRead (w : Num) (after : JStr) : Prop :=
  match w with
  | .absent => after ≠ [] ∧ after.head? ≠ some (ch! '*') ∧ ∀ c, after.head? = some c → ¬ IsDigit c
  | .star => True
  | .digits ds => ds ≠ [] ∧ DigitsRead ds after ∧ decimalValue ds ≤ javaIntMax

/-- The precision `p` is read in full before `after`.  A point alone is a precision if something follows. -/
def PrecRead (p : Num) (after : JStr) : Prop :=
  match p with
  | .absent => after.head? ≠ some (ch! '.')
  | .star => True
  | .digits ds => DigitsRead ds after ∧ decimalValue ds ≤ javaIntMax ∧
      (ds = [] → after ≠ [] ∧ after.head? ≠ some (ch! '*'))

/-- The parts `fl`, `w` and `p` of a directive are read one after the other before `after`. -/
structure PartsRead (fl : JStr) (w p : Num) (after : JStr) : Prop where
  flags : FlagsRead fl (w.text ++ precText p ++ after)
  width : WidthRead w (precText p ++ after)
  prec : PrecRead p after
  /-- it is not `%%` -/
  notPercent : (fl ++ w.text ++ precText p ++ after).head? ≠ some (ch! '%')

/-- Is the `}` after `p` the first one outside quotes? -/
def ClosedBy (p : JStr) : Prop :=
  p.count 39 % 2 = 0 ∧ ∀ a b, p = a ++ 125 :: b → a.count 39 % 2 = 1

/-- `Fault dates part after why`: after a `%`, the text `part` is the beginning of a directive, but it cannot go on
with `after`, for the reason `why`. -/
inductive Fault (dates : DateSyntax) : (part after : JStr) → SyntaxWhy → Prop
  /-- the format ends after `%` -/
  | afterPercent : Fault dates [] [] (.unexpectedEnd .afterPercent)
  /-- a flag is repeated -/
  | duplicateFlag {fl : JStr} {c : JChar} {rest : JStr} : (∀ x ∈ fl, x ∈ flagChars) → fl.Nodup → c ∈ fl →
      Fault dates fl (c :: rest) (.duplicateFlag c)
  /-- the format ends after the flags -/
  | atWidth {fl : JStr} : FlagsRead fl [] → fl ≠ [] → Fault dates fl [] (.unexpectedEnd .atWidth)
  /-- the width is no `int` -/
  | width {fl ds rest : JStr} : FlagsRead fl (ds ++ rest) → ds ≠ [] → DigitsRead ds rest →
      javaIntMax < decimalValue ds → Fault dates fl (ds ++ rest) (.invalidWidth ds)
  /-- the format ends after the point -/
  | afterDot {fl : JStr} {w : Num} : FlagsRead fl (w.text ++ js! ".") → WidthRead w (js! ".") →
      Fault dates (fl ++ w.text ++ js! ".") [] (.unexpectedEnd .afterDot)
  /-- the precision is no `int` -/
  | precision {fl ds rest : JStr} {w : Num} : FlagsRead fl (w.text ++ js! "." ++ (ds ++ rest)) →
      WidthRead w (js! "." ++ (ds ++ rest)) → ds ≠ [] → DigitsRead ds rest → javaIntMax < decimalValue ds →
      Fault dates (fl ++ w.text ++ js! ".") (ds ++ rest) (.invalidPrecision ds)
  /-- the format ends before the conversion -/
  | atSpecifier {fl : JStr} {w p : Num} : PartsRead fl w p [] →
      Fault dates (fl ++ w.text ++ precText p) [] (.unexpectedEnd .atSpecifier)
  /-- there is no such conversion -/
  | specifier {fl : JStr} {w p : Num} {c : JChar} {rest : JStr} : PartsRead fl w p (c :: rest) → c ∉ convChars →
      Fault dates (fl ++ w.text ++ precText p) (c :: rest) (.unknownSpecifier c)
  /-- no brace closes the date pattern -/
  | unclosedDate {fl : JStr} {w p : Num} {c : JChar} {rest : JStr} :
      PartsRead fl w p (c :: ch! '{' :: rest) → IsDateConv c → (∀ a b, rest = a ++ 125 :: b → ¬ ClosedBy a) →
      Fault dates (fl ++ w.text ++ precText p ++ [c]) (ch! '{' :: rest) .unclosedDatePattern
  /-- the date pattern is empty -/
  | emptyDate {fl : JStr} {w p : Num} {c : JChar} {rest : JStr} :
      PartsRead fl w p (c :: ch! '{' :: ch! '}' :: rest) → IsDateConv c →
      Fault dates (fl ++ w.text ++ precText p ++ [c] ++ js! "{") (ch! '}' :: rest) .emptyDatePattern
  /-- `DateTimeFormatter` rejects the date pattern -/
  | invalidDate {fl : JStr} {w p : Num} {c : JChar} {pattern rest : JStr} :
      PartsRead fl w p (c :: ch! '{' :: (pattern ++ ch! '}' :: rest)) → IsDateConv c → pattern ≠ [] →
      ClosedBy pattern → dates.valid pattern = false →
      Fault dates (fl ++ w.text ++ precText p ++ [c] ++ js! "{") (pattern ++ ch! '}' :: rest)
        (.invalidDatePattern pattern)

/-- The width is above the cap, or else the precision is: which one and its value. -/
inductive OverCap (w p : Num) : NumName → Int → Prop
  | width {ds : JStr} (h : w = .digits ds) (hl : numberCap < decimalValue ds) : OverCap w p .width (decimalValue ds)
  | precision {ds : JStr} (hw : ∀ ds', w = .digits ds' → decimalValue ds' ≤ numberCap) (h : p = .digits ds)
      (hl : numberCap < decimalValue ds) : OverCap w p .precision (decimalValue ds)

/-- A directive that is well formed except that a number is above the cap. -/
structure TooLarge (dates : DateSyntax) (d : Directive) (after : JStr) (name : NumName) (v : Int) : Prop where
  parts : PartsRead d.flags d.width d.prec (d.conv :: (dateText d.date ++ after))
  conv : d.conv ∈ convChars
  date : ∀ p, d.date = some p → IsDateConv d.conv ∧ DateOk dates p
  /-- a `{` after `t` or `T` begins a date pattern -/
  all : IsDateConv d.conv → d.date = none → after.head? ≠ some (ch! '{')
  over : OverCap d.width d.prec name v

/-- `Describes why i t`: the description `t` of a fault at index `i`. -/
inductive Describes : SyntaxWhy → Nat → JStr → Prop
  | afterPercent (i : Nat) : Describes (.unexpectedEnd .afterPercent) i
      (js! "Format string terminates in the middle of a format specifier")
  | atWidth (i : Nat) : Describes (.unexpectedEnd .atWidth) i (js! "Format string lacks width or specifier")
  | afterDot (i : Nat) : Describes (.unexpectedEnd .afterDot) i (js! "Format string terminates after '.'")
  | atSpecifier (i : Nat) : Describes (.unexpectedEnd .atSpecifier) i (js! "Format string lacks specifier")
  | leftJustify (i : Nat) : Describes (.duplicateFlag (ch! '-')) i (js! "Duplicate flag 'LEFT_JUSTIFY'")
  | alternate (i : Nat) : Describes (.duplicateFlag (ch! '#')) i (js! "Duplicate flag 'ALTERNATE'")
  | plus (i : Nat) : Describes (.duplicateFlag (ch! '+')) i (js! "Duplicate flag 'PLUS'")
  | leadingSpace (i : Nat) : Describes (.duplicateFlag (ch! ' ')) i (js! "Duplicate flag 'LEADING_SPACE'")
  | zeroPad (i : Nat) : Describes (.duplicateFlag (ch! '0')) i (js! "Duplicate flag 'ZERO_PAD'")
  | width (ds : JStr) (i : Nat) : Describes (.invalidWidth ds) i (js! "Invalid width: '" ++ ds ++ js! "'")
  | precision (ds : JStr) (i : Nat) : Describes (.invalidPrecision ds) i
      (js! "Invalid precision: '" ++ ds ++ js! "'")
  | unclosedDate (i : Nat) (s : JStr) (h : Shortest 10 i s) : Describes .unclosedDatePattern i
      (js! "Unclosed date/time pattern starting at index " ++ s)
  | emptyDate (i : Nat) : Describes .emptyDatePattern i (js! "Empty date/time pattern")
  | invalidDate (pattern : JStr) (i : Nat) : Describes (.invalidDatePattern pattern) i
      (js! "Invalid date/time pattern: '" ++ pattern ++ js! "'")
  | specifier (c : JChar) (i : Nat) : Describes (.unknownSpecifier c) i
      (js! "Unknown format conversion specifier '" ++ [c] ++ js! "'")

end FastPrintf.Spec
