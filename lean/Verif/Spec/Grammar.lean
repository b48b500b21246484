/-
The format-string grammar, as a declarative specification:

  format    ::= (literal | "%%" | directive)*
  directive ::= "%" [flags] [width] ["." precision] conversion ["{" date-time-pattern "}"]

(README.md "Format Specifiers", Compiler.java:51).  Nothing here parses: a *reading* of a string is a
list of pieces whose texts, put side by side, give the string.
-/
import Verif.Model.Compiler

namespace FastPrintf.Spec

/-- The five flag characters. -/
def flagChars : JStr := js! "-#+ 0"

/-- The conversion characters. -/
def convChars : JStr := js! "diuoxXfFeEgGaAcsStTnp%"

/-- Is `c` an ASCII decimal digit? -/
def IsDigit (c : JChar) : Prop := 48 ≤ c ∧ c ≤ 57

/-- The value of a decimal numeral. -/
def decimalValue : JStr → Nat
  | [] => 0
  | c :: cs => (c - 48) * 10 ^ cs.length + decimalValue cs

/-- A width or precision: absent, `*`, or written as digits. -/
inductive Num
  | absent
  | star
  | digits (ds : JStr)
  deriving DecidableEq, Repr

/-- The parts of a directive, exactly as written. -/
structure Directive where
  flags : JStr
  width : Num
  prec : Num
  conv : JChar
  date : Option JStr
  deriving DecidableEq, Repr

/-- A piece of a format string. -/
inductive Piece
  | lit (s : JStr)
  | percent
  | dir (d : Directive)
  deriving DecidableEq, Repr

def Num.text : Num → JStr
  | absent => []
  | star => js! "*"
  | digits ds => ds

/-- The text of the precision part, with its point. -/
def precText : Num → JStr
  | .absent => []
  | n => js! "." ++ n.text

/-- The text of the date part, with its braces. -/
def dateText : Option JStr → JStr
  | none => []
  | some p => js! "{" ++ p ++ js! "}"

/-- The text of a directive. -/
def Directive.text (d : Directive) : JStr :=
  js! "%" ++ d.flags ++ d.width.text ++ precText d.prec ++ [d.conv] ++ dateText d.date

/-- The text of a piece. -/
def Piece.text : Piece → JStr
  | lit s => s
  | percent => js! "%%"
  | dir d => d.text

/-- Numbers written in a directive are at most 65536. -/
def numberCap : Nat := 65536

/-- A number part is well written: digits only and at most 65536. -/
def Num.Ok : Num → Prop
  | .digits ds => (∀ c ∈ ds, IsDigit c) ∧ decimalValue ds ≤ numberCap
  | _ => True

/-- A width part: as a number part, not empty, and not starting with `0` (that is a flag). -/
def WidthOk : Num → Prop
  | .digits ds => ds ≠ [] ∧ ds.head? ≠ some 48 ∧ Num.Ok (.digits ds)
  | n => Num.Ok n

/-- A date-time pattern between braces: not empty, quotes balanced, and every `}` in it is inside
quotes, i.e. preceded by an odd number of quotes; and the JDK accepts it. -/
def DateOk (env : DateSyntax) (p : JStr) : Prop :=
  p ≠ [] ∧ p.count 39 % 2 = 0 ∧
  (∀ pre post, p = pre ++ 125 :: post → pre.count 39 % 2 = 1) ∧ env.valid p = true

/-- Is the conversion `t` or `T`? -/
def IsDateConv (c : JChar) : Prop := c = ch! 't' ∨ c = ch! 'T'

/-- A well-formed directive. -/
structure Directive.Ok (env : DateSyntax) (d : Directive) : Prop where
  flagsOk : ∀ c ∈ d.flags, c ∈ flagChars
  noRepeat : d.flags.Nodup
  width : WidthOk d.width
  prec : d.prec.Ok
  conv : d.conv ∈ convChars
  date : ∀ p, d.date = some p → IsDateConv d.conv ∧ DateOk env p
  notPercent : d.conv = ch! '%' → ¬ (d.flags = [] ∧ d.width = .absent ∧ d.prec = .absent)

/-- A directive (up to its conversion character) that writes a number above the cap. -/
structure Directive.OverCap (d : Directive) : Prop where
  flagsOk : ∀ c ∈ d.flags, c ∈ flagChars
  conv : d.conv ∈ convChars
  over : ∃ ds, (d.width = .digits ds ∨ d.prec = .digits ds) ∧ (∀ c ∈ ds, IsDigit c) ∧
    numberCap < decimalValue ds

/-- A well-formed piece. -/
def Piece.Ok (env : DateSyntax) : Piece → Prop
  | lit s => s ≠ [] ∧ 37 ∉ s
  | percent => True
  | dir d => d.Ok env

/-- What may not follow a piece: a literal run is maximal, and a `{` right after a bare `%t`/`%T`
belongs to the directive. -/
def MayFollow : Piece → List Piece → Prop
  | .lit _, ps => ∀ s, ps.head? ≠ some (.lit s)
  | .percent, _ => True
  | .dir d, ps => IsDateConv d.conv → d.date = none → (ps.flatMap Piece.text).head? ≠ some 123

/-- `ps` is a reading of the format string `s`. -/
def Separated : List Piece → Prop
  | [] => True
  | p :: ps => MayFollow p ps ∧ Separated ps

structure Reading (env : DateSyntax) (s : JStr) (ps : List Piece) : Prop where
  text : ps.flatMap Piece.text = s
  ok : ∀ p ∈ ps, p.Ok env
  separated : Separated ps

/-! What a piece asks the formatter to do. -/

/-- The set of flags named by flag characters. -/
def flagSet (cs : JStr) : Flags where
  leftJustify := cs.contains (ch! '-')
  alternate := cs.contains (ch! '#')
  plus := cs.contains (ch! '+')
  leadingSpace := cs.contains (ch! ' ')
  zeroPad := cs.contains (ch! '0')

/-- A directive's flags with `-` among them. -/
def withMinus (fl : JStr) : JStr := if ch! '-' ∈ fl then fl else ch! '-' :: fl

/-- The conversion named by a character. -/
def convOf : JChar → Specifier
  | 100 => .d | 105 => .d | 117 => .u | 111 => .o | 120 => .x | 88 => .upperX
  | 102 => .f | 70 => .upperF | 101 => .e | 69 => .upperE | 103 => .g | 71 => .upperG
  | 97 => .a | 65 => .upperA | 99 => .c | 115 => .s | 83 => .upperS | 116 => .t | 84 => .upperT
  | 110 => .n | 112 => .p | _ => .percent

def Num.value : Num → Int
  | .absent => UNSET
  | .star => PRECEDING
  | .digits ds => decimalValue ds

/-- The compiled form of a piece. -/
def Piece.compiled : Piece → Appender
  | lit s => .fixed s
  | percent => .fixed (js! "%")
  | dir d => .dflt (convOf d.conv)
      { flags := flagSet d.flags, width := d.width.value, precision := d.prec.value,
        dateTimeFormatter := d.date }

end FastPrintf.Spec
