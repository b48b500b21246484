/-
Model of `io.fastprintf.Compiler` (the format-string parser).

The Java parser is an object with the fields `source` and `lookahead`.  The model passes the pair
`(rest, pos)` where `pos` is `lookahead` and `rest` is the part of `source` from `lookahead` on, so
`source.charAt(lookahead)` is the head of `rest` and `endOfSource()` is `rest = []`.
-/
import Verif.Model.Format

namespace FastPrintf

/-- What the compiler asks of the JDK: is a text a valid `DateTimeFormatter` pattern, i.e. does
`DateTimeFormatter.ofPattern` return normally instead of throwing `IllegalArgumentException`?  Called in
Compiler.java:184. -/
structure DateSyntax where
  valid : JStr → Bool

/-- A compiled piece: `FixedStringAppender(value)` or `DefaultAppender(specifier, context)`
(appender/FixedStringAppender.java:11-17, appender/DefaultAppender.java:16-24). -/
inductive Appender
  | fixed (value : JStr)
  | dflt (sp : Specifier) (ctx : FormatContext)
  deriving DecidableEq, Repr

namespace Compiler

/-- `flags()` (Compiler.java:65-79). -/
def flags : (rest : JStr) → (pos : Nat) → Flags → Res (Flags × JStr × Nat)
  | [], pos, fs => .ok (fs, [], pos)
  | c :: rest, pos, fs =>
    match Flag.valueOf c with
    | none => .ok (fs, c :: rest, pos)
    | some f =>
      if fs.contains f then .error (.syntaxErr (.duplicateFlag c) pos)
      else flags rest (pos + 1) (fs.add f)

/-- The digit loops of `width()` and `precision()` (Compiler.java:94-101, 125-132): the digits
skipped and what is left. -/
def takeDigits : JStr → JStr × JStr
  | [] => ([], [])
  | c :: rest =>
    if isNotDigit c then ([], c :: rest)
    else ((takeDigits rest).1.cons c, (takeDigits rest).2)

/-- The value of a run of decimal digits.  What `Integer.parseInt` computes in Compiler.java:106, 138. -/
def digitsValue (ds : JStr) : Nat := ds.foldl (fun n c => n * 10 + (c - 48)) 0

/-- `Integer.parseInt` on a non-empty run of ASCII digits (Compiler.java:106, 138): fails exactly
above `Integer.MAX_VALUE`. -/
def parseInt (ds : JStr) : Option Int :=
  if (digitsValue ds : Int) ≤ intMax then some (digitsValue ds) else none

/-- `width()` (Compiler.java:87-110). -/
def width (rest : JStr) (pos : Nat) : Res (Int × JStr × Nat) :=
  match rest with
  | [] => .error (.syntaxErr (.unexpectedEnd .atWidth) pos)
  | c :: rest' =>
    if c = ch! '*' then .ok (PRECEDING, rest', pos + 1)
    else
      let (w, rest'') := takeDigits (c :: rest')
      if w = [] then .ok (UNSET, rest'', pos)
      else match parseInt w with
        | some n => .ok (n, rest'', pos + w.length)
        | none => .error (.syntaxErr (.invalidWidth w) pos)

/-- `precision()` (Compiler.java:112-142). -/
def precision (rest : JStr) (pos : Nat) : Res (Int × JStr × Nat) :=
  match rest with
  | [] => .ok (UNSET, [], pos)
  | c :: rest1 =>
    if c ≠ ch! '.' then .ok (UNSET, c :: rest1, pos)
    else match rest1 with
      | [] => .error (.syntaxErr (.unexpectedEnd .afterDot) (pos + 1))
      | d :: rest2 =>
        if d = ch! '*' then .ok (PRECEDING, rest2, pos + 2)
        else
          let (p, rest3) := takeDigits (d :: rest2)
          if p = [] then .ok (0, rest3, pos + 1)
          else match parseInt p with
            | some n => .ok (n, rest3, pos + 1 + p.length)
            | none => .error (.syntaxErr (.invalidPrecision p) (pos + 1))

/-- `specifier()` (Compiler.java:191-201). -/
def specifier (rest : JStr) (pos : Nat) : Res (Specifier × JStr × Nat) :=
  match rest with
  | [] => .error (.syntaxErr (.unexpectedEnd .atSpecifier) pos)
  | c :: rest' =>
    match Specifier.valueOf c with
    | none => .error (.syntaxErr (.unknownSpecifier c) pos)
    | some sp => .ok (sp, rest', pos + 1)

/-- The scan for the closing brace (Compiler.java:151-169): how many characters precede it, counted
from the scan position, or `none` when the loop ends without finding it.  On `''` the Java loop skips
both quotes. -/
def scanBrace : (rest : JStr) → (inQuote : Bool) → (n : Nat) → Option Nat
  | [], _, _ => none
  | c :: rest, inQuote, n =>
    if c = ch! '\'' then
      match rest with
      | c' :: rest' =>
        if c' = ch! '\'' then scanBrace rest' inQuote (n + 2)
        else scanBrace (c' :: rest') (!inQuote) (n + 1)
      | [] => scanBrace [] (!inQuote) (n + 1)
    else if c = ch! '}' && !inQuote then some n
    else scanBrace rest inQuote (n + 1)

/-- `dateTimeFormatter()` (Compiler.java:144-189). -/
def dateTimeFormatter (env : DateSyntax) (rest : JStr) (pos : Nat) :
    Res (Option JStr × JStr × Nat) :=
  match rest with
  | [] => .ok (none, [], pos)
  | c :: rest' =>
    if c ≠ ch! '{' then .ok (none, c :: rest', pos)
    else match scanBrace rest' false 0 with
      | none => .error (.syntaxErr .unclosedDatePattern pos)
      | some n =>
        let pattern := rest'.take n
        if pattern = [] then .error (.syntaxErr .emptyDatePattern (pos + 1))
        else if env.valid pattern then .ok (some pattern, rest'.drop (n + 1), pos + 1 + n + 1)
        else .error (.syntaxErr (.invalidDatePattern pattern) (pos + 1))

/-- The optional date part (Compiler.java:56-59). -/
def datePart (env : DateSyntax) (sp : Specifier) (rest : JStr) (pos : Nat) :
    Res (Option JStr × JStr × Nat) :=
  if sp.isDateTime then dateTimeFormatter env rest pos else .ok (none, rest, pos)

/-- `forPattern()` up to the tail call of `parseNext()` (Compiler.java:42-62), entered just after
the `%`: the appender added, and where parsing goes on. -/
def forPattern (env : DateSyntax) (rest : JStr) (pos : Nat) : Res (Appender × JStr × Nat) :=
  match rest with
  | [] => .error (.syntaxErr (.unexpectedEnd .afterPercent) pos)
  | c :: rest' =>
    if c = ch! '%' then .ok (.fixed [ch! '%'], rest', pos + 1)
    else do
      let (fs, rest1, pos1) ← flags (c :: rest') pos {}
      let (w, rest2, pos2) ← width rest1 pos1
      let (p, rest3, pos3) ← precision rest2 pos2
      let (sp, rest4, pos4) ← specifier rest3 pos3
      let (dtf, rest5, pos5) ← datePart env sp rest4 pos4
      let ctx ← FormatContext.create fs w p dtf
      return (.dflt sp ctx, rest5, pos5)

/-- The literal run skipped by `forFixedString()` (Compiler.java:204-212): up to the next `%`. -/
def literalRun : JStr → JStr × JStr
  | [] => ([], [])
  | c :: rest =>
    if c = ch! '%' then ([], c :: rest)
    else ((literalRun rest).1.cons c, (literalRun rest).2)

/-- `parseNext()`, `forFixedString()` and the tail calls of `forPattern()` (Compiler.java:31-40,
48, 62, 203-214).  The Java code recurses once per piece; `fuel` bounds that recursion and is shown
never to run out (`compile_iff`).  The depth of the recursion is in Model/Resources.lean. -/
def parseNext (env : DateSyntax) : (fuel : Nat) → (rest : JStr) → (pos : Nat) → Res (List Appender)
  | 0, _, _ => .error .assertion
  | fuel + 1, rest, pos =>
    match rest with
    | [] => .ok []
    | c :: rest' =>
      if c = ch! '%' then do
        let (a, rest1, pos1) ← forPattern env rest' (pos + 1)
        return a :: (← parseNext env fuel rest1 pos1)
      else
        match literalRun (c :: rest') with
        | (lit, []) => .ok [.fixed lit]
        | (lit, _ :: rest1) => do
          let (a, rest2, pos2) ← forPattern env rest1 (pos + lit.length + 1)
          return .fixed lit :: a :: (← parseNext env fuel rest2 pos2)

/-- `Compiler.compile()` followed by `getAppenders()` (Compiler.java:23-25, 216-218), as used by
`FastPrintfImpl.compile` (FastPrintfImpl.java:68-77). -/
def compile (env : DateSyntax) (source : JStr) : Res (List Appender) :=
  parseNext env (source.length + 1) source 0

end Compiler
end FastPrintf
