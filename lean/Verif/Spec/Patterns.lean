/-
Specification for C101: what `%t{pattern}` prints.

The patterns of `java.time.format.DateTimeFormatter` that are made of numeric fields, offsets and literal text, as the
documentation of the JDK has them.
-/
import Verif.Spec.Dates
import Verif.Model.Compiler

namespace FastPrintf.Spec

/-- A part of a pattern: a run of one letter, or a character that stands for itself. -/
inductive PatternPart
  | letters (c : JChar) (count : Nat)
  | literal (c : JChar)
  deriving DecidableEq

def IsLetter (c : JChar) : Prop := (ch! 'a' ≤ c ∧ c ≤ ch! 'z') ∨ (ch! 'A' ≤ c ∧ c ≤ ch! 'Z')

instance (c : JChar) : Decidable (IsLetter c) := by unfold IsLetter; infer_instance

/-- One more letter in front. -/
def addLetter (c : JChar) : List PatternPart → List PatternPart
  | .letters c' n :: ps => if c' = c then .letters c (n + 1) :: ps else .letters c 1 :: .letters c' n :: ps
  | ps => .letters c 1 :: ps

/-- Reading a pattern; `quoted` says whether we are inside quotes.  "All letters 'A' to 'Z' and 'a' to 'z' are reserved
as pattern letters"; "Two single quotes represent a literal single quote, either inside or outside single quotes"; "Any
non-letter character, other than '[', ']', '{', '}', '#' and the single quote will be output directly".  No reading:
an open quote, the reserved characters, optional sections, and more than two quotes in a row outside quotes. -/
def readPattern (quoted : Bool) : JStr → Option (List PatternPart)
  | [] => if quoted then none else some []
  | [c] =>
    if c = ch! '\'' then (if quoted then some [] else none)
    else if quoted then none
    else if IsLetter c then some [.letters c 1]
    else if c ∈ js! "[]{}#" then none
    else some [.literal c]
  | c :: c' :: r =>
    if c = ch! '\'' then
      if c' = ch! '\'' then
        if quoted then (readPattern true r).map (.literal (ch! '\'') :: ·)
        else if r.head? = some (ch! '\'') then none
        else (readPattern false r).map (.literal (ch! '\'') :: ·)
      else readPattern (!quoted) (c' :: r)
    else if quoted then (readPattern true (c' :: r)).map (.literal c :: ·)
    else if IsLetter c then (readPattern false (c' :: r)).map (addLetter c)
    else if c ∈ js! "[]{}#" then none
    else (readPattern false (c' :: r)).map (.literal c :: ·)

/-! ### The fields that the values have -/

/-- The date; an `Instant` has none ("`Instant` ... supported fields: `NANO_OF_SECOND`, `MICRO_OF_SECOND`,
`MILLI_OF_SECOND`, `INSTANT_SECONDS`"). -/
def Point.date? : Point → Option Day
  | .instant _ _ => none
  | .offset t _ => some t.date
  | .localDateTime t => some t.date
  | .localDate d => some d

/-- The time of day. -/
def Point.time? : Point → Option DayTime
  | .offset t _ => some t
  | .localDateTime t => some t
  | _ => none

/-- The nanoseconds. -/
def Point.nano? : Point → Option Nat
  | .instant _ n => some n
  | .offset t _ => some t.nano
  | .localDateTime t => some t.nano
  | .localDate _ => none

/-- The offset from UTC in seconds. -/
def Point.offset? : Point → Option Int
  | .offset _ o => some o
  | _ => none

/-- The point exists, and its offset is in whole minutes. -/
def Point.Exists : Point → Prop
  | .instant _ n => n < 1000000000
  | .offset t o => t.Exists ∧ t.date.InReach ∧ (-64800 ≤ o ∧ o ≤ 64800) ∧ o % 60 = 0
  | .localDateTime t => t.Exists ∧ t.date.InReach
  | .localDate d => d.Exists ∧ d.InReach

/-! ### Texts -/

/-- The year of the era: 1 for the year 1, and 1 again for the year before it. -/
def eraYear (y : Int) : Int := if 1 ≤ y then y else 1 - y

/-- A number with at least `w` digits. -/
def numberText (w n : Nat) : JStr := fixedDigits (max w (Nat.log 10 n + 1)) n

/-- `+0130` or `-0500`. -/
def plainOffset (o : Int) : JStr :=
  (if o < 0 then ch! '-' else ch! '+') :: fixedDigits 2 (o.natAbs / 3600) ++ fixedDigits 2 (o.natAbs / 60 % 60)

/-- What a part of a pattern prints; nothing if the value does not have the field. -/
def PatternPart.text (x : Point) : PatternPart → Option JStr
  | .literal c => some [c]
  | .letters c k =>
    if c = ch! 'y' then
      x.date?.map fun d => if k = 2 then fixedDigits 2 (eraYear d.year).toNat else yearText (eraYear d.year)
    else if c = ch! 'u' then x.date?.map fun d => yearText d.year
    else if c = ch! 'M' then x.date?.map fun d => numberText k d.month
    else if c = ch! 'd' then x.date?.map fun d => numberText k d.day
    else if c = ch! 'H' then x.time?.map fun t => numberText k t.hour
    else if c = ch! 'm' then x.time?.map fun t => numberText k t.minute
    else if c = ch! 's' then x.time?.map fun t => numberText k t.second
    else if c = ch! 'S' then x.nano?.map fun n => (fixedDigits 9 n).take k
    else if c = ch! 'X' then x.offset?.map offsetText
    else if c = ch! 'Z' then x.offset?.map plainOffset
    else none

/-- The parts treated here: `yyyy`, `yy`, `uuuu`, one or two of `M d H m s`, up to nine `S`, `XXX`, up to three `Z`,
and literals. -/
def PatternPart.Known : PatternPart → Prop
  | .literal _ => True
  | .letters c k =>
    (c = ch! 'y' ∧ (k = 2 ∨ k = 4)) ∨ (c = ch! 'u' ∧ k = 4) ∨ (c ∈ js! "MdHms" ∧ (k = 1 ∨ k = 2)) ∨
      (c = ch! 'S' ∧ 1 ≤ k ∧ k ≤ 9) ∨ (c = ch! 'X' ∧ k = 3) ∨ (c = ch! 'Z' ∧ 1 ≤ k ∧ k ≤ 3)

/-- What the whole pattern prints; nothing if a field is missing. -/
def patternText (x : Point) : List PatternPart → Option JStr
  | [] => some []
  | p :: ps => do return (← p.text x) ++ (← patternText x ps)

/-- `DateTimeFormatter.ofPattern` and `format` do what the documentation says about these patterns: they are accepted,
and formatting writes the parts one after the other, or throws `DateTimeException` if the value does not have one of
the fields. -/
structure PatternFormats (dates : DateSyntax) (env : DateEnv) (value : Nat → Point) : Prop where
  accepted : ∀ s ps, readPattern false s = some ps → (∀ p ∈ ps, p.Known) → dates.valid s = true
  format : ∀ s ps t x, readPattern false s = some ps → (∀ p ∈ ps, p.Known) → Stands value t x → x.Exists →
    env.format (.pattern s) t = match patternText x ps with
      | some out => .ok out
      | none => .error .dateTime

/-- The fields of a pattern, without the literals. -/
def fieldsOf : List PatternPart → List (JChar × Nat)
  | [] => []
  | .letters c k :: ps => (c, k) :: fieldsOf ps
  | .literal _ :: ps => fieldsOf ps

/-- Year, month, day, hour, minute, second and, for `n` not zero, the first `n` digits of the fraction. -/
def fromYearTo (n : Nat) : List (JChar × Nat) :=
  [(ch! 'y', 4), (ch! 'M', 2), (ch! 'd', 2), (ch! 'H', 2), (ch! 'm', 2), (ch! 's', 2)] ++
    if n = 0 then [] else [(ch! 'S', n)]

/-- A date of the years 1 to 9999. -/
def FourDigitYear (d : Day) : Prop := 1 ≤ d.year ∧ d.year ≤ 9999

/-- The time in units of `10^-n` seconds. -/
def DayTime.units (t : DayTime) (n : Nat) : Int := t.seconds * 10 ^ n + (t.nano / 10 ^ (9 - n) : Nat)

example : readPattern false (js! "yyyy-MM-dd HH:mm:ss") = some
    [.letters (ch! 'y') 4, .literal (ch! '-'), .letters (ch! 'M') 2, .literal (ch! '-'), .letters (ch! 'd') 2,
      .literal (ch! ' '), .letters (ch! 'H') 2, .literal (ch! ':'), .letters (ch! 'm') 2, .literal (ch! ':'),
      .letters (ch! 's') 2] := by decide +kernel
example : readPattern false (js! "h 'o''clock' a") = some
    [.letters (ch! 'h') 1, .literal (ch! ' '), .literal (ch! 'o'), .literal (ch! '\''), .literal (ch! 'c'),
      .literal (ch! 'l'), .literal (ch! 'o'), .literal (ch! 'c'), .literal (ch! 'k'), .literal (ch! ' '),
      .letters (ch! 'a') 1] := by decide +kernel
example : readPattern false (js! "'open") = none ∧ readPattern false (js! "yyyy[MM]") = none := by decide +kernel

end FastPrintf.Spec
