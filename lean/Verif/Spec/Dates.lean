/-
Specification for C99: what `%t` prints without a pattern.

The calendar, and the texts of the three ISO formatters of `java.time.format.DateTimeFormatter`, as the
documentation of the JDK (and ISO 8601) has them.
-/
import Mathlib.Data.Nat.Log
import Verif.Spec.Arguments
import Verif.Model.Forms

namespace FastPrintf.Spec

/-! ### The calendar -/

/-- A year with a 29th of February. -/
def Leap (y : Int) : Prop := y % 4 = 0 ∧ (y % 100 ≠ 0 ∨ y % 400 = 0)

instance (y : Int) : Decidable (Leap y) := by unfold Leap; infer_instance

/-- The number of days of a month. -/
def monthLength (y : Int) (month : Nat) : Nat :=
  if month = 2 then (if Leap y then 29 else 28) else if month ∈ [4, 6, 9, 11] then 30 else 31

/-- A date, a `LocalDate`. -/
structure Day where
  year : Int
  month : Nat
  day : Nat
  deriving DecidableEq

/-- The date exists. -/
def Day.Exists (d : Day) : Prop := (1 ≤ d.month ∧ d.month ≤ 12) ∧ 1 ≤ d.day ∧ d.day ≤ monthLength d.year d.month

/-- It is within the years that `java.time` has. -/
def Day.InReach (d : Day) : Prop := -999999999 ≤ d.year ∧ d.year ≤ 999999999

/-- Days from the first of January of the year 0 to the first of January of year `y`. -/
def daysBeforeYear (y : Int) : Int := 365 * y + (y + 3) / 4 - (y + 99) / 100 + (y + 399) / 400

/-- Days of the year before the month. -/
def daysBeforeMonth (y : Int) : (month : Nat) → Nat
  | 0 => 0
  | 1 => 0
  | m + 2 => daysBeforeMonth y (m + 1) + monthLength y (m + 1)

/-- Days since the first of January 1970. -/
def Day.number (d : Day) : Int :=
  daysBeforeYear d.year + daysBeforeMonth d.year d.month + d.day - 1 - daysBeforeYear 1970

/-- A date and a time of day, a `LocalDateTime`. -/
structure DayTime where
  date : Day
  hour : Nat
  minute : Nat
  second : Nat
  nano : Nat
  deriving DecidableEq

/-- It exists. -/
def DayTime.Exists (t : DayTime) : Prop :=
  t.date.Exists ∧ t.hour < 24 ∧ t.minute < 60 ∧ t.second < 60 ∧ t.nano < 1000000000

/-- Seconds since the start of 1970, on a clock that shows this time. -/
def DayTime.seconds (t : DayTime) : Int := t.date.number * 86400 + t.hour * 3600 + t.minute * 60 + t.second

/-! ### Texts -/

/-- The last `w` decimal digits of a number. -/
def fixedDigits : (w n : Nat) → JStr
  | 0, _ => []
  | w + 1, n => fixedDigits w (n / 10) ++ [48 + n % 10]

/-- The year: at least four digits; with a sign if it has more, or if it is before the year 0. -/
def yearText (y : Int) : JStr :=
  (if y < 0 then [ch! '-'] else if y ≤ 9999 then [] else [ch! '+']) ++
    fixedDigits (max 4 (Nat.log 10 y.natAbs + 1)) y.natAbs

/-- `2024-02-29` (`ISO_LOCAL_DATE`). -/
def Day.text (d : Day) : JStr :=
  yearText d.year ++ ch! '-' :: fixedDigits 2 d.month ++ ch! '-' :: fixedDigits 2 d.day

/-- A text without the zeros at its end. -/
def dropZeros (s : JStr) : JStr := (s.reverse.dropWhile (· == 48)).reverse

/-- The fraction of a second: as many digits as it needs, nothing for none. -/
def nanoText (n : Nat) : JStr := if n = 0 then [] else ch! '.' :: dropZeros (fixedDigits 9 n)

/-- `2024-02-29T23:59:07.25` (`ISO_LOCAL_DATE_TIME`). -/
def DayTime.text (t : DayTime) : JStr :=
  t.date.text ++ ch! 'T' :: fixedDigits 2 t.hour ++ ch! ':' :: fixedDigits 2 t.minute ++
    ch! ':' :: fixedDigits 2 t.second ++ nanoText t.nano

/-- `Z`, `+01:00` or `-00:25:21`. -/
def offsetText (o : Int) : JStr :=
  if o = 0 then [ch! 'Z']
  else (if o < 0 then ch! '-' else ch! '+') :: fixedDigits 2 (o.natAbs / 3600) ++
    ch! ':' :: fixedDigits 2 (o.natAbs / 60 % 60) ++
    if o.natAbs % 60 = 0 then [] else ch! ':' :: fixedDigits 2 (o.natAbs % 60)

/-! ### What the JDK documents -/

/-- What a `TemporalAccessor` says. -/
inductive Point
  /-- an `Instant`: seconds since the start of 1970 in UTC, and nanoseconds -/
  | instant (sec : Int) (nano : Nat)
  /-- an `OffsetDateTime` or `ZonedDateTime`, with the offset from UTC in seconds -/
  | offset (t : DayTime) (o : Int)
  | localDateTime (t : DayTime)
  | localDate (d : Day)

/-- What the temporal objects of the model say.  Those of the user are known by a number; `value` has what
they say. -/
inductive Stands (value : Nat → Point) : Temporal → Point → Prop
  | second (s : Int) : Stands value (.stamp (.epochSecond s)) (.instant s 0)
  | milli {ms s : Int} {n : Nat} (h : ms = s * 1000 + n) (hn : n < 1000) :
      Stands value (.stamp (.epochMilli ms)) (.instant s (n * 1000000))
  | instant {id : Nat} {s : Int} {n : Nat} (h : value id = .instant s n) (hn : n < 1000000000) :
      Stands value (.obj .instant id) (.instant s n)
  | offset {id : Nat} {t : DayTime} {o : Int} (h : value id = .offset t o) :
      Stands value (.obj .offsetDateTime id) (.offset t o)
  | zoned {id : Nat} {t : DayTime} {o : Int} (h : value id = .offset t o) :
      Stands value (.obj .zonedDateTime id) (.offset t o)
  | localDateTime {id : Nat} {t : DayTime} (h : value id = .localDateTime t) :
      Stands value (.obj .localDateTime id) (.localDateTime t)
  | localDate {id : Nat} {d : Day} (h : value id = .localDate d) : Stands value (.obj .localDate id) (.localDate d)

/-- The ISO text.  `zone` is the system's time zone: the offset from UTC at each second since 1970.  An instant is
shown by the clock of that zone. -/
inductive IsoText (zone : Int → Int) : Point → JStr → Prop
  | instant {s : Int} {n : Nat} (t : DayTime) (h : t.Exists) (hr : t.date.InReach) (hs : t.seconds = s + zone s)
      (hn : t.nano = n) : IsoText zone (.instant s n) (t.text ++ offsetText (zone s))
  | offset {t : DayTime} {o : Int} (h : t.Exists) (hr : t.date.InReach) (ho : -64800 ≤ o ∧ o ≤ 64800) :
      IsoText zone (.offset t o) (t.text ++ offsetText o)
  | localDateTime {t : DayTime} (h : t.Exists) (hr : t.date.InReach) : IsoText zone (.localDateTime t) t.text
  | localDate {d : Day} (h : d.Exists) (hr : d.InReach) : IsoText zone (.localDate d) d.text

/-- `DateTimeFormatter.format` of the three ISO formatters does what its documentation says, and the offsets of the
zone are at most 18 hours. -/
structure IsoFormats (env : DateEnv) (zone : Int → Int) (value : Nat → Point) : Prop where
  reach : ∀ s, -64800 ≤ zone s ∧ zone s ≤ 64800
  atZone : ∀ t s n text, Stands value t (.instant s n) → IsoText zone (.instant s n) text →
    env.format .isoOffsetDateTime (.atSystemZone t) = .ok text
  offset : ∀ t x o text, Stands value t (.offset x o) → IsoText zone (.offset x o) text →
    env.format .isoOffsetDateTime t = .ok text
  localDateTime : ∀ t x text, Stands value t (.localDateTime x) → IsoText zone (.localDateTime x) text →
    env.format .isoLocalDateTime t = .ok text
  localDate : ∀ t x text, Stands value t (.localDate x) → IsoText zone (.localDate x) text →
    env.format .isoLocalDate t = .ok text

example : (⟨1970, 1, 1⟩ : Day).number = 0 ∧ (⟨2000, 3, 1⟩ : Day).number = 11017 ∧ (⟨1969, 12, 31⟩ : Day).number = -1 := by
  decide
example : Day.text ⟨2024, 2, 29⟩ = js! "2024-02-29" := by decide +kernel
example : Day.text ⟨-44, 3, 15⟩ = js! "-0044-03-15" := by decide +kernel
example : Day.text ⟨12345, 1, 1⟩ = js! "+12345-01-01" := by decide +kernel
example : DayTime.text ⟨⟨2024, 2, 29⟩, 23, 59, 7, 250000000⟩ = js! "2024-02-29T23:59:07.25" := by decide +kernel
example : offsetText 3600 = js! "+01:00" ∧ offsetText 0 = js! "Z" ∧ offsetText (-1521) = js! "-00:25:21" := by decide +kernel
example : ¬ (⟨1900, 2, 29⟩ : Day).Exists := by unfold Day.Exists; decide

end FastPrintf.Spec
