/-
The interfaces the formatting engine works against: `IntForm`, `FloatForm`, `FloatLayout`, `RefSlot`,
`FormatTraits` and the date-time objects.  A Java interface is a record of its methods, so every
theorem stated over these records also covers user implementations of the public interfaces (as long
as they are deterministic, which a record of values is).
-/
import Verif.Model.Seq
import Verif.Model.Digits

namespace FastPrintf

/-- `interface IntForm extends NumberForm` (number/IntForm.java:23-104, number/NumberForm.java). -/
structure IntForm where
  signum : Int
  toDecimalString : Res JStr
  toHexString : Res JStr
  toOctalString : Res JStr
  toUnsignedDecimalString : Res JStr

/-- `class FloatLayout` (number/FloatLayout.java:5-21); a `null` exponent is `none`. -/
structure FloatLayout where
  mantissa : Seq
  exponent : Option Seq

/-- `interface FloatForm extends NumberForm` (number/FloatForm.java:24-94). -/
structure FloatForm where
  isNaN : Bool
  isInfinite : Bool
  signum : Int
  generalLayout : Int → Res FloatLayout
  scientificLayout : Int → Res FloatLayout
  decimalLayout : Int → Res FloatLayout
  hexLayout : Int → Res FloatLayout

/-- `NumberForm.isNegative` (number/NumberForm.java), a default method. -/
def FloatForm.isNegative (v : FloatForm) : Bool := v.signum < 0

/-- `class RefSlot` (traits/RefSlot.java): a primitive, a null reference, or an object.  Of an object
`%p` only asks for its class name and its identity hash code. -/
inductive RefSlot
  | primitive
  | null
  | object (className : JStr) (identityHash : BitVec 32)
  deriving DecidableEq, Repr

/-- The types that `SeqFormatter.t` distinguishes (appender/SeqFormatter.java:375-386, 393). -/
inductive TemporalKind
  | instant | offsetDateTime | zonedDateTime | localDateTime | localDate | other
  deriving DecidableEq, Repr

/-- A `TemporalAccessor`: an instant made from a number, an object supplied by the user (opaque, with
its type), or an instant placed in the system's time zone.  What `asTemporalAccessor()`
(traits/FormatTraits.java:92-94) returns, see traits/ObjectTraits.java:94-105 and util/Utils.java:126-131;
`atZone` is called in appender/SeqFormatter.java:394. -/
inductive Temporal
  | stamp (i : InstantOf)
  | obj (kind : TemporalKind) (id : Nat)
  | atSystemZone (t : Temporal)
  deriving DecidableEq, Repr

/-- The dynamic type of a temporal object; `Instant.atZone` yields a `ZonedDateTime`.  Tested in
appender/SeqFormatter.java:376-380, 393. -/
def Temporal.kind : Temporal → TemporalKind
  | stamp _ => .instant
  | obj k _ => k
  | atSystemZone _ => .zonedDateTime

/-- The formatters `%t` can end up with: one made from a pattern, or one of three JDK constants
(appender/SeqFormatter.java:375-386, 389-399). -/
inductive DateFmt
  | pattern (p : JStr)
  | isoOffsetDateTime | isoLocalDateTime | isoLocalDate
  deriving DecidableEq, Repr

/-- What the engine asks of the JDK: `DateTimeFormatter.format` (which may throw).  Called in
appender/SeqFormatter.java:400. -/
structure DateEnv where
  format : DateFmt → Temporal → Res JStr

/-- `interface FormatTraits` (traits/FormatTraits.java): the readings of one argument. -/
structure Traits where
  asIntForm : Res IntForm
  asFloatForm : Res FloatForm
  asTemporal : Res Temporal
  asSeq : Res Seq
  asInt : Res Int
  asChar : Res JChar
  ref : RefSlot

end FastPrintf
