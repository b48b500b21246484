/-
Model of `io.fastprintf.appender.SeqFormatter`.

All methods are kept: same branches, same order of rope operations.  Widths and precisions are `Int`;
a context that reaches these methods has width and precision in `-1..65536`, or width
`Integer.MIN_VALUE` together with the `-` flag (`Engine` theorem C10), so no subtraction below leaves
the `int` range.
-/
import Verif.Model.Forms
import Verif.Model.Format

namespace FastPrintf.SeqFormatter

open FormatContext

/-- `width` (appender/SeqFormatter.java:28-30). -/
def width (ctx : FormatContext) : Int := if ctx.isWidthSet then ctx.width else 0

/-- `spaceJustify` (appender/SeqFormatter.java:32-44). -/
def spaceJustify (ctx : FormatContext) (v0 : Seq) : Res Seq :=
  if width ctx > v0.length then do
    let pad ← Seq.repeated (ch! ' ') (width ctx - v0.length)
    if ctx.hasFlag .leftJustify then return v0.append pad else return v0.prepend pad
  else .ok v0

/-- `sign` (appender/SeqFormatter.java:46-55). -/
def sign (ctx : FormatContext) (v0 : Seq) (negative : Bool) : Seq :=
  if negative then v0.prepend (Seq.ch (ch! '-'))
  else if ctx.hasFlag .plus then v0.prepend (Seq.ch (ch! '+'))
  else if ctx.hasFlag .leadingSpace then v0.prepend (Seq.ch (ch! ' '))
  else v0

/-- The zero padding used in three places: `if (n > len) v0 = v0.prepend(repeated('0', n - len))`
(appender/SeqFormatter.java:66-69, 91-94, 132-135). -/
def zeroFill (n : Int) (v0 : Seq) : Res Seq :=
  if n > v0.length then do
    let pad ← Seq.repeated (ch! '0') (n - v0.length)
    return v0.prepend pad
  else .ok v0

/-- `signAndJustify` (appender/SeqFormatter.java:57-71). -/
def signAndJustify (ctx : FormatContext) (v0 : Seq) (negative : Bool) : Res Seq :=
  if !ctx.hasFlag .zeroPad || ctx.hasFlag .leftJustify then
    spaceJustify ctx (sign ctx v0 negative)
  else do
    let w := if negative || ctx.hasFlag .plus || ctx.hasFlag .leadingSpace then width ctx - 1
      else width ctx
    let v1 ← zeroFill w v0
    return sign ctx v1 negative

/-- The precision `d` fills to (appender/SeqFormatter.java:80-90). -/
def dPrecision (ctx : FormatContext) (signum : Int) : Int :=
  if ctx.isPrecisionSet then ctx.precision
  else if ctx.hasFlag .zeroPad && ctx.isWidthSet && !ctx.hasFlag .leftJustify then
    if signum < 0 || ctx.hasFlag .plus || ctx.hasFlag .leadingSpace then ctx.width - 1
    else ctx.width
  else 1

/-- `d` (appender/SeqFormatter.java:73-97). -/
def d (ctx : FormatContext) (value : IntForm) : Res Seq :=
  if value.signum = 0 ∧ ctx.precision = 0 then
    spaceJustify ctx (if ctx.hasFlag .plus then Seq.ch (ch! '+') else Seq.empty)
  else do
    let v0 := Seq.wrap (← value.toDecimalString)
    let v1 ← zeroFill (dPrecision ctx value.signum) v0
    spaceJustify ctx (sign ctx v1 (value.signum < 0))

/-- The precision `formatUnsignedInteger` fills to (appender/SeqFormatter.java:118-131). -/
def uPrecision (ctx : FormatContext) (pre : JStr) : Int :=
  if ctx.isPrecisionSet then
    if ctx.hasFlag .alternate && js! "0" == pre then ctx.precision - 1 else ctx.precision
  else if ctx.hasFlag .zeroPad && ctx.isWidthSet && !ctx.hasFlag .leftJustify then
    if ctx.hasFlag .alternate then ctx.width - pre.length else ctx.width
  else 1

/-- `formatUnsignedInteger` (appender/SeqFormatter.java:111-140); `toStr` is the text obtained by
applying the method reference, which may throw. -/
def formatUnsignedInteger (ctx : FormatContext) (signum : Int) (toStr : Res JStr) (pre : JStr) :
    Res Seq :=
  if signum = 0 ∧ ctx.precision = 0 then spaceJustify ctx Seq.empty
  else do
    let v0 := Seq.wrap (← toStr)
    let v1 ← zeroFill (uPrecision ctx pre) v0
    let v2 := if signum ≠ 0 ∧ ctx.hasFlag .alternate then v1.prepend (Seq.wrap pre) else v1
    spaceJustify ctx v2

/-- `o` (appender/SeqFormatter.java:99-101). -/
def o (ctx : FormatContext) (v : IntForm) : Res Seq :=
  formatUnsignedInteger ctx v.signum v.toOctalString (js! "0")

/-- `x` (appender/SeqFormatter.java:103-105). -/
def x (ctx : FormatContext) (v : IntForm) : Res Seq :=
  formatUnsignedInteger ctx v.signum v.toHexString (js! "0x")

/-- `u` (appender/SeqFormatter.java:107-109). -/
def u (ctx : FormatContext) (v : IntForm) : Res Seq :=
  formatUnsignedInteger ctx v.signum v.toUnsignedDecimalString []

/-- `nanOrInfinity` (appender/SeqFormatter.java:142-157). -/
def nanOrInfinity (ctx : FormatContext) (v : FloatForm) : Res Seq :=
  spaceJustify ctx
    (if v.isNaN then Seq.wrap (js! "NaN")
     else if v.signum < 0 then Seq.wrap (js! "-Infinity")
     else if ctx.hasFlag .plus then Seq.wrap (js! "+Infinity")
     else Seq.wrap (js! "Infinity"))

/-- `formatFractionalPart` (appender/SeqFormatter.java:173-192). -/
def formatFractionalPart (mantissa : Seq) (precision : Int) (reserveDot : Bool) : Res Seq := do
  let dot ← mantissa.indexOf (ch! '.')
  if precision = 0 ∧ dot = -1 then
    return if reserveDot then mantissa.append (Seq.ch (ch! '.')) else mantissa
  let outPrecision := if dot ≥ 0 then mantissa.length - (dot + 1) else 0
  if outPrecision ≥ precision then return mantissa
  let mantissa := if dot < 0 then mantissa.append (Seq.ch (ch! '.')) else mantissa
  return mantissa.append (← Seq.repeated (ch! '0') (precision - outPrecision))

/-- The precision used by `f` and `e`: 6 unless set (appender/SeqFormatter.java:163-166, 198-201). -/
def precision6 (ctx : FormatContext) : Int := if ctx.isPrecisionSet then ctx.precision else 6

/-- `f` (appender/SeqFormatter.java:159-171). -/
def f (ctx : FormatContext) (v : FloatForm) : Res Seq :=
  if v.isNaN || v.isInfinite then nanOrInfinity ctx v
  else do
    let layout ← v.decimalLayout (precision6 ctx)
    let mantissa ← formatFractionalPart layout.mantissa (precision6 ctx) (ctx.hasFlag .alternate)
    signAndJustify ctx mantissa v.isNegative

/-- `v0.append(layout.getExponent())`: appending `null` throws (appender/SeqFormatter.java:205, 273, 321). -/
def appendExponent (v0 : Seq) : Option Seq → Res Seq
  | some e => .ok (v0.append e)
  | none => .error .nullPointer

/-- `e` (appender/SeqFormatter.java:194-207). -/
def e (ctx : FormatContext) (v : FloatForm) : Res Seq :=
  if v.isNaN || v.isInfinite then nanOrInfinity ctx v
  else do
    let layout ← v.scientificLayout (precision6 ctx)
    let v0 ← formatFractionalPart layout.mantissa (precision6 ctx) (ctx.hasFlag .alternate)
    let v2 ← appendExponent (v0.append (Seq.ch (ch! 'e'))) layout.exponent
    signAndJustify ctx v2 v.isNegative

/-- The loop of `stripTrailingZeros` (appender/SeqFormatter.java:218-220), `n` bounding the number of
iterations (`n = lastCharIndex - dotIndex`). -/
def stripLoop (m : Seq) (dot : Int) : (n : Nat) → (last : Int) → Res Int
  | 0, last => .ok last
  | n + 1, last =>
    if last > dot then do
      let c ← m.charAt last
      if c = ch! '0' then stripLoop m dot n (last - 1) else return last
    else .ok last

/-- `stripTrailingZeros` (appender/SeqFormatter.java:210-228). -/
def stripTrailingZeros (m : Seq) : Res Seq := do
  let dot ← m.indexOf (ch! '.')
  if dot = -1 then return m
  let last ← stripLoop m dot (m.length - 1 - dot).toNat (m.length - 1)
  let last := if last = dot then last - 1 else last
  m.subSequence 0 (last + 1)

/-- The counting loop of `padToPrecision` (appender/SeqFormatter.java:233-239) from index `i`, with
`n` iterations left. -/
def countLoop (m : Seq) : (n : Nat) → (i : Int) → (sig : Int) → (seen : Bool) → Res (Int × Bool)
  | 0, _, sig, seen => .ok (sig, seen)
  | n + 1, i, sig, seen => do
    let c ← m.charAt i
    let seen := seen || (c ≥ ch! '1' && c ≤ ch! '9')
    let sig := if seen && c != ch! '.' then sig + 1 else sig
    countLoop m n (i + 1) sig seen

/-- `padToPrecision` (appender/SeqFormatter.java:231-256). -/
def padToPrecision (m : Seq) (precision : Int) : Res Seq := do
  let (sig0, seen) ← countLoop m m.length.toNat 0 0 false
  let zero ← m.indexOf (ch! '0')
  let sig := if !seen && zero != -1 then 1 else sig0
  let zerosToPad := precision - sig
  let dot ← m.indexOf (ch! '.')
  let m := if dot = -1 then m.append (Seq.ch (ch! '.')) else m
  if zerosToPad > 0 then return m.append (← Seq.repeated (ch! '0') zerosToPad) else return m

/-- `formatGDecimal` (appender/SeqFormatter.java:259-265). -/
def formatGDecimal (ctx : FormatContext) (layout : FloatLayout) (precision : Int) : Res Seq :=
  if ctx.hasFlag .alternate then padToPrecision layout.mantissa precision
  else stripTrailingZeros layout.mantissa

/-- `formatGScientific` (appender/SeqFormatter.java:268-274), entered with a non-null exponent. -/
def formatGScientific (ctx : FormatContext) (mantissa exponent : Seq) : Res Seq := do
  let mantissa ← if ctx.hasFlag .alternate then pure mantissa else stripTrailingZeros mantissa
  return (mantissa.append (Seq.ch (ch! 'e'))).append exponent

/-- The precision of `g`: 6 unless set, and 1 for 0 (appender/SeqFormatter.java:281-287). -/
def gPrecision (ctx : FormatContext) : Int :=
  if ctx.isPrecisionSet then (if ctx.precision = 0 then 1 else ctx.precision) else 6

/-- `g` (appender/SeqFormatter.java:276-301). -/
def g (ctx : FormatContext) (v : FloatForm) : Res Seq :=
  if v.isNaN || v.isInfinite then nanOrInfinity ctx v
  else do
    let layout ← v.generalLayout (gPrecision ctx)
    let v0 ← match layout.exponent with
      | none => formatGDecimal ctx layout (gPrecision ctx)
      | some ex => formatGScientific ctx layout.mantissa ex
    signAndJustify ctx v0 v.isNegative

/-- The precision of `a`: 13 unless set, and 1 for 0 (appender/SeqFormatter.java:307-315). -/
def aPrecision (ctx : FormatContext) : Int :=
  if ctx.isPrecisionSet then (if ctx.precision = 0 then 1 else ctx.precision) else 13

/-- The end of `a`: prefix, sign and padding (appender/SeqFormatter.java:322-337).  The zero padding
is `repeated('0', n).append(v0)`. -/
def aJustify (ctx : FormatContext) (v0 : Seq) (negative : Bool) : Res Seq :=
  if ctx.hasFlag .zeroPad && !ctx.hasFlag .leftJustify then do
    let w := if negative || ctx.hasFlag .plus || ctx.hasFlag .leadingSpace then ctx.width - 2 - 1
      else ctx.width - 2
    let v1 ← if w > v0.length then
        (do return (← Seq.repeated (ch! '0') (w - v0.length)).append v0)
      else pure v0
    return sign ctx (v1.prepend (Seq.wrap (js! "0x"))) negative
  else spaceJustify ctx (sign ctx (v0.prepend (Seq.wrap (js! "0x"))) negative)

/-- `a` (appender/SeqFormatter.java:303-338). -/
def a (ctx : FormatContext) (v : FloatForm) : Res Seq :=
  if v.isNaN || v.isInfinite then nanOrInfinity ctx v
  else do
    let layout ← v.hexLayout (aPrecision ctx)
    let v0 ← if ctx.isPrecisionSet then
        formatFractionalPart layout.mantissa (aPrecision ctx) (ctx.hasFlag .alternate)
      else pure layout.mantissa
    let v2 ← appendExponent (v0.append (Seq.ch (ch! 'p'))) layout.exponent
    aJustify ctx v2 (v.signum < 0)

/-- `c` (appender/SeqFormatter.java:340-342). -/
def c (ctx : FormatContext) (v : Traits) : Res Seq := do
  spaceJustify ctx (Seq.ch (← v.asChar))

/-- `s` (appender/SeqFormatter.java:344-351). -/
def s (ctx : FormatContext) (v : Traits) : Res Seq := do
  let seq ← v.asSeq
  if ctx.isPrecisionSet && ctx.precision < seq.length then
    spaceJustify ctx (← seq.subSequence 0 ctx.precision)
  else spaceJustify ctx seq

/-- `p` (appender/SeqFormatter.java:353-373). -/
def p (ctx : FormatContext) (v : Traits) : Res Seq :=
  match v.ref with
  | .primitive => .error (.printf .primitivePointer)
  | .null => spaceJustify ctx (Seq.wrap (js! "null"))
  | .object name hash =>
    let seq := Seq.wrap (toRadix 16 hash.toNat)
    let seq := seq.prepend (Seq.ch (ch! '@'))
    let seq := seq.prepend (Seq.wrap name)
    spaceJustify ctx seq

/-- `bestDefaultFormatterOrThrow` (appender/SeqFormatter.java:375-386). -/
def bestDefaultFormatter : TemporalKind → Res DateFmt
  | .offsetDateTime => .ok .isoOffsetDateTime
  | .zonedDateTime => .ok .isoOffsetDateTime
  | .localDateTime => .ok .isoLocalDateTime
  | .localDate => .ok .isoLocalDate
  | _ => .error (.printf .noDefaultFormatter)

/-- The formatter and the value `t` uses (appender/SeqFormatter.java:389-399). -/
def chooseFormatter (ctx : FormatContext) (ta : Temporal) : Res (DateFmt × Temporal) :=
  match ctx.dateTimeFormatter with
  | some pat => .ok (.pattern pat, ta)
  | none =>
    if ta.kind = .instant then .ok (.isoOffsetDateTime, .atSystemZone ta)
    else do return (← bestDefaultFormatter ta.kind, ta)

/-- `t` (appender/SeqFormatter.java:388-402). -/
def t (env : DateEnv) (ctx : FormatContext) (v : Traits) : Res Seq := do
  let ta ← v.asTemporal
  let (fmt, ta) ← chooseFormatter ctx ta
  spaceJustify ctx (Seq.wrap (← env.format fmt ta))

end FastPrintf.SeqFormatter
