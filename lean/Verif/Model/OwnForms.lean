/-
Arguments and numbers of the user's own classes.

`FormatTraits`, `IntForm` and `FloatForm` are public interfaces.  Here every method of an argument, and every method of
the number that `asIntForm()` or `asFloatForm()` returns, is an arbitrary program; each may throw, have side effects, or
return `null` where it returns an object.  The code is that of `SeqFormatter`, `DefaultAppender` and `FastPrintfImpl`
once more, with every call of such a method as a step of its own.

`FloatLayout` has no public constructor (number/FloatLayout.java:10), so a layout is one that the library has made, and
its mantissa is not `null`.
-/
import Verif.Model.Live
import Verif.Model.Args

namespace FastPrintf.OwnForms

variable {σ : Type}

open SeqFormatter

/-- `interface IntForm extends NumberForm` (number/IntForm.java:23-104, number/NumberForm.java:17-52); `none` is
`null`. -/
structure IntProg (σ : Type) where
  signum : Effect σ Int
  toDecimalString : Effect σ (Option JStr)
  toHexString : Effect σ (Option JStr)
  toOctalString : Effect σ (Option JStr)
  toUnsignedDecimalString : Effect σ (Option JStr)

/-- `interface FloatForm extends NumberForm` (number/FloatForm.java:24-94, number/NumberForm.java:17-52); `none` is
`null`.  `isNegative` is a default method (number/NumberForm.java:31-33) that a class may override. -/
structure FloatProg (σ : Type) where
  isNaN : Effect σ Bool
  isInfinite : Effect σ Bool
  isNegative : Effect σ Bool
  signum : Effect σ Int
  generalLayout : Int → Effect σ (Option FloatLayout)
  scientificLayout : Int → Effect σ (Option FloatLayout)
  decimalLayout : Int → Effect σ (Option FloatLayout)
  hexLayout : Int → Effect σ (Option FloatLayout)

/-- `interface FormatTraits` (traits/FormatTraits.java:34-169); `none` is `null`. -/
structure Arg (σ : Type) where
  asIntForm : Effect σ (Option (IntProg σ))
  asFloatForm : Effect σ (Option (FloatProg σ))
  asTemporal : Effect σ (Option Temporal)
  asSeq : Effect σ (Option Seq)
  asInt : Effect σ Int
  asChar : Effect σ JChar
  ref : Effect σ (Option RefSlot)

/-- The use of a result that may be `null`: a method of it is called (appender/SeqFormatter.java:74, 113, 160, 169,
195, 203, 277, 292, 304, 317, 347, 355, 383, 400), or `Preconditions.checkNotNull` tests it (seq/Seq.java:117). -/
def nonNull {α : Type} : Option α → Effect σ α
  | some a => .of (.ok a)
  | none => .of (.error .nullPointer)

/-- `d` (appender/SeqFormatter.java:73-97). -/
def d (ctx : FormatContext) (v : IntProg σ) : Effect σ Seq := do
  let signum ← v.signum
  if signum = 0 ∧ ctx.precision = 0 then
    .of (spaceJustify ctx (if ctx.hasFlag .plus then Seq.ch (ch! '+') else Seq.empty))
  else do
    let text ← v.toDecimalString
    let text ← nonNull text
    .of (do
      let v1 ← zeroFill (dPrecision ctx signum) (Seq.wrap text)
      spaceJustify ctx (sign ctx v1 (signum < 0)))

/-- `formatUnsignedInteger` (appender/SeqFormatter.java:111-140). -/
def unsigned (ctx : FormatContext) (v : IntProg σ) (toStr : Effect σ (Option JStr)) (pre : JStr) : Effect σ Seq := do
  let signum ← v.signum
  if signum = 0 ∧ ctx.precision = 0 then .of (spaceJustify ctx Seq.empty)
  else do
    let text ← toStr
    let text ← nonNull text
    .of (do
      let v1 ← zeroFill (uPrecision ctx pre) (Seq.wrap text)
      let v2 := if signum ≠ 0 ∧ ctx.hasFlag .alternate then v1.prepend (Seq.wrap pre) else v1
      spaceJustify ctx v2)

/-- `o` (appender/SeqFormatter.java:99-101). -/
def o (ctx : FormatContext) (v : IntProg σ) : Effect σ Seq := unsigned ctx v v.toOctalString (js! "0")

/-- `x` (appender/SeqFormatter.java:103-105). -/
def x (ctx : FormatContext) (v : IntProg σ) : Effect σ Seq := unsigned ctx v v.toHexString (js! "0x")

/-- `u` (appender/SeqFormatter.java:107-109). -/
def u (ctx : FormatContext) (v : IntProg σ) : Effect σ Seq := unsigned ctx v v.toUnsignedDecimalString []

/-- `nanOrInfinity` (appender/SeqFormatter.java:142-157): `isNaN()` is called again. -/
def nanOrInfinity (ctx : FormatContext) (v : FloatProg σ) : Effect σ Seq := do
  let nan ← v.isNaN
  if nan then .of (spaceJustify ctx (Seq.wrap (js! "NaN")))
  else do
    let signum ← v.signum
    .of (spaceJustify ctx
      (if signum < 0 then Seq.wrap (js! "-Infinity")
       else if ctx.hasFlag .plus then Seq.wrap (js! "+Infinity")
       else Seq.wrap (js! "Infinity")))

/-- `value.isNaN() || value.isInfinite()` (appender/SeqFormatter.java:160, 195, 277, 304). -/
def special (v : FloatProg σ) : Effect σ Bool := do
  let nan ← v.isNaN
  if nan then .of (.ok true) else v.isInfinite

/-- `f` (appender/SeqFormatter.java:159-171). -/
def f (ctx : FormatContext) (v : FloatProg σ) : Effect σ Seq := do
  let special ← special v
  if special then nanOrInfinity ctx v
  else do
    let layout ← v.decimalLayout (precision6 ctx)
    let layout ← nonNull layout
    let mantissa ← .of (formatFractionalPart layout.mantissa (precision6 ctx) (ctx.hasFlag .alternate))
    let negative ← v.isNegative
    .of (signAndJustify ctx mantissa negative)

/-- `e` (appender/SeqFormatter.java:194-207). -/
def e (ctx : FormatContext) (v : FloatProg σ) : Effect σ Seq := do
  let special ← special v
  if special then nanOrInfinity ctx v
  else do
    let layout ← v.scientificLayout (precision6 ctx)
    let layout ← nonNull layout
    let v2 ← .of (do
      let v0 ← formatFractionalPart layout.mantissa (precision6 ctx) (ctx.hasFlag .alternate)
      appendExponent (v0.append (Seq.ch (ch! 'e'))) layout.exponent)
    let negative ← v.isNegative
    .of (signAndJustify ctx v2 negative)

/-- `g` (appender/SeqFormatter.java:276-301). -/
def g (ctx : FormatContext) (v : FloatProg σ) : Effect σ Seq := do
  let special ← special v
  if special then nanOrInfinity ctx v
  else do
    let layout ← v.generalLayout (gPrecision ctx)
    let layout ← nonNull layout
    let v0 ← .of (match layout.exponent with
      | none => formatGDecimal ctx layout (gPrecision ctx)
      | some ex => formatGScientific ctx layout.mantissa ex)
    let negative ← v.isNegative
    .of (signAndJustify ctx v0 negative)

/-- `a` (appender/SeqFormatter.java:303-338). -/
def a (ctx : FormatContext) (v : FloatProg σ) : Effect σ Seq := do
  let special ← special v
  if special then nanOrInfinity ctx v
  else do
    let layout ← v.hexLayout (aPrecision ctx)
    let layout ← nonNull layout
    let v2 ← .of (do
      let v0 ← if ctx.isPrecisionSet then
          formatFractionalPart layout.mantissa (aPrecision ctx) (ctx.hasFlag .alternate)
        else pure layout.mantissa
      appendExponent (v0.append (Seq.ch (ch! 'p'))) layout.exponent)
    let signum ← v.signum
    .of (aJustify ctx v2 (signum < 0))

/-- `c` (appender/SeqFormatter.java:340-342). -/
def c (ctx : FormatContext) (v : Arg σ) : Effect σ Seq := do
  let ch ← v.asChar
  .of (spaceJustify ctx (Seq.ch ch))

/-- `s` (appender/SeqFormatter.java:344-351). -/
def s (ctx : FormatContext) (v : Arg σ) : Effect σ Seq := do
  let seq ← v.asSeq
  let seq ← nonNull seq
  .of (if ctx.isPrecisionSet && ctx.precision < seq.length then do
      spaceJustify ctx (← seq.subSequence 0 ctx.precision)
    else spaceJustify ctx seq)

/-- `p` (appender/SeqFormatter.java:353-373). -/
def p (ctx : FormatContext) (v : Arg σ) : Effect σ Seq := do
  let slot ← v.ref
  let slot ← nonNull slot
  .of (match slot with
    | .primitive => .error (.printf .primitivePointer)
    | .null => spaceJustify ctx (Seq.wrap (js! "null"))
    | .object name hash =>
      let seq := Seq.wrap (toRadix 16 hash.toNat)
      let seq := seq.prepend (Seq.ch (ch! '@'))
      let seq := seq.prepend (Seq.wrap name)
      spaceJustify ctx seq)

/-- `t` (appender/SeqFormatter.java:388-402); of a `null` no branch of the choice of a formatter is taken before a method
of it is called (lines 383, 392), and `formatter.format(null)` (line 400) throws the same. -/
def t (env : DateEnv) (ctx : FormatContext) (v : Arg σ) : Effect σ Seq := do
  let ta ← v.asTemporal
  let ta ← nonNull ta
  .of (do
    let (fmt, ta) ← chooseFormatter ctx ta
    spaceJustify ctx (Seq.wrap (← env.format fmt ta)))

/-- `SeqFormatter.d(context, traits.asIntForm())` and the like (appender/DefaultAppender.java:29-43). -/
def onInt (v : Arg σ) (k : IntProg σ → Effect σ Seq) : Effect σ Seq := do
  let n ← v.asIntForm
  let n ← nonNull n
  k n

/-- `SeqFormatter.f(context, traits.asFloatForm())` and the like (appender/DefaultAppender.java:44-67). -/
def onFloat (v : Arg σ) (k : FloatProg σ → Effect σ Seq) : Effect σ Seq := do
  let n ← v.asFloatForm
  let n ← nonNull n
  k n

/-- `….upperCase()` (appender/DefaultAppender.java:40, 49, 55, 61, 67, 72, 77). -/
def upper (x : Effect σ Seq) : Effect σ Seq := do
  let seq ← x
  .of seq.upperCase

/-- `formatterForSpecifier` (appender/DefaultAppender.java:26-89), applied. -/
def formatterFor (env : DateEnv) (sp : Specifier) (ctx : FormatContext) (v : Arg σ) : Effect σ Seq :=
  match sp with
  | .d => onInt v (d ctx)
  | .u => onInt v (u ctx)
  | .x => onInt v (x ctx)
  | .upperX => upper (onInt v (x ctx))
  | .o => onInt v (o ctx)
  | .f => onFloat v (f ctx)
  | .upperF => upper (onFloat v (f ctx))
  | .e => onFloat v (e ctx)
  | .upperE => upper (onFloat v (e ctx))
  | .g => onFloat v (g ctx)
  | .upperG => upper (onFloat v (g ctx))
  | .a => onFloat v (a ctx)
  | .upperA => upper (onFloat v (a ctx))
  | .s => s ctx v
  | .upperS => upper (s ctx v)
  | .t => t env ctx v
  | .upperT => upper (t env ctx v)
  | .c => c ctx v
  | .p => p ctx v
  | .percent => .of (.ok (Seq.ch (ch! '%')))
  | .n => .of (.ok Seq.empty)

/-- `nextInt` (appender/DefaultAppender.java:91-96). -/
def nextInt (sp : Specifier) : List (Arg σ) → Effect σ (Int × List (Arg σ))
  | [] => .of (.error (.printf (.missingArgument sp.char)))
  | v :: rest => do
    let n ← v.asInt
    return (n, rest)

/-- The `*` width (appender/DefaultAppender.java:101-108). -/
def starWidth (sp : Specifier) (ctx : FormatContext) (args : List (Arg σ)) :
    Effect σ (FormatContext × List (Arg σ)) :=
  if ctx.isPrecedingWidth then do
    let (w, args) ← nextInt sp args
    let ctx ← .of (if w ≥ 0 then ctx.setWidth w else (ctx.addFlag .leftJustify).setWidth (wrap32 (-w)))
    return (ctx, args)
  else .of (.ok (ctx, args))

/-- The `*` precision (appender/DefaultAppender.java:109-112). -/
def starPrecision (sp : Specifier) (ctx : FormatContext) (args : List (Arg σ)) :
    Effect σ (FormatContext × List (Arg σ)) :=
  if ctx.isPrecedingPrecision then do
    let (p, args) ← nextInt sp args
    let ctx ← .of (ctx.setPrecision (if p ≥ 0 then p else UNSET))
    return (ctx, args)
  else .of (.ok (ctx, args))

/-- `Appender.append` (appender/FixedStringAppender.java:20-22, appender/DefaultAppender.java:99-118) up to the call of
the collector. -/
def append (env : DateEnv) : Appender → List (Arg σ) → Effect σ (Seq × List (Arg σ))
  | .fixed value, args => .of (.ok (Seq.wrap value, args))
  | .dflt sp ctx, args => do
    let (ctx, args) ← starWidth sp ctx args
    let (ctx, args) ← starPrecision sp ctx args
    match args with
    | v :: rest => do
      let seq ← formatterFor env sp ctx v
      return (seq, rest)
    | [] => .of (.error (.printf (.missingArgument sp.char)))

/-- The loops of `FastPrintfImpl.format` (FastPrintfImpl.java:84-91, 99-118), for any collector. -/
def run (env : DateEnv) (collect : Seq → Effect σ Unit) : List Appender → List (Arg σ) → Effect σ (List (Arg σ))
  | [], args => .of (.ok args)
  | a :: rest, args => do
    let (seq, args) ← append env a args
    collect seq
    run env collect rest args

/-- `(char) i` (traits/FormatTraits.java:104), and `Seq.wrap(asString())` (line 167): the default methods of
`FormatTraits` on top of the five methods that a class must write itself.  The default `asTemporalAccessor` calls `ref()`
for its message before it throws (line 93). -/
def minimal (asIntForm : Effect σ (Option (IntProg σ))) (asFloatForm : Effect σ (Option (FloatProg σ)))
    (asString : Effect σ (Option JStr)) (asInt : Effect σ Int) (ref : Effect σ (Option RefSlot)) : Arg σ where
  asIntForm := asIntForm
  asFloatForm := asFloatForm
  asTemporal := do
    let _ ← ref
    .of (.error (.printf (.wrongType .noTemporal)))
  asSeq := do
    let text ← asString
    let text ← nonNull text
    .of (.ok (some (Seq.wrap text)))
  asInt := asInt
  asChar := do
    let i ← asInt
    .of (.ok (toChar i))
  ref := ref

/-- The default `isNegative()` (number/NumberForm.java:31-33). -/
def negativeBySignum (signum : Effect σ Int) : Effect σ Bool := do
  let n ← signum
  .of (.ok (n < 0))

end FastPrintf.OwnForms
