/-
The same code with the lengths as Java keeps them: in `int` fields that wrap around.

`Model/Seq` and `Model/SeqFormatter` add lengths as unbounded integers.  A rope can be longer than an `int`
counts without taking memory: `Seq.repeated('0', 2147483647)` is one object, and `%f` of the twelve characters
`1E2147483647` builds it.  Here every operation that adds or subtracts lengths is given again with the `int`
arithmetic of the source; the operations that only read a stored length (`charAt`, `subSequence`,
`appendTo`) are those of `Model/Seq`.  `Props/IntLengths` proves that the two agree as long as the result
fits in an `int`.
-/
import Verif.Model.Engine
import Verif.Model.BigDecimal
import Verif.Model.Args

namespace FastPrintf

namespace Narrow

open FormatContext BigDec

/-- `Concat.concat0` (seq/Concat.java:75-78): both sums are `int` sums. -/
def concat0 (l r : Seq) : Seq :=
  .concat l r (wrap32 (l.length + r.length)) (wrap32 (l.elementCount + r.elementCount))

/-- `Concat.concat` (seq/Concat.java:65-73). -/
def mkConcat (l r : Seq) : Seq :=
  match l with
  | .concat ll lr _ _ => concat0 ll (concat0 lr r)
  | _ => concat0 l r

/-- `prepend` (seq/Seq.java:275-278, seq/Concat.java:93-96, seq/EmptySeq.java:12-14). -/
def prepend (self s : Seq) : Seq :=
  match self with
  | .atom .empty => s
  | _ => if s.isEmpty then self else mkConcat s self

/-- `append` (seq/Seq.java:286-289, seq/Concat.java:99-102, seq/EmptySeq.java:17-19). -/
def append (self s : Seq) : Seq :=
  match self with
  | .atom .empty => s
  | _ => if s.isEmpty then self else mkConcat self s

/-- The loop of `Seq.join` (seq/Seq.java:260-264). -/
def totalLength : List Atomic → Int → Int
  | [], total => total
  | a :: rest, total => totalLength rest (wrap32 (total + a.length))

/-- `Seq.join` (seq/Seq.java:252-267). -/
def join (l : List Atomic) : Seq :=
  match l with
  | [] => Seq.empty
  | [a] => .atom a
  | l => .array l (totalLength l 0)

/-- The loop of `AtomicSeqIterable.indexOf` (seq/AtomicSeqIterable.java:112-120). -/
def indexOfLoop (c : JChar) : List Atomic → Int → Res Int
  | [], _ => .ok (-1)
  | a :: rest, currentLength => do
    let index ← a.indexOf c
    if index ≠ -1 then return wrap32 (index + currentLength)
    indexOfLoop c rest (wrap32 (currentLength + a.length))

/-- `indexOf` (seq/AtomicSeqIterable.java:111-121; leaves: their own). -/
def indexOf : Seq → JChar → Res Int
  | .atom a, c => a.indexOf c
  | s, c => do indexOfLoop c (← s.leaves) 0

/-- `upperCase` (seq/AtomicSeqIterable.java:130-136; `SeqArray` and the leaves have their own): the capacity
given to `new ArrayList` is the stored leaf count, and a negative one is refused. -/
def upperCase : Seq → Res Seq
  | .concat l r n k => if k < 0 then .error .illegalArgument else (Seq.concat l r n k).upperCase
  | s => s.upperCase

/-- `spaceJustify` (appender/SeqFormatter.java:32-44). -/
def spaceJustify (ctx : FormatContext) (v0 : Seq) : Res Seq :=
  if SeqFormatter.width ctx > v0.length then do
    let pad ← Seq.repeated (ch! ' ') (wrap32 (SeqFormatter.width ctx - v0.length))
    if ctx.hasFlag .leftJustify then return append v0 pad else return prepend v0 pad
  else .ok v0

/-- `sign` (appender/SeqFormatter.java:46-55). -/
def sign (ctx : FormatContext) (v0 : Seq) (negative : Bool) : Seq :=
  if negative then prepend v0 (Seq.ch (ch! '-'))
  else if ctx.hasFlag .plus then prepend v0 (Seq.ch (ch! '+'))
  else if ctx.hasFlag .leadingSpace then prepend v0 (Seq.ch (ch! ' '))
  else v0

/-- The zero padding (appender/SeqFormatter.java:66-69, 91-94, 132-135). -/
def zeroFill (n : Int) (v0 : Seq) : Res Seq :=
  if n > v0.length then do
    let pad ← Seq.repeated (ch! '0') (wrap32 (n - v0.length))
    return prepend v0 pad
  else .ok v0

/-- `signAndJustify` (appender/SeqFormatter.java:57-71). -/
def signAndJustify (ctx : FormatContext) (v0 : Seq) (negative : Bool) : Res Seq :=
  if !ctx.hasFlag .zeroPad || ctx.hasFlag .leftJustify then
    spaceJustify ctx (sign ctx v0 negative)
  else do
    let w := if negative || ctx.hasFlag .plus || ctx.hasFlag .leadingSpace then SeqFormatter.width ctx - 1
      else SeqFormatter.width ctx
    let v1 ← zeroFill w v0
    return sign ctx v1 negative

/-- `d` (appender/SeqFormatter.java:73-97). -/
def d (ctx : FormatContext) (value : IntForm) : Res Seq :=
  if value.signum = 0 ∧ ctx.precision = 0 then
    spaceJustify ctx (if ctx.hasFlag .plus then Seq.ch (ch! '+') else Seq.empty)
  else do
    let v0 := Seq.wrap (← value.toDecimalString)
    let v1 ← zeroFill (SeqFormatter.dPrecision ctx value.signum) v0
    spaceJustify ctx (sign ctx v1 (value.signum < 0))

/-- `formatUnsignedInteger` (appender/SeqFormatter.java:111-140). -/
def formatUnsignedInteger (ctx : FormatContext) (signum : Int) (toStr : Res JStr) (pre : JStr) :
    Res Seq :=
  if signum = 0 ∧ ctx.precision = 0 then spaceJustify ctx Seq.empty
  else do
    let v0 := Seq.wrap (← toStr)
    let v1 ← zeroFill (SeqFormatter.uPrecision ctx pre) v0
    let v2 := if signum ≠ 0 ∧ ctx.hasFlag .alternate then prepend v1 (Seq.wrap pre) else v1
    spaceJustify ctx v2

/-- `o`, `x`, `u` (appender/SeqFormatter.java:99-109). -/
def o (ctx : FormatContext) (v : IntForm) : Res Seq :=
  formatUnsignedInteger ctx v.signum v.toOctalString (js! "0")
@[inherit_doc o]
def x (ctx : FormatContext) (v : IntForm) : Res Seq :=
  formatUnsignedInteger ctx v.signum v.toHexString (js! "0x")
@[inherit_doc o]
def u (ctx : FormatContext) (v : IntForm) : Res Seq :=
  formatUnsignedInteger ctx v.signum v.toUnsignedDecimalString []

/-- `nanOrInfinity` (appender/SeqFormatter.java:142-157). -/
def nanOrInfinity (ctx : FormatContext) (v : FloatForm) : Res Seq :=
  spaceJustify ctx
    (if v.isNaN then Seq.wrap (js! "NaN")
     else if v.signum < 0 then Seq.wrap (js! "-Infinity")
     else if ctx.hasFlag .plus then Seq.wrap (js! "+Infinity")
     else Seq.wrap (js! "Infinity"))

/-- `formatFractionalPart` (appender/SeqFormatter.java:173-192). -/
def formatFractionalPart (mantissa : Seq) (precision : Int) (reserveDot : Bool) : Res Seq := do
  let dot ← indexOf mantissa (ch! '.')
  if precision = 0 ∧ dot = -1 then
    return if reserveDot then append mantissa (Seq.ch (ch! '.')) else mantissa
  let outPrecision := if dot ≥ 0 then wrap32 (mantissa.length - wrap32 (dot + 1)) else 0
  if outPrecision ≥ precision then return mantissa
  let mantissa := if dot < 0 then append mantissa (Seq.ch (ch! '.')) else mantissa
  return append mantissa (← Seq.repeated (ch! '0') (wrap32 (precision - outPrecision)))

/-- `f` (appender/SeqFormatter.java:159-171). -/
def f (ctx : FormatContext) (v : FloatForm) : Res Seq :=
  if v.isNaN || v.isInfinite then nanOrInfinity ctx v
  else do
    let layout ← v.decimalLayout (SeqFormatter.precision6 ctx)
    let mantissa ← formatFractionalPart layout.mantissa (SeqFormatter.precision6 ctx) (ctx.hasFlag .alternate)
    signAndJustify ctx mantissa v.isNegative

/-- `v0.append(layout.getExponent())` (appender/SeqFormatter.java:205, 273, 321). -/
def appendExponent (v0 : Seq) : Option Seq → Res Seq
  | some e => .ok (append v0 e)
  | none => .error .nullPointer

/-- `e` (appender/SeqFormatter.java:194-207). -/
def e (ctx : FormatContext) (v : FloatForm) : Res Seq :=
  if v.isNaN || v.isInfinite then nanOrInfinity ctx v
  else do
    let layout ← v.scientificLayout (SeqFormatter.precision6 ctx)
    let v0 ← formatFractionalPart layout.mantissa (SeqFormatter.precision6 ctx) (ctx.hasFlag .alternate)
    let v2 ← appendExponent (append v0 (Seq.ch (ch! 'e'))) layout.exponent
    signAndJustify ctx v2 v.isNegative

/-- `stripTrailingZeros` (appender/SeqFormatter.java:210-228). -/
def stripTrailingZeros (m : Seq) : Res Seq := do
  let dot ← indexOf m (ch! '.')
  if dot = -1 then return m
  let lastCharIndex := wrap32 (m.length - 1)
  let last ← SeqFormatter.stripLoop m dot (lastCharIndex - dot).toNat lastCharIndex
  let last := if last = dot then last - 1 else last
  m.subSequence 0 (last + 1)

/-- `padToPrecision` (appender/SeqFormatter.java:231-256). -/
def padToPrecision (m : Seq) (precision : Int) : Res Seq := do
  let (sig0, seen) ← SeqFormatter.countLoop m m.length.toNat 0 0 false
  let zero ← indexOf m (ch! '0')
  let sig := if !seen && zero != -1 then 1 else sig0
  let zerosToPad := wrap32 (precision - sig)
  let dot ← indexOf m (ch! '.')
  let m := if dot = -1 then append m (Seq.ch (ch! '.')) else m
  if zerosToPad > 0 then return append m (← Seq.repeated (ch! '0') zerosToPad) else return m

/-- `formatGDecimal` (appender/SeqFormatter.java:259-265). -/
def formatGDecimal (ctx : FormatContext) (layout : FloatLayout) (precision : Int) : Res Seq :=
  if ctx.hasFlag .alternate then padToPrecision layout.mantissa precision
  else stripTrailingZeros layout.mantissa

/-- `formatGScientific` (appender/SeqFormatter.java:268-274). -/
def formatGScientific (ctx : FormatContext) (mantissa exponent : Seq) : Res Seq := do
  let mantissa ← if ctx.hasFlag .alternate then pure mantissa else stripTrailingZeros mantissa
  return append (append mantissa (Seq.ch (ch! 'e'))) exponent

/-- `g` (appender/SeqFormatter.java:276-301). -/
def g (ctx : FormatContext) (v : FloatForm) : Res Seq :=
  if v.isNaN || v.isInfinite then nanOrInfinity ctx v
  else do
    let layout ← v.generalLayout (SeqFormatter.gPrecision ctx)
    let v0 ← match layout.exponent with
      | none => formatGDecimal ctx layout (SeqFormatter.gPrecision ctx)
      | some ex => formatGScientific ctx layout.mantissa ex
    signAndJustify ctx v0 v.isNegative

/-- The end of `a` (appender/SeqFormatter.java:322-337). -/
def aJustify (ctx : FormatContext) (v0 : Seq) (negative : Bool) : Res Seq :=
  if ctx.hasFlag .zeroPad && !ctx.hasFlag .leftJustify then do
    let w := if negative || ctx.hasFlag .plus || ctx.hasFlag .leadingSpace then ctx.width - 2 - 1
      else ctx.width - 2
    let v1 ← if w > v0.length then
        (do return append (← Seq.repeated (ch! '0') (wrap32 (w - v0.length))) v0)
      else pure v0
    return sign ctx (prepend v1 (Seq.wrap (js! "0x"))) negative
  else spaceJustify ctx (sign ctx (prepend v0 (Seq.wrap (js! "0x"))) negative)

/-- `a` (appender/SeqFormatter.java:303-338). -/
def a (ctx : FormatContext) (v : FloatForm) : Res Seq :=
  if v.isNaN || v.isInfinite then nanOrInfinity ctx v
  else do
    let layout ← v.hexLayout (SeqFormatter.aPrecision ctx)
    let v0 ← if ctx.isPrecisionSet then
        formatFractionalPart layout.mantissa (SeqFormatter.aPrecision ctx) (ctx.hasFlag .alternate)
      else pure layout.mantissa
    let v2 ← appendExponent (append v0 (Seq.ch (ch! 'p'))) layout.exponent
    aJustify ctx v2 (v.signum < 0)

/-- `c` (appender/SeqFormatter.java:340-342). -/
def c (ctx : FormatContext) (v : Traits) : Res Seq := do
  spaceJustify ctx (Seq.ch (← v.asChar))

/-- `s` (appender/SeqFormatter.java:344-351). -/
def s (ctx : FormatContext) (v : Traits) : Res Seq := do
  let seq ← v.asSeq
  if ctx.isPrecisionSet && ctx.precision < seq.length then
    spaceJustify ctx (← seq.subSequence 0 ctx.precision)
  else spaceJustify ctx seq

/-- `p` (appender/SeqFormatter.java:353-373). -/
def p (ctx : FormatContext) (v : Traits) : Res Seq :=
  match v.ref with
  | .primitive => .error (.printf .primitivePointer)
  | .null => spaceJustify ctx (Seq.wrap (js! "null"))
  | .object name hash =>
    let seq := Seq.wrap (toRadix 16 hash.toNat)
    let seq := prepend seq (Seq.ch (ch! '@'))
    let seq := prepend seq (Seq.wrap name)
    spaceJustify ctx seq

/-- `t` (appender/SeqFormatter.java:388-402). -/
def t (env : DateEnv) (ctx : FormatContext) (v : Traits) : Res Seq := do
  let ta ← v.asTemporal
  let (fmt, ta) ← SeqFormatter.chooseFormatter ctx ta
  spaceJustify ctx (Seq.wrap (← env.format fmt ta))

/-- `insertDotAfterFirstChar` (number/BigDecimalWrapper.java:25-31). -/
def insertDotAfterFirstChar (s : JStr) : Res Seq := do
  let mant := Seq.ch (← charAtRaw s 0)
  let mant := append mant (Seq.ch (ch! '.'))
  return append mant (Seq.atom (← Atomic.wrapRange s 1 s.length))

/-- The exponent text (number/BigDecimalWrapper.java:53-64). -/
def exponentSeq (adjusted : Int) : Seq :=
  if adjusted ≠ 0 then
    let exp := Seq.ch (if adjusted < 0 then ch! '-' else ch! '+')
    let exp := if adjusted.natAbs < 10 then append exp (Seq.ch (ch! '0')) else exp
    append exp (Seq.wrap (toRadix 10 adjusted.natAbs))
  else Seq.wrap (js! "+00")

/-- `scientificLayout0` (number/BigDecimalWrapper.java:33-67). -/
def scientificLayout0 (v : BigDec) : Res FloatLayout :=
  let s := v.digits
  if v.scale = 0 then
    if s.length > 1 then do
      let mant ← insertDotAfterFirstChar s
      let n := toRadix 10 (s.length - 1)
      let exp := if s.length < 10 then Seq.wrap (js! "+0" ++ n) else Seq.wrap (js! "+" ++ n)
      return { mantissa := mant, exponent := some exp }
    else .ok { mantissa := Seq.wrap s, exponent := some (Seq.wrap (js! "+00")) }
  else do
    let mant ← if s.length > 1 then insertDotAfterFirstChar s else pure (Seq.wrap s)
    return { mantissa := mant, exponent := some (exponentSeq (-v.scale + (s.length - 1))) }

/-- `decimalLayout0` (number/BigDecimalWrapper.java:69-96). -/
def decimalLayout0 (v : BigDec) : Res FloatLayout :=
  let s := v.digits
  if v.scale = 0 then .ok { mantissa := Seq.wrap s, exponent := none }
  else
    let pad := wrap32 (v.scale - s.length)
    if pad ≥ 0 then do
      let mant := Seq.wrap s
      let mant ← if pad > 0 then (do return prepend mant (← Seq.repeated (ch! '0') pad)) else pure mant
      return { mantissa := prepend mant (Seq.wrap (js! "0.")), exponent := none }
    else if wrap32 (-pad) < s.length then do
      let mant := Seq.atom (← Atomic.wrapRange s 0 (wrap32 (-pad)))
      let mant := append mant (Seq.ch (ch! '.'))
      let mant := append mant (Seq.atom (← Atomic.wrapRange s (wrap32 (-pad)) s.length))
      return { mantissa := mant, exponent := none }
    else do
      let mant := append (Seq.wrap s) (← Seq.repeated (ch! '0') (wrap32 (-v.scale)))
      return { mantissa := mant, exponent := none }

/-- `scientificLayout` (number/BigDecimalWrapper.java:140-153). -/
def scientificLayout (v : BigDec) (precision : Int) : Res FloatLayout := do
  let origPrec : Int := v.precision
  let compPrec := if precision > origPrec - 1 then origPrec else precision + 1
  scientificLayout0 (← withMathContext compPrec v)

/-- `decimalLayout` (number/BigDecimalWrapper.java:156-171). -/
def decimalLayout (v : BigDec) (precision : Int) : Res FloatLayout :=
  if v.scale > precision then
    if (v.precision : Int) ≤ v.scale then decimalLayout0 (v.setScaleDown precision)
    else do decimalLayout0 (← withMathContext (v.precision - (v.scale - precision)) v)
  else decimalLayout0 v

/-- `generalLayout` (number/BigDecimalWrapper.java:114-137). -/
def generalLayout (v : BigDec) (precision : Int) : Res FloatLayout :=
  if (v.unscaled = 0 ∧ v.scale = 0) ∨ (v.geTenPow (-4) ∧ ¬ v.geTenPow precision) then
    let e := wrap32 (wrap32 (-v.scale) + (v.digits.length - 1))
    decimalLayout v (wrap32 (precision - e - 1))
  else scientificLayout v (precision - 1)

/-- `FloatForm.valueOf(BigDecimal)` and `BigDecimalWrapper(BigInteger, int)`
(number/BigDecimalWrapper.java:15-23, 99-111, 174-176). -/
def ofBigDecimal (unscaled scale : Int) : FloatForm :=
  { FloatForm.ofBigDecimal unscaled scale with
    generalLayout := generalLayout ⟨unscaled.natAbs, scale⟩
    scientificLayout := scientificLayout ⟨unscaled.natAbs, scale⟩
    decimalLayout := decimalLayout ⟨unscaled.natAbs, scale⟩ }

/-- `formatterForSpecifier` (appender/DefaultAppender.java:26-89). -/
def formatterFor (env : DateEnv) (sp : Specifier) (ctx : FormatContext) (v : Traits) : Res Seq :=
  match sp with
  | .d => do d ctx (← v.asIntForm)
  | .u => do u ctx (← v.asIntForm)
  | .x => do x ctx (← v.asIntForm)
  | .upperX => do upperCase (← x ctx (← v.asIntForm))
  | .o => do o ctx (← v.asIntForm)
  | .f => do f ctx (← v.asFloatForm)
  | .upperF => do upperCase (← f ctx (← v.asFloatForm))
  | .e => do e ctx (← v.asFloatForm)
  | .upperE => do upperCase (← e ctx (← v.asFloatForm))
  | .g => do g ctx (← v.asFloatForm)
  | .upperG => do upperCase (← g ctx (← v.asFloatForm))
  | .a => do a ctx (← v.asFloatForm)
  | .upperA => do upperCase (← a ctx (← v.asFloatForm))
  | .s => s ctx v
  | .upperS => do upperCase (← s ctx v)
  | .t => t env ctx v
  | .upperT => do upperCase (← t env ctx v)
  | .c => c ctx v
  | .p => p ctx v
  | .percent => .ok (Seq.ch (ch! '%'))
  | .n => .ok Seq.empty

/-- `FormatTraits` of an entry: `Entry.toTraits`, with the layouts of `BigInteger`s and `BigDecimal`s from here
(traits/BigIntegerTraits.java, traits/BigDecimalTraits.java; the other classes lay out leaves only). -/
def toTraits (jdk : JdkEnv) (e : Entry) : Traits :=
  match e with
  | .ref (.bigInteger v _) => { e.toTraits jdk with asFloatForm := .ok (ofBigDecimal v 0) }
  | .ref (.bigDecimal u s _) => { e.toTraits jdk with asFloatForm := .ok (ofBigDecimal u s) }
  | e => e.toTraits jdk

/-- `append` (appender/DefaultAppender.java:99-118). -/
def appendDefault (env : DateEnv) (sp : Specifier) (ctx : FormatContext) (args : List Traits) :
    Res (Seq × List Traits) := do
  let (ctx, args) ← DefaultAppender.starWidth sp ctx args
  let (ctx, args) ← DefaultAppender.starPrecision sp ctx args
  match args with
  | v :: rest => return (← formatterFor env sp ctx v, rest)
  | [] => .error (.printf (.missingArgument sp.char))

/-- `Appender.append` (appender/FixedStringAppender.java:16, 20-22; appender/DefaultAppender.java:99-118). -/
def appendOne (env : DateEnv) : Appender → List Traits → Res (Seq × List Traits)
  | .fixed value, args => .ok (Seq.wrap value, args)
  | .dflt sp ctx, args => appendDefault env sp ctx args

/-- The loop of `format(Args)` (FastPrintfImpl.java:84-91).  `appendTo(StringBuilder)` asks for the capacity
`sb.length() + length()`, which a builder ignores when it is negative. -/
def runSB (env : DateEnv) : List Appender → List Traits → JStr → Outcome JStr
  | [], args, sb => ⟨sb, .ok args⟩
  | a :: rest, args, sb =>
    match appendOne env a args with
    | .error e => ⟨sb, .error e⟩
    | .ok (seq, args) =>
      match seq.appendToSB sb with
      | .error e => ⟨seq.leftInSB sb, .error e⟩
      | .ok sb => runSB env rest args sb

/-- `FastPrintf.compile(format).format(args)` (FastPrintfImpl.java:68-91). -/
def printf (dates : DateSyntax) (env : DateEnv) (format : JStr) (args : List Traits) : Res JStr := do
  match runSB env (← Compiler.compile dates format) args [] with
  | ⟨_, .error e⟩ => .error e
  | ⟨sb, .ok _⟩ => .ok sb

end Narrow
end FastPrintf
