/-
Objects of a subclass of `BigDecimal`.

`BigDecimal` may be extended, and a subclass may override its public methods.  Here every method that the library calls
is an arbitrary program.  The `BigInteger`s that such methods return are of the JDK's own class (C110 is about others), so
they are numbers; so are the `BigDecimal`s that the library makes itself.
-/
import Verif.Model.OwnBig
import Verif.Model.BigDecimal

namespace FastPrintf.OwnDec

open OwnForms

variable {σ : Type}

/-- The object that `setScale` returned, as far as it is used (number/BigDecimalWrapper.java:70-71, 164); `none` is
`null`. -/
structure Scaled (σ : Type) where
  unscaledValue : Effect σ (Option Int)
  scale : Effect σ Int

/-- The object that `abs()` returned, as far as it is used (number/BigDecimalWrapper.java:70-71, 117-120, 141-142, 151,
158-167, 175).  `compareTo n` is the comparison with `BigDecimal.valueOf(1, n)`, `equalsZero` is `equals(ZERO)`. -/
structure Kept (σ : Type) where
  unscaledValue : Effect σ (Option Int)
  scale : Effect σ Int
  precision : Effect σ Int
  setScale : Int → Effect σ (Option (Scaled σ))
  equalsZero : Effect σ Bool
  compareTo : Int → Effect σ Int
  toString : Effect σ (Option JStr)

/-- A `BigDecimal`, as far as it is used (number/BigDecimalWrapper.java:16-17, traits/BigDecimalTraits.java:17, 27, 32). -/
structure Dec (σ : Type) where
  toBigInteger : Effect σ (Option Int)
  abs : Effect σ (Option (Kept σ))
  signum : Effect σ Int
  toString : Effect σ (Option JStr)
  intValue : Effect σ Int

/-- `scientificLayout0` of a `BigDecimal` with these digits and this scale (number/BigDecimalWrapper.java:36-66). -/
def scientificText (s : JStr) (scale : Int) : Res FloatLayout :=
  if scale = 0 then
    if s.length > 1 then do
      let mant ← BigDecimalWrapper.insertDotAfterFirstChar s
      let n := toRadix 10 (s.length - 1)
      let exp := if s.length < 10 then Seq.wrap (js! "+0" ++ n) else Seq.wrap (js! "+" ++ n)
      return { mantissa := mant, exponent := some exp }
    else .ok { mantissa := Seq.wrap s, exponent := some (Seq.wrap (js! "+00")) }
  else do
    let mant ← if s.length > 1 then BigDecimalWrapper.insertDotAfterFirstChar s else pure (Seq.wrap s)
    return { mantissa := mant, exponent := some (BigDecimalWrapper.exponentSeq (-scale + (s.length - 1))) }

/-- `decimalLayout0` of a `BigDecimal` with these digits and this scale (number/BigDecimalWrapper.java:73-95). -/
def decimalText (s : JStr) (scale : Int) : Res FloatLayout :=
  if scale = 0 then .ok { mantissa := Seq.wrap s, exponent := none }
  else
    let pad := wrap32 (scale - s.length)
    if pad ≥ 0 then do
      let mant := Seq.wrap s
      let mant ← if pad > 0 then (do return mant.prepend (← Seq.repeated (ch! '0') pad)) else pure mant
      return { mantissa := mant.prepend (Seq.wrap (js! "0.")), exponent := none }
    else if wrap32 (-pad) < s.length then do
      let mant := Seq.atom (← Atomic.wrapRange s 0 (wrap32 (-pad)))
      let mant := mant.append (Seq.ch (ch! '.'))
      let mant := mant.append (Seq.atom (← Atomic.wrapRange s (wrap32 (-pad)) s.length))
      return { mantissa := mant, exponent := none }
    else do
      let mant := (Seq.wrap s).append (← Seq.repeated (ch! '0') (wrap32 (-scale)))
      return { mantissa := mant, exponent := none }

/-- `new BigDecimal(u, scale, mc)` with `mc` of precision `p` (number/BigDecimalWrapper.java:151, 167): the rounding is
symmetric.  The digits with their sign, and the scale. -/
def rounded (p u scale : Int) : Res (JStr × Int) := do
  let r ← BigDec.withMathContext p ⟨u.natAbs, scale⟩
  return (if u < 0 then ch! '-' :: r.digits else r.digits, r.scale)

/-- `new MathContext(p)` throws for a negative precision (number/BigDecimalWrapper.java:150, 167). -/
def mathContext (p : Int) : Effect σ Int := .of (if p < 0 then .error .illegalArgument else .ok p)

/-- `decimalLayout0` (number/BigDecimalWrapper.java:69-96). -/
def decimalLayout0 (v : Scaled σ) : Effect σ FloatLayout := do
  let u ← v.unscaledValue
  let scale ← v.scale
  let u ← nonNull u
  .of (decimalText (intToString u) scale)

/-- `decimalLayout` (number/BigDecimalWrapper.java:156-171). -/
def decimalLayout (v : Kept σ) (precision : Int) : Effect σ FloatLayout := do
  let scale ← v.scale
  if scale > precision then do
    let compPrec ← v.precision
    if compPrec ≤ scale then do
      let w ← v.setScale precision
      let w ← nonNull w
      decimalLayout0 w
    else do
      let u ← v.unscaledValue
      let p ← mathContext (wrap32 (compPrec - wrap32 (scale - precision)))
      let u ← nonNull u
      .of (do
        let (s, scale) ← rounded p u scale
        decimalText s scale)
  else decimalLayout0 ⟨v.unscaledValue, v.scale⟩

/-- `scientificLayout` (number/BigDecimalWrapper.java:140-153). -/
def scientificLayout (v : Kept σ) (precision : Int) : Effect σ FloatLayout := do
  let scale ← v.scale
  let origPrec ← v.precision
  let p ← mathContext (if precision > wrap32 (origPrec - 1) then origPrec else wrap32 (precision + 1))
  let u ← v.unscaledValue
  let u ← nonNull u
  .of (do
    let (s, scale) ← rounded p u scale
    scientificText s scale)

/-- The condition of `generalLayout` (number/BigDecimalWrapper.java:117-118). -/
def inPlainRange (v : Kept σ) (precision : Int) : Effect σ Bool := do
  let zero ← v.equalsZero
  if zero then .of (.ok true)
  else do
    let c ← v.compareTo 4
    if c ≥ 0 then do
      let c ← v.compareTo (wrap32 (-precision))
      .of (.ok (decide (c < 0)))
    else .of (.ok false)

/-- `generalLayout` (number/BigDecimalWrapper.java:114-137). -/
def generalLayout (v : Kept σ) (precision : Int) : Effect σ FloatLayout := do
  let plain ← inPlainRange v precision
  if plain then do
    let scale ← v.scale
    let u ← v.unscaledValue
    let u ← nonNull u
    let e := wrap32 (wrap32 (-scale) + ((intToString u).length - 1))
    decimalLayout v (wrap32 (precision - e - 1))
  else scientificLayout v (wrap32 (precision - 1))

/-- A method of the field `value`, which may be `null` (number/BigDecimalWrapper.java:117, 141, 158). -/
def onKept (value : Option (Kept σ)) (k : Kept σ → Effect σ FloatLayout) : Effect σ (Option FloatLayout) := do
  let v ← nonNull value
  let layout ← k v
  .of (.ok (some layout))

/-- `lenientToString(value)` (util/Utils.java:133-145) for the message: an exception of `toString()` is caught, and the
text goes into the message only. -/
def quoted (value : Option (Kept σ)) : Effect σ Unit :=
  match value with
  | none => .of (.ok ())
  | some v => fun s => (.ok (), (v.toString s).2)

/-- A `BigDecimalWrapper` with its two fields (number/BigDecimalWrapper.java:10-176); `isNegative` is the default method
(number/NumberForm.java:31-33). -/
def form (value : Option (Kept σ)) (signum : Int) : FloatProg σ where
  isNaN := .of (.ok false)
  isInfinite := .of (.ok false)
  isNegative := .of (.ok (decide (signum < 0)))
  signum := .of (.ok signum)
  generalLayout p := onKept value (generalLayout · p)
  scientificLayout p := onKept value (scientificLayout · p)
  decimalLayout p := onKept value (decimalLayout · p)
  hexLayout _ := do
    quoted value
    .of (.error (.printf (.wrongType .bigDecimalHex)))

/-- The constructor of `BigDecimalWrapper` (number/BigDecimalWrapper.java:15-18). -/
def wrapper (v : Dec σ) : Effect σ (Option (FloatProg σ)) := do
  let value ← v.abs
  let signum ← v.signum
  .of (.ok (some (form value signum)))

/-- The `BigInteger` that `abs()` of a JDK number gives (number/BigIntegerWrapper.java:12). -/
def jdkKept (n : Int) : OwnBig.Kept σ where
  toString := .of (.ok (some (toRadix 10 n.natAbs)))
  toStringRadix r := .of (.ok (some (toRadix r n.natAbs)))

/-- `BigDecimalTraits` (traits/BigDecimalTraits.java:7-39); the other methods are the default ones
(traits/FormatTraits.java:91-105, 166-168). -/
def traits (v : Dec σ) (ref : RefSlot) : Arg σ :=
  minimal
    (asIntForm := do
      let n ← v.toBigInteger
      let n ← nonNull n
      .of (.ok (some (OwnBig.form (some (jdkKept n)) (signumOf n)))))
    (asFloatForm := wrapper v)
    (asString := v.toString)
    (asInt := v.intValue)
    (ref := .of (.ok (some ref)))

end FastPrintf.OwnDec
