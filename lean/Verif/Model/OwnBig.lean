/-
Objects of a subclass of `BigInteger`.

`BigInteger` may be extended, and a subclass may override its public methods.  Here every method that the library calls
is an arbitrary program.  The floating-point conversions hand the object to the JDK (`new BigDecimal(value, 0)`,
traits/BigIntegerTraits.java:25); what they get from there is a parameter.
-/
import Verif.Model.OwnForms

namespace FastPrintf.OwnBig

open OwnForms

variable {σ : Type}

/-- The object that `abs()` returned, as far as it is used (number/BigIntegerWrapper.java:12, 23, 29, 35, 41, 55). -/
structure Kept (σ : Type) where
  toString : Effect σ (Option JStr)
  toStringRadix : Nat → Effect σ (Option JStr)

/-- A `BigInteger`, as far as it is used (number/BigIntegerWrapper.java:12-13, traits/BigIntegerTraits.java:30, 35, 40);
`none` is `null`. -/
structure Big (σ : Type) where
  abs : Effect σ (Option (Kept σ))
  signum : Effect σ Int
  toString : Effect σ (Option JStr)
  intValue : Effect σ Int
  longValue : Effect σ Int

/-- A method of the field `value`, which may be `null` (number/BigIntegerWrapper.java:23, 29, 35, 41). -/
def onKept (value : Option (Kept σ)) (k : Kept σ → Effect σ (Option JStr)) : Effect σ (Option JStr) := do
  let v ← nonNull value
  k v

/-- `lenientToString(value)` (util/Utils.java:133-145) for the message: an exception of `toString()` is caught, and the
text goes into the message only. -/
def quoted (value : Option (Kept σ)) : Effect σ Unit :=
  match value with
  | none => .of (.ok ())
  | some v => fun s => (.ok (), (v.toString s).2)

/-- `ensureNonNegative()` and then the text (number/BigIntegerWrapper.java:27-42, 53-57). -/
def nonNegative (value : Option (Kept σ)) (signum : Int) (k : Kept σ → Effect σ (Option JStr)) :
    Effect σ (Option JStr) :=
  if signum < 0 then do
    quoted value
    .of (.error (.printf (.wrongType .negativeUnsigned)))
  else onKept value k

/-- A `BigIntegerWrapper` with its two fields (number/BigIntegerWrapper.java:6-58). -/
def form (value : Option (Kept σ)) (signum : Int) : IntProg σ where
  signum := .of (.ok signum)
  toDecimalString := onKept value (·.toString)
  toHexString := nonNegative value signum (·.toStringRadix 16)
  toOctalString := nonNegative value signum (·.toStringRadix 8)
  toUnsignedDecimalString := nonNegative value signum (·.toString)

/-- The constructor of `BigIntegerWrapper` (number/BigIntegerWrapper.java:11-14). -/
def wrapper (v : Big σ) : Effect σ (Option (IntProg σ)) := do
  let value ← v.abs
  let signum ← v.signum
  .of (.ok (some (form value signum)))

/-- `BigIntegerTraits` (traits/BigIntegerTraits.java:10-47); `asChar` and `asSeq` are the default methods
(traits/FormatTraits.java:103-105, 166-168). -/
def traits (v : Big σ) (float : Effect σ (Option (FloatProg σ))) (ref : RefSlot) : Arg σ where
  asIntForm := wrapper v
  asFloatForm := float
  asTemporal := do
    let n ← v.longValue
    .of (do return some (.stamp (← longToInstant n)))
  asSeq := do
    let text ← v.toString
    let text ← nonNull text
    .of (.ok (some (Seq.wrap text)))
  asInt := v.intValue
  asChar := do
    let i ← v.intValue
    .of (.ok (toChar i))
  ref := .of (.ok (some ref))

end FastPrintf.OwnBig
