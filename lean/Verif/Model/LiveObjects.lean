/-
Objects of a user's own classes whose methods have side effects: `ObjectTraits` with every call of a method of the
object as a step.
-/
import Verif.Model.Live
import Verif.Model.Things

namespace FastPrintf

/-- What `ObjectTraits` (traits/ObjectTraits.java:66-119) finds an object to be, with the methods it calls.
`Calendar.toInstant()` is final and calls `getTimeInMillis()`. -/
inductive LiveBase (σ : Type)
  | plain
  | number (longValue doubleValue : Effect σ (BitVec 64)) (intValue : Effect σ (BitVec 32))
  | date (getTime : Effect σ (BitVec 64)) (toInstant : Effect σ Temporal)
  | calendar (getTimeInMillis : Effect σ (BitVec 64))

/-- An object that `put(Object)` gives to `ObjectTraits`; it is no array (ArgsImpl.java:179-184, 192-227;
traits/ObjectTraits.java:14-125). -/
structure LiveObject (σ : Type) where
  base : LiveBase σ
  text : Effect σ JStr
  id : Identity

namespace LiveObject

variable {σ : Type}

/-- `new PrintfException("%s ...", value)` (PrintfException.java:7-9): `Utils.lenientToString`
(util/Utils.java:133-145) calls `toString()` for the message, and swallows an `Exception` it throws.  (An `Error`
would get through; it is not modelled.) -/
def wrongType {α : Type} (o : LiveObject σ) (why : Refusal) : Effect σ α := fun s =>
  (.error (.printf (.wrongType why)), (o.text s).2)

/-- `ObjectTraits` (traits/ObjectTraits.java:56-124); `asChar()` is the default one
(traits/FormatTraits.java:103-105). -/
def traits (o : LiveObject σ) : Live σ where
  asIntForm := match o.base with
    | .number l _ _ => do let v ← l; return IntForm.ofLong v
    | .date ms _ => do let v ← ms; return IntForm.ofLong v
    | .calendar ms => do let v ← ms; return IntForm.ofLong v
    | .plain => o.wrongType .notANumber
  asFloatForm := match o.base with
    | .number _ d _ => do let v ← d; return FloatForm.ofDouble v
    | .date ms _ => do let v ← ms; return FloatForm.ofDouble (millisToSeconds v)
    | .calendar ms => do let v ← ms; return FloatForm.ofDouble (millisToSeconds v)
    | .plain => o.wrongType .notANumber
  asTemporal := match o.base with
    | .date _ i => i
    | .calendar ms => do let v ← ms; return .stamp (.epochMilli v.toInt)
    | .number l _ _ => do let v ← l; .of (do return .stamp (← longToInstant v.toInt))
    | .plain => o.wrongType .objectToTemporal
  asSeq := do let t ← o.text; return Seq.wrap t
  asInt := match o.base with
    | .number _ _ i => do let v ← i; return v.toInt
    | .date ms _ => do let v ← ms; return millisToInt v
    | .calendar ms => do let v ← ms; return millisToInt v
    | .plain => o.wrongType .objectToInt
  asChar := match o.base with
    | .number _ _ i => do let v ← i; return toChar v.toInt
    | .date ms _ => do let v ← ms; return toChar (millisToInt v)
    | .calendar ms => do let v ← ms; return toChar (millisToInt v)
    | .plain => o.wrongType .objectToInt
  ref := fun s => (o.id.ref, s)

end LiveObject
end FastPrintf
