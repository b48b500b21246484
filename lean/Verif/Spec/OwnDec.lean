/-
Objects of a subclass of `BigDecimal`: which methods are called, in which order, and what is printed.
-/
import Verif.Model.OwnDec
import Verif.Spec.BigDecimal
import Verif.Spec.Decimal
import Verif.Spec.OwnForms
import Verif.Spec.Readings

namespace FastPrintf.Spec

variable {σ : Type}

/-- The methods of a `BigDecimal` that a directive may call: of the argument, of the object that `abs()` gave, and of the
object that `setScale` gave. -/
inductive DecAsked
  | toBigInteger | abs | signum | toString | intValue
  | unscaledValue | scale | precision | setScale (n : Int) | equalsZero | compareTo (n : Int) | keptToString
  | scaledUnscaledValue (n : Int) | scaledScale (n : Int)
  deriving DecidableEq, Repr

/-- What `setScale` gives: an object that answers the same way every time. -/
structure ScaledTold where
  unscaled : Res (Option Int)
  scale : Res Int

/-- What `abs()` gives: an object that answers the same way every time. -/
structure DecKeptTold where
  unscaled : Res (Option Int)
  scale : Res Int
  precision : Res Int
  setScale : Int → Res (Option ScaledTold)
  zero : Res Bool
  compare : Int → Res Int
  text : Res (Option JStr)

/-- A `BigDecimal` that answers each method the same way every time: it returns a value, returns `null`, or throws. -/
structure DecTold where
  integer : Res (Option Int)
  abs : Res (Option DecKeptTold)
  signum : Res Int
  text : Res (Option JStr)
  int : Res Int

/-- A method that notes that it has been called. -/
def decNoting {α : Type} (c : DecAsked) (r : Res α) : Effect (List DecAsked) α := fun log => (r, log ++ [c])

/-- The object that `setScale n` gave, with every call noted. -/
def ScaledTold.noted (n : Int) (v : ScaledTold) : OwnDec.Scaled (List DecAsked) where
  unscaledValue := decNoting (.scaledUnscaledValue n) v.unscaled
  scale := decNoting (.scaledScale n) v.scale

/-- The object with every call noted. -/
def DecKeptTold.noted (v : DecKeptTold) : OwnDec.Kept (List DecAsked) where
  unscaledValue := decNoting .unscaledValue v.unscaled
  scale := decNoting .scale v.scale
  precision := decNoting .precision v.precision
  setScale n := decNoting (.setScale n) ((v.setScale n).map (Option.map (ScaledTold.noted n)))
  equalsZero := decNoting .equalsZero v.zero
  compareTo n := decNoting (.compareTo n) (v.compare n)
  toString := decNoting .keptToString v.text

/-- The object with every call noted. -/
def DecTold.noted (v : DecTold) : OwnDec.Dec (List DecAsked) where
  toBigInteger := decNoting .toBigInteger v.integer
  abs := decNoting .abs (v.abs.map (Option.map DecKeptTold.noted))
  signum := decNoting .signum v.signum
  toString := decNoting .toString v.text
  intValue := decNoting .intValue v.int

/-- A call, and what comes after it if the answer is not an exception. -/
def thenAsk {α : Type} (c : DecAsked) (answer : Res α) (rest : α → List DecAsked) : List DecAsked :=
  c ::
    match answer with
    | .ok a => rest a
    | .error _ => []

/-- The same if the answer is not `null` either. -/
def thenAskSome {α : Type} (c : DecAsked) (answer : Res (Option α)) (rest : α → List DecAsked) : List DecAsked :=
  thenAsk c answer fun
    | some a => rest a
    | none => []

/-- The calls of `decimalLayout(p)`. -/
def decimalCalls (v : DecKeptTold) (p : Int) : List DecAsked :=
  thenAsk .scale v.scale fun s =>
    if s ≤ p then thenAsk .unscaledValue v.unscaled fun _ => [.scale]
    else thenAsk .precision v.precision fun n =>
      if n ≤ s then thenAskSome (.setScale p) (v.setScale p) fun w =>
        thenAsk (.scaledUnscaledValue p) w.unscaled fun _ => [.scaledScale p]
      else [.unscaledValue]

/-- The calls of `scientificLayout(p)`, for a precision `p` from 0 on: an object that says its precision is negative is not
asked for its digits (the `int` `n - 1` may overflow). -/
def scientificCalls (v : DecKeptTold) (p : Int) : List DecAsked :=
  thenAsk .scale v.scale fun _ => thenAsk .precision v.precision fun n =>
    if n < 0 ∧ wrap32 (n - 1) < p then [] else [.unscaledValue]

/-- The number of characters of an integer in decimal, less one, and less the scale: the exponent in the scientific
notation of a number that is not negative.  The `int` result of the library. -/
def exponentAsInt (u s : Int) : Int := wrap32 ((intToString u).length - 1 - s)

/-- The calls of `generalLayout(p)`, for a precision `p` of at least 1. -/
def generalCalls (v : DecKeptTold) (p : Int) : List DecAsked :=
  let plain : List DecAsked :=
    thenAsk .scale v.scale fun s => thenAskSome .unscaledValue v.unscaled fun u =>
      decimalCalls v (wrap32 (p - exponentAsInt u s - 1))
  thenAsk .equalsZero v.zero fun z =>
    if z then plain
    else thenAsk (.compareTo 4) (v.compare 4) fun c =>
      if c < 0 then scientificCalls v (p - 1)
      else thenAsk (.compareTo (-p)) (v.compare (-p)) fun d =>
        if d < 0 then plain else scientificCalls v (p - 1)

/-- The calls of a floating-point conversion: the object that `abs()` gives is asked for the layout. -/
def layoutCalls (v : DecTold) (rest : DecKeptTold → List DecAsked) : List DecAsked :=
  thenAsk .abs v.abs fun kept => thenAsk .signum v.signum fun _ =>
    match kept with
    | some k => rest k
    | none => []

/-- The calls of a directive. -/
def decAsked (sp : Specifier) (precision : Int) (v : DecTold) : List DecAsked :=
  match sp with
  | .d | .u | .x | .upperX | .o => [.toBigInteger]
  | .f | .upperF => layoutCalls v (decimalCalls · (askedPrecision 6 0 precision))
  | .e | .upperE => layoutCalls v (scientificCalls · (askedPrecision 6 0 precision))
  | .g | .upperG => layoutCalls v (generalCalls · (askedPrecision 6 1 precision))
  | .a | .upperA => layoutCalls v fun _ => [.keptToString]
  | .s | .upperS => [.toString]
  | .c => [.intValue]
  | .t | .upperT | .p | .percent | .n => []

/-- The exception in an answer. -/
def thrownBy {α : Type} : Res α → Option Err
  | .error e => some e
  | .ok _ => none

/-- The exception of the object that `setScale n` gave. -/
def DecKeptTold.scaledThrows (v : DecKeptTold) (k : ScaledTold → Option Err) (n : Int) : Option Err :=
  match v.setScale n with
  | .ok (some w) => k w
  | _ => none

/-- The exception that a method of the object that `abs()` gave throws.  The texts for messages are not among them. -/
def DecKeptTold.throws (v : DecKeptTold) : DecAsked → Option Err
  | .unscaledValue => thrownBy v.unscaled
  | .scale => thrownBy v.scale
  | .precision => thrownBy v.precision
  | .setScale n => thrownBy (v.setScale n)
  | .equalsZero => thrownBy v.zero
  | .compareTo n => thrownBy (v.compare n)
  | .scaledUnscaledValue n => v.scaledThrows (thrownBy ·.unscaled) n
  | .scaledScale n => v.scaledThrows (thrownBy ·.scale) n
  | _ => none

/-- The exception that a method throws, of the argument or of what `abs()` gave. -/
def DecTold.throws (v : DecTold) : DecAsked → Option Err
  | .toBigInteger => thrownBy v.integer
  | .abs => thrownBy v.abs
  | .signum => thrownBy v.signum
  | .toString => thrownBy v.text
  | .intValue => thrownBy v.int
  | c =>
    match v.abs with
    | .ok (some k) => k.throws c
    | _ => none

/-- Whatever the state, the program ends with this result. -/
def AlwaysGives {α : Type} (x : Effect σ α) (r : Res α) : Prop := ∀ s, (x s).1 = r

/-- The object answers as the `BigDecimal` with the unscaled value `u` and the scale `sc` would.  What the program does
besides answering is free, and so is `toString()`. -/
structure KeptLike (v : OwnDec.Kept σ) (u : Nat) (sc : Int) : Prop where
  unscaled : AlwaysGives v.unscaledValue (.ok (some u))
  scale : AlwaysGives v.scale (.ok sc)
  precision : ∃ n : Nat, DigitCount u n ∧ AlwaysGives v.precision (.ok n)
  setScale : ∀ n < sc, ∃ w, AlwaysGives (v.setScale n) (.ok (some w)) ∧
    AlwaysGives w.unscaledValue (.ok (some (halfUp (bigValue u sc) n))) ∧ AlwaysGives w.scale (.ok n)
  zero : AlwaysGives v.equalsZero (.ok (decide (u = 0 ∧ sc = 0)))
  compare : ∀ n, ∃ c : Int, AlwaysGives (v.compareTo n) (.ok c) ∧ (0 ≤ c ↔ (10 : ℚ) ^ (-n) ≤ bigValue u sc)

/-- The argument answers as the `BigDecimal` with the unscaled value `u` and the scale `sc` would, but `signum()` gives
`sign` and `toString()` gives `str`. -/
structure DecLike (v : OwnDec.Dec σ) (u sc sign : Int) (str : JStr) : Prop where
  abs : ∃ k, AlwaysGives v.abs (.ok (some k)) ∧ KeptLike k u.natAbs sc
  signum : AlwaysGives v.signum (.ok sign)
  integer : AlwaysGives v.toBigInteger (.ok (some (truncation ((u : ℚ) * 10 ^ (-sc)))))
  int : ∃ n, Narrows (truncation ((u : ℚ) * 10 ^ (-sc))) n ∧ AlwaysGives v.intValue (.ok n)
  text : AlwaysGives v.toString (.ok (some str))

/-- The argument that is printed: an ordinary `BigDecimal`, but for the sign of the floating-point conversions and the
text of `%s`. -/
def signedAs (t : Traits) (signum : Int) (text : JStr) : Traits :=
  { t with
    asFloatForm := t.asFloatForm.map fun x => { x with signum := signum }
    asSeq := .ok (Seq.wrap text) }

end FastPrintf.Spec
