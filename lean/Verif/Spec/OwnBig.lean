/-
Objects of a subclass of `BigInteger`: which methods are called, in which order, and what is printed.
-/
import Verif.Model.OwnBig

namespace FastPrintf.Spec

/-- The methods of a `BigInteger` that a directive may call.  The last two are those of the object that `abs()` gave. -/
inductive BigAsked
  | abs | signum | toString | intValue | longValue
  | keptToString
  | keptToStringRadix (radix : Nat)
  deriving DecidableEq, Repr

/-- What `abs()` gives: an object that answers the same way every time. -/
structure KeptTold where
  text : Res (Option JStr)
  radix : Nat → Res (Option JStr)

/-- A `BigInteger` that answers each method the same way every time: it returns a value, returns `null`, or throws. -/
structure BigTold where
  abs : Res (Option KeptTold)
  signum : Res Int
  text : Res (Option JStr)
  int : Res Int
  long : Res Int

/-- A method that notes that it has been called. -/
def bigNoting {α : Type} (c : BigAsked) (r : Res α) : Effect (List BigAsked) α := fun log => (r, log ++ [c])

/-- The object with every call noted. -/
def KeptTold.noted (v : KeptTold) : OwnBig.Kept (List BigAsked) where
  toString := bigNoting .keptToString v.text
  toStringRadix r := bigNoting (.keptToStringRadix r) (v.radix r)

/-- The object with every call noted. -/
def BigTold.noted (v : BigTold) : OwnBig.Big (List BigAsked) where
  abs := bigNoting .abs (v.abs.map (Option.map KeptTold.noted))
  signum := bigNoting .signum v.signum
  toString := bigNoting .toString v.text
  intValue := bigNoting .intValue v.int
  longValue := bigNoting .longValue v.long

/-- The calls of an integer conversion that needs `text` from the object that `abs()` gave.  If `unsigned`, a negative
number is refused, and its text is asked for the message. -/
def bigInteger (precision : Int) (unsigned : Bool) (text : BigAsked) (v : BigTold) : List BigAsked :=
  .abs ::
    match v.abs with
    | .error _ => []
    | .ok kept =>
      .signum ::
        match v.signum, kept with
        | .ok k, some _ =>
          if k = 0 ∧ precision = 0 then [] else if unsigned ∧ k < 0 then [.keptToString] else [text]
        | _, _ => []

/-- The calls of a directive; the floating-point conversions are left to the JDK. -/
def bigAsked (sp : Specifier) (precision : Int) (v : BigTold) : List BigAsked :=
  match sp with
  | .d => bigInteger precision false .keptToString v
  | .u => bigInteger precision true .keptToString v
  | .x | .upperX => bigInteger precision true (.keptToStringRadix 16) v
  | .o => bigInteger precision true (.keptToStringRadix 8) v
  | .s | .upperS => [.toString]
  | .t | .upperT => [.longValue]
  | .c => [.intValue]
  | _ => []

/-- The conversions that read a floating-point number. -/
def readsFloat : Specifier → Bool
  | .f | .upperF | .e | .upperE | .g | .upperG | .a | .upperA => true
  | _ => false

/-- A text that is needed: an exception if it is `null`. -/
def needed : Res (Option JStr) → Res JStr
  | .ok (some text) => .ok text
  | .ok none => .error .nullPointer
  | .error e => .error e

/-- A text that is needed of the object that `abs()` gave, which may be `null`. -/
def ofKept (kept : Option KeptTold) (k : KeptTold → Res (Option JStr)) : Res JStr :=
  match kept with
  | some v => needed (k v)
  | none => .error .nullPointer

/-- The number that the integer conversions print: the sign is that of `signum()`, the digits are those of `abs()`. -/
def BigTold.number (kept : Option KeptTold) (signum : Int) : IntForm :=
  let unsigned (text : Res JStr) : Res JStr :=
    if signum < 0 then .error (.printf (.wrongType .negativeUnsigned)) else text
  { signum
    toDecimalString := ofKept kept (·.text)
    toHexString := unsigned (ofKept kept (·.radix 16))
    toOctalString := unsigned (ofKept kept (·.radix 8))
    toUnsignedDecimalString := unsigned (ofKept kept (·.text)) }

/-- The argument that is printed. -/
def BigTold.told (v : BigTold) (ref : RefSlot) : Traits where
  asIntForm := do return BigTold.number (← v.abs) (← v.signum)
  asFloatForm := .error .nullPointer -- not used
  asTemporal := do return .stamp (← longToInstant (← v.long))
  asSeq := do return Seq.wrap (← needed v.text)
  asInt := v.int
  asChar := do return toChar (← v.int)
  ref := ref

/-- The absolute value of the number `n` as an object of the JDK's own class. -/
def plainKept (n : Int) : KeptTold where
  text := .ok (some (toRadix 10 n.natAbs))
  radix r := .ok (some (toRadix r n.natAbs))

/-- The number `n` as an object of the JDK's own class. -/
def plainBig (n : Int) : BigTold where
  abs := .ok (some (plainKept n))
  signum := .ok n.sign
  text := .ok (some (intToString n))
  int := .ok (wrap32 n)
  long := .ok (wrap64 n)

/-- The number `n` as an object of a class that overrides nothing but `toString()`, which answers `text`.  As in the JDK,
`abs()` of a number that is not negative is the object itself, and that of a negative one is an object of the JDK's own
class. -/
def overriding (n : Int) (text : JStr) : BigTold :=
  { plainBig n with
    text := .ok (some text)
    abs := .ok (some (if 0 ≤ n then { plainKept n with text := .ok (some text) } else plainKept n)) }

/-- The text that `%d` and `%u` show for the absolute value. -/
def visibleText (n : Int) (text : JStr) : JStr := if 0 ≤ n then text else toRadix 10 n.natAbs

/-- The argument as it is printed: an ordinary `BigInteger`, but for the text under `%s`, and under `%d` and `%u` where it
is not negative. -/
def shownAs (n : Int) (text : JStr) (ref : RefSlot) : Traits :=
  { bigIntegerTraits n ref with
    asSeq := .ok (Seq.wrap text)
    asIntForm := .ok { IntForm.ofBigInteger n with
      toDecimalString := .ok (visibleText n text)
      toUnsignedDecimalString := nonNegativeOnly n (visibleText n text) } }

end FastPrintf.Spec
