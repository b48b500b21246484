/-
Arguments and numbers of the user's own classes: which methods are called, in which order, and what is printed.
-/
import Verif.Model.OwnForms

namespace FastPrintf.Spec

variable {σ : Type}

/-- The methods of `FormatTraits`, `IntForm` and `FloatForm` that a conversion may call. -/
inductive Asked
  | asIntForm | asFloatForm | asTemporal | asSeq | asChar | ref
  | signum | toDecimalString | toHexString | toOctalString | toUnsignedDecimalString
  | isNaN | isInfinite | isNegative
  | generalLayout (precision : Int) | scientificLayout (precision : Int)
  | decimalLayout (precision : Int) | hexLayout (precision : Int)
  | asInt
  deriving DecidableEq, Repr

/-- An integer that answers each method the same way every time: it returns a value, returns `null`, or throws. -/
structure IntTold where
  signum : Res Int
  decimal : Res (Option JStr)
  hex : Res (Option JStr)
  octal : Res (Option JStr)
  unsigned : Res (Option JStr)

/-- The same for a floating-point number. -/
structure FloatTold where
  isNaN : Res Bool
  isInfinite : Res Bool
  isNegative : Res Bool
  signum : Res Int
  general : Int → Res (Option FloatLayout)
  scientific : Int → Res (Option FloatLayout)
  decimal : Int → Res (Option FloatLayout)
  hex : Int → Res (Option FloatLayout)

/-- The same for an argument. -/
structure ArgTold where
  intForm : Res (Option IntTold)
  floatForm : Res (Option FloatTold)
  temporal : Res (Option Temporal)
  seq : Res (Option Seq)
  int : Res Int
  char : Res JChar
  slot : Res (Option RefSlot)

/-- A method that notes that it has been called. -/
def noting {α : Type} (c : Asked) (r : Res α) : Effect (List Asked) α := fun log => (r, log ++ [c])

/-- The integer, with every call noted. -/
def IntTold.noted (n : IntTold) : OwnForms.IntProg (List Asked) where
  signum := noting .signum n.signum
  toDecimalString := noting .toDecimalString n.decimal
  toHexString := noting .toHexString n.hex
  toOctalString := noting .toOctalString n.octal
  toUnsignedDecimalString := noting .toUnsignedDecimalString n.unsigned

/-- The floating-point number, with every call noted. -/
def FloatTold.noted (x : FloatTold) : OwnForms.FloatProg (List Asked) where
  isNaN := noting .isNaN x.isNaN
  isInfinite := noting .isInfinite x.isInfinite
  isNegative := noting .isNegative x.isNegative
  signum := noting .signum x.signum
  generalLayout p := noting (.generalLayout p) (x.general p)
  scientificLayout p := noting (.scientificLayout p) (x.scientific p)
  decimalLayout p := noting (.decimalLayout p) (x.decimal p)
  hexLayout p := noting (.hexLayout p) (x.hex p)

/-- The argument, with every call noted, also those of its numbers. -/
def ArgTold.noted (v : ArgTold) : OwnForms.Arg (List Asked) where
  asIntForm := noting .asIntForm (v.intForm.map (Option.map IntTold.noted))
  asFloatForm := noting .asFloatForm (v.floatForm.map (Option.map FloatTold.noted))
  asTemporal := noting .asTemporal v.temporal
  asSeq := noting .asSeq v.seq
  asInt := noting .asInt v.int
  asChar := noting .asChar v.char
  ref := noting .ref v.slot

/-- The calls of an integer conversion that asks for the text with `text`: zero with precision 0 is never asked for its
text. -/
def intAsked (precision : Int) (text : Asked) (v : ArgTold) : List Asked :=
  .asIntForm ::
    match v.intForm with
    | .ok (some n) =>
      .signum ::
        match n.signum with
        | .ok k => if k = 0 ∧ precision = 0 then [] else [text]
        | .error _ => []
    | _ => []

/-- The calls of a floating-point conversion that asks for the layout with `layout` (the answer being `given`), and for
the sign with `sign`.  A NaN is asked twice whether it is one, and so is an infinity. -/
def floatAsked (layout : Asked) (given : FloatTold → Res (Option FloatLayout)) (sign : Asked) (v : ArgTold) :
    List Asked :=
  .asFloatForm ::
    match v.floatForm with
    | .ok (some x) =>
      .isNaN ::
        match x.isNaN with
        | .ok true => [.isNaN]
        | .ok false =>
          .isInfinite ::
            (match x.isInfinite with
            | .ok true => [.isNaN, .signum]
            | .ok false =>
              layout ::
                (match given x with
                | .ok (some _) => [sign]
                | _ => [])
            | .error _ => [])
        | .error _ => []
    | _ => []

/-- The precision asked for when the directive gives none, or 0. -/
def askedPrecision (unset zero precision : Int) : Int :=
  if precision = -1 then unset else if precision = 0 then zero else precision

/-- The calls of a directive: of the argument, and of the number it gives. -/
def asked (sp : Specifier) (precision : Int) (v : ArgTold) : List Asked :=
  let six := askedPrecision 6 0 precision
  let general := askedPrecision 6 1 precision
  let hex := askedPrecision 13 1 precision
  match sp with
  | .d => intAsked precision .toDecimalString v
  | .u => intAsked precision .toUnsignedDecimalString v
  | .x | .upperX => intAsked precision .toHexString v
  | .o => intAsked precision .toOctalString v
  | .f | .upperF => floatAsked (.decimalLayout six) (·.decimal six) .isNegative v
  | .e | .upperE => floatAsked (.scientificLayout six) (·.scientific six) .isNegative v
  | .g | .upperG => floatAsked (.generalLayout general) (·.general general) .isNegative v
  | .a | .upperA => floatAsked (.hexLayout hex) (·.hex hex) .signum v
  | .s | .upperS => [.asSeq]
  | .t | .upperT => [.asTemporal]
  | .c => [.asChar]
  | .p => [.ref]
  | .percent | .n => []

/-- An ordinary integer, as one of the user's own class. -/
def ownInt (n : IntForm) : OwnForms.IntProg σ where
  signum := .of (.ok n.signum)
  toDecimalString := .of (n.toDecimalString.map some)
  toHexString := .of (n.toHexString.map some)
  toOctalString := .of (n.toOctalString.map some)
  toUnsignedDecimalString := .of (n.toUnsignedDecimalString.map some)

/-- An ordinary floating-point number, as one of the user's own class; whether it is negative is what `negative` says,
whatever its `signum()`. -/
def ownFloat (negative : Bool) (x : FloatForm) : OwnForms.FloatProg σ where
  isNaN := .of (.ok x.isNaN)
  isInfinite := .of (.ok x.isInfinite)
  isNegative := .of (.ok negative)
  signum := .of (.ok x.signum)
  generalLayout p := .of ((x.generalLayout p).map some)
  scientificLayout p := .of ((x.scientificLayout p).map some)
  decimalLayout p := .of ((x.decimalLayout p).map some)
  hexLayout p := .of ((x.hexLayout p).map some)

/-- An ordinary argument, as one of the user's own class. -/
def ownArg (t : Traits) : OwnForms.Arg σ where
  asIntForm := .of (t.asIntForm.map fun n => some (ownInt n))
  asFloatForm := .of (t.asFloatForm.map fun x => some (ownFloat (x.signum < 0) x))
  asTemporal := .of (t.asTemporal.map some)
  asSeq := .of (t.asSeq.map some)
  asInt := .of t.asInt
  asChar := .of t.asChar
  ref := .of (.ok (some t.ref))

/-- The same argument among those of C95. -/
def liveArg (t : Traits) : Live σ where
  asIntForm := .of t.asIntForm
  asFloatForm := .of t.asFloatForm
  asTemporal := .of t.asTemporal
  asSeq := .of t.asSeq
  asInt := .of t.asInt
  asChar := .of t.asChar
  ref := fun s => (t.ref, s)

/-- The conversions of integers, each with the method that gives the text. -/
inductive Spelt : Specifier → (OwnForms.IntProg σ → Effect σ (Option JStr)) → Prop
  | d : Spelt .d (·.toDecimalString)
  | u : Spelt .u (·.toUnsignedDecimalString)
  | x : Spelt .x (·.toHexString)
  | upperX : Spelt .upperX (·.toHexString)
  | o : Spelt .o (·.toOctalString)

/-- The conversions of floating-point numbers, each with the method that gives the layout, for a given precision of the
directive. -/
inductive LaidOut (precision : Int) : Specifier → (OwnForms.FloatProg σ → Effect σ (Option FloatLayout)) → Prop
  | f : LaidOut precision .f (·.decimalLayout (askedPrecision 6 0 precision))
  | upperF : LaidOut precision .upperF (·.decimalLayout (askedPrecision 6 0 precision))
  | e : LaidOut precision .e (·.scientificLayout (askedPrecision 6 0 precision))
  | upperE : LaidOut precision .upperE (·.scientificLayout (askedPrecision 6 0 precision))
  | g : LaidOut precision .g (·.generalLayout (askedPrecision 6 1 precision))
  | upperG : LaidOut precision .upperG (·.generalLayout (askedPrecision 6 1 precision))
  | a : LaidOut precision .a (·.hexLayout (askedPrecision 13 1 precision))
  | upperA : LaidOut precision .upperA (·.hexLayout (askedPrecision 13 1 precision))

/-- A conversion of the argument, begun in the state `s`, is answered `null` where it needs an object; the state is then
`s'`. -/
inductive MeetsNull (precision : Int) (v : OwnForms.Arg σ) (s s' : σ) : Specifier → Prop
  | integer {sp t} (hs : Spelt (σ := σ) sp t) (h : v.asIntForm s = (.ok none, s')) : MeetsNull precision v s s' sp
  | digits {sp t n k s₁ s₂} (hs : Spelt sp t) (h : v.asIntForm s = (.ok (some n), s₁))
      (hk : n.signum s₁ = (.ok k, s₂)) (hz : ¬ (k = 0 ∧ precision = 0)) (ht : t n s₂ = (.ok none, s')) :
      MeetsNull precision v s s' sp
  | floating {sp l} (hs : LaidOut (σ := σ) precision sp l) (h : v.asFloatForm s = (.ok none, s')) :
      MeetsNull precision v s s' sp
  | layout {sp l x s₁ s₂ s₃} (hs : LaidOut precision sp l) (h : v.asFloatForm s = (.ok (some x), s₁))
      (hn : x.isNaN s₁ = (.ok false, s₂)) (hi : x.isInfinite s₂ = (.ok false, s₃)) (hl : l x s₃ = (.ok none, s')) :
      MeetsNull precision v s s' sp
  | text (h : v.asSeq s = (.ok none, s')) : MeetsNull precision v s s' .s
  | upperText (h : v.asSeq s = (.ok none, s')) : MeetsNull precision v s s' .upperS
  | time (h : v.asTemporal s = (.ok none, s')) : MeetsNull precision v s s' .t
  | upperTime (h : v.asTemporal s = (.ok none, s')) : MeetsNull precision v s s' .upperT
  | reference (h : v.ref s = (.ok none, s')) : MeetsNull precision v s s' .p

end FastPrintf.Spec
