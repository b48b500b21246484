/-
Integral arguments and the numbers they stand for.
-/
import Verif.Model.Args
import Verif.Spec.Grammar
import Verif.Spec.CPrintf

namespace FastPrintf.Spec

/-- A value of an integral type (`char` and `boolean` included: they can be printed as numbers). -/
inductive Integral
  | byte (v : BitVec 8)
  | short (v : BitVec 16)
  | char (v : BitVec 16)
  | int (v : BitVec 32)
  | long (v : BitVec 64)
  | bool (b : Bool)
  | big (v : Int)
  deriving DecidableEq, Repr

/-- The number. -/
def Integral.value : Integral → Int
  | byte v => v.toInt
  | short v => v.toInt
  | char v => v.toNat
  | int v => v.toInt
  | long v => v.toInt
  | bool b => if b then 1 else 0
  | big v => v

/-- The unsigned reading: the number modulo 2^bits (`char` and `boolean` are read as `int`);
a negative `BigInteger` has none. -/
def Integral.unsigned : Integral → Option Nat
  | byte v => some (v.toInt % 2 ^ 8).toNat
  | short v => some (v.toInt % 2 ^ 16).toNat
  | char v => some v.toNat
  | int v => some (v.toInt % 2 ^ 32).toNat
  | long v => some (v.toInt % 2 ^ 64).toNat
  | bool b => some (if b then 1 else 0)
  | big v => if v < 0 then none else some v.toNat

/-- The primitive form of the value, if its type is primitive. -/
def Integral.prim? : Integral → Option Prim
  | byte v => some (.byte v)
  | short v => some (.short v)
  | char v => some (.char v.toNat)
  | int v => some (.int v)
  | long v => some (.long v)
  | bool b => some (.bool b)
  | big _ => none

/-- The ways to hand the value over: as a primitive, boxed, or as a `BigInteger`. -/
inductive Integral.Given : Integral → Entry → Prop
  | prim {x : Integral} {p : Prim} (h : x.prim? = some p) : Given x (.prim p)
  | boxed {x : Integral} {p : Prim} (h : x.prim? = some p) (id : Identity) :
      Given x (.ref (.boxed p id))
  | big (v : Int) (id : Identity) : Given (.big v) (.ref (.bigInteger v id))

/-- The width a directive asks for; 0 if none. -/
def Num.width : Num → Nat
  | .digits ds => decimalValue ds
  | _ => 0

/-- The precision a directive asks for, if any. -/
def Num.precision : Num → Option Nat
  | .digits ds => some (decimalValue ds)
  | _ => none

/-- A directive without `*`. -/
structure Directive.Plain (d : Directive) : Prop where
  width : d.width ≠ .star
  prec : d.prec ≠ .star

/-- `s` is the decimal text of `v`: a minus sign if negative, then the shortest numeral. -/
def DecimalText (v : Int) (s : JStr) : Prop :=
  ∃ ds, Shortest 10 v.natAbs ds ∧ s = (if v < 0 then js! "-" else []) ++ ds

/-- The text an argument stands for under `%s`. -/
inductive Shows : Entry → JStr → Prop
  | null : Shows (.ref .null) (js! "null")
  | string (s : JStr) (id : Identity) : Shows (.ref (.string s id)) s
  | charSeq (s : JStr) (id : Identity) : Shows (.ref (.charSeq s id)) s
  | number {x : Integral} {e : Entry} (hx : x.Given e) (hb : ∀ b, x ≠ .bool b) (hc : ∀ c, x ≠ .char c)
      {s : JStr} (hs : DecimalText x.value s) : Shows e s
  | bool {b : Bool} {e : Entry} (hx : (Integral.bool b).Given e) :
      Shows e (if b then js! "true" else js! "false")
  | char {c : BitVec 16} {e : Entry} (hx : (Integral.char c).Given e) : Shows e [c.toNat]

/-- A text in a field padded with spaces. -/
def padded (left : Bool) (w : Nat) (s : JStr) : JStr :=
  if left then s ++ List.replicate (w - s.length) 32 else List.replicate (w - s.length) 32 ++ s

/-- The ways to hand a `double` over. -/
inductive IsDouble : Entry → BitVec 64 → Prop
  | prim (bits : BitVec 64) : IsDouble (.prim (.double bits)) bits
  | boxed (bits : BitVec 64) (id : Identity) : IsDouble (.ref (.boxed (.double bits) id)) bits

/-- The ways to hand over a big number `u * 10^-scale`: a `BigDecimal`, or a `BigInteger` (scale 0). -/
inductive IsBig : Entry → Int → Int → Prop
  | decimal (u scale : Int) (id : Identity) : IsBig (.ref (.bigDecimal u scale id)) u scale
  | integer (u : Int) (id : Identity) : IsBig (.ref (.bigInteger u id)) u 0

/-- The conversions with an upper-case twin. -/
def casePairs : List (JChar × JChar) :=
  [(ch! 'x', ch! 'X'), (ch! 'e', ch! 'E'), (ch! 'f', ch! 'F'), (ch! 'g', ch! 'G'), (ch! 'a', ch! 'A'),
   (ch! 's', ch! 'S'), (ch! 't', ch! 'T')]

/-- The identity of a reference that is not null, as the library sees it. -/
def identity? : Obj → Option Identity
  | .null => none
  | .boxed _ id => some id
  | .string _ id => some id
  | .seq _ id => some id
  | .charSeq _ id => some id
  | .bigInteger _ id => some id
  | .bigDecimal _ _ id => some id
  | .temporal _ _ id => some id
  | .traits _ => none
  | .object _ _ id => some id

/-- The field of a directive. -/
def Directive.field (d : Directive) (pre body : JStr) : JStr :=
  Spec.field (flagSet d.flags).leftJustify (flagSet d.flags).zeroPad d.width.width pre body

/-- The integer conversions. -/
def intConvs : List JChar := js! "diuoxX"

/-- The floating conversions (their upper-case twins are covered by C19). -/
def floatConvs : List JChar := js! "aefg"

/-- The floating-point conversions, in both cases. -/
def allFloatConvs : List JChar := js! "aAeEfFgG"

end FastPrintf.Spec
