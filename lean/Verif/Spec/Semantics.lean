/-
What a whole format string prints, as a relation, written independently of the library: the tables of
how arguments are read (`Spec/Readings`), the texts of the numbers (`Spec/CPrintf`, `Spec/Decimal`,
`Spec/Hex`, `Spec/BigDecimal`), the rules for `*`, and the order in which the arguments are used.
-/
import Verif.Spec.Readings
import Verif.Spec.BigDecimal
import Verif.Spec.Hex
import Verif.Spec.Cut

namespace FastPrintf.Spec

/-! ### Arguments -/

/-- The text an argument has under `%s`, or the exception that its `toString` throws; ropes are treated
apart. -/
inductive TextReading (jdk : JdkEnv) : Entry → Res JStr → Prop
  | shows {e : Entry} {s : JStr} (h : Shows e s) : TextReading jdk e (.ok s)
  | float {e : Entry} {b : BitVec 32} (h : Holds e (.float b)) : TextReading jdk e (.ok (jdk.floatToString b))
  | double {e : Entry} {b : BitVec 64} (h : Holds e (.double b)) :
      TextReading jdk e (.ok (jdk.doubleToString b))
  | bigDecimal (u s : Int) (id : Identity) :
      TextReading jdk (.ref (.bigDecimal u s id)) (.ok (jdk.bigDecimalToString u s))
  | temporal (t : Temporal) (s : Res JStr) (id : Identity) : TextReading jdk (.ref (.temporal t s id)) s
  | object (k : ObjectKind) (s : Res JStr) (id : Identity) : TextReading jdk (.ref (.object k s id)) s

/-- What `%p` shows of an argument. -/
inductive PointerText : Entry → Res JStr → Prop
  | prim (p : Prim) : PointerText (.prim p) (.error (.printf .primitivePointer))
  | null : PointerText (.ref .null) (.ok (js! "null"))
  | object {o : Obj} {id : Identity} (h : identity? o = some id) {hex : JStr}
      (hx : Shortest 16 id.hash.toNat hex) : PointerText (.ref o) (.ok (id.className ++ js! "@" ++ hex))

/-- The integer that an argument stands for. -/
inductive WholeReading (jdk : JdkEnv) : Entry → Res Integral → Prop
  | given {x : Integral} {e : Entry} (h : x.Given e) : WholeReading jdk e (.ok x)
  | other {e : Entry} {r : Res Integral} (h : IntReading jdk e r) : WholeReading jdk e r

/-- The `double` or `BigDecimal` that an argument stands for. -/
inductive RealReading (jdk : JdkEnv) : Entry → Res Floating → Prop
  | double {e : Entry} {b : BitVec 64} (h : IsDouble e b) : RealReading jdk e (.ok (.double b))
  | big (u s : Int) (id : Identity) : RealReading jdk (.ref (.bigDecimal u s id)) (.ok (.big u s))
  | other {e : Entry} {r : Res Floating} (h : FloatReading jdk e r) : RealReading jdk e r

/-! ### Texts -/

/-- A text cut to a precision. -/
def cut (p : Option Nat) (s : JStr) : JStr :=
  match p with
  | none => s
  | some p => s.take p

/-- A text in the field of a directive, padded with spaces. -/
def Directive.padded (d : Directive) (s : JStr) : JStr := Spec.padded (ch! '-' ∈ d.flags) d.width.width s

/-- The text of `%d`: C's, except that `% .0d` of zero has no space. -/
def SignedNumberText (fl : Flags) (w : Nat) (p : Option Nat) (v : Int) (out : JStr) : Prop :=
  if v = 0 ∧ p = some 0 ∧ fl.leadingSpace = true ∧ fl.plus = false ∧ w = 0 then out = []
  else CSigned fl w p v out

/-- The `#` forms of zero that differ from C's: `%#.po` for `p ≠ 1`; `%#0wo` and `%#0wx` for `w ≥ 2`. -/
def OddZero (c : UConv) (fl : Flags) (w : Nat) (p : Option Nat) : Prop :=
  fl.alternate = true ∧ ((c = .o ∧ (p = some 0 ∨ ∃ n, p = some n ∧ 2 ≤ n)) ∨
    (c ≠ .u ∧ p = none ∧ fl.zeroPad = true ∧ fl.leftJustify = false ∧ 2 ≤ w))

/-- What is printed for those: blanks for `%#.0o`; else zeros, one too few for `%#.po` and `%#0wo`, two
too few for `%#0wx` (but at least one). -/
def oddZeroText (c : UConv) (fl : Flags) (w : Nat) (p : Option Nat) : JStr :=
  padded fl.leftJustify w (List.replicate (match p with
    | some p => p - 1
    | none => if c = .x then max 1 (w - 2) else w - 1) 48)

/-- The text of `%u`, `%o`, `%x`: C's, except for those zeros. -/
def UnsignedNumberText (c : UConv) (fl : Flags) (w : Nat) (p : Option Nat) (n : Nat) (out : JStr) : Prop :=
  (n = 0 ∧ OddZero c fl w p ∧ out = oddZeroText c fl w p) ∨
    (¬ (n = 0 ∧ OddZero c fl w p) ∧ CUnsigned c fl w p n out)

/-- The digits after the point that `%f` and `%e` print, and the significant digits of `%g`. -/
def Directive.places (d : Directive) : Nat := d.prec.precision.getD 6
def Directive.digits (d : Directive) : Nat := max 1 d.places

/-- The text of a `double` or `BigDecimal` under `%f`, `%e`, `%g` or `%a`, or the refusal. -/
inductive FloatText (d : Directive) : Floating → Res JStr → Prop
  | nonFinite {b : BitVec 64} (hf : ¬ finite b) :
      FloatText d (.double b) (.ok (d.padded (nonFiniteName b (ch! '+' ∈ d.flags))))
  | fixed (hc : d.conv = ch! 'f') {b : BitVec 64} (hf : finite b) {q : ℚ} (hq : DecimalOf b q) {body : JStr}
      (hb : FixedText (halfUp q d.places) d.places (flagSet d.flags).alternate body) :
      FloatText d (.double b) (.ok (d.field (signText (flagSet d.flags) (negative b)) body))
  | scientificZero (hc : d.conv = ch! 'e') {b : BitVec 64} (hf : finite b) (hz : magnitude b = 0) {m : JStr}
      (hm : FixedText 0 d.places (flagSet d.flags).alternate m) :
      FloatText d (.double b) (.ok (d.field (signText (flagSet d.flags) (negative b)) (m ++ js! "e+00")))
  | scientific (hc : d.conv = ch! 'e') {b : BitVec 64} (hf : finite b) (hz : magnitude b ≠ 0) {q : ℚ}
      (hq : JavaDecimal b q) {M : Nat} {x : Int} (hs : Significant q (d.places + 1) M x) {m ex : JStr}
      (hm : FixedText M d.places (flagSet d.flags).alternate m) (hx : ExponentText x ex) :
      FloatText d (.double b) (.ok (d.field (signText (flagSet d.flags) (negative b)) (m ++ ch! 'e' :: ex)))
  | generalZero (hc : d.conv = ch! 'g') {b : BitVec 64} (hf : finite b) (hz : magnitude b = 0) {body : JStr}
      (hb : if (flagSet d.flags).alternate then FixedText 0 (d.digits - 1) true body else body = js! "0") :
      FloatText d (.double b) (.ok (d.field (signText (flagSet d.flags) (negative b)) body))
  | general (hc : d.conv = ch! 'g') {b : BitVec 64} (hf : finite b) (hz : magnitude b ≠ 0) {q : ℚ}
      (hq : JavaDecimal b q) {M : Nat} {x : Int} (hs : Significant q d.digits M x) {last : Int} {n : Nat}
      (hl : LastPlace b last) (hn : DigitsDownTo q last n) {body : JStr}
      (hb : GeneralText d.digits n (flagSet d.flags).alternate M x body) :
      FloatText d (.double b) (.ok (d.field (signText (flagSet d.flags) (negative b)) body))
  | hexExact (hc : d.conv = ch! 'a') {b : BitVec 64} (hf : finite b)
      (hp : ∀ p, d.prec.precision = some p → magnitude b = 0 ∨ 13 ≤ p) {fp : JStr} {x : Int} {body : JStr}
      (hb : HexText (if expBits b = 0 then 0 else 1) fp x body)
      (hv : hexValue (if expBits b = 0 then 0 else 1) fp x = magnitude b)
      (hx : x = (if magnitude b = 0 then 0 else if expBits b = 0 then -1022 else (expBits b : Int) - 1023))
      (hn : d.prec.precision = none → fp ≠ [] ∧ (fp = js! "0" ∨ fp.getLast? ≠ some 48))
      (hl : ∀ p, d.prec.precision = some p → fp.length = max 1 p) :
      FloatText d (.double b) (.ok (d.field (signText (flagSet d.flags) (negative b) ++ js! "0x") body))
  | hexRounded (hc : d.conv = ch! 'a') {b : BitVec 64} (hf : finite b) (hz : magnitude b ≠ 0) {p : Nat}
      (hp : d.prec.precision = some p) (hp12 : p ≤ 12) {fp : JStr} {x : Int} {body : JStr}
      (hb : HexText 1 fp x body) (hl : fp.length = max 1 p)
      (hr : HexRounded (magnitude b) (max 1 p) (hexValue 1 fp x)) :
      FloatText d (.double b) (.ok (d.field (signText (flagSet d.flags) (negative b) ++ js! "0x") body))
  | bigFixed (hc : d.conv = ch! 'f') {u scale : Int} (hz : u ≠ 0 ∨ 0 ≤ scale) {body : JStr}
      (hb : FixedText (halfUp (bigValue u.natAbs scale) d.places) d.places (flagSet d.flags).alternate body) :
      FloatText d (.big u scale) (.ok (d.field (signText (flagSet d.flags) (u < 0)) body))
  | bigFixedZero (hc : d.conv = ch! 'f') {scale : Int} (hs : scale < 0) :
      FloatText d (.big 0 scale) (.ok (d.field (signText (flagSet d.flags) false)
        (List.replicate (1 + (-scale).toNat) 48 ++
          fraction (flagSet d.flags).alternate (List.replicate d.places 48))))
  | bigScientific (hc : d.conv = ch! 'e') {u scale : Int} (hz : u ≠ 0) {n : Nat} (hn : DigitCount u.natAbs n)
      {M : Nat} {x : Int} (hs : Significant (bigValue u.natAbs scale) (d.places + 1) M x) {m ex : JStr}
      (hm : FixedText M d.places (flagSet d.flags).alternate m)
      (hx : BigExponentText (min (d.places + 1) n) x ex) :
      FloatText d (.big u scale) (.ok (d.field (signText (flagSet d.flags) (u < 0)) (m ++ ch! 'e' :: ex)))
  | bigScientificZero (hc : d.conv = ch! 'e') {scale : Int} {m ex : JStr}
      (hm : FixedText 0 d.places (flagSet d.flags).alternate m) (hx : ExponentText (-scale) ex) :
      FloatText d (.big 0 scale) (.ok (d.field (signText (flagSet d.flags) false) (m ++ ch! 'e' :: ex)))
  | bigGeneral (hc : d.conv = ch! 'g') {u scale : Int} (hz : u ≠ 0) {n : Nat} (hn : DigitCount u.natAbs n)
      {x0 x : Int} {M : Nat} {body : JStr} (h1 : 10 ^ x0 ≤ bigValue u.natAbs scale)
      (h2 : bigValue u.natAbs scale < 10 ^ (x0 + 1)) (hs : Significant (bigValue u.natAbs scale) d.digits M x)
      (hb : BigGeneralText d.digits n (flagSet d.flags).alternate x0 M x body) :
      FloatText d (.big u scale) (.ok (padWith (flagSet d.flags).leftJustify (flagSet d.flags).zeroPad
        (d.width.width - ((signText (flagSet d.flags) (u < 0)).length +
          (body.length - generalHidden d.digits n (flagSet d.flags).alternate x0 M x body)))
        (signText (flagSet d.flags) (u < 0)) body))
  | bigGeneralZero (hc : d.conv = ch! 'g') {scale : Int} {body : JStr}
      (h0 : scale = 0 → if (flagSet d.flags).alternate then FixedText 0 (d.digits - 1) true body
        else body = js! "0")
      (h1 : scale ≠ 0 → ∃ xs, body = js! "0e" ++ xs ∧ ExponentText (-scale) xs) :
      FloatText d (.big 0 scale) (.ok (d.field (signText (flagSet d.flags) false) body))
  | bigHex (hc : d.conv = ch! 'a') (u scale : Int) : FloatText d (.big u scale) (.error (refused .bigDecimalHex))

/-! ### One directive without `*` -/

/-- What a directive without `*` prints for an argument, or the exception. -/
inductive Prints (jdk : JdkEnv) (env : DateEnv) : Directive → Entry → Res JStr → Prop
  | signed {d : Directive} {e : Entry} (hc : d.conv = ch! 'd' ∨ d.conv = ch! 'i') {x : Integral}
      (hr : WholeReading jdk e (.ok x)) {out : JStr}
      (ht : SignedNumberText (flagSet d.flags) d.width.width d.prec.precision x.value out) : Prints jdk env d e (.ok out)
  | unsigned {d : Directive} {e : Entry} {c : UConv} (hc : d.conv = c.char) {x : Integral}
      (hr : WholeReading jdk e (.ok x)) {n : Nat} (hn : x.unsigned = some n) {out : JStr}
      (ht : UnsignedNumberText c (flagSet d.flags) d.width.width d.prec.precision n out) : Prints jdk env d e (.ok out)
  | negative {d : Directive} {e : Entry} {c : UConv} (hc : d.conv = c.char) {x : Integral}
      (hr : WholeReading jdk e (.ok x)) (hn : x.unsigned = none) :
      Prints jdk env d e (.error (refused .negativeUnsigned))
  | noInteger {d : Directive} {e : Entry} (hc : d.conv ∈ js! "diuox") {err : Err}
      (hr : WholeReading jdk e (.error err)) : Prints jdk env d e (.error err)
  | floating {d : Directive} {e : Entry} (hc : d.conv ∈ floatConvs) {x : Floating}
      (hr : RealReading jdk e (.ok x)) {r : Res JStr} (ht : FloatText d x r) : Prints jdk env d e r
  | noFloat {d : Directive} {e : Entry} (hc : d.conv ∈ floatConvs) {err : Err}
      (hr : RealReading jdk e (.error err)) : Prints jdk env d e (.error err)
  | text {d : Directive} {e : Entry} (hc : d.conv = ch! 's') {r : Res JStr} (hr : TextReading jdk e r) :
      Prints jdk env d e (r.map fun s => d.padded (cut d.prec.precision s))
  /-- The text of a rope is right, but there can be too much padding when the precision cuts it. -/
  | rope {d : Directive} (hc : d.conv = ch! 's') {q : Seq} (id : Identity) :
      Prints jdk env d (.ref (.seq q id)) (.ok (padWith (ch! '-' ∈ d.flags) false
        (d.width.width - reportedLength q d.prec.precision) [] (cut d.prec.precision q.text)))
  | char {d : Directive} {e : Entry} (hc : d.conv = ch! 'c') {r : Res JChar} (hr : CharReading jdk e r) :
      Prints jdk env d e (r.map fun c => d.padded [c])
  | pointer {d : Directive} {e : Entry} (hc : d.conv = ch! 'p') {r : Res JStr} (hr : PointerText e r) :
      Prints jdk env d e (r.map d.padded)
  | time {d : Directive} {e : Entry} (hc : d.conv = ch! 't') {t : Temporal} (hr : TimeReading e (.ok t))
      {f : DateFmt} {t' : Temporal} (hf : Formatted d.date t (some (f, t'))) :
      Prints jdk env d e ((env.format f t').map d.padded)
  | noFormat {d : Directive} {e : Entry} (hc : d.conv = ch! 't') {t : Temporal} (hr : TimeReading e (.ok t))
      (hf : Formatted d.date t none) : Prints jdk env d e (.error (.printf .noDefaultFormatter))
  | noTime {d : Directive} {e : Entry} (hc : d.conv = ch! 't') {err : Err}
      (hr : TimeReading e (.error err)) : Prints jdk env d e (.error err)
  | nothing {d : Directive} {e : Entry} (hc : d.conv = ch! 'n') : Prints jdk env d e (.ok [])
  | percent {d : Directive} {e : Entry} (hc : d.conv = ch! '%') : Prints jdk env d e (.ok (js! "%"))
  | upper {d : Directive} {e : Entry} {lo : JChar} (hc : (lo, d.conv) ∈ casePairs) {r : Res JStr}
      (h : Prints jdk env { d with conv := lo } e r) : Prints jdk env d e (r.map fun s => s.map upper)

/-! ### `*` -/

/-- The letter by which an exception names a conversion: `%i` is called `d`. -/
def shownConv (c : JChar) : JChar := if c = ch! 'i' then ch! 'd' else c

/-- A width in writing; zero is not written. -/
def WidthWritten (n : Int) (w : Num) : Prop :=
  (n = 0 ∧ w = .absent) ∨ ∃ ds, w = .digits ds ∧ WidthOk w ∧ (decimalValue ds : Int) = n

/-- The arguments that stand for `*` are used up, first the width and then the precision: the directive
with those numbers written in, and the arguments left. -/
inductive Settles (jdk : JdkEnv) : Directive → List Entry → Res (Directive × List Entry) → Prop
  | plain {d : Directive} (h : d.Plain) (es : List Entry) : Settles jdk d es (.ok (d, es))
  | missing {d : Directive} (h : ¬ d.Plain) :
      Settles jdk d [] (.error (.printf (.missingArgument (shownConv d.conv))))
  | unreadable {d : Directive} (h : ¬ d.Plain) {e : Entry} {err : Err} (hr : StarReading jdk e (.error err))
      (es : List Entry) : Settles jdk d (e :: es) (.error err)
  | width {d : Directive} (h : d.width = .star) {e : Entry} {n : Int} (hr : StarReading jdk e (.ok n))
      {w : Num} (hw : WidthWritten n w) {es : List Entry} {r : Res (Directive × List Entry)}
      (hs : Settles jdk { d with width := w } es r) : Settles jdk d (e :: es) r
  | negativeWidth {d : Directive} (h : d.width = .star) {e : Entry} {n : Int} (hr : StarReading jdk e (.ok n))
      (hn : n < 0) {w : Num} (hw : WidthWritten (-n) w ∨ (n = minInt ∧ w = .absent)) {es : List Entry}
      {r : Res (Directive × List Entry)}
      (hs : Settles jdk { d with flags := withMinus d.flags, width := w } es r) : Settles jdk d (e :: es) r
  | hugeWidth {d : Directive} (h : d.width = .star) {e : Entry} {n : Int} (hr : StarReading jdk e (.ok n))
      (hn : numberCap < |n|) (hm : n ≠ minInt) (es : List Entry) :
      Settles jdk d (e :: es) (.error (.printf (.exceedsMaximum .width |n|)))
  | precision {d : Directive} (hw : d.width ≠ .star) (h : d.prec = .star) {e : Entry} {n : Int}
      (hr : StarReading jdk e (.ok n)) {ds : JStr} (hd : (Num.digits ds).Ok) (hn : (decimalValue ds : Int) = n)
      (es : List Entry) : Settles jdk d (e :: es) (.ok ({ d with prec := .digits ds }, es))
  | negativePrecision {d : Directive} (hw : d.width ≠ .star) (h : d.prec = .star) {e : Entry} {n : Int}
      (hr : StarReading jdk e (.ok n)) (hn : n < 0) (es : List Entry) :
      Settles jdk d (e :: es) (.ok ({ d with prec := .absent }, es))
  | hugePrecision {d : Directive} (hw : d.width ≠ .star) (h : d.prec = .star) {e : Entry} {n : Int}
      (hr : StarReading jdk e (.ok n)) (hn : numberCap < n) (es : List Entry) :
      Settles jdk d (e :: es) (.error (.printf (.exceedsMaximum .precision n)))

/-! ### The whole format string -/

/-- What the pieces of a format string print for a list of arguments, or the exception: each directive
uses the arguments for its stars and then one more (even `%n` and `%5%`, which do not look at it);
arguments left over are ignored. -/
inductive Output (jdk : JdkEnv) (env : DateEnv) : List Piece → List Entry → Res JStr → Prop
  | done (es : List Entry) : Output jdk env [] es (.ok [])
  | lit (s : JStr) {ps : List Piece} {es : List Entry} {r : Res JStr} (h : Output jdk env ps es r) :
      Output jdk env (.lit s :: ps) es (r.map (s ++ ·))
  | percent {ps : List Piece} {es : List Entry} {r : Res JStr} (h : Output jdk env ps es r) :
      Output jdk env (.percent :: ps) es (r.map (js! "%" ++ ·))
  | badStar {d : Directive} {es : List Entry} {err : Err} (hs : Settles jdk d es (.error err))
      (ps : List Piece) : Output jdk env (.dir d :: ps) es (.error err)
  | noArgument {d d' : Directive} {es : List Entry} (hs : Settles jdk d es (.ok (d', [])))
      (ps : List Piece) :
      Output jdk env (.dir d :: ps) es (.error (.printf (.missingArgument (shownConv d.conv))))
  | fails {d d' : Directive} {es es' : List Entry} {e : Entry} (hs : Settles jdk d es (.ok (d', e :: es')))
      {err : Err} (hp : Prints jdk env d' e (.error err)) (ps : List Piece) :
      Output jdk env (.dir d :: ps) es (.error err)
  | prints {d d' : Directive} {es es' : List Entry} {e : Entry} (hs : Settles jdk d es (.ok (d', e :: es')))
      {out : JStr} (hp : Prints jdk env d' e (.ok out)) {ps : List Piece} {r : Res JStr}
      (h : Output jdk env ps es' r) : Output jdk env (.dir d :: ps) es (r.map (out ++ ·))

end FastPrintf.Spec
