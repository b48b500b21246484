/-
`String.format` as the Javadoc of `java.util.Formatter` describes it, for the directives and arguments that
both it and the library take.  README.md:236-250 lists differences between the two, and the tests of the
repository compare with `String.format`.  The relation says what the documentation promises; the code of the JDK
is not part of this development.
-/
import Verif.Spec.Semantics
import Verif.Spec.Text

namespace FastPrintf.Spec

/-! ### The directives that both take -/

/-- The directives that `java.util.Formatter` accepts, among those the library reads: no `*`; digits after the
dot; not both `+` and space, not both `-` and `0`, and a width with either of these; and what each conversion
allows besides.  (`%F`, `%i`, `%u`, `%p` are unknown to Java.  `%n` and `%t` mean something else there, and
`%a` is left out.) -/
structure Directive.JavaOk (d : Directive) : Prop where
  plain : d.Plain
  digits : d.prec ≠ .digits []
  signs : ¬ (ch! '+' ∈ d.flags ∧ ch! ' ' ∈ d.flags)
  sides : ¬ (ch! '-' ∈ d.flags ∧ ch! '0' ∈ d.flags)
  room : ch! '-' ∈ d.flags ∨ ch! '0' ∈ d.flags → d.width ≠ .absent
  conv : (d.conv = ch! 'd' ∧ ch! '#' ∉ d.flags ∧ d.prec = .absent) ∨
    (d.conv ∈ js! "oxX" ∧ d.prec = .absent) ∨ d.conv ∈ js! "feE" ∨ (d.conv ∈ js! "gG" ∧ ch! '#' ∉ d.flags) ∨
    (d.conv = ch! 'c' ∧ (∀ c ∈ d.flags, c = ch! '-') ∧ d.prec = .absent) ∨
    (d.conv ∈ js! "sS" ∧ ∀ c ∈ d.flags, c = ch! '-')

/-- The sign of a number, as the flags ask for it. -/
def Directive.sign (d : Directive) (negative : Bool) : JStr := signText (flagSet d.flags) negative

/-- What `#` puts in front under `%o` and `%x`: "then the output will always begin with the radix
indicator". -/
def Directive.radix (d : Directive) : JStr :=
  if ch! '#' ∈ d.flags then (if d.conv = ch! 'o' then js! "0" else js! "0x") else []

/-- The bases of `%o` and `%x`. -/
def radixConvs : List (JChar × Nat) := [(ch! 'o', 8), (ch! 'x', 16)]

/-- The value that `%o` and `%x` print for a `byte`, `short`, `int` or `long`: "If x is negative then this will
be an unsigned value generated by adding 2^n to the value where n is the number of bits". -/
def Integral.javaUnsigned : Integral → Option Int
  | byte v => some (if v.toInt < 0 then v.toInt + 2 ^ 8 else v.toInt)
  | short v => some (if v.toInt < 0 then v.toInt + 2 ^ 16 else v.toInt)
  | int v => some (if v.toInt < 0 then v.toInt + 2 ^ 32 else v.toInt)
  | long v => some (if v.toInt < 0 then v.toInt + 2 ^ 64 else v.toInt)
  | _ => none

/-- The types whose values Java prints with `%d`: not `char` and not `boolean`. -/
def Integral.JavaInteger : Integral → Prop
  | char _ => False
  | bool _ => False
  | _ => True

/-- The types whose values are code points under `%c`. -/
def Integral.JavaCode : Integral → Prop
  | byte _ => True
  | short _ => True
  | char _ => True
  | int _ => True
  | _ => False

/-- A code point in UTF-16: a supplementary one has two code units. -/
def utf16 (n : Nat) : JStr :=
  if n < 0x10000 then [n] else [0xD800 + (n - 0x10000) / 0x400, 0xDC00 + (n - 0x10000) % 0x400]

/-- "Computerized scientific notation" with `p` digits after the point; the exponent of zero is `+00`. -/
def JavaScientific (q : ℚ) (p : Nat) (alt : Bool) (body : JStr) : Prop :=
  ∃ M x m ex, (if q = 0 then M = 0 ∧ x = 0 else Significant q (p + 1) M x) ∧ FixedText M p alt m ∧
    ExponentText x ex ∧ body = m ++ ch! 'e' :: ex

/-- "General scientific notation" with `P` significant digits: after rounding, the plain style if the magnitude is
at least `10^-4` and less than `10^P`, else the scientific one.  "The total number of significant digits in the
resulting magnitude": trailing zeros stay. -/
def JavaGeneral (q : ℚ) (P : Nat) (body : JStr) : Prop :=
  ∃ M x, Significant q P M x ∧
    if -4 ≤ x ∧ x < P then FixedText M ((P : Int) - 1 - x).toNat false body
    else ∃ m ex, FixedText M (P - 1) false m ∧ ExponentText x ex ∧ body = m ++ ch! 'e' :: ex

/-- The name of a `double` that is no number or infinite; a positive infinity has the sign that the flags ask
for. -/
def Directive.javaName (d : Directive) (b : BitVec 64) : JStr :=
  if fracBits b ≠ 0 then js! "NaN" else d.sign (negative b) ++ js! "Infinity"

/-! ### What Java prints -/

/-- The text that `String.format` gives for a directive and an argument.  (Nothing is said about arguments that
are `Formattable`, about arrays, about a
`BigInteger` with the space flag under `%o` and `%x`, and about the zeros and `BigDecimal`s of `%g`.) -/
inductive JavaPrints (jdk : JdkEnv) : Directive → Entry → JStr → Prop
  /-- "If the argument arg is null, then the result is null": under every conversion. -/
  | null {d : Directive} (hc : d.conv ∈ js! "doxfegc") (hp : d.prec = .absent) :
      JavaPrints jdk d (.ref .null) (d.padded (js! "null"))
  | integer {d : Directive} {e : Entry} (hc : d.conv = ch! 'd') {x : Integral} (hx : x.Given e)
      (ht : x.JavaInteger) {ds : JStr} (hd : Shortest 10 x.value.natAbs ds) :
      JavaPrints jdk d e (d.field (d.sign (x.value < 0)) ds)
  | unsigned {d : Directive} {e : Entry} {b : Nat} (hc : (d.conv, b) ∈ radixConvs) (hp : ch! '+' ∉ d.flags)
      (hs : ch! ' ' ∉ d.flags) {x : Integral} (hx : x.Given e) {n : Nat} (hn : x.javaUnsigned = some (n : Int))
      {ds : JStr} (hd : Shortest b n ds) : JavaPrints jdk d e (d.field d.radix ds)
  /-- "If x is negative then this will be a signed value beginning with '-'"; then the radix indicator. -/
  | bigUnsigned {d : Directive} {b : Nat} (hc : (d.conv, b) ∈ radixConvs) (hs : ch! ' ' ∉ d.flags) (v : Int) (id : Identity)
      {ds : JStr} (hd : Shortest b v.natAbs ds) :
      JavaPrints jdk d (.ref (.bigInteger v id)) (d.field (d.sign (v < 0) ++ d.radix) ds)
  | nonFinite {d : Directive} {e : Entry} (hc : d.conv ∈ js! "feg") {b : BitVec 64} (he : IsDouble e b)
      (hf : ¬ finite b) : JavaPrints jdk d e (d.padded (d.javaName b))
  /-- The digits are those of `Double.toString`, rounded half up. -/
  | fixed {d : Directive} {e : Entry} (hc : d.conv = ch! 'f') {b : BitVec 64} (he : IsDouble e b)
      (hf : finite b) {q : ℚ} (hq : DecimalOf b q) {body : JStr}
      (hb : FixedText (halfUp q d.places) d.places (ch! '#' ∈ d.flags) body) :
      JavaPrints jdk d e (d.field (d.sign (negative b)) body)
  | scientific {d : Directive} {e : Entry} (hc : d.conv = ch! 'e') {b : BitVec 64} (he : IsDouble e b)
      (hf : finite b) {q : ℚ} (hq : DecimalOf b q) {body : JStr}
      (hb : JavaScientific q d.places (ch! '#' ∈ d.flags) body) :
      JavaPrints jdk d e (d.field (d.sign (negative b)) body)
  | general {d : Directive} {e : Entry} (hc : d.conv = ch! 'g') {b : BitVec 64} (he : IsDouble e b)
      (hf : finite b) (hz : magnitude b ≠ 0) {q : ℚ} (hq : DecimalOf b q) {body : JStr}
      (hb : JavaGeneral q d.digits body) : JavaPrints jdk d e (d.field (d.sign (negative b)) body)
  | bigFixed {d : Directive} (hc : d.conv = ch! 'f') (u scale : Int) (id : Identity) {body : JStr}
      (hb : FixedText (halfUp (bigValue u.natAbs scale) d.places) d.places (ch! '#' ∈ d.flags) body) :
      JavaPrints jdk d (.ref (.bigDecimal u scale id)) (d.field (d.sign (u < 0)) body)
  | bigScientific {d : Directive} (hc : d.conv = ch! 'e') (u scale : Int) (id : Identity) {body : JStr}
      (hb : JavaScientific (bigValue u.natAbs scale) d.places (ch! '#' ∈ d.flags) body) :
      JavaPrints jdk d (.ref (.bigDecimal u scale id)) (d.field (d.sign (u < 0)) body)
  | character {d : Directive} {e : Entry} (hc : d.conv = ch! 'c') {x : Integral} (hx : x.Given e)
      (ht : x.JavaCode) {n : Nat} (hn : x.value = n) (h : n ≤ 0x10FFFF) : JavaPrints jdk d e (d.padded (utf16 n))
  /-- "The result obtained by invoking the argument's toString() method"; "the precision is the maximum number of
  characters". -/
  | text {d : Directive} {e : Entry} (hc : d.conv = ch! 's') {s : JStr} (hr : TextReading jdk e (.ok s))
      (ha : ∀ k t id, e = .ref (.object k t id) → id.className.head? ≠ some (ch! '[')) :
      JavaPrints jdk d e (d.padded (cut d.prec.precision s))
  | rope {d : Directive} (hc : d.conv = ch! 's') (q : Seq) (id : Identity) :
      JavaPrints jdk d (.ref (.seq q id)) (d.padded (cut d.prec.precision q.text))
  /-- "The result is converted to upper case"; where the result is ASCII. -/
  | upper {d : Directive} {e : Entry} {lo : JChar} (hc : (lo, d.conv) ∈ casePairs) {s : JStr}
      (ha : ∀ c ∈ s, c < 128) (h : JavaPrints jdk { d with conv := lo } e s) : JavaPrints jdk d e (s.map upper)

/-! ### Where the library prints something else -/

/-- The length of a zero that the library prints for a `BigDecimal` zero of negative scale: a zero for each of
the powers of ten, too. -/
def Directive.longZero (d : Directive) (scale : Int) : Nat :=
  (d.sign false).length + (1 + (-scale).toNat + (fraction (ch! '#' ∈ d.flags) (List.replicate d.places 48)).length)

/-- The list of the differences. -/
inductive JavaDiffers : Directive → Entry → Prop
  /-- `null` is refused, or under `%f`, `%e`, `%g` read as something else. -/
  | null {d : Directive} (hc : d.conv ∈ js! "doxXfeEgGc") : JavaDiffers d (.ref .null)
  /-- `%#x` of zero is `0`, as in C; Java says `0x0`. -/
  | zero {d : Directive} {e : Entry} (hc : d.conv ∈ js! "oxX") (hf : ch! '#' ∈ d.flags) {x : Integral}
      (hx : x.Given e) (hz : x.value = 0) : JavaDiffers d e
  /-- A negative `BigInteger` is refused under `%o` and `%x`. -/
  | negative {d : Directive} (hc : d.conv ∈ js! "oxX") {v : Int} (hv : v < 0) (id : Identity) :
      JavaDiffers d (.ref (.bigInteger v id))
  /-- `+` does not put a sign in front of a `BigInteger` under `%o` and `%x`. -/
  | signedBig {d : Directive} (hc : d.conv ∈ js! "oxX") {v : Int} (hv : 0 ≤ v) (hp : ch! '+' ∈ d.flags)
      (id : Identity) : JavaDiffers d (.ref (.bigInteger v id))
  /-- Space does not put a space in front of `Infinity`; it shows unless the padding hides it. -/
  | infinity {d : Directive} {e : Entry} (hc : d.conv ∈ js! "feEgG") {b : BitVec 64} (he : IsDouble e b)
      (hf : ¬ finite b) (hb : fracBits b = 0) (hn : ¬ negative b) (hs : ch! ' ' ∈ d.flags)
      (hw : ch! '-' ∈ d.flags ∨ d.width.width ≤ 8) : JavaDiffers d e
  /-- `%f` of a `BigDecimal` zero of negative scale has too many zeros; they show unless the `0` flag asks for as
  many. -/
  | longZero {d : Directive} (hc : d.conv = ch! 'f') {scale : Int} (hs : scale < 0)
      (hw : ¬ (ch! '0' ∈ d.flags ∧ d.longZero scale ≤ d.width.width)) (id : Identity) :
      JavaDiffers d (.ref (.bigDecimal 0 scale id))
  /-- `%e` of a `BigDecimal` zero has the scale for its exponent. -/
  | zeroExponent {d : Directive} (hc : d.conv ∈ js! "eE") {scale : Int} (hs : scale ≠ 0) (id : Identity) :
      JavaDiffers d (.ref (.bigDecimal 0 scale id))
  /-- `%e` of a `BigDecimal` writes `e+9` for `e+09` when ten digits are left. -/
  | exponentNine {d : Directive} (hc : d.conv ∈ js! "eE") {u scale : Int} (hz : u ≠ 0) {n M : Nat}
      (hn : DigitCount u.natAbs n) (h10 : min (d.places + 1) n = 10)
      (hs : Significant (bigValue u.natAbs scale) (d.places + 1) M 9) (id : Identity) :
      JavaDiffers d (.ref (.bigDecimal u scale id))
  /-- `%g` drops zeros at the end of the fraction, as in C. -/
  | trailingZero {d : Directive} {e : Entry} (hc : d.conv ∈ js! "gG") {b : BitVec 64} (he : IsDouble e b)
      (hf : finite b) (hz : magnitude b ≠ 0) {q : ℚ} (hq : DecimalOf b q) {M : Nat} {x : Int}
      (hs : Significant q d.digits M x) (hM : M % 10 = 0) (hx : x ≠ d.digits - 1) : JavaDiffers d e
  /-- `%c` of a supplementary code point prints its low 16 bits. -/
  | supplementary {d : Directive} {e : Entry} (hc : d.conv = ch! 'c') {x : Integral} (hx : x.Given e)
      (hn : 0x10000 ≤ x.value) : JavaDiffers d e
  /-- The text of a rope that the precision cuts can report a wrong length. -/
  | rope {d : Directive} (hc : d.conv ∈ js! "sS") {q : Seq} (id : Identity)
      (hw : d.width.width - reportedLength q d.prec.precision ≠
        d.width.width - (cut d.prec.precision q.text).length) : JavaDiffers d (.ref (.seq q id))

/-- What `String.format` gives for a format string in pieces: each directive takes the next argument, and
arguments left over are ignored. -/
inductive JavaFormats (jdk : JdkEnv) : List Piece → List Entry → JStr → Prop
  | done (es : List Entry) : JavaFormats jdk [] es []
  | lit (s : JStr) {ps : List Piece} {es : List Entry} {t : JStr} (h : JavaFormats jdk ps es t) :
      JavaFormats jdk (.lit s :: ps) es (s ++ t)
  | percent {ps : List Piece} {es : List Entry} {t : JStr} (h : JavaFormats jdk ps es t) :
      JavaFormats jdk (.percent :: ps) es (js! "%" ++ t)
  | dir {d : Directive} (hd : d.JavaOk) {e : Entry} {s : JStr} (hp : JavaPrints jdk d e s) {ps : List Piece}
      {es : List Entry} {t : JStr} (h : JavaFormats jdk ps es t) :
      JavaFormats jdk (.dir d :: ps) (e :: es) (s ++ t)

/-- The directives of a format string, in order. -/
def directivesOf (ps : List Piece) : List Directive :=
  ps.filterMap fun p => match p with
    | .dir d => some d
    | _ => none

end FastPrintf.Spec
