/-
The two places where the library looks at the JDK that it runs on: `Math.multiplyHigh` is used where the JDK has it
(from version 9 on), and `StringBuilder.repeat` (from version 21 on); otherwise the library has code of its own.  The
methods that lead to these two are given here a second time, with a parameter for what the JDK has.
-/
import Verif.Model.DoubleToString
import Verif.Model.DoubleWrapper
import Verif.Model.Engine

namespace FastPrintf
namespace Versions

/-- What the lookups of util/internal/MultiplyHigh.java:94-117 and seq/Repeated.java:30-51 find. -/
structure Library where
  multiplyHigh : Bool
  repeat_ : Bool

/-- The library of each version of the JDK (the comments of util/internal/MultiplyHigh.java:85-93, "JDK 9+", and of
seq/Repeated.java:32, "JDK 21"). -/
def Library.ofVersion (n : Nat) : Library := ⟨decide (9 ≤ n), decide (21 ≤ n)⟩

/-! ### `multiplyHigh` and what uses it -/

/-- `multiplyHigh` by way of `IMPL` (util/internal/MultiplyHigh.java:38, 53-55, 94-117). -/
def multiplyHigh (lib : Library) (x y : BitVec 64) : BitVec 64 :=
  if lib.multiplyHigh then MultiplyHigh.jdkMultiplyHigh x y else MultiplyHigh.slowMultiplyHigh x y

open DoubleToDecimal MathUtils

/-- `rop` (util/internal/DoubleToDecimal.java:151-158). -/
def rop (lib : Library) (g1 g0 cp : BitVec 64) : BitVec 64 :=
  let x1 := multiplyHigh lib g0 cp
  let y0 := g1 * cp
  let y1 := multiplyHigh lib g1 cp
  let z := (y0 >>> 1) + x1
  let vbp := y1 + (z >>> 63)
  vbp ||| (((z &&& MASK_63) + MASK_63) >>> 63)

/-- The choice between the candidates (util/internal/DoubleToDecimal.java:309-349). -/
def choose (lib : Library) (vb vbl vbr out : BitVec 64) : BitVec 64 × Bool :=
  let s := vb.sshiftRight 2
  let sp10 := 10#64 * multiplyHigh lib s (115292150460684698#64 <<< 4)
  let tp10 := sp10 + 10#64
  let upin := (vbl + out).sle (sp10 <<< 2)
  let wpin := ((tp10 <<< 2) + out).sle vbr
  if (100#64).sle s && upin != wpin then (if upin then sp10 else tp10, false)
  else
    let t := s + 1#64
    let uin := (vbl + out).sle (s <<< 2)
    let win := ((t <<< 2) + out).sle vbr
    if uin != win then (if uin then s else t, true)
    else
      let cmp := vb - ((s + t) <<< 1)
      (if cmp.slt 0#64 || cmp == 0#64 && (s &&& 1#64) == 0#64 then s else t, true)

/-- `toDecimal(q, c, dk, fd)` (util/internal/DoubleToDecimal.java:262-350). -/
def toDecimal' (lib : Library) (q : Int) (c : BitVec 64) (dk : Int) : Res Split := do
  let out := c &&& 1#64
  let cb := c <<< 2
  let cbr := cb + 2#64
  let regular := c != C_MIN || q == Q_MIN
  let cbl := if regular then cb - 2#64 else cb - 1#64
  let k := if regular then flog10pow2 q else flog10threeQuartersPow2 q
  let h := q + flog2pow10 (-k) + 2
  let g1 ← g1 k
  let g0 ← g0 k
  let vb := rop lib g1 g0 (shl cb h)
  let vbl := rop lib g1 g0 (shl cbl h)
  let vbr := rop lib g1 g0 (shl cbr h)
  let r := choose lib vb vbl vbr out
  toChars r.1 (if r.2 then k + dk else k)

/-- `toDecimal(v, fd)` (util/internal/DoubleToDecimal.java:215-260), see `DoubleToDecimal.toDecimal`. -/
def toDecimal (lib : Library) (bits : BitVec 64) : Res Split :=
  let t := bits &&& T_MASK
  let bq := ((bits >>> 52) &&& 0x7FF#64).toNat
  if bq < BQ_MASK then
    if bq ≠ 0 then
      let mq : Int := -Q_MIN + 1 - bq
      let c := C_MIN ||| t
      let f := c.sshiftRight (mq % 64).toNat
      if 0 < mq ∧ mq < 53 ∧ shl f mq = c then toChars f 0
      else toDecimal' lib (-mq) c 0
    else if t ≠ 0#64 then
      if t.slt 3#64 then toDecimal' lib Q_MIN (10#64 * t) (-1) else toDecimal' lib Q_MIN t 0
    else .ok (if bits = 0#64 then .plusZero else .minusZero)
  else if t ≠ 0#64 then .ok .nan
  else .ok (if (0#64).slt bits then .plusInf else .minusInf)

/-- `split(v, fd)` (util/internal/DoubleToDecimal.java:129-131), see `DoubleToDecimal.split`. -/
def split (lib : Library) (bits : BitVec 64) : Res Split :=
  if bits.slt 0#64 ∧ ((bits >>> 52) &&& 0x7FF#64).toNat < BQ_MASK then .error .nullPointer
  else toDecimal lib bits

/-- `valueOf` up to the choice of the form (util/internal/FormattedFPDecimal.java:58-60). -/
def ofBits (lib : Library) (bits : BitVec 64) : Res FormattedFPDecimal.Dec := do
  match ← split lib bits with
  | .dec f e n => return { f := f.toNat, e := e, n := n }
  | _ => return { f := 0, e := 0, n := 0 }

/-- `generalLayout` (number/DoubleWrapper.java:63-68). -/
def generalLayout (lib : Library) (bits : BitVec 64) (prec : Int) : Res FloatLayout :=
  if JavaDouble.isZero bits then .ok { mantissa := Seq.ch (ch! '0'), exponent := none }
  else do
    let (m, ex) ← FormattedFPDecimal.general (← ofBits lib (JavaDouble.abs bits)) prec
    return { mantissa := DoubleWrapper.toSeq m, exponent := ex.map DoubleWrapper.toSeq }

/-- `scientificLayout` (number/DoubleWrapper.java:71-76). -/
def scientificLayout (lib : Library) (bits : BitVec 64) (prec : Int) : Res FloatLayout :=
  if JavaDouble.isZero bits then .ok { mantissa := Seq.ch (ch! '0'), exponent := some (Seq.wrap (js! "+00")) }
  else do
    let (m, ex) ← FormattedFPDecimal.scientific (← ofBits lib (JavaDouble.abs bits)) prec
    return { mantissa := DoubleWrapper.toSeq m, exponent := some (DoubleWrapper.toSeq ex) }

/-- `decimalLayout` (number/DoubleWrapper.java:79-81). -/
def decimalLayout (lib : Library) (bits : BitVec 64) (prec : Int) : Res FloatLayout := do
  let m ← FormattedFPDecimal.plain (← ofBits lib (JavaDouble.abs bits)) prec
  return { mantissa := DoubleWrapper.toSeq m, exponent := none }

/-- `FloatForm.valueOf(double)` (number/FloatForm.java:31-33); the hexadecimal layout does not multiply. -/
def ofDouble (lib : Library) (bits : BitVec 64) : FloatForm :=
  { (FloatForm.ofDouble bits : FloatForm) with
    generalLayout := generalLayout lib bits
    scientificLayout := scientificLayout lib bits
    decimalLayout := decimalLayout lib bits }

/-- `y(int)` (util/internal/DoubleToDecimal.java:486-496). -/
def y (lib : Library) (a : BitVec 32) : BitVec 32 :=
  ((multiplyHigh lib ((a + 1#32).signExtend 64 <<< 28) 193428131138340668#64) >>> 20).truncate 32 - 1#32

/-- `append8Digits` (util/internal/DoubleToDecimal.java:463-474). -/
def append8Digits (lib : Library) (m : BitVec 32) (b : Buf) : Res Buf := do
  let r ← digitLoop 8 (y lib m) b
  return r.2

/-- `lowDigits` (util/internal/DoubleToDecimal.java:456-461). -/
def lowDigits (lib : Library) (l : BitVec 32) (b : Buf) : Res Buf :=
  if l ≠ 0#32 then append8Digits lib l b >>= Buf.removeTrailingZeroes else b.removeTrailingZeroes

/-- `toChars1` (util/internal/DoubleToDecimal.java:408-431). -/
def toChars1 (lib : Library) (h m l : BitVec 32) (e : Int) (b : Buf) : Res Buf := do
  let b ← b.appendDigit h
  let r ← digitLoop (e - 1).toNat (y lib m) b
  let b ← r.2.append 46#32
  let r ← digitLoop (9 - e).toNat r.1 b
  lowDigits lib l r.2

/-- `toChars2` (util/internal/DoubleToDecimal.java:433-444). -/
def toChars2 (lib : Library) (h m l : BitVec 32) (e : Int) (b : Buf) : Res Buf := do
  let b ← b.appendDigit 0#32
  let b ← b.append 46#32
  let b ← zeroLoop (-e).toNat b
  let b ← b.appendDigit h
  let b ← append8Digits lib m b
  lowDigits lib l b

/-- `toChars3` (util/internal/DoubleToDecimal.java:446-454). -/
def toChars3 (lib : Library) (h m l : BitVec 32) (e : Int) (b : Buf) : Res Buf := do
  let b ← b.appendDigit h
  let b ← b.append 46#32
  let b ← append8Digits lib m b
  let b ← lowDigits lib l b
  exponent (e - 1) b

/-- `toChars` with a null `fd`, after `len` is known (util/internal/DoubleToDecimal.java:371-406). -/
def toCharsAt (lib : Library) (f : BitVec 64) (e len : Int) (b : Buf) : Res Buf := do
  let p ← pow10 (H - len)
  let f := f * BitVec.ofNat 64 p
  let e := e + len
  let hm := (multiplyHigh lib f 193428131138340668#64) >>> 20
  let l : BitVec 32 := (f - 100000000#64 * hm).truncate 32
  let h : BitVec 32 := ((hm * 1441151881#64) >>> 57).truncate 32
  let m : BitVec 32 := (hm - (100000000#32 * h).signExtend 64).truncate 32
  if 0 < e ∧ e ≤ 7 then toChars1 lib h m l e b
  else if -3 < e ∧ e ≤ 0 then toChars2 lib h m l e b
  else toChars3 lib h m l e b

/-- `DoubleToDecimal.toString(double)` (util/internal/DoubleToDecimal.java:160-175, 215-260, 537-539), see
`DoubleToDecimal.toDecimalString`. -/
def toDecimalString (lib : Library) (bits : BitVec 64) : Res JStr := do
  match ← toDecimal lib bits with
  | .dec f e n =>
    let b ← Buf.start.appendIf (bits.slt 0#64) 45#32
    let b ← toCharsAt lib f e n b
    return b.bytes.take (b.index + 1).toNat
  | .plusZero => return js! "0.0"
  | .minusZero => return js! "-0.0"
  | .plusInf => return js! "Infinity"
  | .minusInf => return js! "-Infinity"
  | .nan => return js! "NaN"

/-! ### Writing a repeated character -/

/-- What a builder may throw (seq/Repeated.java:39-47, 61-77): the error of the JDK, what `StringBuilder.repeat` does
not take, or the `RuntimeException` of seq/Repeated.java:45 with its cause. -/
inductive Trouble
  | outOfMemory
  | illegalArgument
  | runtime (cause : Trouble)
  deriving DecidableEq, Repr

/-- What becomes of a builder: what was thrown, if anything, and what it holds then (seq/Repeated.java:39-47, 61-77). -/
abbrev After := Option Trouble × JStr

/-- `append` of a character or an array on a builder that has room for `room` characters (`none`: for any number), as
documented by the JDK: an `OutOfMemoryError` leaves it as it is (seq/Repeated.java:72, 75). -/
def put (room : Option Nat) (t : JStr) (sb : JStr) : After :=
  match room with
  | none => (none, sb ++ t)
  | some n => if sb.length + t.length ≤ n then (none, sb ++ t) else (some .outOfMemory, sb)

/-- `ensureCapacity` (seq/Repeated.java:70): it does nothing for a negative number. -/
def ensureCapacity (room : Option Nat) (n : Int) (sb : JStr) : After :=
  match room with
  | none => (none, sb)
  | some r => if n ≤ r then (none, sb) else (some .outOfMemory, sb)

/-- The loop of seq/Repeated.java:71-73. -/
def appendLoop (room : Option Nat) (c : JChar) : Nat → JStr → After
  | 0, sb => (none, sb)
  | n + 1, sb =>
    match put room [c] sb with
    | (none, sb) => appendLoop room c n sb
    | r => r

/-- `appendRepeated` (seq/Repeated.java:61-77). -/
def appendRepeated (room : Option Nat) (c : JChar) (count : Nat) (sb : JStr) : After :=
  if count = 0 then (none, sb)
  else if count < Atomic.arrayAppendThreshold then
    if count > 1 then
      match ensureCapacity room (wrap32 (sb.length + count)) sb with
      | (none, sb) => appendLoop room c count sb
      | r => r
    else appendLoop room c count sb
  else put room (List.replicate count c) sb

/-- The characters of a code point, as documented for `StringBuilder.repeat` (seq/Repeated.java:41-42). -/
def unitsOf (codePoint : Nat) : JStr :=
  if codePoint < 65536 then [codePoint]
  else [55296 + (codePoint - 65536) / 1024, 56320 + (codePoint - 65536) % 1024]

/-- `StringBuilder.repeat(int codePoint, int count)` of the JDK, as documented (seq/Repeated.java:41-42). -/
def repeatCodePoint (room : Option Nat) (codePoint count : Int) (sb : JStr) : After :=
  if count < 0 ∨ codePoint < 0 ∨ 1114111 < codePoint then (some .illegalArgument, sb)
  else put room (List.replicate count.toNat (unitsOf codePoint.toNat)).flatten sb

/-- `appendTo(StringBuilder)` of a `Repeated` by way of `APPENDER` (seq/Repeated.java:14, 30-51, 136-139).  A `char` has
sixteen bits, which `(int) repeated.c` keeps. -/
def appendTo (lib : Library) (room : Option Nat) (c : JChar) (count : Nat) (sb : JStr) : After :=
  if lib.repeat_ then
    match repeatCodePoint room (c % 65536 : Nat) count sb with
    | (some t, sb) => (some (.runtime t), sb)
    | r => r
  else appendRepeated room c count sb

/-- `appendTo(StringBuilder)` of each leaf class, on a builder without limit (EmptySeq.java:51,
Repeated.java:136-139, StrView.java:106-128, CharArray.java:102-113 and 159-165, LazySeq.java:156-159). -/
def leafToSB (lib : Library) : Atomic → JStr → Res JStr
  | .repeated c n, sb =>
    match appendTo lib none c n sb with
    | (none, sb) => .ok sb
    | (some _, _) => .error .external
  | a, sb => a.appendToSB sb

/-- The loop of `AtomicSeqIterable.appendTo(StringBuilder)` (AtomicSeqIterable.java:99-101). -/
def leavesToSB (lib : Library) : List Atomic → JStr → Res JStr
  | [], sb => .ok sb
  | a :: rest, sb => do leavesToSB lib rest (← leafToSB lib a sb)

/-- `appendTo(StringBuilder)` (AtomicSeqIterable.java:97-102). -/
def seqToSB (lib : Library) : Seq → JStr → Res JStr
  | .atom a, sb => leafToSB lib a sb
  | s, sb => do leavesToSB lib (← s.leaves) sb

/-- The loop of `format(StringBuilder, Args)` (FastPrintfImpl.java:84-91, 99-105). -/
def runSB (lib : Library) (env : DateEnv) : List Appender → List Traits → JStr → Outcome JStr
  | [], args, sb => ⟨sb, .ok args⟩
  | a :: rest, args, sb =>
    match a.append env args with
    | .error e => ⟨sb, .error e⟩
    | .ok (seq, args) =>
      match seqToSB lib seq sb with
      | .error e => ⟨seq.leftInSB sb, .error e⟩
      | .ok sb => runSB lib env rest args sb

/-- `FastPrintf.compile(format).format(args)` (FastPrintfImpl.java:68-91). -/
def printf (lib : Library) (dates : DateSyntax) (env : DateEnv) (format : JStr) (args : List Traits) : Res JStr := do
  match runSB lib env (← Compiler.compile dates format) args [] with
  | ⟨_, .error e⟩ => .error e
  | ⟨sb, .ok _⟩ => .ok sb

end Versions
end FastPrintf
