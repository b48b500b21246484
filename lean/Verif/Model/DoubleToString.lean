/-
Model of `io.fastprintf.util.internal.DoubleToDecimal` in its string mode (`toString`, `appendTo`), i.e.
with a null `fd`: the digits go into a byte array of 24 places.
-/
import Verif.Model.DoubleToDecimal

namespace FastPrintf.DoubleToDecimal

open MathUtils MultiplyHigh

/-- `MAX_CHARS` (util/internal/DoubleToDecimal.java:72). -/
def MAX_CHARS : Nat := 24
/-- `H` (util/internal/DoubleToDecimal.java:64). -/
def H : Int := 17
/-- `MASK_28` (util/internal/DoubleToDecimal.java:88). -/
def MASK_28 : BitVec 32 := 0xFFFFFFF#32

/-- The fields `bytes` and `index` (util/internal/DoubleToDecimal.java:95-102).  A byte is kept as its
unsigned value, as `new String(bytes, 0, ..)` and the (ASCII) casts to `char` read it. -/
structure Buf where
  bytes : List Nat
  index : Int
  deriving DecidableEq, Repr

/-- A new converter with `index = -1` (util/internal/DoubleToDecimal.java:100-102, 227). -/
def Buf.start : Buf := ⟨List.replicate MAX_CHARS 0, -1⟩

/-- `append(int)` (util/internal/DoubleToDecimal.java:527-529). -/
def Buf.append (b : Buf) (c : BitVec 32) : Res Buf :=
  let i := b.index + 1
  if 0 ≤ i ∧ i < b.bytes.length then .ok ⟨b.bytes.set i.toNat (c.toNat % 256), i⟩
  else .error .indexOutOfBounds

/-- `appendDigit(int)` (util/internal/DoubleToDecimal.java:531-533). -/
def Buf.appendDigit (b : Buf) (d : BitVec 32) : Res Buf := b.append (48#32 + d)

/-- `bytes[index]`, or the exception when the index is out of bounds
(util/internal/DoubleToDecimal.java:477, 481). -/
def Buf.last (b : Buf) : Res Nat :=
  if 0 ≤ b.index then
    match b.bytes[b.index.toNat]? with
    | some c => .ok c
    | none => .error .indexOutOfBounds
  else .error .indexOutOfBounds

/-- The loop of `removeTrailingZeroes` (util/internal/DoubleToDecimal.java:477-479); the fuel is the number
of bytes up to `index`, more steps leave the array. -/
def Buf.skipZeros : Nat → Buf → Res Buf
  | 0, _ => .error .indexOutOfBounds
  | n + 1, b => do
    let c ← b.last
    if c = 48 then Buf.skipZeros n { b with index := b.index - 1 } else return b

/-- `removeTrailingZeroes` (util/internal/DoubleToDecimal.java:476-484). -/
def Buf.removeTrailingZeroes (b : Buf) : Res Buf := do
  let b ← Buf.skipZeros (b.index + 1).toNat b
  let c ← b.last
  return if c = 46 then { b with index := b.index + 1 } else b

/-- `y(int)` (util/internal/DoubleToDecimal.java:486-496). -/
def y (a : BitVec 32) : BitVec 32 :=
  ((multiplyHigh ((a + 1#32).signExtend 64 <<< 28) 193428131138340668#64) >>> 20).truncate 32 - 1#32

/-- `n` rounds of the digit loop `t = 10 * y; appendDigit(t >>> 28); y = t & MASK_28`
(util/internal/DoubleToDecimal.java:418-422, 424-428, 469-473). -/
def digitLoop : Nat → BitVec 32 → Buf → Res (BitVec 32 × Buf)
  | 0, y, b => .ok (y, b)
  | n + 1, y, b => do
    let t := 10#32 * y
    let b ← b.appendDigit (t >>> 28)
    digitLoop n (t &&& MASK_28) b

/-- `append8Digits` (util/internal/DoubleToDecimal.java:463-474). -/
def append8Digits (m : BitVec 32) (b : Buf) : Res Buf := do
  let r ← digitLoop 8 (y m) b
  return r.2

/-- `lowDigits` (util/internal/DoubleToDecimal.java:456-461). -/
def lowDigits (l : BitVec 32) (b : Buf) : Res Buf :=
  if l ≠ 0#32 then append8Digits l b >>= Buf.removeTrailingZeroes else b.removeTrailingZeroes

/-- `toChars1` (util/internal/DoubleToDecimal.java:408-431), for `0 < e <= 7`. -/
def toChars1 (h m l : BitVec 32) (e : Int) (b : Buf) : Res Buf := do
  let b ← b.appendDigit h
  let r ← digitLoop (e - 1).toNat (y m) b
  let b ← r.2.append 46#32
  let r ← digitLoop (9 - e).toNat r.1 b
  lowDigits l r.2

/-- The loop `for (; e < 0; ++e) appendDigit(0)` (util/internal/DoubleToDecimal.java:437-439), `n = -e`
rounds. -/
def zeroLoop : Nat → Buf → Res Buf
  | 0, b => .ok b
  | n + 1, b => do
    let b ← b.appendDigit 0#32
    zeroLoop n b

/-- `toChars2` (util/internal/DoubleToDecimal.java:433-444), for `-3 < e <= 0`. -/
def toChars2 (h m l : BitVec 32) (e : Int) (b : Buf) : Res Buf := do
  let b ← b.appendDigit 0#32
  let b ← b.append 46#32
  let b ← zeroLoop (-e).toNat b
  let b ← b.appendDigit h
  let b ← append8Digits m b
  lowDigits l b

/-- `if (c) append(x)` (util/internal/DoubleToDecimal.java:228-234, 500-503, 509-517). -/
def Buf.appendIf (c : Bool) (x : BitVec 32) (b : Buf) : Res Buf := if c then b.append x else .ok b

/-- `exponent(int)` (util/internal/DoubleToDecimal.java:498-525). -/
def exponent (e : Int) (b : Buf) : Res Buf := do
  let b ← b.append 69#32
  let b ← b.appendIf (e < 0) 45#32
  let e : BitVec 32 := BitVec.ofInt 32 (if e < 0 then -e else e)
  if e.slt 10#32 then b.appendDigit e
  else
    let d := (e * 1311#32) >>> 17
    let b ← b.appendIf ((100#32).sle e) (48#32 + d)
    let e := if (100#32).sle e then e - 100#32 * d else e
    let d := (e * 103#32) >>> 10
    let b ← b.appendDigit d
    b.appendDigit (e - 10#32 * d)

/-- `toChars3` (util/internal/DoubleToDecimal.java:446-454). -/
def toChars3 (h m l : BitVec 32) (e : Int) (b : Buf) : Res Buf := do
  let b ← b.appendDigit h
  let b ← b.append 46#32
  let b ← append8Digits m b
  let b ← lowDigits l b
  exponent (e - 1) b

/-- `toChars` with a null `fd`, after `len` is known (util/internal/DoubleToDecimal.java:371-406). -/
def toCharsAt (f : BitVec 64) (e len : Int) (b : Buf) : Res Buf := do
  let p ← pow10 (H - len)
  let f := f * BitVec.ofNat 64 p
  let e := e + len
  let hm := (multiplyHigh f 193428131138340668#64) >>> 20
  let l : BitVec 32 := (f - 100000000#64 * hm).truncate 32
  let h : BitVec 32 := ((hm * 1441151881#64) >>> 57).truncate 32
  let m : BitVec 32 := (hm - (100000000#32 * h).signExtend 64).truncate 32
  if 0 < e ∧ e ≤ 7 then toChars1 h m l e b
  else if -3 < e ∧ e ≤ 0 then toChars2 h m l e b
  else toChars3 h m l e b

/-- `toDecimal(v, null)` (util/internal/DoubleToDecimal.java:215-260), which fills the array, followed by the
choice of the text in `toDecimalString` (util/internal/DoubleToDecimal.java:160-175) and `charsToString`
(util/internal/DoubleToDecimal.java:537-539).  The decimal is computed before the `-` is written, and
`toDecimal` of the split mode is shared: both modes run the same code up to line 369. -/
def toDecimalString (bits : BitVec 64) : Res JStr := do
  match ← toDecimal bits with
  | .dec f e n =>
    let b ← Buf.start.appendIf (bits.slt 0#64) 45#32
    let b ← toCharsAt f e n b
    return b.bytes.take (b.index + 1).toNat
  | .plusZero => return js! "0.0"
  | .minusZero => return js! "-0.0"
  | .plusInf => return js! "Infinity"
  | .minusInf => return js! "-Infinity"
  | .nan => return js! "NaN"

/-- `toString(double)` (util/internal/DoubleToDecimal.java:112-114), the text of `DoubleWrapper.toString()`
(number/DoubleWrapper.java:165-167). -/
def toString (bits : BitVec 64) : Res JStr := toDecimalString bits

/-- `appendDecimalTo` (util/internal/DoubleToDecimal.java:177-205) and `appendTo`
(util/internal/DoubleToDecimal.java:143-145) on a `StringBuilder` or `StringBuffer` with content `sb`: the
same switch, appending the text. -/
def appendTo (bits : BitVec 64) (sb : JStr) : Res JStr := do
  match ← toDecimal bits with
  | .dec f e n =>
    let b ← Buf.start.appendIf (bits.slt 0#64) 45#32
    let b ← toCharsAt f e n b
    return sb ++ b.bytes.take (b.index + 1).toNat
  | .plusZero => return sb ++ js! "0.0"
  | .minusZero => return sb ++ js! "-0.0"
  | .plusInf => return sb ++ js! "Infinity"
  | .minusInf => return sb ++ js! "-Infinity"
  | .nan => return sb ++ js! "NaN"

end FastPrintf.DoubleToDecimal
