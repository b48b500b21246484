/-
Model of `io.fastprintf.util.internal.DoubleToDecimal` (the Schubfach algorithm), in the mode used for
formatting: `split(v, fd)`, i.e. with a non-null `fd` that receives the decimal.
-/
import Verif.Model.MathUtils

namespace FastPrintf.DoubleToDecimal

open MathUtils MultiplyHigh

/-- `Q_MIN` (util/internal/DoubleToDecimal.java:76): `-(2^10) - 53 + 3`. -/
def Q_MIN : Int := -1074
/-- `BQ_MASK` (util/internal/DoubleToDecimal.java:80). -/
def BQ_MASK : Nat := 2047
/-- `C_MIN` (util/internal/DoubleToDecimal.java:82). -/
def C_MIN : BitVec 64 := 0x10000000000000#64
/-- `T_MASK` (util/internal/DoubleToDecimal.java:84). -/
def T_MASK : BitVec 64 := 0xFFFFFFFFFFFFF#64
/-- `MASK_63` (util/internal/DoubleToDecimal.java:86). -/
def MASK_63 : BitVec 64 := 0x7FFFFFFFFFFFFFFF#64

/-- `x << h` for a `long` `x` and an `int` `h`: the distance is taken mod 64
(util/internal/DoubleToDecimal.java:244, 281, 305-307, 322-325, 338-339, 348). -/
def shl (x : BitVec 64) (h : Int) : BitVec 64 := x <<< (h % 64).toNat

/-- `rop` (util/internal/DoubleToDecimal.java:151-158). -/
def rop (g1 g0 cp : BitVec 64) : BitVec 64 :=
  let x1 := multiplyHigh g0 cp
  let y0 := g1 * cp
  let y1 := multiplyHigh g1 cp
  let z := (y0 >>> 1) + x1
  let vbp := y1 + (z >>> 63)
  vbp ||| (((z &&& MASK_63) + MASK_63) >>> 63)

/-- What `toDecimal` yields: the decimal handed to `fd.set(f, e, n)`, or a special value
(util/internal/DoubleToDecimal.java:215-260, 366-369). -/
inductive Split
  | dec (f : BitVec 64) (e : Int) (n : Int)
  | plusZero | minusZero | plusInf | minusInf | nan
  deriving DecidableEq, Repr

/-- `Long.SIZE - Long.numberOfLeadingZeros(f)`: the number of significant bits
(util/internal/DoubleToDecimal.java:362). -/
def bitLength (f : BitVec 64) : Nat := if f.toNat = 0 then 0 else f.toNat.log2 + 1

/-- The computation of `len` in `toChars` (util/internal/DoubleToDecimal.java:362-365). -/
def decLength (f : BitVec 64) : Res Int := do
  let len := flog10pow2 (bitLength f)
  let p ← pow10 len
  return if f.toInt ≥ p then len + 1 else len

/-- `toChars` with a non-null `fd` (util/internal/DoubleToDecimal.java:355-369). -/
def toChars (f : BitVec 64) (e : Int) : Res Split := do
  return .dec f e (← decLength f)

/-- The choice between the candidates (util/internal/DoubleToDecimal.java:309-349), given
`vb, vbl, vbr`: the significand, and whether the exponent is `k` (`false`) or `k + dk` (`true`). -/
def choose (vb vbl vbr out : BitVec 64) : BitVec 64 × Bool :=
  let s := vb.sshiftRight 2
  let sp10 := 10#64 * multiplyHigh s (115292150460684698#64 <<< 4)
  let tp10 := sp10 + 10#64
  let upin := (vbl + out).sle (sp10 <<< 2)
  let wpin := ((tp10 <<< 2) + out).sle vbr
  if (100#64).sle s && upin != wpin then (if upin then sp10 else tp10, false)
  else
    let t := s + 1#64
    let uin := (vbl + out).sle (s <<< 2)
    let win := ((t <<< 2) + out).sle vbr
    if uin != win then (if uin then s else t, true)
    else
      let cmp := vb - ((s + t) <<< 1)
      (if cmp.slt 0#64 || cmp == 0#64 && (s &&& 1#64) == 0#64 then s else t, true)

/-- `toDecimal(q, c, dk, fd)` (util/internal/DoubleToDecimal.java:262-350). -/
def toDecimal' (q : Int) (c : BitVec 64) (dk : Int) : Res Split := do
  let out := c &&& 1#64
  let cb := c <<< 2
  let cbr := cb + 2#64
  let regular := c != C_MIN || q == Q_MIN
  let cbl := if regular then cb - 2#64 else cb - 1#64
  let k := if regular then flog10pow2 q else flog10threeQuartersPow2 q
  let h := q + flog2pow10 (-k) + 2
  let g1 ← g1 k
  let g0 ← g0 k
  let vb := rop g1 g0 (shl cb h)
  let vbl := rop g1 g0 (shl cbl h)
  let vbr := rop g1 g0 (shl cbr h)
  let r := choose vb vbl vbr out
  toChars r.1 (if r.2 then k + dk else k)

/-- `toDecimal(v, fd)` (util/internal/DoubleToDecimal.java:215-260) on the raw bits of `v`, without the
`append('-')` of lines 229-235: each of the two modes adds what it does (`split`, `toDecimalString`). -/
def toDecimal (bits : BitVec 64) : Res Split :=
  let t := bits &&& T_MASK
  let bq := ((bits >>> 52) &&& 0x7FF#64).toNat
  if bq < BQ_MASK then
    if bq ≠ 0 then
      let mq : Int := -Q_MIN + 1 - bq
      let c := C_MIN ||| t
      let f := c.sshiftRight (mq % 64).toNat
      if 0 < mq ∧ mq < 53 ∧ shl f mq = c then toChars f 0
      else toDecimal' (-mq) c 0
    else if t ≠ 0#64 then
      if t.slt 3#64 then toDecimal' Q_MIN (10#64 * t) (-1) else toDecimal' Q_MIN t 0
    else .ok (if bits = 0#64 then .plusZero else .minusZero)
  else if t ≠ 0#64 then .ok .nan
  else .ok (if (0#64).slt bits then .plusInf else .minusInf)

/-- `split(v, fd)` (util/internal/DoubleToDecimal.java:129-131).  In this mode there is no byte array
(100-102), so the `append('-')` of a finite negative `v` (229-235) is a null pointer exception; the callers
pass an absolute value. -/
def split (bits : BitVec 64) : Res Split :=
  if bits.slt 0#64 ∧ ((bits >>> 52) &&& 0x7FF#64).toNat < BQ_MASK then .error .nullPointer
  else toDecimal bits

end FastPrintf.DoubleToDecimal
