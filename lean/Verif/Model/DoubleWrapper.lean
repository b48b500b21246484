/-
Model of `io.fastprintf.number.DoubleWrapper`.
-/
import Verif.Model.Forms
import Verif.Model.JavaDouble
import Verif.Model.FormattedFPDecimal

namespace FastPrintf
namespace DoubleWrapper

open JavaDouble

/-- `startsWithMinus` (number/DoubleWrapper.java:22-24). -/
def startsWithMinus (s : JStr) : Bool := s.head? == some (ch! '-')

/-- `addPlus` (number/DoubleWrapper.java:35-40). -/
def addPlus (s : JStr) : Seq := if startsWithMinus s then Seq.wrap s else Seq.wrap (js! "+" ++ s)

/-- `Seq.wrap(s, start, end)` (seq/Seq.java) on a rope leaf. -/
def wrapRange (s : JStr) (i j : Int) : Res Seq := do return Seq.atom (← Atomic.wrapRange s i j)

/-- `simpleHexLayout` (number/DoubleWrapper.java:26-33). -/
def simpleHexLayout (bits : BitVec 64) : Res FloatLayout := do
  let s := toHexString bits
  let p := indexOfFrom s (ch! 'p') 0
  return { mantissa := ← wrapRange s (if startsWithMinus s then 3 else 2) p,
           exponent := some (addPlus (s.drop (p + 1).toNat)) }

/-- `seqOrNull(fd.getMantissa())` (number/DoubleWrapper.java:18-20, 57-60). -/
def toSeq (a : JStr) : Seq := Seq.atom (Atomic.forArray a)

/-- `generalLayout` (number/DoubleWrapper.java:63-68). -/
def generalLayout (bits : BitVec 64) (prec : Int) : Res FloatLayout :=
  if isZero bits then .ok { mantissa := Seq.ch (ch! '0'), exponent := none }
  else do
    let (m, ex) ← FormattedFPDecimal.general (← FormattedFPDecimal.ofBits (abs bits)) prec
    return { mantissa := toSeq m, exponent := ex.map toSeq }

/-- `scientificLayout` (number/DoubleWrapper.java:71-76). -/
def scientificLayout (bits : BitVec 64) (prec : Int) : Res FloatLayout :=
  if isZero bits then .ok { mantissa := Seq.ch (ch! '0'), exponent := some (Seq.wrap (js! "+00")) }
  else do
    let (m, ex) ← FormattedFPDecimal.scientific (← FormattedFPDecimal.ofBits (abs bits)) prec
    return { mantissa := toSeq m, exponent := some (toSeq ex) }

/-- `decimalLayout` (number/DoubleWrapper.java:79-81). -/
def decimalLayout (bits : BitVec 64) (prec : Int) : Res FloatLayout := do
  let m ← FormattedFPDecimal.plain (← FormattedFPDecimal.ofBits (abs bits)) prec
  return { mantissa := toSeq m, exponent := none }

/-- The rounding of the significand in `hexLayout` (number/DoubleWrapper.java:106-133): the bits of
`result`, for the bits `doppel` of `d` and `prec` hex digits. -/
def roundBits (doppel : BitVec 64) (prec : Nat) : BitVec 64 :=
  let shift := 53 - (1 + prec * 4)
  let newSignif := (doppel &&& 0x7FFFFFFFFFFFFFFF#64).sshiftRight shift
  let roundingBits := doppel &&& ~~~((-1#64) <<< shift)
  let leastZero := (newSignif &&& 1#64) == 0#64
  let round := ((1#64 <<< (shift - 1)) &&& roundingBits) != 0#64
  let sticky := shift > 1 && (~~~(1#64 <<< (shift - 1)) &&& roundingBits) != 0#64
  let newSignif := if (leastZero && round && sticky) || (!leastZero && round) then newSignif + 1#64
    else newSignif
  (doppel &&& 0x8000000000000000#64) ||| (newSignif <<< shift)

/-- `Integer.parseInt` of the exponent text produced by `Double.toHexString`
(number/DoubleWrapper.java:145). -/
def parseExponent (s : JStr) : Int :=
  match s with
  | 45 :: ds => -((ds.foldl (fun n c => n * 10 + (c - 48)) 0 : Nat) : Int)
  | ds => ((ds.foldl (fun n c => n * 10 + (c - 48)) 0 : Nat) : Int)

/-- `hexLayout` (number/DoubleWrapper.java:84-153). -/
def hexLayout (bits : BitVec 64) (prec : Int) : Res FloatLayout :=
  if isNaN bits || isInfinite bits || isZero bits || prec = 0 || prec ≥ 13 then simpleHexLayout bits
  else
    let subnormal := getExponent bits = -1023
    let d := if subnormal then scaleUp54 bits else bits
    let result := roundBits d prec.toNat
    if isInfinite result then
      .ok { mantissa := Seq.wrap (js! "1.0"), exponent := some (Seq.wrap (js! "+1024")) }
    else if !subnormal then simpleHexLayout result
    else do
      let s := toHexString result
      let idx := indexOfFrom s (ch! 'p') 0
      if idx ≥ 0 then
        let iexp := parseExponent (s.drop (idx + 1).toNat) - 54
        return { mantissa := ← wrapRange s (if startsWithMinus s then 3 else 2) idx,
                 exponent := some (addPlus (intToString iexp)) }
      else .error .assertion

end DoubleWrapper

/-- `FloatForm.valueOf(double)` (number/FloatForm.java:31-33, number/DoubleWrapper.java). -/
def FloatForm.ofDouble (bits : BitVec 64) : FloatForm where
  isNaN := JavaDouble.isNaN bits
  isInfinite := JavaDouble.isInfinite bits
  signum := JavaDouble.compareZero bits
  generalLayout := DoubleWrapper.generalLayout bits
  scientificLayout := DoubleWrapper.scientificLayout bits
  decimalLayout := DoubleWrapper.decimalLayout bits
  hexLayout := DoubleWrapper.hexLayout bits

end FastPrintf
