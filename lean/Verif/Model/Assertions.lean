/-
The `assert` statements of the library, which a virtual machine evaluates only when assertions are enabled (`-ea`).

There are seven: util/internal/DoubleConsts.java:71-75, number/DoubleWrapper.java:29, 92, 103, 108,
seq/AtomicSeqIterable.java:52 and seq/Repeated.java:43.  The last says that `StringBuilder.repeat` returns its own
builder, which is what the JDK documents, and is not modelled.  The methods that contain the others are given here a
second time, with a parameter `ea` (are assertions enabled?), for every `double` and every `int` precision.
-/
import Verif.Model.DoubleWrapper

namespace FastPrintf
namespace Assertions

open JavaDouble DoubleWrapper

/-- An `assert` statement (such as number/DoubleWrapper.java:29). -/
def assertThat (ea : Bool) (condition : Bool) : Res Unit :=
  if ea && !condition then .error .assertion else .ok ()

/-- `SIGN_BIT_MASK` (util/internal/DoubleConsts.java:53). -/
def signMask : BitVec 64 := 1#64 <<< 63
/-- `EXP_BIT_MASK` (util/internal/DoubleConsts.java:56-57). -/
def expMask : BitVec 64 := ((1#64 <<< (64 - 53)) - 1#64) <<< (53 - 1)
/-- `SIGNIF_BIT_MASK` (util/internal/DoubleConsts.java:60). -/
def signifMask : BitVec 64 := (1#64 <<< (53 - 1)) - 1#64
/-- `MAG_BIT_MASK` (util/internal/DoubleConsts.java:66). -/
def magMask : BitVec 64 := expMask ||| signifMask

/-- The static initialiser (util/internal/DoubleConsts.java:68-76). -/
def initialise (ea : Bool) : Res Unit :=
  assertThat ea ((signMask ||| expMask ||| signifMask) == ~~~0#64
    && ((signMask &&& expMask) == 0#64 && (signMask &&& signifMask) == 0#64 && (expMask &&& signifMask) == 0#64)
    && (signMask ||| magMask) == ~~~0#64)

/-- `Double.toHexString` of any value, as documented (number/DoubleWrapper.java:27, 139). -/
def hexString (bits : BitVec 64) : JStr :=
  if isNaN bits then js! "NaN"
  else if isInfinite bits then (if signBit bits then js! "-Infinity" else js! "Infinity")
  else toHexString bits

/-- `simpleHexLayout` (number/DoubleWrapper.java:26-33). -/
def simpleHexLayout (ea : Bool) (bits : BitVec 64) : Res FloatLayout := do
  let s := hexString bits
  let p := indexOfFrom s (ch! 'p') 0
  assertThat ea (decide (p ≥ 0))
  return { mantissa := ← wrapRange s (if startsWithMinus s then 3 else 2) p,
           exponent := some (addPlus (s.drop (p + 1).toNat)) }

/-- The distance that the language shifts a `long` by: the low six bits (JLS 15.19).  For
number/DoubleWrapper.java:113-115, 123-124, 130. -/
def distance (shift : Int) : Nat := (shift % 64).toNat

/-- The rounding of the significand (number/DoubleWrapper.java:110-131), for any value of `shiftDistance`. -/
def roundBits (doppel : BitVec 64) (shift : Int) : BitVec 64 :=
  let newSignif := (doppel &&& (expMask ||| signifMask)).sshiftRight (distance shift)
  let roundingBits := doppel &&& ~~~((~~~0#64) <<< distance shift)
  let leastZero := (newSignif &&& 1#64) == 0#64
  let round := ((1#64 <<< distance (shift - 1)) &&& roundingBits) != 0#64
  let sticky := decide (shift > 1) && (~~~(1#64 <<< distance (shift - 1)) &&& roundingBits) != 0#64
  let newSignif := if (leastZero && round && sticky) || (!leastZero && round) then newSignif + 1#64
    else newSignif
  (doppel &&& signMask) ||| (newSignif <<< distance shift)

/-- `shiftDistance` (number/DoubleWrapper.java:106-107), in `int` arithmetic. -/
def shiftDistance (prec : Int) : Int := wrap32 (53 - wrap32 (1 + wrap32 (prec * 4)))

/-- `hexLayout` (number/DoubleWrapper.java:84-153). -/
def hexLayout (ea : Bool) (bits : BitVec 64) (prec : Int) : Res FloatLayout :=
  if isNaN bits || isInfinite bits || isZero bits || prec = 0 || prec ≥ 13 then simpleHexLayout ea bits
  else do
    assertThat ea (decide (prec ≥ 1) && decide (prec ≤ 12))
    let subnormal := getExponent bits = -1023
    let d := if subnormal then scaleUp54 bits else bits
    if subnormal then assertThat ea (decide (getExponent d ≥ -1022) && decide (getExponent d ≤ 1023))
    let shift := shiftDistance prec
    assertThat ea (decide (shift ≥ 1) && decide (shift < 53))
    let result := roundBits d shift
    if isInfinite result then
      return { mantissa := Seq.wrap (js! "1.0"), exponent := some (Seq.wrap (js! "+1024")) }
    else if !subnormal then simpleHexLayout ea result
    else do
      let s := hexString result
      let idx := indexOfFrom s (ch! 'p') 0
      if idx ≥ 0 then
        let iexp := parseExponent (s.drop (idx + 1).toNat) - 54
        return { mantissa := ← wrapRange s (if startsWithMinus s then 3 else 2) idx,
                 exponent := some (addPlus (intToString iexp)) }
      else .error .assertion

/-- `FloatForm.valueOf(double)` (number/FloatForm.java:31-33); only `hexLayout` has assertions. -/
def ofDouble (ea : Bool) (bits : BitVec 64) : FloatForm :=
  { (FloatForm.ofDouble bits : FloatForm) with hexLayout := hexLayout ea bits }

/-- `subSequence` of a composite (seq/AtomicSeqIterable.java:32-57; leaves: their own). -/
def subSequence (ea : Bool) : Seq → Int → Int → Res Seq
  | .atom a, i, j => do return .atom (← a.subSequence i j)
  | s, i, j => do
    let length := s.length
    checkPositionIndexes i j length
    if i = j then return Seq.empty
    if i = 0 ∧ j = length then return s
    let (buffer, start, stop) ← Seq.subLoop (← s.leaves) i j []
    assertThat ea (!buffer.isEmpty)
    match buffer with
    | [a] => return .atom a
    | buffer => return .array buffer (stop - start)

end Assertions
end FastPrintf
