/-
What src/test/java/io/fastprintf/{number,traits}/*Test.java expect of the number wrappers and of the readings of an
argument, evaluated in the model (where the expected value is written out in the test).
-/
import Verif.Conformance.Calls
import Verif.Model.NumberForms

namespace FastPrintf.Conformance.Readings

open Calls

/-- signum, decimal, hexadecimal, octal and unsigned decimal text. -/
def intTexts (f : IntForm) : Int × List (Res JStr) :=
  (f.signum, [f.toDecimalString, f.toHexString, f.toOctalString, f.toUnsignedDecimalString])
def byte (v : Int) := intTexts (.ofByte (BitVec.ofInt 8 v))
def short (v : Int) := intTexts (.ofShort (BitVec.ofInt 16 v))
def int (v : Int) := intTexts (.ofInt (BitVec.ofInt 32 v))
def long (v : Int) := intTexts (.ofLong (BitVec.ofInt 64 v))

/-! ## number/ByteWrapperTest, ShortWrapperTest, IntWrapperTest, LongWrapperTest -/

example : byte 127 = (1, [.ok (js! "127"), .ok (js! "7f"), .ok (js! "177"), .ok (js! "127")]) := by decide +kernel
example : byte 0 = (0, [.ok (js! "0"), .ok (js! "0"), .ok (js! "0"), .ok (js! "0")]) := by decide +kernel
example : byte (-1) = (-1, [.ok (js! "1"), .ok (js! "ff"), .ok (js! "377"), .ok (js! "255")]) := by decide +kernel
example : byte (-128) = (-1, [.ok (js! "128"), .ok (js! "80"), .ok (js! "200"), .ok (js! "128")]) := by decide +kernel
example : byte (-42) = (-1, [.ok (js! "42"), .ok (js! "d6"), .ok (js! "326"), .ok (js! "214")]) := by decide +kernel
example : [127, -128, -42, 0].map (fun v => ByteWrapper.toString (BitVec.ofInt 8 v)) =
    [js! "127", js! "-128", js! "-42", js! "0"] := by decide +kernel
example : short 255 = (1, [.ok (js! "255"), .ok (js! "ff"), .ok (js! "377"), .ok (js! "255")]) := by decide +kernel
example : short (-1) = (-1, [.ok (js! "1"), .ok (js! "ffff"), .ok (js! "177777"), .ok (js! "65535")]) := by
  decide +kernel
example : short 32767 = (1, [.ok (js! "32767"), .ok (js! "7fff"), .ok (js! "77777"), .ok (js! "32767")]) := by
  decide +kernel
example : short (-32768) = (-1, [.ok (js! "32768"), .ok (js! "8000"), .ok (js! "100000"), .ok (js! "32768")]) := by
  decide +kernel
example : [12345, -12345, 0, 32767, -32768].map (fun v => ShortWrapper.toString (BitVec.ofInt 16 v)) =
    [js! "12345", js! "-12345", js! "0", js! "32767", js! "-32768"] := by decide +kernel
example : int 255 = (1, [.ok (js! "255"), .ok (js! "ff"), .ok (js! "377"), .ok (js! "255")]) := by decide +kernel
example : int (-1) = (-1, [.ok (js! "1"), .ok (js! "ffffffff"), .ok (js! "37777777777"), .ok (js! "4294967295")]) := by
  decide +kernel
example : int 2147483647 =
    (1, [.ok (js! "2147483647"), .ok (js! "7fffffff"), .ok (js! "17777777777"), .ok (js! "2147483647")]) := by
  decide +kernel
example : int (-2147483648) =
    (-1, [.ok (js! "2147483648"), .ok (js! "80000000"), .ok (js! "20000000000"), .ok (js! "2147483648")]) := by
  decide +kernel
example : [12345, -12345, 0, 2147483647, -2147483648].map (fun v => IntWrapper.toString (BitVec.ofInt 32 v)) =
    [js! "12345", js! "-12345", js! "0", js! "2147483647", js! "-2147483648"] := by decide +kernel
example : long 255 = (1, [.ok (js! "255"), .ok (js! "ff"), .ok (js! "377"), .ok (js! "255")]) := by decide +kernel
example : long (-1) = (-1, [.ok (js! "1"), .ok (js! "ffffffffffffffff"), .ok (js! "1777777777777777777777"),
    .ok (js! "18446744073709551615")]) := by decide +kernel
example : long 9223372036854775807 = (1, [.ok (js! "9223372036854775807"), .ok (js! "7fffffffffffffff"),
    .ok (js! "777777777777777777777"), .ok (js! "9223372036854775807")]) := by decide +kernel
example : long (-9223372036854775808) = (-1, [.ok (js! "9223372036854775808"), .ok (js! "8000000000000000"),
    .ok (js! "1000000000000000000000"), .ok (js! "9223372036854775808")]) := by decide +kernel
example : [12345, -12345, 0, 9223372036854775807, -9223372036854775808].map
      (fun v => LongWrapper.toString (BitVec.ofInt 64 v)) =
    [js! "12345", js! "-12345", js! "0", js! "9223372036854775807", js! "-9223372036854775808"] := by decide +kernel

/-! ## number/BigIntegerWrapperTest, BigDecimalWrapperTest -/

example : intTexts (.ofBigInteger 255) = (1, [.ok (js! "255"), .ok (js! "ff"), .ok (js! "377"), .ok (js! "255")]) := by
  decide +kernel
example : intTexts (.ofBigInteger 0) = (0, [.ok (js! "0"), .ok (js! "0"), .ok (js! "0"), .ok (js! "0")]) := by
  decide +kernel
/-- The test asks for a `PrintfException` three times. -/
example : (intTexts (.ofBigInteger (-1))).2.map (fun r => match r with | .ok _ => 0 | .error (.printf _) => 1 | _ => 2) =
    [0, 1, 1, 1] := by decide +kernel
def layout (l : Res FloatLayout) : Res (JStr × Option JStr) := do
  let l ← l
  return (← l.mantissa.toStr, ← l.exponent.mapM Seq.toStr)
def mantissa (l : Res FloatLayout) : Res JStr := do (← l).mantissa.toStr
example : mantissa ((FloatForm.ofBigDecimal 1235 3).decimalLayout 2) = .ok (js! "1.24") := by decide +kernel
example : mantissa ((FloatForm.ofBigDecimal 1234 3).decimalLayout 2) = .ok (js! "1.23") := by decide +kernel
example : mantissa ((FloatForm.ofBigDecimal 1235 6).decimalLayout 5) = .ok (js! "0.00124") := by decide +kernel
example : [(0, 0), (1, 0), (-1, 0), (10, 0), (-10, 0)].map (fun p : Int × Int => (FloatForm.ofBigDecimal p.1 p.2).signum) =
    [0, 1, -1, 1, -1] := by decide +kernel
example : (FloatForm.ofBigDecimal 10 0).isNaN = false ∧ (FloatForm.ofBigDecimal 10 0).isInfinite = false := by
  decide +kernel
example : (match (FloatForm.ofBigDecimal 10 0).hexLayout 2 with | .error (.printf _) => true | _ => false) = true := by
  decide +kernel

/-! ## number/DoubleWrapperTest -/

def hex (v : Nat) (p : Int) := layout ((FloatForm.ofDouble (BitVec.ofNat 64 v)).hexLayout p)
def double (v : Nat) : FloatForm := .ofDouble (BitVec.ofNat 64 v)
example : [0, 0x8000000000000000, 0x405edccccccccccd, 0xc05edccccccccccd].map (fun v => (double v).signum) =
    [0, -1, 1, -1] := by decide +kernel
example : (double 0x7ff8000000000000).isNaN = true ∧ (double 0x3ff0000000000000).isNaN = false ∧
    (double 0x7ff0000000000000).isInfinite = true ∧ (double 0xfff0000000000000).isInfinite = true ∧
    (double 0x3ff0000000000000).isInfinite = false := by decide +kernel
example : hex 0x405ee00000000000 0 = .ok (js! "1.ee", some (js! "+6")) := by decide +kernel
example : hex 0xc07c8c0000000000 13 = .ok (js! "1.c8c", some (js! "+8")) := by decide +kernel
example : hex 0 8 = .ok (js! "0.0", some (js! "+0")) := by decide +kernel
example : hex 0x8000000000000000 8 = .ok (js! "0.0", some (js! "+0")) := by decide +kernel
example : hex 0x7fefffffffffffff 8 = .ok (js! "1.0", some (js! "+1024")) := by decide +kernel
example : hex 0x405ee00000000000 1 = .ok (js! "1.f", some (js! "+6")) := by decide +kernel
example : hex 1 8 = .ok (js! "1.0", some (js! "-1074")) := by decide +kernel
example : [0x7ff8000000000000, 0x7ff0000000000000, 0xfff0000000000000].map
      (fun v => (layout ((double v).decimalLayout 2), decide ((double v).signum < 0))) =
    [(.ok (js! "0", none), false), (.ok (js! "0", none), false), (.ok (js! "0", none), true)] := by decide +kernel

/-! ## traits -/

/-- asString, asInt, asChar and the magnitude as `%d` shows it. -/
def views (o : Obj) : Res JStr × Res Int × Res JChar × Res JStr :=
  let t := o.toTraits jdk
  (do (← t.asSeq).toStr, t.asInt, t.asChar, do (← t.asIntForm).toDecimalString)
def number (o : Obj) := (o.toTraits jdk).asInt
def char (o : Obj) := (o.toTraits jdk).asChar
/-- `asFloatForm().decimalLayout(0)`. -/
def whole (o : Obj) : Res JStr := do mantissa ((← (o.toTraits jdk).asFloatForm).decimalLayout 0)

/-- BigDecimalTraitsTest, BigIntegerTraitsTest. -/
example : number (bd 123456789 4) = .ok 12345 ∧ number (bd (-98765) 2) = .ok (-987) ∧
    views (bi 500) = (.ok (js! "500"), .ok 500, .ok 500, .ok (js! "500")) ∧
    number (bi 2147483648) = .ok (-2147483648) ∧ char (bi 65) = .ok (ch! 'A') ∧ char (bi 65537) = .ok 1 := by
  decide +kernel
/-- BooleanTraitsTest. -/
example : views (.boxed (.bool true) anyId) = (.ok (js! "true"), .ok 1, .ok 1, .ok (js! "1")) ∧
    views (.boxed (.bool false) anyId) = (.ok (js! "false"), .ok 0, .ok 0, .ok (js! "0")) ∧
    whole (.boxed (.bool true) anyId) = .ok (js! "1") ∧ whole (.boxed (.bool false) anyId) = .ok (js! "0") := by
  decide +kernel
/-- ByteTraitsTest, ShortTraitsTest, CharacterTraitsTest, IntTraitsTest. -/
example : [b 65, b (-1), b 0, sh 65, sh (-1), c (ch! 'A'), c 8364, i 65, i (-500)].map views = [
    (.ok (js! "65"), .ok 65, .ok (ch! 'A'), .ok (js! "65")),
    (.ok (js! "-1"), .ok (-1), .ok 0xFFFF, .ok (js! "1")),
    (.ok (js! "0"), .ok 0, .ok 0, .ok (js! "0")),
    (.ok (js! "65"), .ok 65, .ok (ch! 'A'), .ok (js! "65")),
    (.ok (js! "-1"), .ok (-1), .ok 0xFFFF, .ok (js! "1")),
    (.ok (js! "A"), .ok 65, .ok (ch! 'A'), .ok (js! "65")),
    (.ok [8364], .ok 8364, .ok 8364, .ok (js! "8364")),
    (.ok (js! "65"), .ok 65, .ok (ch! 'A'), .ok (js! "65")),
    (.ok (js! "-500"), .ok (-500), .ok 65036, .ok (js! "500"))] := by decide +kernel
example : [b 65, b (-1), b 0, sh 65, sh (-1), c (ch! 'A')].map whole =
    [.ok (js! "65"), .ok (js! "1"), .ok (js! "0"), .ok (js! "65"), .ok (js! "1"), .ok (js! "65")] := by decide +kernel
/-- LongTraitsTest. -/
example : number (l 2147483648) = .ok (-2147483648) ∧ char (l 65536) = .ok 0 ∧ char (l 65537) = .ok 1 ∧
    char (l 65) = .ok (ch! 'A') ∧
    views (l (-9223372036854775808)) = (.ok (js! "-9223372036854775808"), .ok 0, .ok 0, .ok (js! "9223372036854775808")) ∧
    views (l 9223372036854775807) = (.ok (js! "9223372036854775807"), .ok (-1), .ok 65535, .ok (js! "9223372036854775807")) ∧
    whole (l 12345) = .ok (js! "12345") := by decide +kernel
/-- The dates that numbers stand for. -/
example : [i 1640995200, i (-1), l 1640995200, l 1640995200123, bi 1640995200, l (-1), bi (-1)].map
      (fun o => (o.toTraits jdk).asTemporal.toOption) =
    [some (.stamp (.epochSecond 1640995200)), some (.stamp (.epochSecond 4294967295)),
     some (.stamp (.epochSecond 1640995200)), some (.stamp (.epochMilli 1640995200123)),
     some (.stamp (.epochSecond 1640995200)), none, none] := by decide +kernel
/-- DoubleTraitsTest, FloatTraitsTest. -/
example : [0x3ff7d70a3d70a3d7, 0xbff7d70a3d70a3d7, 0x3ff8000000000000, 0x3fffd70a3d70a3d7, 0xbff8000000000000,
      0xbff828f5c28f5c29, 0x43e0000000000000, 0xc3e0000000000000, 0x7ff8000000000000, 0x7ff0000000000000,
      0xfff0000000000000].map (fun v => number (d v)) =
    [1, -1, 2, 2, -1, -2, -1, 0, 0, -1, 0].map .ok := by decide +kernel
example : [0x3fbeb852, 0xbfbeb852, 0x3fc00000, 0x3ffeb852, 0xbfc00000, 0xbfc147ae, 0x7fc00000, 0x7f800000,
      0xff800000].map (fun v => number (fl v)) =
    [1, -1, 2, 2, -1, -2, 0, 2147483647, -2147483648].map .ok := by decide +kernel
example : [d 0x405059999999999a, d 0x40506ccccccccccd, fl 0x4282cccd, fl 0x42836666].map char =
    [.ok (ch! 'A'), .ok (ch! 'B'), .ok (ch! 'A'), .ok (ch! 'B')] := by decide +kernel
example : [d 0x3fffd70a3d70a3d7, d 0xbfffd70a3d70a3d7, d 0x7ff8000000000000, d 0x7ff0000000000000, d 0xfff0000000000000,
      fl 0x3ffeb852, fl 0xbffeb852, fl 0x7fc00000, fl 0x7f800000, fl 0xff800000].map
      (fun o => ((o.toTraits jdk).asIntForm.map fun f => (f.signum, f.toDecimalString))) =
    [.ok (1, .ok (js! "1")), .ok (-1, .ok (js! "1")), .ok (0, .ok (js! "0")), .ok (1, .ok (js! "9223372036854775807")),
     .ok (-1, .ok (js! "9223372036854775808")), .ok (1, .ok (js! "1")), .ok (-1, .ok (js! "1")), .ok (0, .ok (js! "0")),
     .ok (1, .ok (js! "2147483647")), .ok (-1, .ok (js! "2147483648"))] := by decide +kernel
/-- CharSequenceTraitsTest. -/
example : number (s (js! "12345")) = .ok 12345 ∧ number (s (js! "-54321")) = .ok (-54321) ∧
    char (s (js! "Hello")) = .ok (ch! 'H') ∧ char (s (js! "Z")) = .ok (ch! 'Z') ∧
    (views (s (js! "9876543210"))).2.2.2 = .ok (js! "9876543210") := by decide +kernel
/-- The test asks for a `PrintfException` for each. -/
def refused {α : Type} : Res α → Bool
  | .error (.printf _) => true
  | _ => false
example : refused (number (s (js! "abc"))) ∧ refused (number (s (js! "99999999999999"))) ∧ refused (char (s [])) ∧
    refused ((s (js! "not a long")).toTraits jdk).asIntForm ∧
    refused ((s (js! "not a double")).toTraits jdk).asFloatForm ∧
    refused ((s (js! "2022-01-01")).toTraits jdk).asTemporal := by decide +kernel
/-- NullTraitsTest. -/
example : (views .null).1 = .ok (js! "null") ∧ refused (number .null) ∧ refused (char .null) ∧
    refused (Obj.null.toTraits jdk).asIntForm ∧ refused (Obj.null.toTraits jdk).asFloatForm ∧
    refused (Obj.null.toTraits jdk).asTemporal := by decide +kernel
/-- ObjectTraitsTest, lines 149-169: `new Date(1234567890L)`. -/
def date : Obj := .object (.utilDate 1234567890) (.ok []) anyId
example : number date = .ok 1234567 ∧ (views date).2.2.2 = .ok (js! "1234567890") ∧
    (date.toTraits jdk).asTemporal.toOption = some (.stamp (.epochMilli 1234567890)) ∧
    (do mantissa ((← (date.toTraits jdk).asFloatForm).decimalLayout 2)) = .ok (js! "1234567.89") := by decide +kernel

end FastPrintf.Conformance.Readings
