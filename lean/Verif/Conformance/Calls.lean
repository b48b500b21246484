/-
Calls of src/test/java/io/fastprintf/{FastPrintfTest,MoreFastPrintfTest,FastPrintfImplTest,FastPrintfAdvancedFeaturesTest}.java
and appender/DefaultAppenderTest.java with a literal expected text, evaluated in the model.
-/
import Verif.Conformance.Run
import Verif.Model.Arrays

namespace FastPrintf.Conformance.Calls

/-- A `Byte`, a `Short` and a `Float` (by its bits). -/
def b (v : Int) : Obj := .boxed (.byte (BitVec.ofInt 8 v)) anyId
def sh (v : Int) : Obj := .boxed (.short (BitVec.ofInt 16 v)) anyId
def fl (v : Nat) : Obj := .boxed (.float (BitVec.ofNat 32 v)) anyId
/-- An array. -/
def arr (a : JArray) : Obj := .array jdk a anyId

/-- FastPrintfTest.java, lines 21–52. -/
def rows1 : List Row := [
  ⟨js! "%d %f %s %s", js! "1 2.000000 hello null",
    [i 1, d 0x4000000000000000, arr (.chars (js! "hello")), .null]⟩,
  ⟨js! "Some different radices: %d %x %o %#x %#o %.2S", js! "Some different radices: 1 2 3 0x4 05 NU",
    [i 1, i 2, i 3, s (js! "4"), i 5, .null]⟩,
  ⟨js! "%s, %s", js! "aGVsbG8=, world", [arr (.bytes ([104, 101, 108, 108, 111] : List (BitVec 8))), arr (.chars (js! "world"))]⟩]

example : ∀ r ∈ rows1, r.Holds := by decide +kernel

/-- MoreFastPrintfTest.java, lines 18–65, 172–208, 218–266. -/
def rows2 : List Row := [
  ⟨js! "User: %s, ID: %d", js! "User: test, ID: 123", [s (js! "test"), i 123]⟩,
  ⟨js! "%d, %d, %d, %d, %d", js! "10, 20, 30, 40, 50", [b 10, sh 20, i 30, l 40, bi 50]⟩,
  ⟨js! "%.1f, %.1f, %.1f", js! "1.2, 3.4, 5.7", [fl 0x3f99999a, d 0x400b333333333333, bd 567 2]⟩,
  ⟨js! "|%05d|%-5s|%#x|", js! "|00123|abc  |0xff|", [i 123, s (js! "abc"), i 255]⟩,
  ⟨js! "|%*.*f|", js! "|   3.14|", [i 7, i 2, d 0x400921f9f01b866e]⟩,
  ⟨js! "|%*s|", js! "|abc  |", [i (-5), s (js! "abc")]⟩,
  ⟨js! "Hello, %S!", js! "Hello, WORLD!", [s (js! "world")]⟩,
  ⟨js! "%d", js! "1", [i 1, i 2, i 3]⟩,
  ⟨js! "Hello %s, value is %d", js! "Hello World, value is 42", [s (js! "World"), i 42]⟩,
  ⟨js! "Numbers: %.1f and %x", js! "Numbers: 12.3 and ff", [d 0x4028b0a3d70a3d71, i 255]⟩,
  ⟨js! "Static text", js! "Static text", []⟩,
  ⟨js! "The value is: %s", js! "The value is: null", [.null]⟩]

example : ∀ r ∈ rows2, r.Holds := by decide +kernel

/-- FastPrintfImplTest.java, lines 12–31, 117–121; FastPrintfAdvancedFeaturesTest.java, lines 22–30, 82–88. -/
def rows3 : List Row := [
  ⟨js! "Name: %s, ID: %04d, Temp: %.2f%%, Hex: %#X", js! "Name: test, ID: 0007, Temp: 98.62%, Hex: 0XFF",
    [s (js! "test"), i 7, d 0x4058a75c28f5c28f, i 255]⟩,
  ⟨js! "Hello %s, number %d", js! "Hello World, number 123", [s (js! "World"), i 123]⟩,
  ⟨js! "Rate is 100%%", js! "Rate is 100%", []⟩,
  ⟨js! "User: %-*s | ID: %0*d | Pi: %.*f", js! "User: Alice      | ID: 00000123 | Pi: 3.142",
    [i 10, s (js! "Alice"), i 8, i 123, i 3, d 0x400921fb54442d18]⟩,
  ⟨js! "%p", js! "null", [.null]⟩]

example : ∀ r ∈ rows3, r.Holds := by decide +kernel

/-- DefaultAppenderTest.java, lines 94–175, 225–312; the directive is written out. -/
def rows4 : List Row := [
  ⟨js! "%5d", js! "   42", [i 42]⟩,
  ⟨js! "%*s", js! "      test", [i 10, s (js! "test")]⟩,
  ⟨js! "%*s", js! "test      ", [i (-10), s (js! "test")]⟩,
  ⟨js! "%.*s", js! "hel", [i 3, s (js! "hello")]⟩,
  ⟨js! "%.*s", js! "hello", [i (-1), s (js! "hello")]⟩,
  ⟨js! "%*.*s", js! "       hel", [i 10, i 3, s (js! "hello")]⟩,
  ⟨js! "%X", js! "FF", [i 255]⟩,
  ⟨js! "%F", js! "INFINITY", [d 0x7ff0000000000000]⟩,
  ⟨js! "%F", js! "NAN", [d 0x7ff8000000000000]⟩,
  ⟨js! "%E", js! "1.234560E+02", [d 0x405edd2f1a9fbe77]⟩,
  ⟨js! "%A", js! "0X1.0P+0", [d 0x3ff0000000000000]⟩,
  ⟨js! "%S", js! "HELLO WORLD", [s (js! "Hello World")]⟩,
  ⟨js! "%G", js! "1.23457E+30", [d 0x462f2a353f39e270]⟩,
  ⟨js! "%.2G", js! "1.2E-10", [d 0x3de0e7ad82221eec]⟩,
  ⟨js! "%G", js! "INFINITY", [d 0x7ff0000000000000]⟩,
  ⟨js! "%n", js! "", [i 123]⟩]

example : ∀ r ∈ rows4, r.Holds := by decide +kernel

/-- FastPrintfTest.java, lines 38–44: the JDK reads the text `3.1416` as a double. -/
example : printf ⟨fun _ => true⟩ ⟨fun _ _ => .ok []⟩ (js! "floats: %4.2f %+.0e %E \n")
    ([d 0x400921ff2e48e8a7, d 0x400921ff2e48e8a7, s (js! "3.1416")].map
      (Obj.toTraits { jdk with
        parseDouble := fun t => if t = js! "3.1416" then some 0x400921ff2e48e8a7 else none })) =
    .ok (js! "floats: 3.14 +3e+00 3.141600E+00 \n") := by decide +kernel

/-- FastPrintfTest.java, lines 119–126; MoreFastPrintfTest.java, lines 68–81: the text of a date is the JDK's. -/
example : printf ⟨fun _ => true⟩
    ⟨fun f _ => match f with
      | .pattern p => if p = js! "yyyy-MM-dd HH:mm:ss" then .ok (js! "2023-12-31 23:59:59") else .ok []
      | .isoOffsetDateTime => .ok (js! "2023-10-27T10:30:00Z")
      | _ => .ok []⟩
    (js! "%#08X, %05.2f, %.5S, %t{yyyy-MM-dd HH:mm:ss}, %t")
    ([l 123456789, d 0x400921fb54442d18, s (js! "Hello World"), .temporal (.obj .localDateTime 0) (.ok []) anyId,
      .temporal (.obj .zonedDateTime 1) (.ok []) anyId].map (Obj.toTraits jdk)) =
    .ok (js! "0X75BCD15, 03.14, HELLO, 2023-12-31 23:59:59, 2023-10-27T10:30:00Z") := by decide +kernel

/-- FastPrintfImplTest.java, lines 33–58: a target that is not empty. -/
example : (runSB ⟨fun _ _ => .ok []⟩ [.fixed (js! "-> "), .dflt .s ⟨{}, -1, -1, none⟩]
    [Obj.toTraits jdk (s (js! "data"))] (js! "Existing ")).target = js! "Existing -> data" := by decide +kernel

/-- FastPrintfImplTest.java, lines 60–64; FastPrintfAdvancedFeaturesTest.java, lines 94–107. -/
example : printf ⟨fun _ => true⟩ ⟨fun _ _ => .ok []⟩ (js! "A: %d, B: %s") [Obj.toTraits jdk (i 123)] =
    .error (.printf (.missingArgument (ch! 's'))) := by decide +kernel
example : printf ⟨fun _ => true⟩ ⟨fun _ _ => .ok []⟩ (js! "%p") [Prim.traits jdk .primitive (.int 42)] =
    .error (.printf .primitivePointer) := by decide +kernel

end FastPrintf.Conformance.Calls
