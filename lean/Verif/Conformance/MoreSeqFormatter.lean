/-
The calls of src/test/java/io/fastprintf/appender/MoreSeqFormatterTest.java and their expected texts, evaluated in the model.
The test calls the formatter with a context; here the directive is written out.
-/
import Verif.Conformance.Run

namespace FastPrintf.Conformance.MoreSeqFormatter

/-- MoreSeqFormatterTest.java, lines 115–129. -/
def rows1 : List Row := [
  ⟨js! "%d", js! "123", [l 123]⟩,
  ⟨js! "%10d", js! "       123", [l 123]⟩,
  ⟨js! "%-10d", js! "123       ", [l 123]⟩,
  ⟨js! "%010d", js! "0000000123", [l 123]⟩,
  ⟨js! "%+d", js! "+123", [l 123]⟩,
  ⟨js! "% d", js! " 123", [l 123]⟩,
  ⟨js! "%d", js! "-123", [l (-123)]⟩,
  ⟨js! "%10d", js! "      -123", [l (-123)]⟩,
  ⟨js! "%010d", js! "-000000123", [l (-123)]⟩,
  ⟨js! "%.5d", js! "00123", [l 123]⟩,
  ⟨js! "%8.5d", js! "   00123", [l 123]⟩,
  ⟨js! "%-8.5d", js! "00123   ", [l 123]⟩,
  ⟨js! "%08.5d", js! "   00123", [l 123]⟩,
  ⟨js! "%.0d", js! "", [l 0]⟩,
  ⟨js! "%5.0d", js! "     ", [l 0]⟩]

example : ∀ r ∈ rows1, r.Holds := by decide +kernel

/-- MoreSeqFormatterTest.java, lines 137–145. -/
def rows2 : List Row := [
  ⟨js! "%o", js! "173", [l 123]⟩,
  ⟨js! "%#o", js! "0173", [l 123]⟩,
  ⟨js! "%#o", js! "0", [l 0]⟩,
  ⟨js! "%10o", js! "       173", [l 123]⟩,
  ⟨js! "%-10o", js! "173       ", [l 123]⟩,
  ⟨js! "%010o", js! "0000000173", [l 123]⟩,
  ⟨js! "%#010o", js! "0000000173", [l 123]⟩,
  ⟨js! "%.5o", js! "00173", [l 123]⟩,
  ⟨js! "%#.5o", js! "00173", [l 123]⟩]

example : ∀ r ∈ rows2, r.Holds := by decide +kernel

/-- MoreSeqFormatterTest.java, lines 153–161. -/
def rows3 : List Row := [
  ⟨js! "%x", js! "ff", [l 255]⟩,
  ⟨js! "%X", js! "FF", [l 255]⟩,
  ⟨js! "%#x", js! "0xff", [l 255]⟩,
  ⟨js! "%#X", js! "0XFF", [l 255]⟩,
  ⟨js! "%#x", js! "0", [l 0]⟩,
  ⟨js! "%#X", js! "0", [l 0]⟩,
  ⟨js! "%10x", js! "        ff", [l 255]⟩,
  ⟨js! "%010x", js! "00000000ff", [l 255]⟩,
  ⟨js! "%#010x", js! "0x000000ff", [l 255]⟩]

example : ∀ r ∈ rows3, r.Holds := by decide +kernel

/-- MoreSeqFormatterTest.java, lines 169–171. -/
def rows4 : List Row := [
  ⟨js! "%u", js! "123", [l 123]⟩,
  ⟨js! "%u", js! "18446744073709551615", [l (-1)]⟩,
  ⟨js! "%25u", js! "     18446744073709551615", [l (-1)]⟩]

example : ∀ r ∈ rows4, r.Holds := by decide +kernel

/-- MoreSeqFormatterTest.java, lines 179–192. -/
def rows5 : List Row := [
  ⟨js! "%f", js! "1.230000", [d 0x3ff3ae147ae147ae]⟩,
  ⟨js! "%.2f", js! "1.23", [d 0x3ff3be76c8b43958]⟩,
  ⟨js! "%.2f", js! "1.24", [d 0x3ff3c28f5c28f5c3]⟩,
  ⟨js! "%10.2f", js! "      1.24", [d 0x3ff3c28f5c28f5c3]⟩,
  ⟨js! "%-10.2f", js! "1.24      ", [d 0x3ff3c28f5c28f5c3]⟩,
  ⟨js! "%010.2f", js! "0000001.24", [d 0x3ff3c28f5c28f5c3]⟩,
  ⟨js! "%+f", js! "+1.230000", [d 0x3ff3ae147ae147ae]⟩,
  ⟨js! "% f", js! " 1.230000", [d 0x3ff3ae147ae147ae]⟩,
  ⟨js! "%#.0f", js! "123.", [d 0x405ec00000000000]⟩,
  ⟨js! "%F", js! "NAN", [d 0x7ff8000000000000]⟩,
  ⟨js! "%F", js! "INFINITY", [d 0x7ff0000000000000]⟩,
  ⟨js! "%+F", js! "+INFINITY", [d 0x7ff0000000000000]⟩]

example : ∀ r ∈ rows5, r.Holds := by decide +kernel

/-- MoreSeqFormatterTest.java, lines 200–203. -/
def rows6 : List Row := [
  ⟨js! "%e", js! "1.234560e+02", [d 0x405edd2f1a9fbe77]⟩,
  ⟨js! "%.2e", js! "1.23e+02", [d 0x405edd2f1a9fbe77]⟩,
  ⟨js! "%E", js! "1.234560E+02", [d 0x405edd2f1a9fbe77]⟩,
  ⟨js! "%+12.2E", js! "   +1.23E+02", [d 0x405edd2f1a9fbe77]⟩]

example : ∀ r ∈ rows6, r.Holds := by decide +kernel

/-- MoreSeqFormatterTest.java, lines 211–215. -/
def rows7 : List Row := [
  ⟨js! "%g", js! "123.456", [d 0x405edd2f1a9fbe77]⟩,
  ⟨js! "%g", js! "1.23457e+06", [d 0x4132d68700000000]⟩,
  ⟨js! "%.2g", js! "1.2e+02", [d 0x405edd2f1a9fbe77]⟩,
  ⟨js! "%#g", js! "123.000", [d 0x405ec00000000000]⟩,
  ⟨js! "%g", js! "0", [d 0x0000000000000000]⟩]

example : ∀ r ∈ rows7, r.Holds := by decide +kernel

/-- MoreSeqFormatterTest.java, lines 224–230. -/
def rows8 : List Row := [
  ⟨js! "%a", js! "0x1.4p+3", [d 0x4024000000000000]⟩,
  ⟨js! "%A", js! "-0X1.9P+3", [d 0xc029000000000000]⟩]

example : ∀ r ∈ rows8, r.Holds := by decide +kernel

/-- MoreSeqFormatterTest.java, lines 234–252. -/
def rows9 : List Row := [
  ⟨js! "%5c", js! "    a", [c 97]⟩,
  ⟨js! "%-5c", js! "a    ", [c 97]⟩,
  ⟨js! "%.3s", js! "hel", [s (js! "hello")]⟩,
  ⟨js! "%7s", js! "  hello", [s (js! "hello")]⟩,
  ⟨js! "%s", js! "null", [.null]⟩,
  ⟨js! "%S", js! "HELLO", [s (js! "hello")]⟩]

example : ∀ r ∈ rows9, r.Holds := by decide +kernel

end FastPrintf.Conformance.MoreSeqFormatter
