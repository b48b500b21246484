/-
The calls of src/test/java/io/fastprintf/appender/SeqFormatterTest.java and their expected texts, evaluated in the model.
The test calls the formatter with a context; here the directive is written out.  Where the test compares with
`String.format` of the JDK, the expected text was computed with exact decimal arithmetic outside Lean.
-/
import Verif.Conformance.Run

namespace FastPrintf.Conformance.SeqFormatter

/-- SeqFormatterTest.java, lines 64–80. -/
def rows1 : List Row := [
  ⟨js! "%12d", js! "           0", [i 0]⟩,
  ⟨js! "%12d", js! "           1", [i 1]⟩,
  ⟨js! "%12d", js! "          -1", [i (-1)]⟩,
  ⟨js! "%12d", js! "         123", [i 123]⟩,
  ⟨js! "%12d", js! "        -123", [i (-123)]⟩,
  ⟨js! "%12d", js! "   123456789", [i 123456789]⟩,
  ⟨js! "%12d", js! "  -123456789", [i (-123456789)]⟩,
  ⟨js! "%12d", js! "  2147483647", [i 2147483647]⟩,
  ⟨js! "%12d", js! " -2147483648", [i (-2147483648)]⟩,
  ⟨js! "%012d", js! "000000000000", [i 0]⟩,
  ⟨js! "%012d", js! "000000000001", [i 1]⟩,
  ⟨js! "%012d", js! "-00000000001", [i (-1)]⟩,
  ⟨js! "%012d", js! "000000000123", [i 123]⟩,
  ⟨js! "%012d", js! "-00000000123", [i (-123)]⟩,
  ⟨js! "%012d", js! "000123456789", [i 123456789]⟩,
  ⟨js! "%012d", js! "-00123456789", [i (-123456789)]⟩,
  ⟨js! "%012d", js! "002147483647", [i 2147483647]⟩,
  ⟨js! "%012d", js! "-02147483648", [i (-2147483648)]⟩,
  ⟨js! "%- 12d", js! " 0          ", [i 0]⟩,
  ⟨js! "%- 12d", js! " 1          ", [i 1]⟩,
  ⟨js! "%- 12d", js! "-1          ", [i (-1)]⟩,
  ⟨js! "%- 12d", js! " 123        ", [i 123]⟩,
  ⟨js! "%- 12d", js! "-123        ", [i (-123)]⟩,
  ⟨js! "%- 12d", js! " 123456789  ", [i 123456789]⟩,
  ⟨js! "%- 12d", js! "-123456789  ", [i (-123456789)]⟩,
  ⟨js! "%- 12d", js! " 2147483647 ", [i 2147483647]⟩,
  ⟨js! "%- 12d", js! "-2147483648 ", [i (-2147483648)]⟩,
  ⟨js! "%+012d", js! "+00000000000", [i 0]⟩,
  ⟨js! "%+012d", js! "+00000000001", [i 1]⟩,
  ⟨js! "%+012d", js! "-00000000001", [i (-1)]⟩,
  ⟨js! "%+012d", js! "+00000000123", [i 123]⟩,
  ⟨js! "%+012d", js! "-00000000123", [i (-123)]⟩,
  ⟨js! "%+012d", js! "+00123456789", [i 123456789]⟩,
  ⟨js! "%+012d", js! "-00123456789", [i (-123456789)]⟩,
  ⟨js! "%+012d", js! "+02147483647", [i 2147483647]⟩,
  ⟨js! "%+012d", js! "-02147483648", [i (-2147483648)]⟩]

example : ∀ r ∈ rows1, r.Holds := by decide +kernel

/-- SeqFormatterTest.java, lines 82–99. -/
def rows2 : List Row := [
  ⟨js! "%20X", js! "                   1", [l 1]⟩,
  ⟨js! "%20X", js! "    FFFFFFFFFFFFFFFF", [l (-1)]⟩,
  ⟨js! "%20X", js! "                  7B", [l 123]⟩,
  ⟨js! "%20X", js! "    FFFFFFFFFFFFFF85", [l (-123)]⟩,
  ⟨js! "%20X", js! "             75BCD15", [l 123456789]⟩,
  ⟨js! "%20X", js! "    FFFFFFFFF8A432EB", [l (-123456789)]⟩,
  ⟨js! "%20X", js! "            7FFFFFFF", [l 2147483647]⟩,
  ⟨js! "%20X", js! "    FFFFFFFF80000000", [l (-2147483648)]⟩,
  ⟨js! "%20X", js! "    7FFFFFFFFFFFFFFF", [l 9223372036854775807]⟩,
  ⟨js! "%20X", js! "    8000000000000000", [l (-9223372036854775808)]⟩,
  ⟨js! "%20X", js! "     123456789ABCDEF", [l 81985529216486895]⟩,
  ⟨js! "%020X", js! "00000000000000000001", [l 1]⟩,
  ⟨js! "%020X", js! "0000FFFFFFFFFFFFFFFF", [l (-1)]⟩,
  ⟨js! "%020X", js! "0000000000000000007B", [l 123]⟩,
  ⟨js! "%020X", js! "0000FFFFFFFFFFFFFF85", [l (-123)]⟩,
  ⟨js! "%020X", js! "000000000000075BCD15", [l 123456789]⟩,
  ⟨js! "%020X", js! "0000FFFFFFFFF8A432EB", [l (-123456789)]⟩,
  ⟨js! "%020X", js! "0000000000007FFFFFFF", [l 2147483647]⟩,
  ⟨js! "%020X", js! "0000FFFFFFFF80000000", [l (-2147483648)]⟩,
  ⟨js! "%020X", js! "00007FFFFFFFFFFFFFFF", [l 9223372036854775807]⟩,
  ⟨js! "%020X", js! "00008000000000000000", [l (-9223372036854775808)]⟩,
  ⟨js! "%020X", js! "00000123456789ABCDEF", [l 81985529216486895]⟩,
  ⟨js! "%-20X", js! "1                   ", [l 1]⟩,
  ⟨js! "%-20X", js! "FFFFFFFFFFFFFFFF    ", [l (-1)]⟩,
  ⟨js! "%-20X", js! "7B                  ", [l 123]⟩,
  ⟨js! "%-20X", js! "FFFFFFFFFFFFFF85    ", [l (-123)]⟩,
  ⟨js! "%-20X", js! "75BCD15             ", [l 123456789]⟩,
  ⟨js! "%-20X", js! "FFFFFFFFF8A432EB    ", [l (-123456789)]⟩,
  ⟨js! "%-20X", js! "7FFFFFFF            ", [l 2147483647]⟩,
  ⟨js! "%-20X", js! "FFFFFFFF80000000    ", [l (-2147483648)]⟩,
  ⟨js! "%-20X", js! "7FFFFFFFFFFFFFFF    ", [l 9223372036854775807]⟩,
  ⟨js! "%-20X", js! "8000000000000000    ", [l (-9223372036854775808)]⟩,
  ⟨js! "%-20X", js! "123456789ABCDEF     ", [l 81985529216486895]⟩,
  ⟨js! "%#-20X", js! "0X1                 ", [l 1]⟩,
  ⟨js! "%#-20X", js! "0XFFFFFFFFFFFFFFFF  ", [l (-1)]⟩,
  ⟨js! "%#-20X", js! "0X7B                ", [l 123]⟩,
  ⟨js! "%#-20X", js! "0XFFFFFFFFFFFFFF85  ", [l (-123)]⟩,
  ⟨js! "%#-20X", js! "0X75BCD15           ", [l 123456789]⟩,
  ⟨js! "%#-20X", js! "0XFFFFFFFFF8A432EB  ", [l (-123456789)]⟩,
  ⟨js! "%#-20X", js! "0X7FFFFFFF          ", [l 2147483647]⟩,
  ⟨js! "%#-20X", js! "0XFFFFFFFF80000000  ", [l (-2147483648)]⟩,
  ⟨js! "%#-20X", js! "0X7FFFFFFFFFFFFFFF  ", [l 9223372036854775807]⟩,
  ⟨js! "%#-20X", js! "0X8000000000000000  ", [l (-9223372036854775808)]⟩,
  ⟨js! "%#-20X", js! "0X123456789ABCDEF   ", [l 81985529216486895]⟩]

example : ∀ r ∈ rows2, r.Holds := by decide +kernel

/-- SeqFormatterTest.java, lines 101–125. -/
def rows3 : List Row := [
  ⟨js! "%20.7f", js! "           0.0000000", [d 0x0000000000000000]⟩,
  ⟨js! "%20.7f", js! "           1.0000000", [d 0x3ff0000000000000]⟩,
  ⟨js! "%20.7f", js! "          -1.0000000", [d 0xbff0000000000000]⟩,
  ⟨js! "%20.7f", js! "         123.0000000", [d 0x405ec00000000000]⟩,
  ⟨js! "%20.7f", js! "        -123.0000000", [d 0xc05ec00000000000]⟩,
  ⟨js! "%20.7f", js! "   123456789.0000000", [d 0x419d6f3454000000]⟩,
  ⟨js! "%20.7f", js! "  -123456789.0000000", [d 0xc19d6f3454000000]⟩,
  ⟨js! "%20.7f", js! "340282346638528860000000000000000000000.0000000", [d 0x47efffffe0000000]⟩,
  ⟨js! "%20.7f", js! "           0.0000000", [d 0x36a0000000000000]⟩,
  ⟨js! "%20.7f", js! "179769313486231570000000000000000000000000000000000000000000000000000000000000000000000000000000000000000000000000000000000000000000000000000000000000000000000000000000000000000000000000000000000000000000000000000000000000000000000000000000000000000000000000000000000000000000000000000000000000000000000000000.0000000", [d 0x7fefffffffffffff]⟩,
  ⟨js! "%20.7f", js! "           0.0000000", [d 0x0000000000000001]⟩,
  ⟨js! "%20.7f", js! "           3.1415927", [d 0x400921fb54442d18]⟩,
  ⟨js! "%20.7f", js! "           2.7182818", [d 0x4005bf0a8b145769]⟩,
  ⟨js! "%20.7f", js! "           0.3183099", [d 0x3fd45f306dc9c883]⟩,
  ⟨js! "%20.7f", js! "           0.3678794", [d 0x3fd78b56362cef38]⟩,
  ⟨js! "%20.7f", js! "                 NaN", [d 0x7ff8000000000000]⟩,
  ⟨js! "%20.7f", js! "           -Infinity", [d 0xfff0000000000000]⟩,
  ⟨js! "%20.7f", js! "            Infinity", [d 0x7ff0000000000000]⟩,
  ⟨js! "%020.7f", js! "000000000000.0000000", [d 0x0000000000000000]⟩,
  ⟨js! "%020.7f", js! "000000000001.0000000", [d 0x3ff0000000000000]⟩,
  ⟨js! "%020.7f", js! "-00000000001.0000000", [d 0xbff0000000000000]⟩,
  ⟨js! "%020.7f", js! "000000000123.0000000", [d 0x405ec00000000000]⟩,
  ⟨js! "%020.7f", js! "-00000000123.0000000", [d 0xc05ec00000000000]⟩,
  ⟨js! "%020.7f", js! "000123456789.0000000", [d 0x419d6f3454000000]⟩,
  ⟨js! "%020.7f", js! "-00123456789.0000000", [d 0xc19d6f3454000000]⟩,
  ⟨js! "%020.7f", js! "340282346638528860000000000000000000000.0000000", [d 0x47efffffe0000000]⟩,
  ⟨js! "%020.7f", js! "000000000000.0000000", [d 0x36a0000000000000]⟩,
  ⟨js! "%020.7f", js! "179769313486231570000000000000000000000000000000000000000000000000000000000000000000000000000000000000000000000000000000000000000000000000000000000000000000000000000000000000000000000000000000000000000000000000000000000000000000000000000000000000000000000000000000000000000000000000000000000000000000000000000.0000000", [d 0x7fefffffffffffff]⟩,
  ⟨js! "%020.7f", js! "000000000000.0000000", [d 0x0000000000000001]⟩,
  ⟨js! "%020.7f", js! "000000000003.1415927", [d 0x400921fb54442d18]⟩,
  ⟨js! "%020.7f", js! "000000000002.7182818", [d 0x4005bf0a8b145769]⟩,
  ⟨js! "%020.7f", js! "000000000000.3183099", [d 0x3fd45f306dc9c883]⟩,
  ⟨js! "%020.7f", js! "000000000000.3678794", [d 0x3fd78b56362cef38]⟩,
  ⟨js! "%020.7f", js! "                 NaN", [d 0x7ff8000000000000]⟩,
  ⟨js! "%020.7f", js! "           -Infinity", [d 0xfff0000000000000]⟩,
  ⟨js! "%020.7f", js! "            Infinity", [d 0x7ff0000000000000]⟩,
  ⟨js! "%-20.7f", js! "0.0000000           ", [d 0x0000000000000000]⟩,
  ⟨js! "%-20.7f", js! "1.0000000           ", [d 0x3ff0000000000000]⟩,
  ⟨js! "%-20.7f", js! "-1.0000000          ", [d 0xbff0000000000000]⟩,
  ⟨js! "%-20.7f", js! "123.0000000         ", [d 0x405ec00000000000]⟩,
  ⟨js! "%-20.7f", js! "-123.0000000        ", [d 0xc05ec00000000000]⟩,
  ⟨js! "%-20.7f", js! "123456789.0000000   ", [d 0x419d6f3454000000]⟩,
  ⟨js! "%-20.7f", js! "-123456789.0000000  ", [d 0xc19d6f3454000000]⟩,
  ⟨js! "%-20.7f", js! "340282346638528860000000000000000000000.0000000", [d 0x47efffffe0000000]⟩,
  ⟨js! "%-20.7f", js! "0.0000000           ", [d 0x36a0000000000000]⟩,
  ⟨js! "%-20.7f", js! "179769313486231570000000000000000000000000000000000000000000000000000000000000000000000000000000000000000000000000000000000000000000000000000000000000000000000000000000000000000000000000000000000000000000000000000000000000000000000000000000000000000000000000000000000000000000000000000000000000000000000000000.0000000", [d 0x7fefffffffffffff]⟩,
  ⟨js! "%-20.7f", js! "0.0000000           ", [d 0x0000000000000001]⟩,
  ⟨js! "%-20.7f", js! "3.1415927           ", [d 0x400921fb54442d18]⟩,
  ⟨js! "%-20.7f", js! "2.7182818           ", [d 0x4005bf0a8b145769]⟩,
  ⟨js! "%-20.7f", js! "0.3183099           ", [d 0x3fd45f306dc9c883]⟩,
  ⟨js! "%-20.7f", js! "0.3678794           ", [d 0x3fd78b56362cef38]⟩,
  ⟨js! "%-20.7f", js! "NaN                 ", [d 0x7ff8000000000000]⟩,
  ⟨js! "%-20.7f", js! "-Infinity           ", [d 0xfff0000000000000]⟩,
  ⟨js! "%-20.7f", js! "Infinity            ", [d 0x7ff0000000000000]⟩,
  ⟨js! "%#-20.7f", js! "0.0000000           ", [d 0x0000000000000000]⟩,
  ⟨js! "%#-20.7f", js! "1.0000000           ", [d 0x3ff0000000000000]⟩,
  ⟨js! "%#-20.7f", js! "-1.0000000          ", [d 0xbff0000000000000]⟩,
  ⟨js! "%#-20.7f", js! "123.0000000         ", [d 0x405ec00000000000]⟩,
  ⟨js! "%#-20.7f", js! "-123.0000000        ", [d 0xc05ec00000000000]⟩,
  ⟨js! "%#-20.7f", js! "123456789.0000000   ", [d 0x419d6f3454000000]⟩,
  ⟨js! "%#-20.7f", js! "-123456789.0000000  ", [d 0xc19d6f3454000000]⟩,
  ⟨js! "%#-20.7f", js! "340282346638528860000000000000000000000.0000000", [d 0x47efffffe0000000]⟩,
  ⟨js! "%#-20.7f", js! "0.0000000           ", [d 0x36a0000000000000]⟩,
  ⟨js! "%#-20.7f", js! "179769313486231570000000000000000000000000000000000000000000000000000000000000000000000000000000000000000000000000000000000000000000000000000000000000000000000000000000000000000000000000000000000000000000000000000000000000000000000000000000000000000000000000000000000000000000000000000000000000000000000000000.0000000", [d 0x7fefffffffffffff]⟩,
  ⟨js! "%#-20.7f", js! "0.0000000           ", [d 0x0000000000000001]⟩,
  ⟨js! "%#-20.7f", js! "3.1415927           ", [d 0x400921fb54442d18]⟩,
  ⟨js! "%#-20.7f", js! "2.7182818           ", [d 0x4005bf0a8b145769]⟩,
  ⟨js! "%#-20.7f", js! "0.3183099           ", [d 0x3fd45f306dc9c883]⟩,
  ⟨js! "%#-20.7f", js! "0.3678794           ", [d 0x3fd78b56362cef38]⟩,
  ⟨js! "%#-20.7f", js! "NaN                 ", [d 0x7ff8000000000000]⟩,
  ⟨js! "%#-20.7f", js! "-Infinity           ", [d 0xfff0000000000000]⟩,
  ⟨js! "%#-20.7f", js! "Infinity            ", [d 0x7ff0000000000000]⟩,
  ⟨js! "%+020.7f", js! "+00000000000.0000000", [d 0x0000000000000000]⟩,
  ⟨js! "%+020.7f", js! "+00000000001.0000000", [d 0x3ff0000000000000]⟩,
  ⟨js! "%+020.7f", js! "-00000000001.0000000", [d 0xbff0000000000000]⟩,
  ⟨js! "%+020.7f", js! "+00000000123.0000000", [d 0x405ec00000000000]⟩,
  ⟨js! "%+020.7f", js! "-00000000123.0000000", [d 0xc05ec00000000000]⟩,
  ⟨js! "%+020.7f", js! "+00123456789.0000000", [d 0x419d6f3454000000]⟩,
  ⟨js! "%+020.7f", js! "-00123456789.0000000", [d 0xc19d6f3454000000]⟩,
  ⟨js! "%+020.7f", js! "+340282346638528860000000000000000000000.0000000", [d 0x47efffffe0000000]⟩,
  ⟨js! "%+020.7f", js! "+00000000000.0000000", [d 0x36a0000000000000]⟩,
  ⟨js! "%+020.7f", js! "+179769313486231570000000000000000000000000000000000000000000000000000000000000000000000000000000000000000000000000000000000000000000000000000000000000000000000000000000000000000000000000000000000000000000000000000000000000000000000000000000000000000000000000000000000000000000000000000000000000000000000000000.0000000", [d 0x7fefffffffffffff]⟩,
  ⟨js! "%+020.7f", js! "+00000000000.0000000", [d 0x0000000000000001]⟩,
  ⟨js! "%+020.7f", js! "+00000000003.1415927", [d 0x400921fb54442d18]⟩,
  ⟨js! "%+020.7f", js! "+00000000002.7182818", [d 0x4005bf0a8b145769]⟩,
  ⟨js! "%+020.7f", js! "+00000000000.3183099", [d 0x3fd45f306dc9c883]⟩,
  ⟨js! "%+020.7f", js! "+00000000000.3678794", [d 0x3fd78b56362cef38]⟩,
  ⟨js! "%+020.7f", js! "                 NaN", [d 0x7ff8000000000000]⟩,
  ⟨js! "%+020.7f", js! "           -Infinity", [d 0xfff0000000000000]⟩,
  ⟨js! "%+020.7f", js! "           +Infinity", [d 0x7ff0000000000000]⟩]

example : ∀ r ∈ rows3, r.Holds := by decide +kernel

/-- SeqFormatterTest.java, lines 127–151. -/
def rows4 : List Row := [
  ⟨js! "%20.7E", js! "       0.0000000E+00", [d 0x0000000000000000]⟩,
  ⟨js! "%20.7E", js! "       1.0000000E+00", [d 0x3ff0000000000000]⟩,
  ⟨js! "%20.7E", js! "      -1.0000000E+00", [d 0xbff0000000000000]⟩,
  ⟨js! "%20.7E", js! "       1.2300000E+02", [d 0x405ec00000000000]⟩,
  ⟨js! "%20.7E", js! "      -1.2300000E+02", [d 0xc05ec00000000000]⟩,
  ⟨js! "%20.7E", js! "       1.2345679E+08", [d 0x419d6f3454000000]⟩,
  ⟨js! "%20.7E", js! "      -1.2345679E+08", [d 0xc19d6f3454000000]⟩,
  ⟨js! "%20.7E", js! "       3.4028235E+38", [d 0x47efffffe0000000]⟩,
  ⟨js! "%20.7E", js! "       1.4012985E-45", [d 0x36a0000000000000]⟩,
  ⟨js! "%20.7E", js! "      1.7976931E+308", [d 0x7fefffffffffffff]⟩,
  ⟨js! "%20.7E", js! "      4.9000000E-324", [d 0x0000000000000001]⟩,
  ⟨js! "%20.7E", js! "       3.1415927E+00", [d 0x400921fb54442d18]⟩,
  ⟨js! "%20.7E", js! "       2.7182818E+00", [d 0x4005bf0a8b145769]⟩,
  ⟨js! "%20.7E", js! "       3.1830989E-01", [d 0x3fd45f306dc9c883]⟩,
  ⟨js! "%20.7E", js! "       3.6787944E-01", [d 0x3fd78b56362cef38]⟩,
  ⟨js! "%20.7E", js! "                 NAN", [d 0x7ff8000000000000]⟩,
  ⟨js! "%20.7E", js! "           -INFINITY", [d 0xfff0000000000000]⟩,
  ⟨js! "%20.7E", js! "            INFINITY", [d 0x7ff0000000000000]⟩,
  ⟨js! "%020.7E", js! "00000000.0000000E+00", [d 0x0000000000000000]⟩,
  ⟨js! "%020.7E", js! "00000001.0000000E+00", [d 0x3ff0000000000000]⟩,
  ⟨js! "%020.7E", js! "-0000001.0000000E+00", [d 0xbff0000000000000]⟩,
  ⟨js! "%020.7E", js! "00000001.2300000E+02", [d 0x405ec00000000000]⟩,
  ⟨js! "%020.7E", js! "-0000001.2300000E+02", [d 0xc05ec00000000000]⟩,
  ⟨js! "%020.7E", js! "00000001.2345679E+08", [d 0x419d6f3454000000]⟩,
  ⟨js! "%020.7E", js! "-0000001.2345679E+08", [d 0xc19d6f3454000000]⟩,
  ⟨js! "%020.7E", js! "00000003.4028235E+38", [d 0x47efffffe0000000]⟩,
  ⟨js! "%020.7E", js! "00000001.4012985E-45", [d 0x36a0000000000000]⟩,
  ⟨js! "%020.7E", js! "0000001.7976931E+308", [d 0x7fefffffffffffff]⟩,
  ⟨js! "%020.7E", js! "0000004.9000000E-324", [d 0x0000000000000001]⟩,
  ⟨js! "%020.7E", js! "00000003.1415927E+00", [d 0x400921fb54442d18]⟩,
  ⟨js! "%020.7E", js! "00000002.7182818E+00", [d 0x4005bf0a8b145769]⟩,
  ⟨js! "%020.7E", js! "00000003.1830989E-01", [d 0x3fd45f306dc9c883]⟩,
  ⟨js! "%020.7E", js! "00000003.6787944E-01", [d 0x3fd78b56362cef38]⟩,
  ⟨js! "%020.7E", js! "                 NAN", [d 0x7ff8000000000000]⟩,
  ⟨js! "%020.7E", js! "           -INFINITY", [d 0xfff0000000000000]⟩,
  ⟨js! "%020.7E", js! "            INFINITY", [d 0x7ff0000000000000]⟩,
  ⟨js! "%-20.7E", js! "0.0000000E+00       ", [d 0x0000000000000000]⟩,
  ⟨js! "%-20.7E", js! "1.0000000E+00       ", [d 0x3ff0000000000000]⟩,
  ⟨js! "%-20.7E", js! "-1.0000000E+00      ", [d 0xbff0000000000000]⟩,
  ⟨js! "%-20.7E", js! "1.2300000E+02       ", [d 0x405ec00000000000]⟩,
  ⟨js! "%-20.7E", js! "-1.2300000E+02      ", [d 0xc05ec00000000000]⟩,
  ⟨js! "%-20.7E", js! "1.2345679E+08       ", [d 0x419d6f3454000000]⟩,
  ⟨js! "%-20.7E", js! "-1.2345679E+08      ", [d 0xc19d6f3454000000]⟩,
  ⟨js! "%-20.7E", js! "3.4028235E+38       ", [d 0x47efffffe0000000]⟩,
  ⟨js! "%-20.7E", js! "1.4012985E-45       ", [d 0x36a0000000000000]⟩,
  ⟨js! "%-20.7E", js! "1.7976931E+308      ", [d 0x7fefffffffffffff]⟩,
  ⟨js! "%-20.7E", js! "4.9000000E-324      ", [d 0x0000000000000001]⟩,
  ⟨js! "%-20.7E", js! "3.1415927E+00       ", [d 0x400921fb54442d18]⟩,
  ⟨js! "%-20.7E", js! "2.7182818E+00       ", [d 0x4005bf0a8b145769]⟩,
  ⟨js! "%-20.7E", js! "3.1830989E-01       ", [d 0x3fd45f306dc9c883]⟩,
  ⟨js! "%-20.7E", js! "3.6787944E-01       ", [d 0x3fd78b56362cef38]⟩,
  ⟨js! "%-20.7E", js! "NAN                 ", [d 0x7ff8000000000000]⟩,
  ⟨js! "%-20.7E", js! "-INFINITY           ", [d 0xfff0000000000000]⟩,
  ⟨js! "%-20.7E", js! "INFINITY            ", [d 0x7ff0000000000000]⟩,
  ⟨js! "%#-20.7E", js! "0.0000000E+00       ", [d 0x0000000000000000]⟩,
  ⟨js! "%#-20.7E", js! "1.0000000E+00       ", [d 0x3ff0000000000000]⟩,
  ⟨js! "%#-20.7E", js! "-1.0000000E+00      ", [d 0xbff0000000000000]⟩,
  ⟨js! "%#-20.7E", js! "1.2300000E+02       ", [d 0x405ec00000000000]⟩,
  ⟨js! "%#-20.7E", js! "-1.2300000E+02      ", [d 0xc05ec00000000000]⟩,
  ⟨js! "%#-20.7E", js! "1.2345679E+08       ", [d 0x419d6f3454000000]⟩,
  ⟨js! "%#-20.7E", js! "-1.2345679E+08      ", [d 0xc19d6f3454000000]⟩,
  ⟨js! "%#-20.7E", js! "3.4028235E+38       ", [d 0x47efffffe0000000]⟩,
  ⟨js! "%#-20.7E", js! "1.4012985E-45       ", [d 0x36a0000000000000]⟩,
  ⟨js! "%#-20.7E", js! "1.7976931E+308      ", [d 0x7fefffffffffffff]⟩,
  ⟨js! "%#-20.7E", js! "4.9000000E-324      ", [d 0x0000000000000001]⟩,
  ⟨js! "%#-20.7E", js! "3.1415927E+00       ", [d 0x400921fb54442d18]⟩,
  ⟨js! "%#-20.7E", js! "2.7182818E+00       ", [d 0x4005bf0a8b145769]⟩,
  ⟨js! "%#-20.7E", js! "3.1830989E-01       ", [d 0x3fd45f306dc9c883]⟩,
  ⟨js! "%#-20.7E", js! "3.6787944E-01       ", [d 0x3fd78b56362cef38]⟩,
  ⟨js! "%#-20.7E", js! "NAN                 ", [d 0x7ff8000000000000]⟩,
  ⟨js! "%#-20.7E", js! "-INFINITY           ", [d 0xfff0000000000000]⟩,
  ⟨js! "%#-20.7E", js! "INFINITY            ", [d 0x7ff0000000000000]⟩,
  ⟨js! "%+020.7E", js! "+0000000.0000000E+00", [d 0x0000000000000000]⟩,
  ⟨js! "%+020.7E", js! "+0000001.0000000E+00", [d 0x3ff0000000000000]⟩,
  ⟨js! "%+020.7E", js! "-0000001.0000000E+00", [d 0xbff0000000000000]⟩,
  ⟨js! "%+020.7E", js! "+0000001.2300000E+02", [d 0x405ec00000000000]⟩,
  ⟨js! "%+020.7E", js! "-0000001.2300000E+02", [d 0xc05ec00000000000]⟩,
  ⟨js! "%+020.7E", js! "+0000001.2345679E+08", [d 0x419d6f3454000000]⟩,
  ⟨js! "%+020.7E", js! "-0000001.2345679E+08", [d 0xc19d6f3454000000]⟩,
  ⟨js! "%+020.7E", js! "+0000003.4028235E+38", [d 0x47efffffe0000000]⟩,
  ⟨js! "%+020.7E", js! "+0000001.4012985E-45", [d 0x36a0000000000000]⟩,
  ⟨js! "%+020.7E", js! "+000001.7976931E+308", [d 0x7fefffffffffffff]⟩,
  ⟨js! "%+020.7E", js! "+000004.9000000E-324", [d 0x0000000000000001]⟩,
  ⟨js! "%+020.7E", js! "+0000003.1415927E+00", [d 0x400921fb54442d18]⟩,
  ⟨js! "%+020.7E", js! "+0000002.7182818E+00", [d 0x4005bf0a8b145769]⟩,
  ⟨js! "%+020.7E", js! "+0000003.1830989E-01", [d 0x3fd45f306dc9c883]⟩,
  ⟨js! "%+020.7E", js! "+0000003.6787944E-01", [d 0x3fd78b56362cef38]⟩,
  ⟨js! "%+020.7E", js! "                 NAN", [d 0x7ff8000000000000]⟩,
  ⟨js! "%+020.7E", js! "           -INFINITY", [d 0xfff0000000000000]⟩,
  ⟨js! "%+020.7E", js! "           +INFINITY", [d 0x7ff0000000000000]⟩]

example : ∀ r ∈ rows4, r.Holds := by decide +kernel

/-- SeqFormatterTest.java, lines 155–170. -/
def rows5 : List Row := [
  ⟨js! "%+8.3g", js! "      +0", [d 0x0000000000000000]⟩,
  ⟨js! "%+8.3g", js! "      +1", [d 0x3ff0000000000000]⟩,
  ⟨js! "%+8.3g", js! "      -1", [d 0xbff0000000000000]⟩,
  ⟨js! "%+8.3g", js! "    +123", [d 0x405ec00000000000]⟩,
  ⟨js! "%+8.3g", js! "    -123", [d 0xc05ec00000000000]⟩,
  ⟨js! "%+8.3g", js! "+1.23e+08", [d 0x419d6f3454000000]⟩,
  ⟨js! "%+8.3g", js! "-1.23e+08", [d 0xc19d6f3454000000]⟩,
  ⟨js! "%+8.3g", js! "+3.4e+38", [d 0x47efffffe0000000]⟩,
  ⟨js! "%+8.3g", js! "+1.4e-45", [d 0x36a0000000000000]⟩,
  ⟨js! "%+8.3g", js! "+1.8e+308", [d 0x7fefffffffffffff]⟩,
  ⟨js! "%+8.3g", js! "+4.9e-324", [d 0x0000000000000001]⟩,
  ⟨js! "%+8.3g", js! "   +3.14", [d 0x400921fb54442d18]⟩,
  ⟨js! "%+8.3g", js! "   +2.72", [d 0x4005bf0a8b145769]⟩,
  ⟨js! "%+8.3g", js! "     NaN", [d 0x7ff8000000000000]⟩,
  ⟨js! "%+8.3g", js! "-Infinity", [d 0xfff0000000000000]⟩,
  ⟨js! "%+8.3g", js! "+Infinity", [d 0x7ff0000000000000]⟩]

example : ∀ r ∈ rows5, r.Holds := by decide +kernel

/-- SeqFormatterTest.java, lines 176–193. -/
def rows6 : List Row := [
  ⟨js! "%.8A", js! "0X0.00000000P+0", [d 0x0000000000000000]⟩,
  ⟨js! "%.8A", js! "0X1.00000000P+0", [d 0x3ff0000000000000]⟩,
  ⟨js! "%.8A", js! "-0X1.00000000P+0", [d 0xbff0000000000000]⟩,
  ⟨js! "%.8A", js! "0X1.EC000000P+6", [d 0x405ec00000000000]⟩,
  ⟨js! "%.8A", js! "-0X1.EC000000P+6", [d 0xc05ec00000000000]⟩,
  ⟨js! "%.8A", js! "0X1.D6F34540P+26", [d 0x419d6f3454000000]⟩,
  ⟨js! "%.8A", js! "-0X1.D6F34540P+26", [d 0xc19d6f3454000000]⟩,
  ⟨js! "%.8A", js! "0X1.FFFFFE00P+127", [d 0x47efffffe0000000]⟩,
  ⟨js! "%.8A", js! "0X1.00000000P-149", [d 0x36a0000000000000]⟩,
  ⟨js! "%.8A", js! "0X1.00000000P+1024", [d 0x7fefffffffffffff]⟩,
  ⟨js! "%.8A", js! "0X1.00000000P-1074", [d 0x0000000000000001]⟩,
  ⟨js! "%.8A", js! "0X1.921FB544P+1", [d 0x400921fb54442d18]⟩,
  ⟨js! "%.8A", js! "0X1.5BF0A8B1P+1", [d 0x4005bf0a8b145769]⟩,
  ⟨js! "%.8A", js! "0X1.45F306DDP-2", [d 0x3fd45f306dc9c883]⟩,
  ⟨js! "%.8A", js! "0X1.78B56363P-2", [d 0x3fd78b56362cef38]⟩,
  ⟨js! "%.8A", js! "NAN", [d 0x7ff8000000000000]⟩,
  ⟨js! "%.8A", js! "-INFINITY", [d 0xfff0000000000000]⟩,
  ⟨js! "%.8A", js! "INFINITY", [d 0x7ff0000000000000]⟩]

example : ∀ r ∈ rows6, r.Holds := by decide +kernel

end FastPrintf.Conformance.SeqFormatter
