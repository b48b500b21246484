/-
The calls of src/test/resources/printf-tests.txt and their expected texts, evaluated in the model.
Each line gives two calls, with primitive arguments and (not under `%x`, `%o`, `%u`) with `BigInteger` and
`BigDecimal` arguments, as in GhcCasesTest.java; its `l` and `h` modifiers are left out, as there.
-/
import Verif.Conformance.Run

namespace FastPrintf.Conformance.Ghc

/-- printf-tests.txt, lines 11–23. -/
def rows1 : List Row := [
  ⟨js! "%.*f", js! "0.33", [i (2), d 0x3fd5555551c112da]⟩,
  ⟨js! "%.*f", js! "0.33", [bi (2), bd (33333333) (8)]⟩,
  ⟨js! "%.3s", js! "foo", [s (js! "foobar")]⟩,
  ⟨js! "%.3s", js! "foo", [s (js! "foobar")]⟩,
  ⟨js! "%10.5d", js! "     00004", [i (4)]⟩,
  ⟨js! "%10.5d", js! "     00004", [bi (4)]⟩,
  ⟨js! "% d", js! " 42", [i (42)]⟩,
  ⟨js! "% d", js! " 42", [bi (42)]⟩,
  ⟨js! "% d", js! "-42", [i (-42)]⟩,
  ⟨js! "% d", js! "-42", [bi (-42)]⟩,
  ⟨js! "% 5d", js! "   42", [i (42)]⟩,
  ⟨js! "% 5d", js! "   42", [bi (42)]⟩,
  ⟨js! "% 5d", js! "  -42", [i (-42)]⟩,
  ⟨js! "% 5d", js! "  -42", [bi (-42)]⟩,
  ⟨js! "% 15d", js! "             42", [i (42)]⟩,
  ⟨js! "% 15d", js! "             42", [bi (42)]⟩,
  ⟨js! "% 15d", js! "            -42", [i (-42)]⟩,
  ⟨js! "% 15d", js! "            -42", [bi (-42)]⟩,
  ⟨js! "%+d", js! "+42", [i (42)]⟩,
  ⟨js! "%+d", js! "+42", [bi (42)]⟩]

example : ∀ r ∈ rows1, r.Holds := by decide +kernel

/-- printf-tests.txt, lines 24–34. -/
def rows2 : List Row := [
  ⟨js! "%+d", js! "-42", [i (-42)]⟩,
  ⟨js! "%+d", js! "-42", [bi (-42)]⟩,
  ⟨js! "%+5d", js! "  +42", [i (42)]⟩,
  ⟨js! "%+5d", js! "  +42", [bi (42)]⟩,
  ⟨js! "%+5d", js! "  -42", [i (-42)]⟩,
  ⟨js! "%+5d", js! "  -42", [bi (-42)]⟩,
  ⟨js! "%+15d", js! "            +42", [i (42)]⟩,
  ⟨js! "%+15d", js! "            +42", [bi (42)]⟩,
  ⟨js! "%+15d", js! "            -42", [i (-42)]⟩,
  ⟨js! "%+15d", js! "            -42", [bi (-42)]⟩,
  ⟨js! "%0d", js! "42", [i (42)]⟩,
  ⟨js! "%0d", js! "42", [bi (42)]⟩,
  ⟨js! "%0d", js! "-42", [i (-42)]⟩,
  ⟨js! "%0d", js! "-42", [bi (-42)]⟩,
  ⟨js! "%05d", js! "00042", [i (42)]⟩,
  ⟨js! "%05d", js! "00042", [bi (42)]⟩,
  ⟨js! "%05d", js! "-0042", [i (-42)]⟩,
  ⟨js! "%05d", js! "-0042", [bi (-42)]⟩,
  ⟨js! "%015d", js! "000000000000042", [i (42)]⟩,
  ⟨js! "%015d", js! "000000000000042", [bi (42)]⟩]

example : ∀ r ∈ rows2, r.Holds := by decide +kernel

/-- printf-tests.txt, lines 35–45. -/
def rows3 : List Row := [
  ⟨js! "%015d", js! "-00000000000042", [i (-42)]⟩,
  ⟨js! "%015d", js! "-00000000000042", [bi (-42)]⟩,
  ⟨js! "%-d", js! "42", [i (42)]⟩,
  ⟨js! "%-d", js! "42", [bi (42)]⟩,
  ⟨js! "%-d", js! "-42", [i (-42)]⟩,
  ⟨js! "%-d", js! "-42", [bi (-42)]⟩,
  ⟨js! "%-5d", js! "42   ", [i (42)]⟩,
  ⟨js! "%-5d", js! "42   ", [bi (42)]⟩,
  ⟨js! "%-5d", js! "-42  ", [i (-42)]⟩,
  ⟨js! "%-5d", js! "-42  ", [bi (-42)]⟩,
  ⟨js! "%-15d", js! "42             ", [i (42)]⟩,
  ⟨js! "%-15d", js! "42             ", [bi (42)]⟩,
  ⟨js! "%-15d", js! "-42            ", [i (-42)]⟩,
  ⟨js! "%-15d", js! "-42            ", [bi (-42)]⟩,
  ⟨js! "%-0d", js! "42", [i (42)]⟩,
  ⟨js! "%-0d", js! "42", [bi (42)]⟩,
  ⟨js! "%-0d", js! "-42", [i (-42)]⟩,
  ⟨js! "%-0d", js! "-42", [bi (-42)]⟩,
  ⟨js! "%-05d", js! "42   ", [i (42)]⟩,
  ⟨js! "%-05d", js! "42   ", [bi (42)]⟩]

example : ∀ r ∈ rows3, r.Holds := by decide +kernel

/-- printf-tests.txt, lines 46–60. -/
def rows4 : List Row := [
  ⟨js! "%-05d", js! "-42  ", [i (-42)]⟩,
  ⟨js! "%-05d", js! "-42  ", [bi (-42)]⟩,
  ⟨js! "%-015d", js! "42             ", [i (42)]⟩,
  ⟨js! "%-015d", js! "42             ", [bi (42)]⟩,
  ⟨js! "%-015d", js! "-42            ", [i (-42)]⟩,
  ⟨js! "%-015d", js! "-42            ", [bi (-42)]⟩,
  ⟨js! "%0-d", js! "42", [i (42)]⟩,
  ⟨js! "%0-d", js! "42", [bi (42)]⟩,
  ⟨js! "%0-d", js! "-42", [i (-42)]⟩,
  ⟨js! "%0-d", js! "-42", [bi (-42)]⟩,
  ⟨js! "%0-5d", js! "42   ", [i (42)]⟩,
  ⟨js! "%0-5d", js! "42   ", [bi (42)]⟩,
  ⟨js! "%0-5d", js! "-42  ", [i (-42)]⟩,
  ⟨js! "%0-5d", js! "-42  ", [bi (-42)]⟩,
  ⟨js! "%0-15d", js! "42             ", [i (42)]⟩,
  ⟨js! "%0-15d", js! "42             ", [bi (42)]⟩,
  ⟨js! "%0-15d", js! "-42            ", [i (-42)]⟩,
  ⟨js! "%0-15d", js! "-42            ", [bi (-42)]⟩,
  ⟨js! "%.2f", js! "42.90", [d 0x40457295e9e1b08a]⟩,
  ⟨js! "%.2f", js! "42.90", [bd (428952) (4)]⟩]

example : ∀ r ∈ rows4, r.Holds := by decide +kernel

/-- printf-tests.txt, lines 61–99. -/
def rows5 : List Row := [
  ⟨js! "%.2F", js! "42.90", [d 0x40457295e9e1b08a]⟩,
  ⟨js! "%.2F", js! "42.90", [bd (428952) (4)]⟩,
  ⟨js! "%.10f", js! "42.8952000000", [d 0x40457295e9e1b08a]⟩,
  ⟨js! "%.10f", js! "42.8952000000", [bd (428952) (4)]⟩,
  ⟨js! "%1.2f", js! "42.90", [d 0x40457295e9e1b08a]⟩,
  ⟨js! "%1.2f", js! "42.90", [bd (428952) (4)]⟩,
  ⟨js! "%6.2f", js! " 42.90", [d 0x40457295e9e1b08a]⟩,
  ⟨js! "%6.2f", js! " 42.90", [bd (428952) (4)]⟩,
  ⟨js! "%+6.2f", js! "+42.90", [d 0x40457295e9e1b08a]⟩,
  ⟨js! "%+6.2f", js! "+42.90", [bd (428952) (4)]⟩,
  ⟨js! "%5.10f", js! "42.8952000000", [d 0x40457295e9e1b08a]⟩,
  ⟨js! "%5.10f", js! "42.8952000000", [bd (428952) (4)]⟩,
  ⟨js! "%*s", js! " foo", [i (4), s (js! "foo")]⟩,
  ⟨js! "%*s", js! " foo", [bi (4), s (js! "foo")]⟩,
  ⟨js! "%*.*f", js! "      3.14", [i (10), i (2), d 0x400921fb53c8d4f1]⟩,
  ⟨js! "%*.*f", js! "      3.14", [bi (10), bi (2), bd (314159265) (8)]⟩,
  ⟨js! "%-*.*f", js! "3.14      ", [i (10), i (2), d 0x400921fb53c8d4f1]⟩,
  ⟨js! "%-*.*f", js! "3.14      ", [bi (10), bi (2), bd (314159265) (8)]⟩,
  ⟨js! "+%s+", js! "+hello+", [s (js! "hello")]⟩,
  ⟨js! "+%s+", js! "+hello+", [s (js! "hello")]⟩]

example : ∀ r ∈ rows5, r.Holds := by decide +kernel

/-- printf-tests.txt, lines 100–130. -/
def rows6 : List Row := [
  ⟨js! "+%d+", js! "+10+", [i (10)]⟩,
  ⟨js! "+%d+", js! "+10+", [bi (10)]⟩,
  ⟨js! "%c", js! "a", [c 97]⟩,
  ⟨js! "%c", js! "a", [c 97]⟩,
  ⟨js! "%c", js! " ", [i (32)]⟩,
  ⟨js! "%c", js! " ", [bi (32)]⟩,
  ⟨js! "%c", js! "$", [i (36)]⟩,
  ⟨js! "%c", js! "$", [bi (36)]⟩,
  ⟨js! "%d", js! "10", [i (10)]⟩,
  ⟨js! "%d", js! "10", [bi (10)]⟩,
  ⟨js! "%+8d", js! "    +100", [l (100)]⟩,
  ⟨js! "%+8d", js! "    +100", [bi (100)]⟩,
  ⟨js! "%+.8d", js! "+00000100", [l (100)]⟩,
  ⟨js! "%+.8d", js! "+00000100", [bi (100)]⟩,
  ⟨js! "%+10.8d", js! " +00000100", [l (100)]⟩,
  ⟨js! "%+10.8d", js! " +00000100", [bi (100)]⟩,
  ⟨js! "%-1.5d", js! "-00100", [l (-100)]⟩,
  ⟨js! "%-1.5d", js! "-00100", [bi (-100)]⟩,
  ⟨js! "%5d", js! "  100", [l (100)]⟩,
  ⟨js! "%5d", js! "  100", [bi (100)]⟩]

example : ∀ r ∈ rows6, r.Holds := by decide +kernel

/-- printf-tests.txt, lines 131–140. -/
def rows7 : List Row := [
  ⟨js! "%5d", js! " -100", [l (-100)]⟩,
  ⟨js! "%5d", js! " -100", [bi (-100)]⟩,
  ⟨js! "%-5d", js! "100  ", [l (100)]⟩,
  ⟨js! "%-5d", js! "100  ", [bi (100)]⟩,
  ⟨js! "%-5d", js! "-100 ", [l (-100)]⟩,
  ⟨js! "%-5d", js! "-100 ", [bi (-100)]⟩,
  ⟨js! "%-.5d", js! "00100", [l (100)]⟩,
  ⟨js! "%-.5d", js! "00100", [bi (100)]⟩,
  ⟨js! "%-.5d", js! "-00100", [l (-100)]⟩,
  ⟨js! "%-.5d", js! "-00100", [bi (-100)]⟩,
  ⟨js! "%-8.5d", js! "00100   ", [l (100)]⟩,
  ⟨js! "%-8.5d", js! "00100   ", [bi (100)]⟩,
  ⟨js! "%-8.5d", js! "-00100  ", [l (-100)]⟩,
  ⟨js! "%-8.5d", js! "-00100  ", [bi (-100)]⟩,
  ⟨js! "%05d", js! "00100", [l (100)]⟩,
  ⟨js! "%05d", js! "00100", [bi (100)]⟩,
  ⟨js! "%05d", js! "-0100", [l (-100)]⟩,
  ⟨js! "%05d", js! "-0100", [bi (-100)]⟩,
  ⟨js! "% d", js! " 100", [l (100)]⟩,
  ⟨js! "% d", js! " 100", [bi (100)]⟩]

example : ∀ r ∈ rows7, r.Holds := by decide +kernel

/-- printf-tests.txt, lines 141–152. -/
def rows8 : List Row := [
  ⟨js! "% d", js! "-100", [l (-100)]⟩,
  ⟨js! "% d", js! "-100", [bi (-100)]⟩,
  ⟨js! "% 5d", js! "  100", [l (100)]⟩,
  ⟨js! "% 5d", js! "  100", [bi (100)]⟩,
  ⟨js! "% 5d", js! " -100", [l (-100)]⟩,
  ⟨js! "% 5d", js! " -100", [bi (-100)]⟩,
  ⟨js! "% .5d", js! " 00100", [l (100)]⟩,
  ⟨js! "% .5d", js! " 00100", [bi (100)]⟩,
  ⟨js! "% .5d", js! "-00100", [l (-100)]⟩,
  ⟨js! "% .5d", js! "-00100", [bi (-100)]⟩,
  ⟨js! "% 8.5d", js! "   00100", [l (100)]⟩,
  ⟨js! "% 8.5d", js! "   00100", [bi (100)]⟩,
  ⟨js! "% 8.5d", js! "  -00100", [l (-100)]⟩,
  ⟨js! "% 8.5d", js! "  -00100", [bi (-100)]⟩,
  ⟨js! "%.0d", js! "", [l (0)]⟩,
  ⟨js! "%.0d", js! "", [bi (0)]⟩,
  ⟨js! "%#+21.18x", js! " 0x00ffffffffffffff9c", [l (-100)]⟩,
  ⟨js! "%#.25o", js! "0001777777777777777777634", [l (-100)]⟩,
  ⟨js! "%#+24.20o", js! " 01777777777777777777634", [l (-100)]⟩,
  ⟨js! "%#+18.21X", js! "0X00000FFFFFFFFFFFFFF9C", [l (-100)]⟩]

example : ∀ r ∈ rows8, r.Holds := by decide +kernel

/-- printf-tests.txt, lines 153–177. -/
def rows9 : List Row := [
  ⟨js! "%#+20.24o", js! "001777777777777777777634", [l (-100)]⟩,
  ⟨js! "%#+25.22u", js! "   0018446744073709551615", [l (-1)]⟩,
  ⟨js! "%#+25.22u", js! "   0018446744073709551615", [l (-1)]⟩,
  ⟨js! "%#+30.25u", js! "     0000018446744073709551615", [l (-1)]⟩,
  ⟨js! "%+#25.22d", js! "  -0000000000000000000001", [l (-1)]⟩,
  ⟨js! "%+#25.22d", js! "  -0000000000000000000001", [bi (-1)]⟩,
  ⟨js! "%#-8.5o", js! "00144   ", [l (100)]⟩,
  ⟨js! "%#-+ 08.5d", js! "+00100  ", [l (100)]⟩,
  ⟨js! "%#-+ 08.5d", js! "+00100  ", [bi (100)]⟩,
  ⟨js! "%#-+ 08.5d", js! "+00100  ", [l (100)]⟩,
  ⟨js! "%#-+ 08.5d", js! "+00100  ", [bi (100)]⟩,
  ⟨js! "%.40d", js! "0000000000000000000000000000000000000001", [l (1)]⟩,
  ⟨js! "%.40d", js! "0000000000000000000000000000000000000001", [bi (1)]⟩,
  ⟨js! "% .40d", js! " 0000000000000000000000000000000000000001", [l (1)]⟩,
  ⟨js! "% .40d", js! " 0000000000000000000000000000000000000001", [bi (1)]⟩,
  ⟨js! "% .40d", js! " 0000000000000000000000000000000000000001", [i (1)]⟩,
  ⟨js! "% .40d", js! " 0000000000000000000000000000000000000001", [bi (1)]⟩,
  ⟨js! "% d", js! " 1", [i (1)]⟩,
  ⟨js! "% d", js! " 1", [bi (1)]⟩,
  ⟨js! "%+ d", js! "+1", [i (1)]⟩]

example : ∀ r ∈ rows9, r.Holds := by decide +kernel

/-- printf-tests.txt, lines 177–215. -/
def rows10 : List Row := [
  ⟨js! "%+ d", js! "+1", [bi (1)]⟩,
  ⟨js! "%#012x", js! "0x0000000001", [i (1)]⟩,
  ⟨js! "%#04.8x", js! "0x00000001", [i (1)]⟩,
  ⟨js! "%#-08.2x", js! "0x01    ", [i (1)]⟩,
  ⟨js! "%#08o", js! "00000001", [i (1)]⟩,
  ⟨js! "%.1s", js! "f", [s (js! "foo")]⟩,
  ⟨js! "%.1s", js! "f", [s (js! "foo")]⟩,
  ⟨js! "%.*s", js! "f", [i (1), s (js! "foo")]⟩,
  ⟨js! "%.*s", js! "f", [bi (1), s (js! "foo")]⟩,
  ⟨js! "%*s", js! "foo  ", [i (-5), s (js! "foo")]⟩,
  ⟨js! "%*s", js! "foo  ", [bi (-5), s (js! "foo")]⟩,
  ⟨js! "hello", js! "hello", []⟩,
  ⟨js! "%3c", js! "  a", [c 97]⟩,
  ⟨js! "%3c", js! "  a", [c 97]⟩,
  ⟨js! "%3d", js! "1234", [i (1234)]⟩,
  ⟨js! "%3d", js! "1234", [bi (1234)]⟩,
  ⟨js! "%-1d", js! "2", [i (2)]⟩,
  ⟨js! "%-1d", js! "2", [bi (2)]⟩,
  ⟨js! "%2.4f", js! "8.6000", [d 0x4021333333333333]⟩,
  ⟨js! "%2.4f", js! "8.6000", [bd (86) (1)]⟩]

example : ∀ r ∈ rows10, r.Holds := by decide +kernel

/-- printf-tests.txt, lines 218–259. -/
def rows11 : List Row := [
  ⟨js! "%.0f", js! "1", [d 0x3fe3333333333333]⟩,
  ⟨js! "%.0f", js! "1", [bd (6) (1)]⟩,
  ⟨js! "%-i", js! "-1", [i (-1)]⟩,
  ⟨js! "%-i", js! "-1", [bi (-1)]⟩,
  ⟨js! "%-i", js! "1", [i (1)]⟩,
  ⟨js! "%-i", js! "1", [bi (1)]⟩,
  ⟨js! "%+i", js! "+1", [i (1)]⟩,
  ⟨js! "%+i", js! "+1", [bi (1)]⟩,
  ⟨js! "%o", js! "12", [i (10)]⟩,
  ⟨js! "%s", js! "%%%%", [s (js! "%%%%")]⟩,
  ⟨js! "%s", js! "%%%%", [s (js! "%%%%")]⟩,
  ⟨js! "%u", js! "4294967295", [i (-1)]⟩,
  ⟨js! "%%0", js! "%0", []⟩,
  ⟨js! "%%0", js! "%0", []⟩,
  ⟨js! "%x", js! "61", [c 97]⟩,
  ⟨js! "Hallo heimur", js! "Hallo heimur", []⟩,
  ⟨js! "Hallo heimur", js! "Hallo heimur", []⟩,
  ⟨js! "%s", js! "Hallo heimur", [s (js! "Hallo heimur")]⟩,
  ⟨js! "%s", js! "Hallo heimur", [s (js! "Hallo heimur")]⟩,
  ⟨js! "%d", js! "1024", [i (1024)]⟩]

example : ∀ r ∈ rows11, r.Holds := by decide +kernel

/-- printf-tests.txt, lines 259–274. -/
def rows12 : List Row := [
  ⟨js! "%d", js! "1024", [bi (1024)]⟩,
  ⟨js! "%d", js! "-1024", [i (-1024)]⟩,
  ⟨js! "%d", js! "-1024", [bi (-1024)]⟩,
  ⟨js! "%i", js! "1024", [i (1024)]⟩,
  ⟨js! "%i", js! "1024", [bi (1024)]⟩,
  ⟨js! "%i", js! "-1024", [i (-1024)]⟩,
  ⟨js! "%i", js! "-1024", [bi (-1024)]⟩,
  ⟨js! "%u", js! "1024", [i (1024)]⟩,
  ⟨js! "%u", js! "4294966272", [l (4294966272)]⟩,
  ⟨js! "%o", js! "777", [i (511)]⟩,
  ⟨js! "%o", js! "37777777001", [l (4294966785)]⟩,
  ⟨js! "%x", js! "1234abcd", [i (305441741)]⟩,
  ⟨js! "%x", js! "edcb5433", [l (3989525555)]⟩,
  ⟨js! "%X", js! "1234ABCD", [i (305441741)]⟩,
  ⟨js! "%X", js! "EDCB5433", [l (3989525555)]⟩,
  ⟨js! "%c", js! "x", [c 120]⟩,
  ⟨js! "%c", js! "x", [c 120]⟩,
  ⟨js! "%%", js! "%", []⟩,
  ⟨js! "%%", js! "%", []⟩,
  ⟨js! "%+s", js! "Hallo heimur", [s (js! "Hallo heimur")]⟩]

example : ∀ r ∈ rows12, r.Holds := by decide +kernel

/-- printf-tests.txt, lines 274–289. -/
def rows13 : List Row := [
  ⟨js! "%+s", js! "Hallo heimur", [s (js! "Hallo heimur")]⟩,
  ⟨js! "%+d", js! "+1024", [i (1024)]⟩,
  ⟨js! "%+d", js! "+1024", [bi (1024)]⟩,
  ⟨js! "%+d", js! "-1024", [i (-1024)]⟩,
  ⟨js! "%+d", js! "-1024", [bi (-1024)]⟩,
  ⟨js! "%+i", js! "+1024", [i (1024)]⟩,
  ⟨js! "%+i", js! "+1024", [bi (1024)]⟩,
  ⟨js! "%+i", js! "-1024", [i (-1024)]⟩,
  ⟨js! "%+i", js! "-1024", [bi (-1024)]⟩,
  ⟨js! "%+u", js! "1024", [i (1024)]⟩,
  ⟨js! "%+u", js! "4294966272", [l (4294966272)]⟩,
  ⟨js! "%+o", js! "777", [i (511)]⟩,
  ⟨js! "%+o", js! "37777777001", [l (4294966785)]⟩,
  ⟨js! "%+x", js! "1234abcd", [i (305441741)]⟩,
  ⟨js! "%+x", js! "edcb5433", [l (3989525555)]⟩,
  ⟨js! "%+X", js! "1234ABCD", [i (305441741)]⟩,
  ⟨js! "%+X", js! "EDCB5433", [l (3989525555)]⟩,
  ⟨js! "%+c", js! "x", [c 120]⟩,
  ⟨js! "%+c", js! "x", [c 120]⟩,
  ⟨js! "% s", js! "Hallo heimur", [s (js! "Hallo heimur")]⟩]

example : ∀ r ∈ rows13, r.Holds := by decide +kernel

/-- printf-tests.txt, lines 289–304. -/
def rows14 : List Row := [
  ⟨js! "% s", js! "Hallo heimur", [s (js! "Hallo heimur")]⟩,
  ⟨js! "% d", js! " 1024", [i (1024)]⟩,
  ⟨js! "% d", js! " 1024", [bi (1024)]⟩,
  ⟨js! "% d", js! "-1024", [i (-1024)]⟩,
  ⟨js! "% d", js! "-1024", [bi (-1024)]⟩,
  ⟨js! "% i", js! " 1024", [i (1024)]⟩,
  ⟨js! "% i", js! " 1024", [bi (1024)]⟩,
  ⟨js! "% i", js! "-1024", [i (-1024)]⟩,
  ⟨js! "% i", js! "-1024", [bi (-1024)]⟩,
  ⟨js! "% u", js! "1024", [i (1024)]⟩,
  ⟨js! "% u", js! "4294966272", [l (4294966272)]⟩,
  ⟨js! "% o", js! "777", [i (511)]⟩,
  ⟨js! "% o", js! "37777777001", [l (4294966785)]⟩,
  ⟨js! "% x", js! "1234abcd", [i (305441741)]⟩,
  ⟨js! "% x", js! "edcb5433", [l (3989525555)]⟩,
  ⟨js! "% X", js! "1234ABCD", [i (305441741)]⟩,
  ⟨js! "% X", js! "EDCB5433", [l (3989525555)]⟩,
  ⟨js! "% c", js! "x", [c 120]⟩,
  ⟨js! "% c", js! "x", [c 120]⟩,
  ⟨js! "%+ s", js! "Hallo heimur", [s (js! "Hallo heimur")]⟩]

example : ∀ r ∈ rows14, r.Holds := by decide +kernel

/-- printf-tests.txt, lines 304–319. -/
def rows15 : List Row := [
  ⟨js! "%+ s", js! "Hallo heimur", [s (js! "Hallo heimur")]⟩,
  ⟨js! "%+ d", js! "+1024", [i (1024)]⟩,
  ⟨js! "%+ d", js! "+1024", [bi (1024)]⟩,
  ⟨js! "%+ d", js! "-1024", [i (-1024)]⟩,
  ⟨js! "%+ d", js! "-1024", [bi (-1024)]⟩,
  ⟨js! "%+ i", js! "+1024", [i (1024)]⟩,
  ⟨js! "%+ i", js! "+1024", [bi (1024)]⟩,
  ⟨js! "%+ i", js! "-1024", [i (-1024)]⟩,
  ⟨js! "%+ i", js! "-1024", [bi (-1024)]⟩,
  ⟨js! "%+ u", js! "1024", [i (1024)]⟩,
  ⟨js! "%+ u", js! "4294966272", [l (4294966272)]⟩,
  ⟨js! "%+ o", js! "777", [i (511)]⟩,
  ⟨js! "%+ o", js! "37777777001", [l (4294966785)]⟩,
  ⟨js! "%+ x", js! "1234abcd", [i (305441741)]⟩,
  ⟨js! "%+ x", js! "edcb5433", [l (3989525555)]⟩,
  ⟨js! "%+ X", js! "1234ABCD", [i (305441741)]⟩,
  ⟨js! "%+ X", js! "EDCB5433", [l (3989525555)]⟩,
  ⟨js! "%+ c", js! "x", [c 120]⟩,
  ⟨js! "%+ c", js! "x", [c 120]⟩,
  ⟨js! "%#o", js! "0777", [i (511)]⟩]

example : ∀ r ∈ rows15, r.Holds := by decide +kernel

/-- printf-tests.txt, lines 320–335. -/
def rows16 : List Row := [
  ⟨js! "%#o", js! "037777777001", [l (4294966785)]⟩,
  ⟨js! "%#x", js! "0x1234abcd", [i (305441741)]⟩,
  ⟨js! "%#x", js! "0xedcb5433", [l (3989525555)]⟩,
  ⟨js! "%#X", js! "0X1234ABCD", [i (305441741)]⟩,
  ⟨js! "%#X", js! "0XEDCB5433", [l (3989525555)]⟩,
  ⟨js! "%#o", js! "0", [l (0)]⟩,
  ⟨js! "%#x", js! "0", [l (0)]⟩,
  ⟨js! "%#X", js! "0", [l (0)]⟩,
  ⟨js! "%1s", js! "Hallo heimur", [s (js! "Hallo heimur")]⟩,
  ⟨js! "%1s", js! "Hallo heimur", [s (js! "Hallo heimur")]⟩,
  ⟨js! "%1d", js! "1024", [i (1024)]⟩,
  ⟨js! "%1d", js! "1024", [bi (1024)]⟩,
  ⟨js! "%1d", js! "-1024", [i (-1024)]⟩,
  ⟨js! "%1d", js! "-1024", [bi (-1024)]⟩,
  ⟨js! "%1i", js! "1024", [i (1024)]⟩,
  ⟨js! "%1i", js! "1024", [bi (1024)]⟩,
  ⟨js! "%1i", js! "-1024", [i (-1024)]⟩,
  ⟨js! "%1i", js! "-1024", [bi (-1024)]⟩,
  ⟨js! "%1u", js! "1024", [i (1024)]⟩,
  ⟨js! "%1u", js! "4294966272", [l (4294966272)]⟩]

example : ∀ r ∈ rows16, r.Holds := by decide +kernel

/-- printf-tests.txt, lines 336–350. -/
def rows17 : List Row := [
  ⟨js! "%1o", js! "777", [i (511)]⟩,
  ⟨js! "%1o", js! "37777777001", [l (4294966785)]⟩,
  ⟨js! "%1x", js! "1234abcd", [i (305441741)]⟩,
  ⟨js! "%1x", js! "edcb5433", [l (3989525555)]⟩,
  ⟨js! "%1X", js! "1234ABCD", [i (305441741)]⟩,
  ⟨js! "%1X", js! "EDCB5433", [l (3989525555)]⟩,
  ⟨js! "%1c", js! "x", [c 120]⟩,
  ⟨js! "%1c", js! "x", [c 120]⟩,
  ⟨js! "%20s", js! "               Hallo", [s (js! "Hallo")]⟩,
  ⟨js! "%20s", js! "               Hallo", [s (js! "Hallo")]⟩,
  ⟨js! "%20d", js! "                1024", [i (1024)]⟩,
  ⟨js! "%20d", js! "                1024", [bi (1024)]⟩,
  ⟨js! "%20d", js! "               -1024", [i (-1024)]⟩,
  ⟨js! "%20d", js! "               -1024", [bi (-1024)]⟩,
  ⟨js! "%20i", js! "                1024", [i (1024)]⟩,
  ⟨js! "%20i", js! "                1024", [bi (1024)]⟩,
  ⟨js! "%20i", js! "               -1024", [i (-1024)]⟩,
  ⟨js! "%20i", js! "               -1024", [bi (-1024)]⟩,
  ⟨js! "%20u", js! "                1024", [i (1024)]⟩,
  ⟨js! "%20u", js! "          4294966272", [l (4294966272)]⟩]

example : ∀ r ∈ rows17, r.Holds := by decide +kernel

/-- printf-tests.txt, lines 351–365. -/
def rows18 : List Row := [
  ⟨js! "%20o", js! "                 777", [i (511)]⟩,
  ⟨js! "%20o", js! "         37777777001", [l (4294966785)]⟩,
  ⟨js! "%20x", js! "            1234abcd", [i (305441741)]⟩,
  ⟨js! "%20x", js! "            edcb5433", [l (3989525555)]⟩,
  ⟨js! "%20X", js! "            1234ABCD", [i (305441741)]⟩,
  ⟨js! "%20X", js! "            EDCB5433", [l (3989525555)]⟩,
  ⟨js! "%20c", js! "                   x", [c 120]⟩,
  ⟨js! "%20c", js! "                   x", [c 120]⟩,
  ⟨js! "%-20s", js! "Hallo               ", [s (js! "Hallo")]⟩,
  ⟨js! "%-20s", js! "Hallo               ", [s (js! "Hallo")]⟩,
  ⟨js! "%-20d", js! "1024                ", [i (1024)]⟩,
  ⟨js! "%-20d", js! "1024                ", [bi (1024)]⟩,
  ⟨js! "%-20d", js! "-1024               ", [i (-1024)]⟩,
  ⟨js! "%-20d", js! "-1024               ", [bi (-1024)]⟩,
  ⟨js! "%-20i", js! "1024                ", [i (1024)]⟩,
  ⟨js! "%-20i", js! "1024                ", [bi (1024)]⟩,
  ⟨js! "%-20i", js! "-1024               ", [i (-1024)]⟩,
  ⟨js! "%-20i", js! "-1024               ", [bi (-1024)]⟩,
  ⟨js! "%-20u", js! "1024                ", [i (1024)]⟩,
  ⟨js! "%-20u", js! "4294966272          ", [l (4294966272)]⟩]

example : ∀ r ∈ rows18, r.Holds := by decide +kernel

/-- printf-tests.txt, lines 366–381. -/
def rows19 : List Row := [
  ⟨js! "%-20o", js! "777                 ", [i (511)]⟩,
  ⟨js! "%-20o", js! "37777777001         ", [l (4294966785)]⟩,
  ⟨js! "%-20x", js! "1234abcd            ", [i (305441741)]⟩,
  ⟨js! "%-20x", js! "edcb5433            ", [l (3989525555)]⟩,
  ⟨js! "%-20X", js! "1234ABCD            ", [i (305441741)]⟩,
  ⟨js! "%-20X", js! "EDCB5433            ", [l (3989525555)]⟩,
  ⟨js! "%-20c", js! "x                   ", [c 120]⟩,
  ⟨js! "%-20c", js! "x                   ", [c 120]⟩,
  ⟨js! "%020d", js! "00000000000000001024", [i (1024)]⟩,
  ⟨js! "%020d", js! "00000000000000001024", [bi (1024)]⟩,
  ⟨js! "%020d", js! "-0000000000000001024", [i (-1024)]⟩,
  ⟨js! "%020d", js! "-0000000000000001024", [bi (-1024)]⟩,
  ⟨js! "%020i", js! "00000000000000001024", [i (1024)]⟩,
  ⟨js! "%020i", js! "00000000000000001024", [bi (1024)]⟩,
  ⟨js! "%020i", js! "-0000000000000001024", [i (-1024)]⟩,
  ⟨js! "%020i", js! "-0000000000000001024", [bi (-1024)]⟩,
  ⟨js! "%020u", js! "00000000000000001024", [i (1024)]⟩,
  ⟨js! "%020u", js! "00000000004294966272", [l (4294966272)]⟩,
  ⟨js! "%020o", js! "00000000000000000777", [i (511)]⟩,
  ⟨js! "%020o", js! "00000000037777777001", [l (4294966785)]⟩]

example : ∀ r ∈ rows19, r.Holds := by decide +kernel

/-- printf-tests.txt, lines 382–402. -/
def rows20 : List Row := [
  ⟨js! "%020x", js! "0000000000001234abcd", [i (305441741)]⟩,
  ⟨js! "%020x", js! "000000000000edcb5433", [l (3989525555)]⟩,
  ⟨js! "%020X", js! "0000000000001234ABCD", [i (305441741)]⟩,
  ⟨js! "%020X", js! "000000000000EDCB5433", [l (3989525555)]⟩,
  ⟨js! "%#20o", js! "                0777", [i (511)]⟩,
  ⟨js! "%#20o", js! "        037777777001", [l (4294966785)]⟩,
  ⟨js! "%#20x", js! "          0x1234abcd", [i (305441741)]⟩,
  ⟨js! "%#20x", js! "          0xedcb5433", [l (3989525555)]⟩,
  ⟨js! "%#20X", js! "          0X1234ABCD", [i (305441741)]⟩,
  ⟨js! "%#20X", js! "          0XEDCB5433", [l (3989525555)]⟩,
  ⟨js! "%#020o", js! "00000000000000000777", [i (511)]⟩,
  ⟨js! "%#020o", js! "00000000037777777001", [l (4294966785)]⟩,
  ⟨js! "%#020x", js! "0x00000000001234abcd", [i (305441741)]⟩,
  ⟨js! "%#020x", js! "0x0000000000edcb5433", [l (3989525555)]⟩,
  ⟨js! "%#020X", js! "0X00000000001234ABCD", [i (305441741)]⟩,
  ⟨js! "%#020X", js! "0X0000000000EDCB5433", [l (3989525555)]⟩,
  ⟨js! "%0-20s", js! "Hallo               ", [s (js! "Hallo")]⟩,
  ⟨js! "%0-20s", js! "Hallo               ", [s (js! "Hallo")]⟩,
  ⟨js! "%0-20d", js! "1024                ", [i (1024)]⟩,
  ⟨js! "%0-20d", js! "1024                ", [bi (1024)]⟩]

example : ∀ r ∈ rows20, r.Holds := by decide +kernel

/-- printf-tests.txt, lines 403–417. -/
def rows21 : List Row := [
  ⟨js! "%0-20d", js! "-1024               ", [i (-1024)]⟩,
  ⟨js! "%0-20d", js! "-1024               ", [bi (-1024)]⟩,
  ⟨js! "%0-20i", js! "1024                ", [i (1024)]⟩,
  ⟨js! "%0-20i", js! "1024                ", [bi (1024)]⟩,
  ⟨js! "%0-20i", js! "-1024               ", [i (-1024)]⟩,
  ⟨js! "%0-20i", js! "-1024               ", [bi (-1024)]⟩,
  ⟨js! "%0-20u", js! "1024                ", [i (1024)]⟩,
  ⟨js! "%0-20u", js! "4294966272          ", [l (4294966272)]⟩,
  ⟨js! "%-020o", js! "777                 ", [i (511)]⟩,
  ⟨js! "%-020o", js! "37777777001         ", [l (4294966785)]⟩,
  ⟨js! "%-020x", js! "1234abcd            ", [i (305441741)]⟩,
  ⟨js! "%-020x", js! "edcb5433            ", [l (3989525555)]⟩,
  ⟨js! "%-020X", js! "1234ABCD            ", [i (305441741)]⟩,
  ⟨js! "%-020X", js! "EDCB5433            ", [l (3989525555)]⟩,
  ⟨js! "%-020c", js! "x                   ", [c 120]⟩,
  ⟨js! "%-020c", js! "x                   ", [c 120]⟩,
  ⟨js! "%*s", js! "               Hallo", [i (20), s (js! "Hallo")]⟩,
  ⟨js! "%*s", js! "               Hallo", [bi (20), s (js! "Hallo")]⟩,
  ⟨js! "%*d", js! "                1024", [i (20), i (1024)]⟩,
  ⟨js! "%*d", js! "                1024", [bi (20), bi (1024)]⟩]

example : ∀ r ∈ rows21, r.Holds := by decide +kernel

/-- printf-tests.txt, lines 418–432. -/
def rows22 : List Row := [
  ⟨js! "%*d", js! "               -1024", [i (20), i (-1024)]⟩,
  ⟨js! "%*d", js! "               -1024", [bi (20), bi (-1024)]⟩,
  ⟨js! "%*i", js! "                1024", [i (20), i (1024)]⟩,
  ⟨js! "%*i", js! "                1024", [bi (20), bi (1024)]⟩,
  ⟨js! "%*i", js! "               -1024", [i (20), i (-1024)]⟩,
  ⟨js! "%*i", js! "               -1024", [bi (20), bi (-1024)]⟩,
  ⟨js! "%*u", js! "                1024", [i (20), i (1024)]⟩,
  ⟨js! "%*u", js! "          4294966272", [i (20), l (4294966272)]⟩,
  ⟨js! "%*o", js! "                 777", [i (20), i (511)]⟩,
  ⟨js! "%*o", js! "         37777777001", [i (20), l (4294966785)]⟩,
  ⟨js! "%*x", js! "            1234abcd", [i (20), i (305441741)]⟩,
  ⟨js! "%*x", js! "            edcb5433", [i (20), l (3989525555)]⟩,
  ⟨js! "%*X", js! "            1234ABCD", [i (20), i (305441741)]⟩,
  ⟨js! "%*X", js! "            EDCB5433", [i (20), l (3989525555)]⟩,
  ⟨js! "%*c", js! "                   x", [i (20), c 120]⟩,
  ⟨js! "%*c", js! "                   x", [bi (20), c 120]⟩,
  ⟨js! "%.20s", js! "Hallo heimur", [s (js! "Hallo heimur")]⟩,
  ⟨js! "%.20s", js! "Hallo heimur", [s (js! "Hallo heimur")]⟩,
  ⟨js! "%.20d", js! "00000000000000001024", [i (1024)]⟩,
  ⟨js! "%.20d", js! "00000000000000001024", [bi (1024)]⟩]

example : ∀ r ∈ rows22, r.Holds := by decide +kernel

/-- printf-tests.txt, lines 433–447. -/
def rows23 : List Row := [
  ⟨js! "%.20d", js! "-00000000000000001024", [i (-1024)]⟩,
  ⟨js! "%.20d", js! "-00000000000000001024", [bi (-1024)]⟩,
  ⟨js! "%.20i", js! "00000000000000001024", [i (1024)]⟩,
  ⟨js! "%.20i", js! "00000000000000001024", [bi (1024)]⟩,
  ⟨js! "%.20i", js! "-00000000000000001024", [i (-1024)]⟩,
  ⟨js! "%.20i", js! "-00000000000000001024", [bi (-1024)]⟩,
  ⟨js! "%.20u", js! "00000000000000001024", [i (1024)]⟩,
  ⟨js! "%.20u", js! "00000000004294966272", [l (4294966272)]⟩,
  ⟨js! "%.20o", js! "00000000000000000777", [i (511)]⟩,
  ⟨js! "%.20o", js! "00000000037777777001", [l (4294966785)]⟩,
  ⟨js! "%.20x", js! "0000000000001234abcd", [i (305441741)]⟩,
  ⟨js! "%.20x", js! "000000000000edcb5433", [l (3989525555)]⟩,
  ⟨js! "%.20X", js! "0000000000001234ABCD", [i (305441741)]⟩,
  ⟨js! "%.20X", js! "000000000000EDCB5433", [l (3989525555)]⟩,
  ⟨js! "%20.5s", js! "               Hallo", [s (js! "Hallo heimur")]⟩,
  ⟨js! "%20.5s", js! "               Hallo", [s (js! "Hallo heimur")]⟩,
  ⟨js! "%20.5d", js! "               01024", [i (1024)]⟩,
  ⟨js! "%20.5d", js! "               01024", [bi (1024)]⟩,
  ⟨js! "%20.5d", js! "              -01024", [i (-1024)]⟩,
  ⟨js! "%20.5d", js! "              -01024", [bi (-1024)]⟩]

example : ∀ r ∈ rows23, r.Holds := by decide +kernel

/-- printf-tests.txt, lines 448–464. -/
def rows24 : List Row := [
  ⟨js! "%20.5i", js! "               01024", [i (1024)]⟩,
  ⟨js! "%20.5i", js! "               01024", [bi (1024)]⟩,
  ⟨js! "%20.5i", js! "              -01024", [i (-1024)]⟩,
  ⟨js! "%20.5i", js! "              -01024", [bi (-1024)]⟩,
  ⟨js! "%20.5u", js! "               01024", [i (1024)]⟩,
  ⟨js! "%20.5u", js! "          4294966272", [l (4294966272)]⟩,
  ⟨js! "%20.5o", js! "               00777", [i (511)]⟩,
  ⟨js! "%20.5o", js! "         37777777001", [l (4294966785)]⟩,
  ⟨js! "%20.5x", js! "            1234abcd", [i (305441741)]⟩,
  ⟨js! "%20.10x", js! "          00edcb5433", [l (3989525555)]⟩,
  ⟨js! "%20.5X", js! "            1234ABCD", [i (305441741)]⟩,
  ⟨js! "%20.10X", js! "          00EDCB5433", [l (3989525555)]⟩,
  ⟨js! "%020.5d", js! "               01024", [i (1024)]⟩,
  ⟨js! "%020.5d", js! "               01024", [bi (1024)]⟩,
  ⟨js! "%020.5d", js! "              -01024", [i (-1024)]⟩,
  ⟨js! "%020.5d", js! "              -01024", [bi (-1024)]⟩,
  ⟨js! "%020.5i", js! "               01024", [i (1024)]⟩,
  ⟨js! "%020.5i", js! "               01024", [bi (1024)]⟩,
  ⟨js! "%020.5i", js! "              -01024", [i (-1024)]⟩,
  ⟨js! "%020.5i", js! "              -01024", [bi (-1024)]⟩]

example : ∀ r ∈ rows24, r.Holds := by decide +kernel

/-- printf-tests.txt, lines 465–479. -/
def rows25 : List Row := [
  ⟨js! "%020.5u", js! "               01024", [i (1024)]⟩,
  ⟨js! "%020.5u", js! "          4294966272", [l (4294966272)]⟩,
  ⟨js! "%020.5o", js! "               00777", [i (511)]⟩,
  ⟨js! "%020.5o", js! "         37777777001", [l (4294966785)]⟩,
  ⟨js! "%020.5x", js! "            1234abcd", [i (305441741)]⟩,
  ⟨js! "%020.10x", js! "          00edcb5433", [l (3989525555)]⟩,
  ⟨js! "%020.5X", js! "            1234ABCD", [i (305441741)]⟩,
  ⟨js! "%020.10X", js! "          00EDCB5433", [l (3989525555)]⟩,
  ⟨js! "%.0s", js! "", [s (js! "Hallo heimur")]⟩,
  ⟨js! "%.0s", js! "", [s (js! "Hallo heimur")]⟩,
  ⟨js! "%20.0s", js! "                    ", [s (js! "Hallo heimur")]⟩,
  ⟨js! "%20.0s", js! "                    ", [s (js! "Hallo heimur")]⟩,
  ⟨js! "%.s", js! "", [s (js! "Hallo heimur")]⟩,
  ⟨js! "%.s", js! "", [s (js! "Hallo heimur")]⟩,
  ⟨js! "%20.s", js! "                    ", [s (js! "Hallo heimur")]⟩,
  ⟨js! "%20.s", js! "                    ", [s (js! "Hallo heimur")]⟩,
  ⟨js! "%20.0d", js! "                1024", [i (1024)]⟩,
  ⟨js! "%20.0d", js! "                1024", [bi (1024)]⟩,
  ⟨js! "%20.d", js! "               -1024", [i (-1024)]⟩,
  ⟨js! "%20.d", js! "               -1024", [bi (-1024)]⟩]

example : ∀ r ∈ rows25, r.Holds := by decide +kernel

/-- printf-tests.txt, lines 480–495. -/
def rows26 : List Row := [
  ⟨js! "%20.d", js! "                    ", [i (0)]⟩,
  ⟨js! "%20.d", js! "                    ", [bi (0)]⟩,
  ⟨js! "%20.0i", js! "                1024", [i (1024)]⟩,
  ⟨js! "%20.0i", js! "                1024", [bi (1024)]⟩,
  ⟨js! "%20.i", js! "               -1024", [i (-1024)]⟩,
  ⟨js! "%20.i", js! "               -1024", [bi (-1024)]⟩,
  ⟨js! "%20.i", js! "                    ", [i (0)]⟩,
  ⟨js! "%20.i", js! "                    ", [bi (0)]⟩,
  ⟨js! "%20.u", js! "                1024", [i (1024)]⟩,
  ⟨js! "%20.0u", js! "          4294966272", [l (4294966272)]⟩,
  ⟨js! "%20.u", js! "                    ", [l (0)]⟩,
  ⟨js! "%20.o", js! "                 777", [i (511)]⟩,
  ⟨js! "%20.0o", js! "         37777777001", [l (4294966785)]⟩,
  ⟨js! "%20.o", js! "                    ", [l (0)]⟩,
  ⟨js! "%20.x", js! "            1234abcd", [i (305441741)]⟩,
  ⟨js! "%20.0x", js! "            edcb5433", [l (3989525555)]⟩,
  ⟨js! "%20.x", js! "                    ", [l (0)]⟩,
  ⟨js! "%20.X", js! "            1234ABCD", [i (305441741)]⟩,
  ⟨js! "%20.0X", js! "            EDCB5433", [l (3989525555)]⟩,
  ⟨js! "%20.X", js! "                    ", [l (0)]⟩]

example : ∀ r ∈ rows26, r.Holds := by decide +kernel

/-- printf-tests.txt, lines 497–512. -/
def rows27 : List Row := [
  ⟨js! "% -0+*.*s", js! "Hallo               ", [i (20), i (5), s (js! "Hallo heimur")]⟩,
  ⟨js! "% -0+*.*s", js! "Hallo               ", [bi (20), bi (5), s (js! "Hallo heimur")]⟩,
  ⟨js! "% -0+*.*d", js! "+01024              ", [i (20), i (5), i (1024)]⟩,
  ⟨js! "% -0+*.*d", js! "+01024              ", [bi (20), bi (5), bi (1024)]⟩,
  ⟨js! "% -0+*.*d", js! "-01024              ", [i (20), i (5), i (-1024)]⟩,
  ⟨js! "% -0+*.*d", js! "-01024              ", [bi (20), bi (5), bi (-1024)]⟩,
  ⟨js! "% -0+*.*i", js! "+01024              ", [i (20), i (5), i (1024)]⟩,
  ⟨js! "% -0+*.*i", js! "+01024              ", [bi (20), bi (5), bi (1024)]⟩,
  ⟨js! "% 0-+*.*i", js! "-01024              ", [i (20), i (5), i (-1024)]⟩,
  ⟨js! "% 0-+*.*i", js! "-01024              ", [bi (20), bi (5), bi (-1024)]⟩,
  ⟨js! "% 0-+*.*u", js! "01024               ", [i (20), i (5), i (1024)]⟩,
  ⟨js! "% 0-+*.*u", js! "4294966272          ", [i (20), i (5), l (4294966272)]⟩,
  ⟨js! "%+ -0*.*o", js! "00777               ", [i (20), i (5), i (511)]⟩,
  ⟨js! "%+ -0*.*o", js! "37777777001         ", [i (20), i (5), l (4294966785)]⟩,
  ⟨js! "%+ -0*.*x", js! "1234abcd            ", [i (20), i (5), i (305441741)]⟩,
  ⟨js! "%+ -0*.*x", js! "00edcb5433          ", [i (20), i (10), l (3989525555)]⟩,
  ⟨js! "% -+0*.*X", js! "1234ABCD            ", [i (20), i (5), i (305441741)]⟩,
  ⟨js! "% -+0*.*X", js! "00EDCB5433          ", [i (20), i (10), l (3989525555)]⟩,
  ⟨js! "%*sx", js! "hi x", [i (-3), s (js! "hi")]⟩]

example : ∀ r ∈ rows27, r.Holds := by decide +kernel

end FastPrintf.Conformance.Ghc
