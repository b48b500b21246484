/-
The calls of src/test/java/io/fastprintf/LibcCasesTest.java and their expected texts, evaluated in the model.
-/
import Verif.Conformance.Run

namespace FastPrintf.Conformance.Libc

/-- LibcCasesTest.java, lines 22–47. -/
def rows1 : List Row := [
  ⟨js! "Hallo heimur", js! "Hallo heimur", []⟩,
  ⟨js! "%s", js! "Hallo heimur", [s (js! "Hallo heimur")]⟩,
  ⟨js! "%d", js! "1024", [i (1024)]⟩,
  ⟨js! "%d", js! "-1024", [i (-1024)]⟩,
  ⟨js! "%i", js! "1024", [i (1024)]⟩,
  ⟨js! "%i", js! "-1024", [i (-1024)]⟩,
  ⟨js! "%u", js! "1024", [i (1024)]⟩,
  ⟨js! "%u", js! "4294966272", [i (-1024)]⟩,
  ⟨js! "%o", js! "777", [i (511)]⟩,
  ⟨js! "%o", js! "37777777001", [i (-511)]⟩,
  ⟨js! "%x", js! "1234abcd", [i (305441741)]⟩,
  ⟨js! "%x", js! "edcb5433", [i (-305441741)]⟩,
  ⟨js! "%X", js! "1234ABCD", [i (305441741)]⟩,
  ⟨js! "%X", js! "EDCB5433", [i (-305441741)]⟩,
  ⟨js! "%c", js! "x", [c 120]⟩,
  ⟨js! "%%", js! "%", []⟩,
  ⟨js! "%c", js! "\x00", [c 0]⟩,
  ⟨js! "%+s", js! "Hallo heimur", [s (js! "Hallo heimur")]⟩,
  ⟨js! "%+d", js! "+1024", [i (1024)]⟩,
  ⟨js! "%+d", js! "-1024", [i (-1024)]⟩]

example : ∀ r ∈ rows1, r.Holds := by decide +kernel

/-- LibcCasesTest.java, lines 48–69. -/
def rows2 : List Row := [
  ⟨js! "%+i", js! "+1024", [i (1024)]⟩,
  ⟨js! "%+i", js! "-1024", [i (-1024)]⟩,
  ⟨js! "%+u", js! "1024", [i (1024)]⟩,
  ⟨js! "%+u", js! "4294966272", [i (-1024)]⟩,
  ⟨js! "%+o", js! "777", [i (511)]⟩,
  ⟨js! "%+o", js! "37777777001", [i (-511)]⟩,
  ⟨js! "%+x", js! "1234abcd", [i (305441741)]⟩,
  ⟨js! "%+x", js! "edcb5433", [i (-305441741)]⟩,
  ⟨js! "%+X", js! "1234ABCD", [i (305441741)]⟩,
  ⟨js! "%+X", js! "EDCB5433", [i (-305441741)]⟩,
  ⟨js! "%+c", js! "x", [c 120]⟩,
  ⟨js! "% s", js! "Hallo heimur", [s (js! "Hallo heimur")]⟩,
  ⟨js! "% d", js! " 1024", [i (1024)]⟩,
  ⟨js! "% d", js! "-1024", [i (-1024)]⟩,
  ⟨js! "% i", js! " 1024", [i (1024)]⟩,
  ⟨js! "% i", js! "-1024", [i (-1024)]⟩,
  ⟨js! "% u", js! "1024", [i (1024)]⟩,
  ⟨js! "% u", js! "4294966272", [i (-1024)]⟩,
  ⟨js! "% o", js! "777", [i (511)]⟩,
  ⟨js! "% o", js! "37777777001", [i (-511)]⟩]

example : ∀ r ∈ rows2, r.Holds := by decide +kernel

/-- LibcCasesTest.java, lines 70–93. -/
def rows3 : List Row := [
  ⟨js! "% x", js! "1234abcd", [i (305441741)]⟩,
  ⟨js! "% x", js! "edcb5433", [i (-305441741)]⟩,
  ⟨js! "% X", js! "1234ABCD", [i (305441741)]⟩,
  ⟨js! "% X", js! "EDCB5433", [i (-305441741)]⟩,
  ⟨js! "% c", js! "x", [c 120]⟩,
  ⟨js! "%+ s", js! "Hallo heimur", [s (js! "Hallo heimur")]⟩,
  ⟨js! "%+ d", js! "+1024", [i (1024)]⟩,
  ⟨js! "%+ d", js! "-1024", [i (-1024)]⟩,
  ⟨js! "%+ i", js! "+1024", [i (1024)]⟩,
  ⟨js! "%+ i", js! "-1024", [i (-1024)]⟩,
  ⟨js! "%+ u", js! "1024", [i (1024)]⟩,
  ⟨js! "%+ u", js! "4294966272", [i (-1024)]⟩,
  ⟨js! "%+ o", js! "777", [i (511)]⟩,
  ⟨js! "%+ o", js! "37777777001", [i (-511)]⟩,
  ⟨js! "%+ x", js! "1234abcd", [i (305441741)]⟩,
  ⟨js! "%+ x", js! "edcb5433", [i (-305441741)]⟩,
  ⟨js! "%+ X", js! "1234ABCD", [i (305441741)]⟩,
  ⟨js! "%+ X", js! "EDCB5433", [i (-305441741)]⟩,
  ⟨js! "%+ c", js! "x", [c 120]⟩,
  ⟨js! "%#o", js! "0777", [i (511)]⟩]

example : ∀ r ∈ rows3, r.Holds := by decide +kernel

/-- LibcCasesTest.java, lines 94–115. -/
def rows4 : List Row := [
  ⟨js! "%#o", js! "037777777001", [i (-511)]⟩,
  ⟨js! "%#x", js! "0x1234abcd", [i (305441741)]⟩,
  ⟨js! "%#x", js! "0xedcb5433", [i (-305441741)]⟩,
  ⟨js! "%#X", js! "0X1234ABCD", [i (305441741)]⟩,
  ⟨js! "%#X", js! "0XEDCB5433", [i (-305441741)]⟩,
  ⟨js! "%#o", js! "0", [i (0)]⟩,
  ⟨js! "%#x", js! "0", [i (0)]⟩,
  ⟨js! "%#X", js! "0", [i (0)]⟩,
  ⟨js! "%1s", js! "Hallo heimur", [s (js! "Hallo heimur")]⟩,
  ⟨js! "%1d", js! "1024", [i (1024)]⟩,
  ⟨js! "%1d", js! "-1024", [i (-1024)]⟩,
  ⟨js! "%1i", js! "1024", [i (1024)]⟩,
  ⟨js! "%1i", js! "-1024", [i (-1024)]⟩,
  ⟨js! "%1u", js! "1024", [i (1024)]⟩,
  ⟨js! "%1u", js! "4294966272", [i (-1024)]⟩,
  ⟨js! "%1o", js! "777", [i (511)]⟩,
  ⟨js! "%1o", js! "37777777001", [i (-511)]⟩,
  ⟨js! "%1x", js! "1234abcd", [i (305441741)]⟩,
  ⟨js! "%1x", js! "edcb5433", [i (-305441741)]⟩,
  ⟨js! "%1X", js! "1234ABCD", [i (305441741)]⟩]

example : ∀ r ∈ rows4, r.Holds := by decide +kernel

/-- LibcCasesTest.java, lines 116–139. -/
def rows5 : List Row := [
  ⟨js! "%1X", js! "EDCB5433", [i (-305441741)]⟩,
  ⟨js! "%1c", js! "x", [c 120]⟩,
  ⟨js! "%20s", js! "               Hallo", [s (js! "Hallo")]⟩,
  ⟨js! "%20d", js! "                1024", [i (1024)]⟩,
  ⟨js! "%20d", js! "               -1024", [i (-1024)]⟩,
  ⟨js! "%20i", js! "                1024", [i (1024)]⟩,
  ⟨js! "%20i", js! "               -1024", [i (-1024)]⟩,
  ⟨js! "%20u", js! "                1024", [i (1024)]⟩,
  ⟨js! "%20u", js! "          4294966272", [i (-1024)]⟩,
  ⟨js! "%20o", js! "                 777", [i (511)]⟩,
  ⟨js! "%20o", js! "         37777777001", [i (-511)]⟩,
  ⟨js! "%20x", js! "            1234abcd", [i (305441741)]⟩,
  ⟨js! "%20x", js! "            edcb5433", [i (-305441741)]⟩,
  ⟨js! "%20X", js! "            1234ABCD", [i (305441741)]⟩,
  ⟨js! "%20X", js! "            EDCB5433", [i (-305441741)]⟩,
  ⟨js! "%20c", js! "                   x", [c 120]⟩,
  ⟨js! "%-20s", js! "Hallo               ", [s (js! "Hallo")]⟩,
  ⟨js! "%-20d", js! "1024                ", [i (1024)]⟩,
  ⟨js! "%-20d", js! "-1024               ", [i (-1024)]⟩,
  ⟨js! "%-20i", js! "1024                ", [i (1024)]⟩]

example : ∀ r ∈ rows5, r.Holds := by decide +kernel

/-- LibcCasesTest.java, lines 140–161. -/
def rows6 : List Row := [
  ⟨js! "%-20i", js! "-1024               ", [i (-1024)]⟩,
  ⟨js! "%-20u", js! "1024                ", [i (1024)]⟩,
  ⟨js! "%-20u", js! "4294966272          ", [i (-1024)]⟩,
  ⟨js! "%-20o", js! "777                 ", [i (511)]⟩,
  ⟨js! "%-20o", js! "37777777001         ", [i (-511)]⟩,
  ⟨js! "%-20x", js! "1234abcd            ", [i (305441741)]⟩,
  ⟨js! "%-20x", js! "edcb5433            ", [i (-305441741)]⟩,
  ⟨js! "%-20X", js! "1234ABCD            ", [i (305441741)]⟩,
  ⟨js! "%-20X", js! "EDCB5433            ", [i (-305441741)]⟩,
  ⟨js! "%-20c", js! "x                   ", [c 120]⟩,
  ⟨js! "%020d", js! "00000000000000001024", [i (1024)]⟩,
  ⟨js! "%020d", js! "-0000000000000001024", [i (-1024)]⟩,
  ⟨js! "%020i", js! "00000000000000001024", [i (1024)]⟩,
  ⟨js! "%020i", js! "-0000000000000001024", [i (-1024)]⟩,
  ⟨js! "%020u", js! "00000000000000001024", [i (1024)]⟩,
  ⟨js! "%020u", js! "00000000004294966272", [i (-1024)]⟩,
  ⟨js! "%020o", js! "00000000000000000777", [i (511)]⟩,
  ⟨js! "%020o", js! "00000000037777777001", [i (-511)]⟩,
  ⟨js! "%020x", js! "0000000000001234abcd", [i (305441741)]⟩,
  ⟨js! "%020x", js! "000000000000edcb5433", [i (-305441741)]⟩]

example : ∀ r ∈ rows6, r.Holds := by decide +kernel

/-- LibcCasesTest.java, lines 162–186. -/
def rows7 : List Row := [
  ⟨js! "%020X", js! "0000000000001234ABCD", [i (305441741)]⟩,
  ⟨js! "%020X", js! "000000000000EDCB5433", [i (-305441741)]⟩,
  ⟨js! "%#20o", js! "                0777", [i (511)]⟩,
  ⟨js! "%#20o", js! "        037777777001", [i (-511)]⟩,
  ⟨js! "%#20x", js! "          0x1234abcd", [i (305441741)]⟩,
  ⟨js! "%#20x", js! "          0xedcb5433", [i (-305441741)]⟩,
  ⟨js! "%#20X", js! "          0X1234ABCD", [i (305441741)]⟩,
  ⟨js! "%#20X", js! "          0XEDCB5433", [i (-305441741)]⟩,
  ⟨js! "%#020o", js! "00000000000000000777", [i (511)]⟩,
  ⟨js! "%#020o", js! "00000000037777777001", [i (-511)]⟩,
  ⟨js! "%#020x", js! "0x00000000001234abcd", [i (305441741)]⟩,
  ⟨js! "%#020x", js! "0x0000000000edcb5433", [i (-305441741)]⟩,
  ⟨js! "%#020X", js! "0X00000000001234ABCD", [i (305441741)]⟩,
  ⟨js! "%#020X", js! "0X0000000000EDCB5433", [i (-305441741)]⟩,
  ⟨js! "%0-20s", js! "Hallo               ", [s (js! "Hallo")]⟩,
  ⟨js! "%0-20d", js! "1024                ", [i (1024)]⟩,
  ⟨js! "%0-20d", js! "-1024               ", [i (-1024)]⟩,
  ⟨js! "%0-20i", js! "1024                ", [i (1024)]⟩,
  ⟨js! "%0-20i", js! "-1024               ", [i (-1024)]⟩,
  ⟨js! "%0-20u", js! "1024                ", [i (1024)]⟩]

example : ∀ r ∈ rows7, r.Holds := by decide +kernel

/-- LibcCasesTest.java, lines 187–208. -/
def rows8 : List Row := [
  ⟨js! "%0-20u", js! "4294966272          ", [i (-1024)]⟩,
  ⟨js! "%-020o", js! "777                 ", [i (511)]⟩,
  ⟨js! "%-020o", js! "37777777001         ", [i (-511)]⟩,
  ⟨js! "%-020x", js! "1234abcd            ", [i (305441741)]⟩,
  ⟨js! "%-020x", js! "edcb5433            ", [i (-305441741)]⟩,
  ⟨js! "%-020X", js! "1234ABCD            ", [i (305441741)]⟩,
  ⟨js! "%-020X", js! "EDCB5433            ", [i (-305441741)]⟩,
  ⟨js! "%-020c", js! "x                   ", [c 120]⟩,
  ⟨js! "%*s", js! "               Hallo", [i (20), s (js! "Hallo")]⟩,
  ⟨js! "%*d", js! "                1024", [i (20), i (1024)]⟩,
  ⟨js! "%*d", js! "               -1024", [i (20), i (-1024)]⟩,
  ⟨js! "%*i", js! "                1024", [i (20), i (1024)]⟩,
  ⟨js! "%*i", js! "               -1024", [i (20), i (-1024)]⟩,
  ⟨js! "%*u", js! "                1024", [i (20), i (1024)]⟩,
  ⟨js! "%*u", js! "          4294966272", [i (20), i (-1024)]⟩,
  ⟨js! "%*o", js! "                 777", [i (20), i (511)]⟩,
  ⟨js! "%*o", js! "         37777777001", [i (20), i (-511)]⟩,
  ⟨js! "%*x", js! "            1234abcd", [i (20), i (305441741)]⟩,
  ⟨js! "%*x", js! "            edcb5433", [i (20), i (-305441741)]⟩,
  ⟨js! "%*X", js! "            1234ABCD", [i (20), i (305441741)]⟩]

example : ∀ r ∈ rows8, r.Holds := by decide +kernel

/-- LibcCasesTest.java, lines 209–232. -/
def rows9 : List Row := [
  ⟨js! "%*X", js! "            EDCB5433", [i (20), i (-305441741)]⟩,
  ⟨js! "%*c", js! "                   x", [i (20), c 120]⟩,
  ⟨js! "%.20s", js! "Hallo heimur", [s (js! "Hallo heimur")]⟩,
  ⟨js! "%.20d", js! "00000000000000001024", [i (1024)]⟩,
  ⟨js! "%.20d", js! "-00000000000000001024", [i (-1024)]⟩,
  ⟨js! "%.20i", js! "00000000000000001024", [i (1024)]⟩,
  ⟨js! "%.20i", js! "-00000000000000001024", [i (-1024)]⟩,
  ⟨js! "%.20u", js! "00000000000000001024", [i (1024)]⟩,
  ⟨js! "%.20u", js! "00000000004294966272", [i (-1024)]⟩,
  ⟨js! "%.20o", js! "00000000000000000777", [i (511)]⟩,
  ⟨js! "%.20o", js! "00000000037777777001", [i (-511)]⟩,
  ⟨js! "%.20x", js! "0000000000001234abcd", [i (305441741)]⟩,
  ⟨js! "%.20x", js! "000000000000edcb5433", [i (-305441741)]⟩,
  ⟨js! "%.20X", js! "0000000000001234ABCD", [i (305441741)]⟩,
  ⟨js! "%.20X", js! "000000000000EDCB5433", [i (-305441741)]⟩,
  ⟨js! "%20.5s", js! "               Hallo", [s (js! "Hallo heimur")]⟩,
  ⟨js! "%20.5d", js! "               01024", [i (1024)]⟩,
  ⟨js! "%20.5d", js! "              -01024", [i (-1024)]⟩,
  ⟨js! "%20.5i", js! "               01024", [i (1024)]⟩,
  ⟨js! "%20.5i", js! "              -01024", [i (-1024)]⟩]

example : ∀ r ∈ rows9, r.Holds := by decide +kernel

/-- LibcCasesTest.java, lines 233–254. -/
def rows10 : List Row := [
  ⟨js! "%20.5u", js! "               01024", [i (1024)]⟩,
  ⟨js! "%20.5u", js! "          4294966272", [i (-1024)]⟩,
  ⟨js! "%20.5o", js! "               00777", [i (511)]⟩,
  ⟨js! "%20.5o", js! "         37777777001", [i (-511)]⟩,
  ⟨js! "%20.5x", js! "            1234abcd", [i (305441741)]⟩,
  ⟨js! "%20.10x", js! "          00edcb5433", [i (-305441741)]⟩,
  ⟨js! "%20.5X", js! "            1234ABCD", [i (305441741)]⟩,
  ⟨js! "%20.10X", js! "          00EDCB5433", [i (-305441741)]⟩,
  ⟨js! "%020.5s", js! "               Hallo", [s (js! "Hallo heimur")]⟩,
  ⟨js! "%020.5d", js! "               01024", [i (1024)]⟩,
  ⟨js! "%020.5d", js! "              -01024", [i (-1024)]⟩,
  ⟨js! "%020.5i", js! "               01024", [i (1024)]⟩,
  ⟨js! "%020.5i", js! "              -01024", [i (-1024)]⟩,
  ⟨js! "%020.5u", js! "               01024", [i (1024)]⟩,
  ⟨js! "%020.5u", js! "          4294966272", [i (-1024)]⟩,
  ⟨js! "%020.5o", js! "               00777", [i (511)]⟩,
  ⟨js! "%020.5o", js! "         37777777001", [i (-511)]⟩,
  ⟨js! "%020.5x", js! "            1234abcd", [i (305441741)]⟩,
  ⟨js! "%020.10x", js! "          00edcb5433", [i (-305441741)]⟩,
  ⟨js! "%020.5X", js! "            1234ABCD", [i (305441741)]⟩]

example : ∀ r ∈ rows10, r.Holds := by decide +kernel

/-- LibcCasesTest.java, lines 255–276. -/
def rows11 : List Row := [
  ⟨js! "%020.10X", js! "          00EDCB5433", [i (-305441741)]⟩,
  ⟨js! "%.0s", js! "", [s (js! "Hallo heimur")]⟩,
  ⟨js! "%20.0s", js! "                    ", [s (js! "Hallo heimur")]⟩,
  ⟨js! "%.s", js! "", [s (js! "Hallo heimur")]⟩,
  ⟨js! "%20.s", js! "                    ", [s (js! "Hallo heimur")]⟩,
  ⟨js! "%20.0d", js! "                1024", [i (1024)]⟩,
  ⟨js! "%20.d", js! "               -1024", [i (-1024)]⟩,
  ⟨js! "%20.d", js! "                    ", [i (0)]⟩,
  ⟨js! "%20.0i", js! "                1024", [i (1024)]⟩,
  ⟨js! "%20.i", js! "               -1024", [i (-1024)]⟩,
  ⟨js! "%20.i", js! "                    ", [i (0)]⟩,
  ⟨js! "%20.u", js! "                1024", [i (1024)]⟩,
  ⟨js! "%20.0u", js! "          4294966272", [i (-1024)]⟩,
  ⟨js! "%20.u", js! "                    ", [i (0)]⟩,
  ⟨js! "%20.o", js! "                 777", [i (511)]⟩,
  ⟨js! "%20.0o", js! "         37777777001", [i (-511)]⟩,
  ⟨js! "%20.o", js! "                    ", [i (0)]⟩,
  ⟨js! "%20.x", js! "            1234abcd", [i (305441741)]⟩,
  ⟨js! "%20.0x", js! "            edcb5433", [i (-305441741)]⟩,
  ⟨js! "%20.x", js! "                    ", [i (0)]⟩]

example : ∀ r ∈ rows11, r.Holds := by decide +kernel

/-- LibcCasesTest.java, lines 277–279. -/
def rows12 : List Row := [
  ⟨js! "%20.X", js! "            1234ABCD", [i (305441741)]⟩,
  ⟨js! "%20.0X", js! "            EDCB5433", [i (-305441741)]⟩,
  ⟨js! "%20.X", js! "                    ", [i (0)]⟩]

example : ∀ r ∈ rows12, r.Holds := by decide +kernel

end FastPrintf.Conformance.Libc
