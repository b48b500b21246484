/-
The calls of src/test/java/io/fastprintf/MsvcrtCasesTest.java and their expected texts, evaluated in the model.
-/
import Verif.Conformance.Run

namespace FastPrintf.Conformance.Msvcrt

/-- MsvcrtCasesTest.java, lines 29–45. -/
def rows1 : List Row := [
  ⟨js! "%+#23.15e", js! " +7.894561230000000e+08", [d 0x41c787127d800000]⟩,
  ⟨js! "%-#23.15e", js! "7.894561230000000e+08  ", [d 0x41c787127d800000]⟩,
  ⟨js! "%#23.15e", js! "  7.894561230000000e+08", [d 0x41c787127d800000]⟩,
  ⟨js! "%#1.1g", js! "8e+08", [d 0x41c787127d800000]⟩,
  ⟨js! "% d", js! " 1", [i (1)]⟩,
  ⟨js! "%+d", js! "+1", [i (1)]⟩,
  ⟨js! "% +d", js! "+1", [i (1)]⟩,
  ⟨js! "%S", js! "WIDE", [s (js! "wide")]⟩,
  ⟨js! "%#012x", js! "0x0000000001", [i (1)]⟩,
  ⟨js! "%#04.8x", js! "0x00000001", [i (1)]⟩,
  ⟨js! "%#-08.2x", js! "0x01    ", [i (1)]⟩,
  ⟨js! "%#08o", js! "00000001", [i (1)]⟩,
  ⟨js! "%.1s", js! "f", [s (js! "foo")]⟩,
  ⟨js! "%.*s", js! "f", [i (1), s (js! "foo")]⟩,
  ⟨js! "%3c", js! "  a", [c 97]⟩,
  ⟨js! "%%0", js! "%0", [c 97]⟩,
  ⟨js! "%%0%n%s", js! "%0bar", [s (js! "foo"), s (js! "bar")]⟩]

example : ∀ r ∈ rows1, r.Holds := by decide +kernel

end FastPrintf.Conformance.Msvcrt
