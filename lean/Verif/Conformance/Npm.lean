/-
The calls of src/test/java/io/fastprintf/NpmCasesTest.java and their expected texts, evaluated in the model.
-/
import Verif.Conformance.Run

namespace FastPrintf.Conformance.Npm

/-- NpmCasesTest.java, lines 35–93. -/
def rows1 : List Row := [
  ⟨js! "% d", js! " 42", [i (42)]⟩,
  ⟨js! "%+d", js! "+42", [i (42)]⟩,
  ⟨js! "% 5d", js! "   42", [i (42)]⟩,
  ⟨js! "% 5d", js! "  -42", [i (-42)]⟩,
  ⟨js! "% 15d", js! "             42", [i (42)]⟩,
  ⟨js! "% 15d", js! "            -42", [i (-42)]⟩,
  ⟨js! "%+d", js! "+42", [i (42)]⟩,
  ⟨js! "%+d", js! "-42", [i (-42)]⟩,
  ⟨js! "%+5d", js! "  +42", [i (42)]⟩,
  ⟨js! "%+5d", js! "  -42", [i (-42)]⟩,
  ⟨js! "%+15d", js! "            +42", [i (42)]⟩,
  ⟨js! "%+15d", js! "            -42", [i (-42)]⟩,
  ⟨js! "%0d", js! "42", [i (42)]⟩,
  ⟨js! "%0d", js! "-42", [i (-42)]⟩,
  ⟨js! "%05d", js! "00042", [i (42)]⟩,
  ⟨js! "%05d", js! "-0042", [i (-42)]⟩,
  ⟨js! "%015d", js! "000000000000042", [i (42)]⟩,
  ⟨js! "%015d", js! "-00000000000042", [i (-42)]⟩,
  ⟨js! "%-d", js! "42", [i (42)]⟩,
  ⟨js! "%-d", js! "-42", [i (-42)]⟩]

example : ∀ r ∈ rows1, r.Holds := by decide +kernel

/-- NpmCasesTest.java, lines 94–127. -/
def rows2 : List Row := [
  ⟨js! "%-5d", js! "42   ", [i (42)]⟩,
  ⟨js! "%-5d", js! "-42  ", [i (-42)]⟩,
  ⟨js! "%-15d", js! "42             ", [i (42)]⟩,
  ⟨js! "%-15d", js! "-42            ", [i (-42)]⟩,
  ⟨js! "%-0d", js! "42", [i (42)]⟩,
  ⟨js! "%-0d", js! "-42", [i (-42)]⟩,
  ⟨js! "%-05d", js! "42   ", [i (42)]⟩,
  ⟨js! "%-05d", js! "-42  ", [i (-42)]⟩,
  ⟨js! "%-015d", js! "42             ", [i (42)]⟩,
  ⟨js! "%-015d", js! "-42            ", [i (-42)]⟩,
  ⟨js! "%0-d", js! "42", [i (42)]⟩,
  ⟨js! "%0-d", js! "-42", [i (-42)]⟩,
  ⟨js! "%0-5d", js! "42   ", [i (42)]⟩,
  ⟨js! "%0-5d", js! "-42  ", [i (-42)]⟩,
  ⟨js! "%0-15d", js! "42             ", [i (42)]⟩,
  ⟨js! "%0-15d", js! "-42            ", [i (-42)]⟩,
  ⟨js! "%d", js! "42", [d 0x40457295e9e1b08a]⟩,
  ⟨js! "%.2d", js! "42", [d 0x40457295e9e1b08a]⟩,
  ⟨js! "%.2i", js! "42", [d 0x40457295e9e1b08a]⟩,
  ⟨js! "%.2f", js! "42.90", [d 0x40457295e9e1b08a]⟩]

example : ∀ r ∈ rows2, r.Holds := by decide +kernel

/-- NpmCasesTest.java, lines 128–160. -/
def rows3 : List Row := [
  ⟨js! "%.2F", js! "42.90", [d 0x40457295e9e1b08a]⟩,
  ⟨js! "%.10f", js! "42.8952000000", [d 0x40457295e9e1b08a]⟩,
  ⟨js! "%1.2f", js! "42.90", [d 0x40457295e9e1b08a]⟩,
  ⟨js! "%6.2f", js! " 42.90", [d 0x40457295e9e1b08a]⟩,
  ⟨js! "%06.2f", js! "042.90", [d 0x40457295e9e1b08a]⟩,
  ⟨js! "%+6.2f", js! "+42.90", [d 0x40457295e9e1b08a]⟩,
  ⟨js! "%5.10f", js! "42.8952000000", [d 0x40457295e9e1b08a]⟩,
  ⟨js! "%*s", js! " foo", [i (4), s (js! "foo")]⟩,
  ⟨js! "%*.*f", js! "      3.14", [i (10), i (2), d 0x400921fb53c8d4f1]⟩,
  ⟨js! "%0*.*f", js! "0000003.14", [i (10), i (2), d 0x400921fb53c8d4f1]⟩,
  ⟨js! "%-*.*f", js! "3.14      ", [i (10), i (2), d 0x400921fb53c8d4f1]⟩,
  ⟨js! "+%s+", js! "+hello+", [s (js! "hello")]⟩,
  ⟨js! "+%d+", js! "+10+", [i (10)]⟩,
  ⟨js! "%c", js! "a", [c 97]⟩,
  ⟨js! "%c", js! "\"", [i (34)]⟩,
  ⟨js! "%c", js! "$", [i (36)]⟩,
  ⟨js! "%d", js! "10", [i (10)]⟩]

example : ∀ r ∈ rows3, r.Holds := by decide +kernel

end FastPrintf.Conformance.Npm
