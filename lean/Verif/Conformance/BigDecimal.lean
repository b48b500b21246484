/-
The calls of src/test/java/io/fastprintf/BigDecimalCasesTest.java and their expected texts, evaluated in the model.
The arguments are given as unscaled value and scale.
-/
import Verif.Conformance.Run

namespace FastPrintf.Conformance.BigDecimal

/-- BigDecimalCasesTest.java, lines 20–36. -/
def rows1 : List Row := [
  ⟨js! "%d", js! "42", [bd (428952) (4)]⟩,
  ⟨js! "%.2d", js! "42", [bd (428952) (4)]⟩,
  ⟨js! "%.2i", js! "42", [bd (428952) (4)]⟩,
  ⟨js! "%.2f", js! "42.90", [bd (428952) (4)]⟩,
  ⟨js! "%.2F", js! "42.90", [bd (428952) (4)]⟩,
  ⟨js! "%.10f", js! "42.8952000000", [bd (428952) (4)]⟩,
  ⟨js! "%1.2f", js! "42.90", [bd (428952) (4)]⟩,
  ⟨js! "%6.2f", js! " 42.90", [bd (428952) (4)]⟩,
  ⟨js! "%06.2f", js! "042.90", [bd (428952) (4)]⟩,
  ⟨js! "%+6.2f", js! "+42.90", [bd (428952) (4)]⟩,
  ⟨js! "%5.10f", js! "42.8952000000", [bd (428952) (4)]⟩,
  ⟨js! "%+#23.15e", js! " +7.894561230000000e+08", [bd (789456123) (0)]⟩,
  ⟨js! "%-#23.15e", js! "7.894561230000000e+08  ", [bd (789456123) (0)]⟩,
  ⟨js! "%#23.15e", js! "  7.894561230000000e+08", [bd (789456123) (0)]⟩,
  ⟨js! "%#1.1g", js! "8e+08", [bd (789456123) (0)]⟩]

example : ∀ r ∈ rows1, r.Holds := by decide +kernel

end FastPrintf.Conformance.BigDecimal
