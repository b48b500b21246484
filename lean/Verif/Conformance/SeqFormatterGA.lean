/-
The calls of src/test/java/io/fastprintf/appender/SeqFormatterGATest.java and their expected texts, evaluated in the model.
The test calls the formatter with a context; here the directive is written out.
-/
import Verif.Conformance.Run

namespace FastPrintf.Conformance.SeqFormatterGA

/-- SeqFormatterGATest.java, lines 32–71. -/
def rows1 : List Row := [
  ⟨js! "%g", js! "1.23456", [d 0x3ff3c0c1fc8f3238]⟩,
  ⟨js! "%g", js! "123456", [d 0x40fe240000000000]⟩,
  ⟨js! "%g", js! "1.23456e+06", [d 0x4132d68000000000]⟩,
  ⟨js! "%g", js! "0.000123456", [d 0x3f202e7ef70994dd]⟩,
  ⟨js! "%g", js! "1.23456e-05", [d 0x3ee9e3fe580f5494]⟩,
  ⟨js! "%.2g", js! "1.2", [d 0x3ff3c083126e978d]⟩,
  ⟨js! "%.3g", js! "123", [d 0x405edccccccccccd]⟩,
  ⟨js! "%.2g", js! "1.2e+04", [d 0x40c81c8000000000]⟩,
  ⟨js! "%.2g", js! "0.0012", [d 0x3f5439de481f5382]⟩,
  ⟨js! "%.0g", js! "1", [d 0x3ff3be76c8b43958]⟩,
  ⟨js! "%.0g", js! "1e+06", [d 0x4132d68700000000]⟩,
  ⟨js! "%.4g", js! "1.2", [d 0x3ff3333333333333]⟩,
  ⟨js! "%.4g", js! "1", [d 0x3ff0000000000000]⟩,
  ⟨js! "%g", js! "1.23", [d 0x3ff3ae147ae147ae]⟩,
  ⟨js! "%g", js! "0", [d 0x0000000000000000]⟩,
  ⟨js! "%#g", js! "1.20000", [d 0x3ff3333333333333]⟩,
  ⟨js! "%#.4g", js! "1.200", [d 0x3ff3333333333333]⟩,
  ⟨js! "%#.1g", js! "1.", [d 0x3ff0000000000000]⟩,
  ⟨js! "%#.6g", js! "1.00000", [d 0x3ff0000000000000]⟩,
  ⟨js! "%#.4g", js! "1.235e+04", [d 0x40c81c8000000000]⟩]

example : ∀ r ∈ rows1, r.Holds := by decide +kernel

/-- SeqFormatterGATest.java, lines 76–131. -/
def rows2 : List Row := [
  ⟨js! "%.3g", js! "1.24", [d 0x3ff3c28f5c28f5c3]⟩,
  ⟨js! "%.3g", js! "9.99", [d 0x4023f9db22d0e560]⟩,
  ⟨js! "%.1g", js! "1e+06", [d 0x412e847e00000000]⟩,
  ⟨js! "%.5g", js! "1234", [d 0x4093480000000000]⟩,
  ⟨js! "%.5g", js! "12345", [d 0x40c81c8000000000]⟩,
  ⟨js! "%.5g", js! "1.2345e+05", [d 0x40fe23a000000000]⟩,
  ⟨js! "%.5g", js! "0.001", [d 0x3f50624dd2f1a9fc]⟩,
  ⟨js! "%.5g", js! "0.0001", [d 0x3f1a36e2eb1c432d]⟩,
  ⟨js! "%.5g", js! "1e-05", [d 0x3ee4f8b588e368f1]⟩,
  ⟨js! "%+7.3g", js! "  +1.23", [d 0x3ff3ae147ae147ae]⟩,
  ⟨js! "% 7.3g", js! "   1.23", [d 0x3ff3ae147ae147ae]⟩,
  ⟨js! "%-7.3g", js! "-1.23  ", [d 0xbff3ae147ae147ae]⟩,
  ⟨js! "%+07.3g", js! "+001.23", [d 0x3ff3ae147ae147ae]⟩,
  ⟨js! "%.6a", js! "0x1.edd2f2p+6", [d 0x405edd2f1a9fbe77]⟩,
  ⟨js! "%.1a", js! "0x1.8p+0", [d 0x3ff8000000000000]⟩,
  ⟨js! "%.1a", js! "-0x1.8p+0", [d 0xbff8000000000000]⟩,
  ⟨js! "%.2a", js! "0x1.eep+6", [d 0x405edd2f1a9fbe77]⟩,
  ⟨js! "%.8a", js! "0x1.edd2f1aap+6", [d 0x405edd2f1a9fbe77]⟩,
  ⟨js! "%.0a", js! "0x1.8p+0", [d 0x3ff8000000000000]⟩,
  ⟨js! "%#.1a", js! "0x1.8p+0", [d 0x3ff8000000000000]⟩]

example : ∀ r ∈ rows2, r.Holds := by decide +kernel

/-- SeqFormatterGATest.java, lines 133–174. -/
def rows3 : List Row := [
  ⟨js! "%#.0a", js! "0x1.0p+1", [d 0x4000000000000000]⟩,
  ⟨js! "% 10.2a", js! " 0x1.80p+0", [d 0x3ff8000000000000]⟩,
  ⟨js! "%+10.2a", js! "+0x1.80p+0", [d 0x3ff8000000000000]⟩,
  ⟨js! "%+011.2a", js! "+0x01.80p+0", [d 0x3ff8000000000000]⟩,
  ⟨js! "%011.2a", js! "-0x01.80p+0", [d 0xbff8000000000000]⟩,
  ⟨js! "%011.2a", js! "0x001.80p+0", [d 0x3ff8000000000000]⟩,
  ⟨js! "%-011.2a", js! "-0x1.80p+0 ", [d 0xbff8000000000000]⟩,
  ⟨js! "%-+011.2a", js! "+0x1.80p+0 ", [d 0x3ff8000000000000]⟩,
  ⟨js! "%.1a", js! "0x0.0p+0", [d 0x0000000000000000]⟩,
  ⟨js! "%.1a", js! "-0x0.0p+0", [d 0x8000000000000000]⟩,
  ⟨js! "% 12.3a", js! "  0x0.000p+0", [d 0x0000000000000000]⟩,
  ⟨js! "%a", js! "Infinity", [d 0x7ff0000000000000]⟩,
  ⟨js! "%a", js! "-Infinity", [d 0xfff0000000000000]⟩,
  ⟨js! "%+15a", js! "      +Infinity", [d 0x7ff0000000000000]⟩,
  ⟨js! "%a", js! "NaN", [d 0x7ff8000000000000]⟩,
  ⟨js! "%15a", js! "            NaN", [d 0x7ff8000000000000]⟩]

example : ∀ r ∈ rows3, r.Holds := by decide +kernel

end FastPrintf.Conformance.SeqFormatterGA
