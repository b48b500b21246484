/-
Properties of `%f`, `%e` and `%g` of a `BigDecimal` or `BigInteger`: C28 and C29.

They are about one directive without `*` (C09 reduces stars to written numbers, C05 composes directives).
The upper-case twins are covered by C19.
-/
import Verif.Proofs.BigDecimalFormat
import Verif.Proofs.DecimalUnique
import Verif.Props.Samples

namespace FastPrintf
open Spec DefaultAppender

theorem Spec.IsBig.form {e : Entry} {u scale : Int} (h : IsBig e u scale) (jdk : JdkEnv) :
    (e.toTraits jdk).asFloatForm = .ok (FloatForm.ofBigDecimal u scale) := by
  cases h <;> rfl

/-- Every number has a number of digits. -/
theorem Spec.DigitCount.exists (u : Nat) : ∃ n, DigitCount u n :=
  ⟨_, toRadix 10 u, shortest_toRadix (by omega) (by omega) u, rfl⟩

/-- **C28.**  `%.pf` of a `BigDecimal` prints its exact value rounded half up to `p` places (6 if no
precision is given): the sign, an integer part without superfluous zeros, and exactly `p` digits after
the point; no point if `p = 0`, unless `#` is given.  This covers everything but zeros of negative scale. -/
theorem C28_f (dates : DateSyntax) (env : DateEnv) (jdk : JdkEnv) (d : Directive) (h : d.Ok dates)
    (hp : d.Plain) (hc : d.conv = ch! 'f') (u scale : Int) (e : Entry) (he : IsBig e u scale) (n : Nat)
    (hn : DigitCount u.natAbs n) (hs : ScaleOk n scale) (hz : u ≠ 0 ∨ 0 ≤ scale) (rest : List Traits) :
    ∃ body, printf dates env d.text (e.toTraits jdk :: rest) =
        .ok (d.field (signText (flagSet d.flags) (u < 0)) body) ∧
      FixedText (halfUp (bigValue u.natAbs scale) (d.prec.precision.getD 6)) (d.prec.precision.getD 6)
        (flagSet d.flags).alternate body := by
  obtain ⟨body, h1, h2, -⟩ := printf_big_f env h hp hc (he.form jdk) hn hs rest
  exact ⟨body, h1, h2 hz⟩

/-- The printed number is within half a unit of its last place of the value. -/
theorem C28_error (u : Nat) (scale : Int) (p : Nat) :
    |(halfUp (bigValue u scale) p : ℚ) * 10 ^ (-(p : Int)) - bigValue u scale| ≤ 10 ^ (-(p : Int)) / 2 :=
  halfUp_error (by unfold bigValue; positivity) p

/-- A zero of negative scale, such as `0E+3`, prints one zero more than the scale says before the point. -/
theorem C28_zero_negative_scale (dates : DateSyntax) (env : DateEnv) (jdk : JdkEnv) (d : Directive)
    (h : d.Ok dates) (hp : d.Plain) (hc : d.conv = ch! 'f') (scale : Int) (e : Entry) (he : IsBig e 0 scale)
    (hs : ScaleOk 1 scale) (hneg : scale < 0) (rest : List Traits) :
    printf dates env d.text (e.toTraits jdk :: rest) =
      .ok (d.field (signText (flagSet d.flags) false) (List.replicate (1 + (-scale).toNat) 48 ++
        fraction (flagSet d.flags).alternate (List.replicate (d.prec.precision.getD 6) 48))) := by
  have hn : DigitCount (0 : Int).natAbs 1 := ⟨js! "0", by unfold Shortest IsNumeral NoExtraZero; decide, rfl⟩
  obtain ⟨body, h1, -, h2⟩ := printf_big_f env h hp hc (he.form jdk) hn hs rest
  rw [h1, h2 ⟨rfl, hneg⟩]
  rfl

/-- **C29.**  `%.pe` of a nonzero `BigDecimal` prints its exact value rounded half up to `p + 1`
significant digits, in normalised form; the exponent is written as in C, save for one case (see
`BigExponentText`). -/
theorem C29_e (dates : DateSyntax) (env : DateEnv) (jdk : JdkEnv) (d : Directive) (h : d.Ok dates)
    (hp : d.Plain) (hc : d.conv = ch! 'e') (u scale : Int) (e : Entry) (he : IsBig e u scale) (n : Nat)
    (hn : DigitCount u.natAbs n) (hs : ScaleOk n scale) (hz : u ≠ 0) (rest : List Traits) :
    ∃ m ex M x, printf dates env d.text (e.toTraits jdk :: rest) =
        .ok (d.field (signText (flagSet d.flags) (u < 0)) (m ++ ch! 'e' :: ex)) ∧
      Significant (bigValue u.natAbs scale) (d.prec.precision.getD 6 + 1) M x ∧
      FixedText M (d.prec.precision.getD 6) (flagSet d.flags).alternate m ∧
      BigExponentText (min (d.prec.precision.getD 6 + 1) n) x ex := by
  obtain ⟨m, ex, h1, h2, -⟩ := printf_big_e env h hp hc (he.form jdk) hn hs rest
  obtain ⟨M, x, g1, g2, g3⟩ := h2 hz
  exact ⟨m, ex, M, x, h1, g1, g2, g3⟩

/-- A zero prints the negated scale as its exponent. -/
theorem C29_e_zero (dates : DateSyntax) (env : DateEnv) (jdk : JdkEnv) (d : Directive) (h : d.Ok dates)
    (hp : d.Plain) (hc : d.conv = ch! 'e') (scale : Int) (e : Entry) (he : IsBig e 0 scale)
    (hs : ScaleOk 1 scale) (rest : List Traits) :
    ∃ m ex, printf dates env d.text (e.toTraits jdk :: rest) =
        .ok (d.field (signText (flagSet d.flags) false) (m ++ ch! 'e' :: ex)) ∧
      FixedText 0 (d.prec.precision.getD 6) (flagSet d.flags).alternate m ∧ ExponentText (-scale) ex := by
  have hn : DigitCount (0 : Int).natAbs 1 := ⟨js! "0", by unfold Shortest IsNumeral NoExtraZero; decide, rfl⟩
  obtain ⟨m, ex, h1, -, h2⟩ := printf_big_e env h hp hc (he.form jdk) hn hs rest
  exact ⟨m, ex, h1, h2 rfl⟩

/-- **C29.**  `%.Pg` of a nonzero `BigDecimal` (`P = 6` if no precision is given, and 1 for 0) prints its
exact value rounded half up to `P` significant digits.  The style goes by the exponent `x0` of the value
before rounding.  The padding is what the width asks for under `#`; otherwise it is that of a body which
is shorter by `generalHidden`. -/
theorem C29_g (dates : DateSyntax) (env : DateEnv) (jdk : JdkEnv) (d : Directive) (h : d.Ok dates)
    (hp : d.Plain) (hc : d.conv = ch! 'g') (u scale : Int) (e : Entry) (he : IsBig e u scale) (n : Nat)
    (hn : DigitCount u.natAbs n) (hs : ScaleOk n scale) (hz : u ≠ 0) (rest : List Traits) :
    let P := max 1 (d.prec.precision.getD 6)
    let sign := signText (flagSet d.flags) (u < 0)
    ∃ body x0 M x, printf dates env d.text (e.toTraits jdk :: rest) =
        .ok (padWith (flagSet d.flags).leftJustify (flagSet d.flags).zeroPad
          (d.width.width - (sign.length +
            (body.length - generalHidden P n (flagSet d.flags).alternate x0 M x body))) sign body) ∧
      10 ^ x0 ≤ bigValue u.natAbs scale ∧ bigValue u.natAbs scale < 10 ^ (x0 + 1) ∧
      Significant (bigValue u.natAbs scale) P M x ∧
      BigGeneralText P n (flagSet d.flags).alternate x0 M x body := by
  obtain ⟨body, k, h1, h2, -⟩ := printf_big_g env h hp hc (he.form jdk) hn hs rest rfl
  obtain ⟨x0, M, x, g1, g2, g3, g4, g5⟩ := h2 hz
  exact ⟨body, x0, M, x, by rw [h1, g5], g1, g2, g3, g4⟩

/-- `%g` of a zero: `0` if the scale is 0, and otherwise the exponent style with the negated scale. -/
theorem C29_g_zero (dates : DateSyntax) (env : DateEnv) (jdk : JdkEnv) (d : Directive) (h : d.Ok dates)
    (hp : d.Plain) (hc : d.conv = ch! 'g') (scale : Int) (e : Entry) (he : IsBig e 0 scale)
    (hs : ScaleOk 1 scale) (rest : List Traits) :
    let P := max 1 (d.prec.precision.getD 6)
    ∃ body, printf dates env d.text (e.toTraits jdk :: rest) =
        .ok (d.field (signText (flagSet d.flags) false) body) ∧
      (scale = 0 → if (flagSet d.flags).alternate then FixedText 0 (P - 1) true body else body = js! "0") ∧
      (scale ≠ 0 → ∃ xs, body = js! "0e" ++ xs ∧ ExponentText (-scale) xs) := by
  have hn : DigitCount (0 : Int).natAbs 1 := ⟨js! "0", by unfold Shortest IsNumeral NoExtraZero; decide, rfl⟩
  obtain ⟨body, k, h1, -, h2, h3, h4⟩ := printf_big_g env h hp hc (he.form jdk) hn hs rest rfl
  refine ⟨body, ?_, fun h0 => h3 ⟨rfl, h0⟩, fun h0 => h4 ⟨rfl, h0⟩⟩
  rw [h1, h2 rfl]; rfl

/-! ### Examples -/

/-- A `BigDecimal` argument. -/
def bigArg (u scale : Int) : Traits :=
  (Entry.ref (.bigDecimal u scale ⟨js! "java.math.BigDecimal", 1#32⟩)).toTraits sampleJdk

/-- A `BigInteger` argument. -/
def bigIntArg (u : Int) : Traits :=
  (Entry.ref (.bigInteger u ⟨js! "java.math.BigInteger", 1#32⟩)).toTraits sampleJdk

-- the hypotheses are met
example : DigitCount (-1995 : Int).natAbs 4 ∧ ScaleOk 4 2 :=
  ⟨⟨js! "1995", by unfold Shortest IsNumeral NoExtraZero; decide, rfl⟩, by unfold ScaleOk; omega⟩

-- half up, with carries: 99.95, 0.0005, 12345E+3
example : printf ⟨fun _ => true⟩ sampleDateEnv (js! "%.1f|%.0f|%.3f|%f|%#.0f") [bigArg (-9995) 2, bigArg 9995 2,
    bigArg 5 4, bigArg 12345 (-3), bigArg 12345 (-3)] = .ok (js! "-100.0|100|0.001|12345000.000000|12345000.") := rfl
example : printf ⟨fun _ => true⟩ sampleDateEnv (js! "%.2f %.2e") [bigIntArg 123456789012345678901234567890,
    bigIntArg (-123456789012345678901234567890)] = .ok (js! "123456789012345678901234567890.00 -1.23e+29") := rfl
-- the value is exact, unlike a `double`'s: 2.675 gives 2.68
example : printf ⟨fun _ => true⟩ sampleDateEnv (js! "%.2f") [bigArg 2675 3] = .ok (js! "2.68") := rfl

/-- A zero of negative scale prints several zeros under `%f`, where C prints one. -/
theorem C28_zero_witness : printf ⟨fun _ => true⟩ sampleDateEnv (js! "%f") [bigArg 0 (-3)] =
    .ok (js! "0000.000000") := rfl

/-- `%e` of a value laid out with ten digits and exponent 9 lacks a digit of the exponent: C prints
`1.234567890e+09`. -/
theorem C29_exponent_witness :
    printf ⟨fun _ => true⟩ sampleDateEnv (js! "%.9e") [bigIntArg 1234567890] = .ok (js! "1.234567890e+9") ∧
    printf ⟨fun _ => true⟩ sampleDateEnv (js! "%.9e") [bigArg 12345678901 1] = .ok (js! "1.234567890e+9") ∧
    printf ⟨fun _ => true⟩ sampleDateEnv (js! "%.8e") [bigIntArg 1234567890] = .ok (js! "1.23456789e+09") ∧
    printf ⟨fun _ => true⟩ sampleDateEnv (js! "%.9e") [bigArg 12345678900 1] = .ok (js! "1.234567890e+9") :=
  ⟨rfl, rfl, rfl, rfl⟩

/-- A zero keeps its scale as exponent under `%e` and `%g`: C prints `0.000000e+00` and `0`. -/
theorem C29_zero_witness :
    printf ⟨fun _ => true⟩ sampleDateEnv (js! "%e %g %g") [bigArg 0 2, bigArg 0 2, bigArg 0 0] =
      .ok (js! "0.000000e-02 0e-02 0") := rfl

/-- `%g` chooses its style before rounding: C prints `1e+06`.  And `%#g` of a value that carries into a
new integer digit prints one digit too many: C prints `1.00000`. -/
theorem C29_style_witness :
    printf ⟨fun _ => true⟩ sampleDateEnv (js! "%g") [bigArg 9999995 1] = .ok (js! "1000000") ∧
    printf ⟨fun _ => true⟩ sampleDateEnv (js! "%#g") [bigArg 9999996 7] = .ok (js! "1.000000") :=
  ⟨rfl, rfl⟩

-- and `%10g` is padded by two characters too many: `generalHidden` of 1.50 with `M = 150000`, and so on
example : generalHidden 6 3 false 0 150000 0 (js! "1.5") = 2 ∧ generalHidden 6 3 true 0 150000 0 (js! "1.50000") = 0 ∧
    generalHidden 6 2 false 0 150000 0 (js! "1.5") = 0 ∧ generalHidden 1 2 false (-2) 1 (-1) (js! "0.1") = 2 := by
  decide
example : printf ⟨fun _ => true⟩ sampleDateEnv (js! "%10g|%10.1g") [bigArg 15 1, bigArg 96 3] =
    .ok (js! "       1.5|         0.1") := rfl
example : printf ⟨fun _ => true⟩ sampleDateEnv (js! "%10g|%#10g") [bigArg 150 2, bigArg 150 2] =
    .ok (js! "         1.5|   1.50000") := rfl
-- the styles
example : printf ⟨fun _ => true⟩ sampleDateEnv (js! "%g %g %g %#g %.3g") [bigArg 1 4, bigArg 1 5, bigArg 1 (-6),
    bigArg 15 (-6), bigArg 123456 3] = .ok (js! "0.0001 1e-05 1e+06 1.5e+07 123") := rfl

end FastPrintf
