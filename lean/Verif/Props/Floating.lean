/-
Properties of `%f`, `%e` and `%g` of a `double`: C23, C24, C25.

They are about one directive without `*` (C09 reduces stars to written numbers, C05 composes directives)
applied to a `double`, handed over as a primitive or boxed.  The upper-case twins are covered by C19.
-/
import Verif.Proofs.DoubleFormat
import Verif.Proofs.DecimalUnique
import Verif.Props.Samples

namespace FastPrintf
open Spec DefaultAppender

theorem Spec.IsDouble.form {e : Entry} {bits : BitVec 64} (h : IsDouble e bits) (jdk : JdkEnv) :
    (e.toTraits jdk).asFloatForm = .ok (FloatForm.ofDouble bits) := by
  cases h <;> rfl

/-- **C23.**  `%.pf` of a finite `double` prints the decimal `q` that stands for it, rounded half up to `p`
places (6 if no precision is given): the sign, an integer part without superfluous zeros, and exactly `p`
digits after the point; no point if `p = 0`, unless `#` is given. -/
theorem C23_f (dates : DateSyntax) (env : DateEnv) (jdk : JdkEnv) (d : Directive) (h : d.Ok dates)
    (hp : d.Plain) (hc : d.conv = ch! 'f') (bits : BitVec 64) (hf : finite bits) (e : Entry)
    (he : IsDouble e bits) (rest : List Traits) :
    ∃ q body, printf dates env d.text (e.toTraits jdk :: rest) =
        .ok (d.field (signText (flagSet d.flags) (negative bits)) body) ∧ DecimalOf bits q ∧
      FixedText (halfUp q (d.prec.precision.getD 6)) (d.prec.precision.getD 6)
        (flagSet d.flags).alternate body :=
  printf_f env h hp hc (he.form jdk) hf rest

/-- The printed number is within half a unit of its last place of that decimal. -/
theorem C23_error {bits : BitVec 64} {q : ℚ} (h : DecimalOf bits q) (p : Nat) :
    |(halfUp q p : ℚ) * 10 ^ (-(p : Int)) - q| ≤ 10 ^ (-(p : Int)) / 2 := by
  refine halfUp_error ?_ p
  rcases h with ⟨_, rfl⟩ | ⟨_, m, _, _, ⟨s, i, _, _, rfl⟩, _⟩
  · exact le_refl _
  · positivity

/-- The value, the places and the flag determine the text. -/
theorem C23_determined {m p : Nat} {alt : Bool} {s s' : JStr} (h : FixedText m p alt s)
    (h' : FixedText m p alt s') : s = s' := h.unique h'

/-- **C24.**  `%.pe` of a finite `double` prints the decimal that stands for it, rounded half up to `p + 1`
significant digits `M` with decimal exponent `x`: the sign, one nonzero digit, `p` digits after the point
(`M < 10^(p+1)` and `10^p ≤ M`), `e` and the exponent with its sign and at least two digits.  A zero
prints as zero with exponent `+00`. -/
theorem C24_e (dates : DateSyntax) (env : DateEnv) (jdk : JdkEnv) (d : Directive) (h : d.Ok dates)
    (hp : d.Plain) (hc : d.conv = ch! 'e') (bits : BitVec 64) (hf : finite bits) (e : Entry)
    (he : IsDouble e bits) (rest : List Traits) :
    ∃ m ex, printf dates env d.text (e.toTraits jdk :: rest) =
        .ok (d.field (signText (flagSet d.flags) (negative bits)) (m ++ ch! 'e' :: ex)) ∧
      ((magnitude bits = 0 ∧ FixedText 0 (d.prec.precision.getD 6) (flagSet d.flags).alternate m ∧
          ex = js! "+00") ∨
        (∃ q M x, magnitude bits ≠ 0 ∧ JavaDecimal bits q ∧ Significant q (d.prec.precision.getD 6 + 1) M x ∧
          FixedText M (d.prec.precision.getD 6) (flagSet d.flags).alternate m ∧ ExponentText x ex)) :=
  printf_e env h hp hc (he.form jdk) hf rest

/-- The decimal and the number of digits determine `M` and `x`, and these determine the text. -/
theorem C24_determined {q : ℚ} {n M M' : Nat} {x x' : Int} (h : Significant q n M x)
    (h' : Significant q n M' x') : M = M' ∧ x = x' := h.unique h'

theorem C24_exponent_determined {x : Int} {s s' : JStr} (h : ExponentText x s) (h' : ExponentText x s') :
    s = s' := h.unique h'

/-- **C25.**  `%.Pg` of a finite `double` (`P = 6` if no precision is given, and 1 for 0) prints the decimal
that stands for it rounded half up to `P` significant digits, in the exponent style exactly if the exponent
of the rounded value is below -4 or at least `P`; without `#` there is no trailing zero in the fraction and
no bare point.  With `#` the plain style has exactly `P` significant digits, and the exponent style the
smaller of `P` and the number `n` of digits that were computed (which `LastPlace` determines). -/
theorem C25_g (dates : DateSyntax) (env : DateEnv) (jdk : JdkEnv) (d : Directive) (h : d.Ok dates)
    (hp : d.Plain) (hc : d.conv = ch! 'g') (bits : BitVec 64) (hf : finite bits) (e : Entry)
    (he : IsDouble e bits) (rest : List Traits) :
    let P := max 1 (d.prec.precision.getD 6)
    ∃ body, printf dates env d.text (e.toTraits jdk :: rest) =
        .ok (d.field (signText (flagSet d.flags) (negative bits)) body) ∧
      ((magnitude bits = 0 ∧
          if (flagSet d.flags).alternate then FixedText 0 (P - 1) true body else body = js! "0") ∨
        (∃ q M x, magnitude bits ≠ 0 ∧ JavaDecimal bits q ∧ Significant q P M x ∧
          ∃ e n, LastPlace bits e ∧ DigitsDownTo q e n ∧
            GeneralText P n (flagSet d.flags).alternate M x body)) :=
  printf_g env h hp hc (he.form jdk) hf rest rfl

/-- The text without superfluous zeros is determined by the value. -/
theorem C25_determined {v : ℚ} {s s' : JStr} (h : MinimalText v s) (h' : MinimalText v s') : s = s' :=
  h.unique h'

/-! ### Examples -/

/-- A `double` argument. -/
def doubleArg (bits : BitVec 64) : Traits := (Prim.double bits).traits sampleJdk .primitive

-- the hypotheses are met
example : finite 0x402499999999999A#64 ∧ magnitude 0x402499999999999A#64 ≠ 0 := by
  refine ⟨by unfold finite; decide, ?_⟩
  rw [Ne, magnitude_zero_iff]; decide
example : (Directive.mk (js! "-#") (.digits (js! "9")) (.digits (js! "2")) (ch! 'f') none).Ok
    ⟨fun _ => true⟩ :=
  ⟨by decide, by decide, ⟨by decide, by decide, by simp [IsDigit], by decide⟩,
    ⟨by simp [IsDigit], by decide⟩, by decide,
    by intro p hp; exact absurd hp (by simp), by intro hc; exact absurd hc (by decide)⟩

-- 10.3, and carries
example : printf ⟨fun _ => true⟩ sampleDateEnv (js! "%f") [doubleArg 0x402499999999999A#64] =
    .ok (js! "10.300000") := by decide +kernel
example : printf ⟨fun _ => true⟩ sampleDateEnv (js! "%.1f|%.0f|%#.0f") [doubleArg 0x4023F5C28F5C28F6#64,
    doubleArg 0x4023F5C28F5C28F6#64, doubleArg 0x4023F5C28F5C28F6#64] = .ok (js! "10.0|10|10.") := by decide +kernel
-- 0.15 is below 15/100, but its decimal is 0.15: half up gives 0.2
example : printf ⟨fun _ => true⟩ sampleDateEnv (js! "%.1f") [doubleArg 0x3FC3333333333333#64] =
    .ok (js! "0.2") := by decide +kernel
-- -0.0
example : printf ⟨fun _ => true⟩ sampleDateEnv (js! "%.1f %e %g") [doubleArg 0x8000000000000000#64,
    doubleArg 0x8000000000000000#64, doubleArg 0x8000000000000000#64] =
    .ok (js! "-0.0 -0.000000e+00 -0") := by decide +kernel
-- 9.996e5 carries into the exponent under `%.2e`, and into the exponent style under `%.3g`
example : printf ⟨fun _ => true⟩ sampleDateEnv (js! "%.2e|%.3g|%.6g") [doubleArg 0x412E818000000000#64,
    doubleArg 0x412E818000000000#64, doubleArg 0x412E818000000000#64] =
    .ok (js! "1.00e+06|1e+06|999616") := by decide +kernel
-- the least and the greatest
example : printf ⟨fun _ => true⟩ sampleDateEnv (js! "%.3e %g") [doubleArg 1#64, doubleArg 0x7FEFFFFFFFFFFFFF#64] =
    .ok (js! "4.900e-324 1.79769e+308") := by decide +kernel
-- with `#` the plain style is filled up
example : printf ⟨fun _ => true⟩ sampleDateEnv (js! "%#.8g %#.20g") [doubleArg 0x3FE0000000000000#64,
    doubleArg 0x3FE0000000000000#64] = .ok (js! "0.50000000 0.50000000000000000000") := by decide +kernel
-- the exponent style is not, so it departs from C when more than 17 digits are asked for (C prints 18) ...
example : printf ⟨fun _ => true⟩ sampleDateEnv (js! "%#.18g") [doubleArg 0x4415AF1D78B58C40#64] =
    .ok (js! "1.0000000000000000e+20") := by decide +kernel
-- ... and for one digit, where C prints `1.e+20`
example : printf ⟨fun _ => true⟩ sampleDateEnv (js! "%#.1g") [doubleArg 0x4415AF1D78B58C40#64] =
    .ok (js! "1e+20") := by decide +kernel
-- the least `double` has two computed digits, `2^-60` as many as were computed
example : printf ⟨fun _ => true⟩ sampleDateEnv (js! "%#g %#.20g") [doubleArg 1#64, doubleArg 0x3C30000000000000#64] =
    .ok (js! "4.9e-324 8.673617379884035e-19") := by decide +kernel

end FastPrintf
