/-
Property of `%e`, `%g` and `%f` of a `BigDecimal` whose scale is at the edge of `int`: C116.

They are about one directive without `*` (C09 reduces stars to written numbers, C05 composes directives).
The upper-case twins are covered by C19.
-/
import Verif.Proofs.IntBeyond
import Verif.Proofs.ScaleEdge
import Verif.Props.IntLengths
import Verif.Spec.ScaleEdge

namespace FastPrintf
open Spec DefaultAppender

/-- **C116.**  `%.pe` of a nonzero `BigDecimal` of any scale prints its value rounded half up to `p + 1` significant
digits, if nothing needs rounding or the last digit printed stands no higher than `10^2147483648`. -/
theorem C116_prints (dates : DateSyntax) (env : DateEnv) (jdk : JdkEnv) (d : Directive) (h : d.Ok dates)
    (hp : d.Plain) (hc : d.conv = ch! 'e') (u scale : Int) (e : Entry) (he : IsBig e u scale) (n : Nat)
    (hn : DigitCount u.natAbs n) (hs : scale ≤ 2147483647) (hz : u ≠ 0) (M : Nat) (x : Int)
    (hx : Significant (bigValue u.natAbs scale) (d.prec.precision.getD 6 + 1) M x)
    (hr : n ≤ d.prec.precision.getD 6 + 1 ∨ x - (d.prec.precision.getD 6 : Nat) ≤ 2147483648) (rest : List Traits) :
    ∃ m ex, printf dates env d.text (e.toTraits jdk :: rest) =
        .ok (d.field (signText (flagSet d.flags) (u < 0)) (m ++ ch! 'e' :: ex)) ∧
      FixedText M (d.prec.precision.getD 6) (flagSet d.flags).alternate m ∧
      BigExponentText (min (d.prec.precision.getD 6 + 1) n) x ex := by
  obtain ⟨m, ex, M', x', h1, h2, h3, h4⟩ := printf_edge_e env h hp hc (he.form jdk) hn hs hz rest
  obtain ⟨rfl, rfl⟩ := Significant.unique hx h1
  exact ⟨m, ex, h2.trans (if_neg (by omega)), h3, h4⟩

/-- **C116.**  In all other cases the call ends with an `ArithmeticException`. -/
theorem C116_fails (dates : DateSyntax) (env : DateEnv) (jdk : JdkEnv) (d : Directive) (h : d.Ok dates)
    (hp : d.Plain) (hc : d.conv = ch! 'e') (u scale : Int) (e : Entry) (he : IsBig e u scale) (n : Nat)
    (hn : DigitCount u.natAbs n) (hs : scale ≤ 2147483647) (hz : u ≠ 0) (M : Nat) (x : Int)
    (hx : Significant (bigValue u.natAbs scale) (d.prec.precision.getD 6 + 1) M x)
    (hr : d.prec.precision.getD 6 + 1 < n) (hl : 2147483648 < x - (d.prec.precision.getD 6 : Nat)) (rest : List Traits) :
    printf dates env d.text (e.toTraits jdk :: rest) = .error .arithmetic := by
  obtain ⟨m, ex, M', x', h1, h2, -, -⟩ := printf_edge_e env h hp hc (he.form jdk) hn hs hz rest
  obtain ⟨rfl, rfl⟩ := Significant.unique hx h1
  exact h2.trans (if_pos ⟨hr, hl⟩)

/-- **C116.**  `%.Pg` fails under the same condition, with `P` digits (at least one). -/
theorem C116_g_fails (dates : DateSyntax) (env : DateEnv) (jdk : JdkEnv) (d : Directive) (h : d.Ok dates)
    (hp : d.Plain) (hc : d.conv = ch! 'g') (u scale : Int) (e : Entry) (he : IsBig e u scale) (n : Nat)
    (hn : DigitCount u.natAbs n) (hs : scale ≤ 2147483647) (hz : u ≠ 0) (P M : Nat) (x : Int)
    (hP : P = max 1 (d.prec.precision.getD 6)) (hx : Significant (bigValue u.natAbs scale) P M x)
    (hr : P < n) (hl : 2147483648 < x - (P - 1)) (rest : List Traits) :
    printf dates env d.text (e.toTraits jdk :: rest) = .error .arithmetic :=
  printf_edge_g env h hp hc (he.form jdk) hn hs hz rest hP hx hr hl

/-- **C116.**  `%.pf` of an integer whose digits before the point are more than 2147483648 writes a number below one:
the `int` that says where the point goes has wrapped around.  (With `int` lengths, as in C77.) -/
theorem C116_f_below_one {dates : DateSyntax} {env : DateEnv} {jdk : JdkEnv} {d : Directive} {u : Int} {ds : JStr}
    {k : Nat} {id : Identity} (h : LongInteger dates d u ds k) (hn : ds.length ≤ longestString)
    (hl : longestString + 1 < ds.length + k) (hk : d.prec.precision.getD 6 + k ≤ longestString) :
    Narrow.printf dates env d.text [Narrow.toTraits jdk (.ref (.bigDecimal u (-(k : Int)) id))] =
      .ok (belowOne (u < 0) (4294967296 - (ds.length + k)) ds (d.prec.precision.getD 6 + k)) := by
  have hp : d.Plain := ⟨by rw [h.width]; simp, h.prec⟩
  have hd : toRadix 10 u.natAbs = ds := (h.digits.eq (by omega) (by omega)).symm
  have e : longestString = 2147483647 := rfl
  obtain ⟨m, m1, m2, m3⟩ := Narrow.f_beyond (unadorned h.flags h.width) (u := u) (n := ds.length) (k := k)
    (by rw [hd]) (by omega) (by omega) (precision6_eq hp) (getD_precision_le h.ok) (by omega)
  rw [h.printf_eq, m1, bind_ok, m2.solid.written, m3]
  unfold Narrow.beyondText belowOne
  rw [hd]
  simp

/-- **C116.**  If those and the places after the point are more zeros than an `int` can count, the call ends with an
`IllegalArgumentException`. -/
theorem C116_f_refused {dates : DateSyntax} {env : DateEnv} {jdk : JdkEnv} {d : Directive} {u : Int} {ds : JStr}
    {k : Nat} {id : Identity} (h : LongInteger dates d u ds k) (hn : ds.length ≤ longestString)
    (hl : longestString + 1 < ds.length + k) (hs : k ≤ 2147483648)
    (hk : longestString < d.prec.precision.getD 6 + k) :
    Narrow.printf dates env d.text [Narrow.toTraits jdk (.ref (.bigDecimal u (-(k : Int)) id))] =
      .error .illegalArgument := by
  have hp : d.Plain := ⟨by rw [h.width]; simp, h.prec⟩
  have hd : toRadix 10 u.natAbs = ds := (h.digits.eq (by omega) (by omega)).symm
  have e : longestString = 2147483647 := rfl
  rw [h.printf_eq, Narrow.f_beyond_refused (u := u) (n := ds.length) (k := k) (by rw [hd]) (by omega) (by omega) hs
    (precision6_eq hp) (getD_precision_le h.ok) (by omega)]
  rfl

/-- `%f` of 123456789E2147483640 writes 2147483647 zeros after the point and then the digits; `%f` of 1E2147483648 is
refused. -/
theorem C116_f_witness :
    Narrow.printf sampleDates sampleDateEnv (js! "%f")
        [Narrow.toTraits sampleJdk (.ref (.bigDecimal 123456789 (-2147483640) someId))] =
      .ok (belowOne false 2147483647 (js! "123456789") 2147483646) ∧
    Narrow.printf sampleDates sampleDateEnv (js! "%f")
        [Narrow.toTraits sampleJdk (.ref (.bigDecimal 1 (-2147483648) someId))] = .error .illegalArgument := by
  constructor
  · exact C116_f_below_one (d := bare (ch! 'f')) (u := 123456789) (ds := js! "123456789") (k := 2147483640)
      ⟨bare_ok (by decide) (by decide), rfl, rfl, rfl, by simp [bare],
        by unfold Shortest IsNumeral NoExtraZero; decide, by omega, by decide⟩ (by decide) (by decide) (by decide)
  · exact C116_f_refused (tenPower (k := 2147483648) (by omega)) (by decide) (by decide) (by omega) (by decide)

/-- **C116.**  `%.pe` of a zero of any scale prints the negated scale as its exponent. -/
theorem C116_zero (dates : DateSyntax) (env : DateEnv) (jdk : JdkEnv) (d : Directive) (h : d.Ok dates)
    (hp : d.Plain) (hc : d.conv = ch! 'e') (scale : Int) (e : Entry) (he : IsBig e 0 scale) (rest : List Traits) :
    ∃ m ex, printf dates env d.text (e.toTraits jdk :: rest) =
        .ok (d.field (signText (flagSet d.flags) false) (m ++ ch! 'e' :: ex)) ∧
      FixedText 0 (d.prec.precision.getD 6) (flagSet d.flags).alternate m ∧ ExponentText (-scale) ex := by
  obtain ⟨m, ex, h1, h2, h3⟩ := printf_edge_zero env h hp hc (he.form jdk) rest
  exact ⟨m, ex, h1, h2, h3⟩

/-! The statements are about something -/

-- 94E+2147483647 to one digit is 9E+2147483648; 95E+2147483647 would be 1E+2147483649
example : printf ⟨fun _ => true⟩ sampleDateEnv (js! "%.0e") [bigArg 94 (-2147483647)] =
    .ok (js! "9e+2147483648") := by decide +kernel
example : printf ⟨fun _ => true⟩ sampleDateEnv (js! "%.0e") [bigArg 95 (-2147483647)] =
    .error .arithmetic := by decide +kernel
-- the same digits are no trouble if they are all printed
example : printf ⟨fun _ => true⟩ sampleDateEnv (js! "%.1e") [bigArg 95 (-2147483648)] =
    .ok (js! "9.5e+2147483649") := by decide +kernel
example : printf ⟨fun _ => true⟩ sampleDateEnv (js! "%.1g") [bigArg 95 (-2147483647)] =
    .error .arithmetic := by decide +kernel
example : printf ⟨fun _ => true⟩ sampleDateEnv (js! "%.2g") [bigArg 95 (-2147483648)] =
    .ok (js! "9.5e+2147483649") := by decide +kernel
-- the rounded values
example : Significant (bigValue 95 3) 1 1 (-1) := by
  refine ⟨by norm_num, by norm_num, -2, ?_, ?_, ?_⟩ <;> unfold bigValue
  · norm_num
  · norm_num
  · rw [show halfUp (((95 : Nat) : ℚ) * 10 ^ (-(3 : Int))) (((1 : Nat) : Int) - 1 - -2) = 10 by unfold halfUp; norm_num]
    norm_num

end FastPrintf
