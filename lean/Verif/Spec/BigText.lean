/-
`BigDecimal.toString` and `new BigDecimal(String)` as the JDK documents them, written independently of the library.
-/
import Verif.Spec.ReadBack
import Verif.Spec.CPrintf
import Verif.Model.Args

namespace FastPrintf.Spec

/-- Digits with a point before the last `k` of them, and zeros in front if there are too few. -/
def pointed (ds : JStr) (k : Nat) : JStr :=
  if k < ds.length then ds.take (ds.length - k) ++ fraction false (ds.drop (ds.length - k))
  else js! "0." ++ List.replicate (k - ds.length) (ch! '0') ++ ds

/-- `t` is what `BigDecimal.toString` is documented to return: with the digits of the unscaled value as they are, a
point if the scale is not negative and the first digit stands no more than six places after the point, and otherwise a
point after the first digit and the exponent after `E` with its sign. -/
def BigText (u scale : Int) (t : JStr) : Prop :=
  ∃ ds xs, Shortest 10 u.natAbs ds ∧ Shortest 10 ((ds.length : Int) - 1 - scale).natAbs xs ∧
    t = (if u < 0 then js! "-" else []) ++
      if 0 ≤ scale ∧ -6 ≤ (ds.length : Int) - 1 - scale then pointed ds scale.toNat
      else ds.take 1 ++ fraction false (ds.drop 1) ++
        ch! 'E' :: (if (ds.length : Int) - 1 - scale < 0 then ch! '-' else ch! '+') :: xs

/-- What the JDK's documentation says of `BigDecimal.toString`. -/
def TellsBig (jdk : JdkEnv) : Prop := ∀ u scale, BigText u scale (jdk.bigDecimalToString u scale)

/-- Digits with an optional point, and an optional exponent, which is taken off the number of digits after the
point. -/
def readScaled (r : JStr) : Nat × Int :=
  let ms := r.takeWhile fun c => c ≠ ch! 'e' ∧ c ≠ ch! 'E'
  let ip := ms.takeWhile (· ≠ ch! '.')
  let fp := ms.drop (ip.length + 1)
  (valueIn 10 (ip ++ fp), fp.length - readExponent (r.drop (ms.length + 1)))

/-- The unscaled value and the scale that `new BigDecimal(String)` is documented to read. -/
def readBig (s : JStr) : Int × Int :=
  if s.head? = some (ch! '-') then (-((readScaled (s.drop 1)).1 : Int), (readScaled (s.drop 1)).2)
  else if s.head? = some (ch! '+') then ((readScaled (s.drop 1)).1, (readScaled (s.drop 1)).2)
  else ((readScaled s).1, (readScaled s).2)

example : readBig (js! "-12.50") = (-1250, 2) ∧ readBig (js! "1E+3") = (1, -3) ∧ readBig (js! "0.00") = (0, 2) ∧
    readBig (js! "1.5e-8") = (15, 9) := by decide

/-! The examples of the documentation: `[123,0]`, `[-123,0]`, `[123,-1]`, `[123,-3]`, `[123,1]`, `[123,5]`, `[123,10]`,
`[-123,12]`. -/
example : BigText 123 0 (js! "123") := ⟨js! "123", js! "2", by unfold Shortest IsNumeral NoExtraZero; decide, by unfold Shortest IsNumeral NoExtraZero; decide, by decide⟩
example : BigText (-123) 0 (js! "-123") := ⟨js! "123", js! "2", by unfold Shortest IsNumeral NoExtraZero; decide, by unfold Shortest IsNumeral NoExtraZero; decide, by decide⟩
example : BigText 123 (-1) (js! "1.23E+3") := ⟨js! "123", js! "3", by unfold Shortest IsNumeral NoExtraZero; decide, by unfold Shortest IsNumeral NoExtraZero; decide, by decide⟩
example : BigText 123 (-3) (js! "1.23E+5") := ⟨js! "123", js! "5", by unfold Shortest IsNumeral NoExtraZero; decide, by unfold Shortest IsNumeral NoExtraZero; decide, by decide⟩
example : BigText 123 1 (js! "12.3") := ⟨js! "123", js! "1", by unfold Shortest IsNumeral NoExtraZero; decide, by unfold Shortest IsNumeral NoExtraZero; decide, by decide⟩
example : BigText 123 5 (js! "0.00123") := ⟨js! "123", js! "3", by unfold Shortest IsNumeral NoExtraZero; decide, by unfold Shortest IsNumeral NoExtraZero; decide, by decide⟩
example : BigText 123 10 (js! "1.23E-8") := ⟨js! "123", js! "8", by unfold Shortest IsNumeral NoExtraZero; decide, by unfold Shortest IsNumeral NoExtraZero; decide, by decide⟩
example : BigText (-123) 12 (js! "-1.23E-10") := ⟨js! "123", js! "10", by unfold Shortest IsNumeral NoExtraZero; decide, by unfold Shortest IsNumeral NoExtraZero; decide, by decide⟩

end FastPrintf.Spec
