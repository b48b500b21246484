/-
What the layouts of a `FloatForm` look like when they are asked for directly, with any precision: decimals that
are not padded to the precision, as opposed to the texts a directive prints.
-/
import Verif.Spec.Decimal

namespace FastPrintf.Spec

/-- `s` is a plain decimal that denotes `v`, with at most `k` fraction digits; no point unless a digit follows. -/
def PlainDecimal (v : ℚ) (k : Nat) (s : JStr) : Prop :=
  ∃ ip fp, s = ip ++ fraction false fp ∧ IsNumeral 10 ip ∧ NoExtraZero ip ∧
    (∀ c ∈ fp, IsDigitIn 10 c) ∧ fp.length ≤ k ∧ (valueIn 10 (ip ++ fp) : ℚ) = v * 10 ^ fp.length

/-- `s` is a significand that denotes `v`: one digit other than `0`, and at most `p` digits after the point.
The point is there unless `p = 0`, even if no digit follows. -/
def Significand (v : ℚ) (p : Nat) (s : JStr) : Prop :=
  ∃ c fp, s = c :: fraction (p ≠ 0) fp ∧ IsDigitIn 10 c ∧ c ≠ ch! '0' ∧
    (∀ c ∈ fp, IsDigitIn 10 c) ∧ fp.length ≤ p ∧ (valueIn 10 (c :: fp) : ℚ) = v * 10 ^ fp.length

example : PlainDecimal (21 / 2) 6 (js! "10.5") :=
  ⟨js! "10", js! "5", by decide, by unfold IsNumeral; decide, by unfold NoExtraZero; decide, by decide,
    by decide, by norm_num [valueIn, digitVal]⟩
example : PlainDecimal 700 0 (js! "700") :=
  ⟨js! "700", [], by decide, by unfold IsNumeral; decide, by unfold NoExtraZero; decide, by decide,
    by decide, by norm_num [valueIn, digitVal]⟩
example : Significand (3 / 2) 6 (js! "1.5") :=
  ⟨ch! '1', js! "5", by decide, by decide, by decide, by decide, by decide, by norm_num [valueIn, digitVal]⟩
example : Significand 2 6 (js! "2.") :=
  ⟨ch! '2', [], by decide, by decide, by decide, by decide, by decide, by norm_num [valueIn, digitVal]⟩

end FastPrintf.Spec
