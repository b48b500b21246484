/-
The text of a `double`, from the documentation of `Double.toString` (JDK 19), written independently of the
library.
-/
import Verif.Spec.Decimal

namespace FastPrintf.Spec

/-- A plain decimal that denotes `v`, with at least one fraction digit and no superfluous zeros. -/
def PointText (v : ℚ) (s : JStr) : Prop :=
  ∃ t, MinimalText v t ∧ s = if ch! '.' ∈ t then t else t ++ js! ".0"

/-- An integer in decimal. -/
def SignedText (x : Int) (s : JStr) : Prop :=
  ∃ ds, Shortest 10 x.natAbs ds ∧ s = if x < 0 then ch! '-' :: ds else ds

/-- The text of a positive decimal: plain from `10^-3` up to `10^7`, otherwise "computerized scientific
notation", `d.ddE5`, with one nonzero digit before the point. -/
def JavaText (d : ℚ) (s : JStr) : Prop :=
  if 10 ^ (-3 : Int) ≤ d ∧ d < 10 ^ 7 then PointText d s
  else ∃ x ms xs, 10 ^ x ≤ d ∧ d < 10 ^ (x + 1) ∧ PointText (d * 10 ^ (-x)) ms ∧ SignedText x xs ∧
    s = ms ++ ch! 'E' :: xs

/-- The text of a `double`. -/
inductive DoubleText (bits : BitVec 64) : JStr → Prop
  | nan (h : expBits bits = 2047) (hf : fracBits bits ≠ 0) : DoubleText bits (js! "NaN")
  | infinite (h : expBits bits = 2047) (hf : fracBits bits = 0) :
      DoubleText bits (if negative bits then js! "-Infinity" else js! "Infinity")
  | zero (hf : finite bits) (h : magnitude bits = 0) :
      DoubleText bits (if negative bits then js! "-0.0" else js! "0.0")
  | number (hf : finite bits) (h : magnitude bits ≠ 0) {d : ℚ} (hd : JavaDecimal bits d) {t : JStr}
      (ht : JavaText d t) : DoubleText bits (if negative bits then ch! '-' :: t else t)

example : PointText 3 (js! "3.0") :=
  ⟨js! "3", ⟨js! "3", [], by decide, by unfold IsNumeral; decide, by unfold NoExtraZero; decide, by decide,
    by decide, by norm_num [valueIn, digitVal]⟩, by decide⟩
example : SignedText (-12) (js! "-12") :=
  ⟨js! "12", by unfold Shortest IsNumeral NoExtraZero; decide, by decide⟩

end FastPrintf.Spec
