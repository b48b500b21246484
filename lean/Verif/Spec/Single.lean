/-
IEEE 754 binary32 and reading a printed number as a `float`, written independently of the library.
-/
import Verif.Spec.Readings
import Verif.Spec.ReadBack

namespace FastPrintf.Spec

def finite32 (bits : BitVec 32) : Prop := expBits32 bits ≠ 255

/-- A magnitude representable in 24 bits with exponent at least -149; the exponent is not bounded above. -/
def IsSingle (x : ℚ) : Prop := ∃ (c : Nat) (q : Int), c < 2 ^ 24 ∧ -149 ≤ q ∧ x = c * 2 ^ q

/-- The text has the sign of the `float`, and its number is nearer to this `float` than to any other: it reads
back as this `float`, however ties are broken. -/
def ReadsAsSingle (bits : BitVec 32) (s : JStr) : Prop :=
  (readNumber s).1 = negative32 bits ∧
    ∀ y, IsSingle y → y = magnitude32 bits ∨ |(readNumber s).2 - magnitude32 bits| < |(readNumber s).2 - y|

/-- No `float` is nearer to `d`: what `Float.parseFloat` or a literal `1.5f` makes of the decimal `d`. -/
def NearestSingle (d : ℚ) (bits : BitVec 32) : Prop := ∀ y, IsSingle y → |d - magnitude32 bits| ≤ |d - y|

end FastPrintf.Spec
