/-
Reading positional numerals: the value of a digit string in a base.  Independent of how the model
renders numbers.
-/
import Verif.Model.Java

namespace FastPrintf.Spec

/-- The value of a digit character: `0`-`9`, then `a`-`f`. -/
def digitVal (c : JChar) : Nat := if c ≤ 57 then c - 48 else c - 87

/-- Is `c` one of the characters `0`-`9`, `a`-`f` with value below `b`? -/
def IsDigitIn (b : Nat) (c : JChar) : Prop :=
  (48 ≤ c ∧ c ≤ 57 ∨ 97 ≤ c ∧ c ≤ 102) ∧ digitVal c < b

instance (b c : Nat) : Decidable (IsDigitIn b c) := by unfold IsDigitIn; infer_instance

/-- The number denoted by a digit string in base `b`. -/
def valueIn (b : Nat) : JStr → Nat
  | [] => 0
  | c :: cs => digitVal c * b ^ cs.length + valueIn b cs

/-- `s` is a numeral in base `b`: at least one digit, digits only. -/
def IsNumeral (b : Nat) (s : JStr) : Prop := s ≠ [] ∧ ∀ c ∈ s, IsDigitIn b c

/-- No superfluous leading zero. -/
def NoExtraZero (s : JStr) : Prop := s = js! "0" ∨ s.head? ≠ some 48

example : valueIn 16 (js! "beef") = 48879 := by decide

end FastPrintf.Spec
