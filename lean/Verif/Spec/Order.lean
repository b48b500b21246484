/-
Order: the numbers that texts denote, and the order in which texts sort.
-/
import Verif.Spec.ReadBack
import Verif.Spec.Readings

namespace FastPrintf.Spec

/-- The number a text denotes. -/
def readValue (s : JStr) : ℚ := signed (readNumber s).1 (readNumber s).2

/-- `String.compareTo`: the difference of the first characters that differ, or of the lengths if one text
begins with the other. -/
def compareTo : JStr → JStr → Int
  | [], t => -(t.length : Int)
  | s, [] => s.length
  | a :: s, b :: t => if a = b then compareTo s t else (a : Int) - b

/-- The texts compare as the numbers do. -/
def SortLike (s t : JStr) (m n : Nat) : Prop :=
  (compareTo s t < 0 ↔ m < n) ∧ (compareTo s t = 0 ↔ m = n)

example : compareTo (js! "abc") (js! "abd") = -1 := by decide
example : compareTo (js! "abc") (js! "a") = 2 := by decide
example : SortLike (js! " 9") (js! "10") 9 10 := by unfold SortLike; decide
example : ¬ SortLike (js! "9") (js! "10") 9 10 := by unfold SortLike; decide

end FastPrintf.Spec
