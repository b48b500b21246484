/-
Texts that are too long for an `int` to count.
-/
import Verif.Spec.CPrintf

namespace FastPrintf.Spec

/-- What `%.pf` should print of an integer with the digits `ds` followed by `k` zeros. -/
def integerText (negative : Bool) (ds : JStr) (k p : Nat) : JStr :=
  (if negative then js! "-" else []) ++ ds ++ List.replicate k (ch! '0') ++ js! "." ++ List.replicate p (ch! '0')

example : integerText true (js! "12") 3 2 = js! "-12000.00" := by decide

/-- The largest number of units a Java string can have: its length is an `int`. -/
def longestString : Nat := 2147483647

end FastPrintf.Spec
