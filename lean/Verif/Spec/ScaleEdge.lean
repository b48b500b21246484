/-
What `%f` writes of an integer whose first digit stands beyond `10^2147483647` (C116).
-/
import Verif.Spec.IntLengths

namespace FastPrintf.Spec

/-- A number below one: `before` zeros after the point, the digits `ds`, and `after` more zeros. -/
def belowOne (negative : Bool) (before : Nat) (ds : JStr) (after : Nat) : JStr :=
  (if negative then js! "-" else []) ++ js! "0." ++ List.replicate before (ch! '0') ++ ds ++ List.replicate after (ch! '0')

example : belowOne true 2 (js! "12") 3 = js! "-0.0012000" := by decide

end FastPrintf.Spec
