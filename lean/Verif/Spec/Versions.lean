/-
What it means that a call runs on one version of the JDK or another.
-/
import Verif.Model.Versions

namespace FastPrintf.Spec

/-- Characters of Java: sixteen bits. -/
def Chars (t : JStr) : Prop := ∀ c ∈ t, c < 65536

/-- The same argument on a JDK that has, or has not, the methods that the library looks for: the `double` that it is read
as is laid out with them or without.  Everything else is the same. -/
inductive RunsOn (lib : Versions.Library) : Traits → Traits → Prop
  | same (v : Traits) : RunsOn lib v v
  | double {bits : BitVec 64} {v : Traits} (h : v.asFloatForm = .ok (FloatForm.ofDouble bits)) :
      RunsOn lib v { v with asFloatForm := .ok (Versions.ofDouble lib bits) }

/-- What is left in a builder with room for `room` characters when `count` characters `c` do not fit.  The library's own
loop, for fewer than 16 characters, fills it up if the length that it asks for does not fit an `int`. -/
def leftOver (room : Nat) (c : JChar) (count : Nat) (sb : JStr) : JStr :=
  if count < 16 ∧ 2147483648 ≤ sb.length + count then sb ++ List.replicate (room - sb.length) c else sb

end FastPrintf.Spec
