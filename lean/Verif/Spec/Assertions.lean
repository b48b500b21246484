/-
What it means that assertions are enabled for an argument.
-/
import Verif.Model.Assertions
import Verif.Spec.Double

namespace FastPrintf.Spec

/-- The same argument on a virtual machine with assertions enabled (`ea`) or disabled: the `double` that it is read as
answers `hexLayout` with its `assert` statements evaluated or skipped.  Everything else is the same. -/
inductive Asserting (ea : Bool) : Traits → Traits → Prop
  | same (v : Traits) : Asserting ea v v
  | double {bits : BitVec 64} {v : Traits} (h : v.asFloatForm = .ok (FloatForm.ofDouble bits)) :
      Asserting ea v { v with asFloatForm := .ok (Assertions.ofDouble ea bits) }

end FastPrintf.Spec
