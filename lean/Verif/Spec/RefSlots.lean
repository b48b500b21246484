/-
What the documentation of `RefSlot` says of the three states of a slot.
-/
import Verif.Model.RefSlots

namespace FastPrintf.Spec
open RefSlots

/-- What a slot stands for. -/
inductive SlotState
  | primitive
  | null
  | object (x : Nat)
  deriving DecidableEq, Repr

/-- The slot answers as one that stands for that. -/
def AnswersAs (w : World) (s : Nat) : SlotState → Prop
  | .primitive => (w.step (.isPrimitive s)).map Prod.fst = some (.truth true) ∧
      (w.step (.get s)).map Prod.fst = some .unsupported
  | .null => (w.step (.isPrimitive s)).map Prod.fst = some (.truth false) ∧
      (w.step (.get s)).map Prod.fst = some (.reference none)
  | .object x => (w.step (.isPrimitive s)).map Prod.fst = some (.truth false) ∧
      (w.step (.get s)).map Prod.fst = some (.reference (some x))

end FastPrintf.Spec
