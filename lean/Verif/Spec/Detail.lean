/-
The messages of refused calls.
-/
import Verif.Model.Detail
import Verif.Spec.Arguments

namespace FastPrintf.Spec

/-- The message of a refused `null`. -/
def nullMessage (name : JStr) : JStr := js! "Argument '" ++ name ++ js! "' cannot be null"

/-- The message of a refused index. -/
inductive IndexMessage (i n : Int) : JStr → Prop
  | mk {a b : JStr} : DecimalText i a → DecimalText n b → IndexMessage i n (js! "index: " ++ a ++ js! ", size: " ++ b)

/-- The message of refused bounds. -/
inductive BoundsMessage (i j n : Int) : JStr → Prop
  | mk {a b c : JStr} : DecimalText i a → DecimalText j b → DecimalText n c →
      BoundsMessage i j n (js! "start: " ++ a ++ js! ", end: " ++ b ++ js! ", size: " ++ c)

open Detail

/-- The call is refused because `name` is null. -/
def RefusesNull {α : Type} (r : Out α) (name : JStr) : Prop := r = .error ⟨.nullPointer, .says (nullMessage name)⟩

/-- The call is refused as an illegal argument with this message. -/
def RefusesArgument {α : Type} (r : Out α) (message : JStr) : Prop := r = .error ⟨.illegalArgument, .says message⟩

/-- The call is refused because of its bounds. -/
def RefusesBounds {α : Type} (r : Out α) (i j n : Int) : Prop :=
  ∃ m, BoundsMessage i j n m ∧ r = .error ⟨.indexOutOfBounds, .says m⟩

/-- The call is refused because of its index. -/
def RefusesIndex {α : Type} (r : Out α) (i n : Int) : Prop :=
  ∃ m, IndexMessage i n m ∧ r = .error ⟨.indexOutOfBounds, .says m⟩

end FastPrintf.Spec
