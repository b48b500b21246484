/-
What an `Appendable` is given, call by call.
-/
import Verif.Model.Engine
import Verif.Model.Args
import Verif.Spec.Text
import Verif.Spec.Arguments

namespace FastPrintf.Spec

/-- An `Appendable` that never throws and remembers what it was given. -/
def recorder : Sink (List JStr) := ⟨fun seen c => (seen ++ [c], true)⟩

/-- The texts such a target is given, one per call. -/
def received (env : DateEnv) (apps : List Appender) (args : List Traits) : List JStr :=
  (runSink env recorder apps args []).target

/-- A text handed over one character at a time. -/
def oneByOne (t : JStr) : List JStr := t.map fun c => [c]

/-- A text handed over in one call; no call at all if there is no text. -/
def inOne (t : JStr) : List JStr := if t = [] then [] else [t]

/-- The calls of a body of `n` characters in the field of a directive: the blanks come one by one. -/
def inField (d : Directive) (n : Nat) (body : List JStr) : List JStr :=
  if ch! '-' ∈ d.flags then body ++ oneByOne (List.replicate (d.width.width - n) (ch! ' '))
  else oneByOne (List.replicate (d.width.width - n) (ch! ' ')) ++ body

/-- An argument of the kinds the library knows; a `Seq` must have been built with its methods. -/
def Built : Entry → Prop
  | .ref (.seq q _) => ∃ e : SeqExpr, e.eval = .ok q
  | .ref (.traits _) => False
  | _ => True

end FastPrintf.Spec
