/-
What the result of a call depends on besides the format and the arguments: the calls into the JDK whose
results the library does not compute itself.
-/
import Verif.Model.Args
import Verif.Spec.Questions
import Verif.Spec.Readings

namespace FastPrintf.Spec

/-- A call into the JDK: `Double.toString`, `Float.toString`, `Double.parseDouble`, `Character.digit`,
`BigDecimal.toString`, `Instant.from`. -/
inductive Outside
  | doubleText (bits : BitVec 64)
  | floatText (bits : BitVec 32)
  | doubleOf (s : JStr)
  | digitOf (c : JChar)
  | decimalText (unscaled scale : Int)
  | instantOf (t : Temporal)

/-- Two JDKs answer this call alike. -/
def Outside.Same (jdk jdk' : JdkEnv) : Outside → Prop
  | .doubleText b => jdk.doubleToString b = jdk'.doubleToString b
  | .floatText b => jdk.floatToString b = jdk'.floatToString b
  | .doubleOf s => jdk.parseDouble s = jdk'.parseDouble s
  | .digitOf c => jdk.digit c = jdk'.digit c
  | .decimalText u s => jdk.bigDecimalToString u s = jdk'.bigDecimalToString u s
  | .instantOf t => jdk.instantFrom t = jdk'.instantFrom t

/-- A text without its sign. -/
def unsigned : JStr → JStr
  | c :: s => if c = ch! '-' ∨ c = ch! '+' then s else c :: s
  | [] => []

/-- What a primitive or boxed value needs from the JDK to answer a question. -/
def primNeeds : Prim → Question → Outside → Prop
  | .double b, .text, o => o = .doubleText b
  | .float b, .text, o => o = .floatText b
  | _, _, _ => False

/-- What a text needs from the JDK to answer a question. -/
def textNeeds (s : JStr) : Question → Outside → Prop
  | .integer, o => ∃ c ∈ unsigned s, o = .digitOf c
  | .count, o => ∃ c ∈ unsigned s, o = .digitOf c
  | .floating, o => o = .doubleOf s
  | _, _ => False

/-- What an argument needs from the JDK to answer a question. -/
def Needs : Entry → Question → Outside → Prop
  | .prim p, q, o => primNeeds p q o
  | .ref (.boxed p _), q, o => primNeeds p q o
  | .ref (.string s _), q, o => textNeeds s q o
  | .ref (.charSeq s _), q, o => textNeeds s q o
  | .ref (.seq r _), q, o => ∃ s, r.toStr = .ok s ∧ textNeeds s q o
  | .ref (.bigDecimal u s _), .text, o => o = .decimalText u s
  | .ref (.temporal t _ _), .integer, o => o = .instantOf t
  | .ref (.temporal t _ _), .floating, o => o = .instantOf t
  | .ref (.temporal t _ _), .count, o => o = .instantOf t
  | _, _, _ => False

/-- A format that asks its first argument this question. -/
def probe : Question → JStr
  | .count => js! "%*d"
  | .integer => js! "%d"
  | .floating => js! "%f"
  | .time => js! "%t"
  | .text => js! "%s"
  | .character => js! "%c"
  | .reference => js! "%p"
  | .nothing => js! "%n"

end FastPrintf.Spec
