/-
The calls of the library's own unit tests, evaluated in the model.  They check the reading of the source; no
theorem uses them.
-/
import Verif.Model.Args
import Verif.Model.Engine

namespace FastPrintf.Conformance

def anyId : Identity := ⟨[], 0⟩

/-- The services of the JDK are not needed by these calls, apart from `Character.digit`. -/
def jdk : JdkEnv where
  doubleToString _ := []
  floatToString _ := []
  parseDouble _ := none
  digit c := if 48 ≤ c ∧ c ≤ 57 then some (c - 48) else none
  bigDecimalToString _ _ := []
  instantFrom _ := none

/-- An `Integer`. -/
def i (v : Int) : Obj := .boxed (.int (BitVec.ofInt 32 v)) anyId
/-- A `Long`. -/
def l (v : Int) : Obj := .boxed (.long (BitVec.ofInt 64 v)) anyId
/-- A `Double`, given by its bits. -/
def d (v : Nat) : Obj := .boxed (.double (BitVec.ofNat 64 v)) anyId
/-- A `Character`. -/
def c (v : Nat) : Obj := .boxed (.char v) anyId
/-- A `String`. -/
def s (v : JStr) : Obj := .string v anyId
/-- A `BigInteger`. -/
def bi (v : Int) : Obj := .bigInteger v anyId
/-- A `BigDecimal`: unscaled value and scale. -/
def bd (u sc : Int) : Obj := .bigDecimal u sc anyId

/-- A call of a test: the format, the expected text, the arguments. -/
structure Row where
  fmt : JStr
  expected : JStr
  args : List Obj

/-- The model gives the expected text. -/
abbrev Row.Holds (r : Row) : Prop :=
  printf ⟨fun _ => true⟩ ⟨fun _ _ => .ok []⟩ r.fmt (r.args.map (Obj.toTraits jdk)) = .ok r.expected

end FastPrintf.Conformance
