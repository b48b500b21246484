/-
Arguments and JDK services for the examples that sit beside the property theorems.
-/
import Verif.Model.Args
import Verif.Model.Engine

namespace FastPrintf

/-- JDK services that answer something for every question. -/
def sampleJdk : JdkEnv where
  doubleToString _ := js! "1.5"
  floatToString _ := js! "1.5"
  parseDouble _ := none
  digit c := if 48 ≤ c ∧ c ≤ 57 then some (c - 48) else none
  bigDecimalToString _ _ := js! "0"
  instantFrom _ := none

/-- A date formatter that always prints `2024`. -/
def sampleDateEnv : DateEnv where
  format _ _ := .ok (js! "2024")

/-- An `int` argument (`putInt`). -/
def intArg (v : BitVec 32) : Traits := (Prim.int v).traits sampleJdk .primitive

/-- A string argument. -/
def strArg (s : JStr) : Traits := (Obj.string s ⟨js! "java.lang.String", 1#32⟩).toTraits sampleJdk

end FastPrintf
