/-
Model of `ObjectTraits.arrayToString`: the text of an array under `%s`.
-/
import Verif.Model.Args
import Verif.Model.Messages

namespace FastPrintf

/-- A Java array, by component type (traits/ObjectTraits.java:22-54). -/
inductive JArray
  | bytes (bs : List (BitVec 8))
  | chars (cs : JStr)
  | bools (bs : List Bool)
  | shorts (vs : List (BitVec 16))
  | ints (vs : List (BitVec 32))
  | longs (vs : List (BitVec 64))
  | floats (vs : List (BitVec 32))
  | doubles (vs : List (BitVec 64))
  /-- An array of references; a nested array is a reference whose `toString()` is `Object.toString`. -/
  | refs (es : List Shown)
  deriving DecidableEq, Repr

namespace JArray

/-- `Base64.Encoder.toBase64[i]` of the JDK.  Used by the encoder of traits/ObjectTraits.java:24-25. -/
def base64Char (i : Nat) : JChar :=
  if i < 26 then 65 + i
  else if i < 52 then 97 + (i - 26)
  else if i < 62 then 48 + (i - 52)
  else if i = 62 then 43 else 47

/-- `Base64.getEncoder().encodeToString` of the JDK: three bytes become four characters, the last group is
padded with `=`.  Called in traits/ObjectTraits.java:25. -/
def base64 : List Nat → JStr
  | a :: b :: c :: rest =>
    let bits := a * 65536 + b * 256 + c
    base64Char (bits / 262144 % 64) :: base64Char (bits / 4096 % 64) :: base64Char (bits / 64 % 64) ::
      base64Char (bits % 64) :: base64 rest
  | [a, b] => [base64Char (a / 4), base64Char (a * 16 % 64 + b / 16), base64Char (b * 4 % 64), 61]
  | [a] => [base64Char (a / 4), base64Char (a * 16 % 64), 61, 61]
  | [] => []

/-- The loop of `Arrays.toString` of the JDK, from an element on.  Called in
traits/ObjectTraits.java:35-50. -/
def listingLoop (sb : JStr) : List JStr → JStr
  | [] => sb
  | [a] => sb ++ a ++ js! "]"
  | a :: rest => listingLoop (sb ++ a ++ js! ", ") rest

/-- `Arrays.toString` of the JDK, given what `StringBuilder.append` adds for each element.  Called in
traits/ObjectTraits.java:35-50. -/
def listing (elems : List JStr) : JStr :=
  if elems.length = 0 then js! "[]" else listingLoop (js! "[") elems

/-- `getClass().getComponentType()`, as far as it is tested, and `Array.getLength`
(traits/ObjectTraits.java:22-60). -/
def length : JArray → Nat
  | bytes bs => bs.length
  | chars cs => cs.length
  | bools bs => bs.length
  | shorts vs => vs.length
  | ints vs => vs.length
  | longs vs => vs.length
  | floats vs => vs.length
  | doubles vs => vs.length
  | refs es => es.length

/-- `ObjectTraits.arrayToString` (traits/ObjectTraits.java:22-54).  The branches before the length test
(23-30) are those of `byte[]` and `char[]`. -/
def toStr (env : JdkEnv) (a : JArray) : Res JStr :=
  match a with
  | bytes bs => .ok (base64 (bs.map BitVec.toNat))
  | chars cs => .ok cs
  | a =>
    if a.length = 0 then .ok (js! "[]")
    else match a with
      | bools bs => .ok (listing (bs.map fun b => if b then js! "true" else js! "false"))
      | shorts vs => .ok (listing (vs.map fun v => intToString v.toInt))
      | ints vs => .ok (listing (vs.map fun v => intToString v.toInt))
      | longs vs => .ok (listing (vs.map fun v => intToString v.toInt))
      | floats vs => .ok (listing (vs.map env.floatToString))
      | doubles vs => .ok (listing (vs.map env.doubleToString))
      | refs es => do return (← Messages.join (js! "[") (js! ", ") (.array es)) ++ js! "]"
      | bytes _ | chars _ => .ok []

end JArray

/-- An array handed to `Args.put(Object)`: none of the tests of ArgsImpl.java:192-222 matches, so it goes to
`ObjectTraits`, whose `asString` (traits/ObjectTraits.java:56-63) renders it. -/
def Obj.array (env : JdkEnv) (a : JArray) (id : Identity) : Obj := .object .other (a.toStr env) id

end FastPrintf
