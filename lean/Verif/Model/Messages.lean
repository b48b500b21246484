/-
Model of the message and debug texts: `Utils.lenientFormat`, `Utils.join`, `ObjectTraits.arrayToString`
for arrays of references, `FixedStringAppender.toString` and `PrintfSyntaxException.getMessage`.
-/
import Verif.Model.Digits

namespace FastPrintf

/-- What `toString()` of a reference does (util/Utils.java:133-145). -/
inductive Shown
  | null                                              -- the reference is `null`
  | text (s : JStr)                                   -- `toString()` returns `s`
  | nullText                                          -- `toString()` returns `null`
  | throws (className : JStr) (hash : BitVec 32) (exceptionClass : JStr)  -- an `Exception`
  deriving DecidableEq, Repr

namespace Messages

/-- `StringBuilder.append(String)`: a null reference is appended as `null` (util/Utils.java:106-108,
201-205). -/
def appended : Option JStr → JStr
  | some s => s
  | none => js! "null"

/-- `Utils.lenientToString` (util/Utils.java:133-145).  `none` is the `null` that a misbehaving
`toString()` returned. -/
def lenientToString : Shown → Option JStr
  | .null => some (js! "null")
  | .text s => some s
  | .nullText => none
  | .throws cls hash exc =>
    some (js! "<" ++ (cls ++ js! "@" ++ toRadix 16 hash.toNat) ++ js! " threw " ++ exc ++ js! ">")

/-- `template.indexOf("%s", from)`; `none` is -1 (util/Utils.java:197-200). -/
def indexOfPlaceholder (template : JStr) (start : Nat) : Option Nat :=
  let rec go : JStr → Nat → Option Nat
    | 37 :: 115 :: _, i => some i
    | _ :: rest, i => go rest (i + 1)
    | [], _ => none
  go (template.drop start) start

/-- The substitution loop (util/Utils.java:194-205): what was appended, the arguments not used and the
value of `templateStart`. -/
def substitute (template : JStr) : List JStr → Nat → JStr → JStr × List JStr × Nat
  | [], start, sb => (sb, [], start)
  | a :: rest, start, sb =>
    match indexOfPlaceholder template start with
    | none => (sb, a :: rest, start)
    | some p => substitute template rest (p + 2) (sb ++ slice template start (p - start) ++ a)

/-- The surplus arguments (util/Utils.java:207-216). -/
def surplus : List JStr → JStr → JStr
  | [], sb => sb
  | a :: rest, sb =>
    rest.foldl (fun sb x => sb ++ js! ", " ++ x) (sb ++ js! " [" ++ a) ++ js! "]"

/-- `Utils.lenientFormat` (util/Utils.java:180-219); `none` for a null template or a null array.  That
the elements of the caller's array are overwritten (186-188) is not modelled. -/
def lenientFormat (template : Option JStr) (args : Option (List Shown)) : JStr :=
  match template with
  | none => js! "null"
  | some template =>
    let args : List JStr := match args with
      | none => [js! "(Object[])null"]
      | some args => args.map fun a => appended (lenientToString a)
    let (sb, rest, start) := substitute template args 0 []
    surplus rest (sb ++ slice template start (template.length - start))

/-- `Utils.joinArray` (util/Utils.java:103-111). -/
def joinArray (sb separator : JStr) : List Shown → JStr
  | [] => sb
  | a :: rest =>
    rest.foldl (fun sb x => sb ++ separator ++ appended (lenientToString x))
      (sb ++ appended (lenientToString a))

/-- `sb.append(Object)`, i.e. `String.valueOf`: an exception of `toString()` escapes (util/Utils.java:100,
115). -/
def appendObject (sb : JStr) : Shown → Res JStr
  | .null => .ok (sb ++ js! "null")
  | .text s => .ok (sb ++ s)
  | .nullText => .ok (sb ++ js! "null")
  | .throws .. => .error .external

/-- `Utils.joinIterator` (util/Utils.java:113-120): the first element is appended directly. -/
def joinIterator (sb separator : JStr) : List Shown → Res JStr
  | [] => .ok sb
  | a :: rest => do
    let sb ← appendObject sb a
    return rest.foldl (fun sb x => sb ++ separator ++ appended (lenientToString x)) sb

/-- What `Utils.join` is given (util/Utils.java:89-101). -/
inductive Joined
  | null
  | iterable (elems : List Shown)
  | iterator (elems : List Shown)
  | array (elems : List Shown)
  | other (o : Shown)

/-- `Utils.join(StringBuilder, String, Object)` (util/Utils.java:89-101). -/
def join (sb separator : JStr) : Joined → Res JStr
  | .null => .ok sb
  | .iterable es => joinIterator sb separator es
  | .iterator es => joinIterator sb separator es
  | .array es => .ok (joinArray sb separator es)
  | .other o => appendObject sb o

/-- `Utils.join(String, Object)` (util/Utils.java:122-124). -/
def joinToString (separator : JStr) (x : Joined) : Res JStr := join [] separator x

/-- `ObjectTraits.arrayToString` for an array of references (traits/ObjectTraits.java:30-33, 53). -/
def objectArrayToString (elems : List Shown) : Res JStr :=
  if elems.length = 0 then .ok (js! "[]")
  else do return (← join (js! "[") (js! ", ") (.array elems)) ++ js! "]"

/-- What `FixedStringAppender.toString` appends for one character
(appender/FixedStringAppender.java:34-59). -/
def debugChar (c : JChar) : JStr :=
  if c = 10 then js! "\\n"
  else if c = 13 then js! "\\r"
  else if c = 9 then js! "\\t"
  else if c = 8 then js! "\\b"
  else if c = 12 then js! "\\f"
  else if c = 92 then js! "\\\\"
  else if c = 34 then js! "\\\""
  else [c]

/-- `FixedStringAppender.toString` (appender/FixedStringAppender.java:29-63). -/
def debugLiteral (value : JStr) : JStr := js! "\"" ++ value.flatMap debugChar ++ js! "\""

/-- `PrintfSyntaxException.getMessage` (PrintfSyntaxException.java:71-86); `nl` is the line separator,
a null pattern is appended as `null`. -/
def syntaxMessage (nl desc : JStr) (pattern : Option JStr) (index : Int) : JStr :=
  let sb := desc
  let sb := if index ≥ 0 then sb ++ js! " near index " ++ intToString index else sb
  let sb := sb ++ nl ++ appended pattern
  match pattern with
  | none => sb
  | some p =>
    if index ≥ 0 ∧ index < p.length then
      sb ++ nl ++ List.replicate index.toNat 32 ++ js! "^"
    else sb

end Messages
end FastPrintf
