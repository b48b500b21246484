/-
What an array looks like under `%s`.  Nothing here refers to how the text is produced.
-/
import Verif.Model.Arrays
import Verif.Spec.Arguments
import Verif.Spec.Text

namespace FastPrintf.Spec

/-- The Base64 alphabet of RFC 4648, table 1. -/
def base64Alphabet : JStr := js! "ABCDEFGHIJKLMNOPQRSTUVWXYZabcdefghijklmnopqrstuvwxyz0123456789+/"

/-- The number that digits in base `b` denote, most significant first. -/
def positional (b : Nat) : List Nat → Nat
  | [] => 0
  | d :: ds => d * b ^ ds.length + positional b ds

/-- `s` is the Base64 text of the bytes: the bits of the bytes, followed by fewer than six zero bits, are cut
into groups of six; each is written as the letter of the alphabet at that place; then `=` fills up to a
multiple of four characters. -/
def Base64Text (bytes : List Nat) (s : JStr) : Prop :=
  ∃ groups : List Nat, (∀ g ∈ groups, g < 64) ∧
    (∃ extra < 6, 6 * groups.length = 8 * bytes.length + extra ∧
      positional 64 groups = positional 256 bytes * 2 ^ extra) ∧
    ∃ letters : JStr, groups.map (fun g => base64Alphabet[g]?) = letters.map some ∧
      ∃ fill < 4, s = letters ++ List.replicate fill (ch! '=') ∧ s.length % 4 = 0

/-- Elements in square brackets, separated by a comma and a space. -/
def bracketed (elems : List JStr) : JStr := js! "[" ++ joinWith (js! ", ") elems ++ js! "]"

/-- Text by text: `ts` are texts of the values `vs`. -/
def Texts {α : Type} (p : α → JStr → Prop) (vs : List α) (ts : List JStr) : Prop := List.Forall₂ p vs ts

/-- What a reference looks like among others: `null` for a null reference or a null text, and a note in place
of the text if `toString()` throws. -/
inductive ElementText : Shown → JStr → Prop
  | null : ElementText .null (js! "null")
  | text (s : JStr) : ElementText (.text s) s
  | nullText : ElementText .nullText (js! "null")
  | throws (cls exc : JStr) {hash : BitVec 32} {hex : JStr} (hx : Shortest 16 hash.toNat hex) :
      ElementText (.throws cls hash exc)
        (js! "<" ++ cls ++ js! "@" ++ hex ++ js! " threw " ++ exc ++ js! ">")

/-- What an array looks like under `%s`. -/
inductive ArrayText (jdk : JdkEnv) : JArray → JStr → Prop
  | bytes {bs : List (BitVec 8)} {s : JStr} (h : Base64Text (bs.map BitVec.toNat) s) :
      ArrayText jdk (.bytes bs) s
  | chars (cs : JStr) : ArrayText jdk (.chars cs) cs
  | bools (bs : List Bool) :
      ArrayText jdk (.bools bs) (bracketed (bs.map fun b => if b then js! "true" else js! "false"))
  | shorts {vs : List (BitVec 16)} {ts : List JStr} (h : Texts (fun v => DecimalText v.toInt) vs ts) :
      ArrayText jdk (.shorts vs) (bracketed ts)
  | ints {vs : List (BitVec 32)} {ts : List JStr} (h : Texts (fun v => DecimalText v.toInt) vs ts) :
      ArrayText jdk (.ints vs) (bracketed ts)
  | longs {vs : List (BitVec 64)} {ts : List JStr} (h : Texts (fun v => DecimalText v.toInt) vs ts) :
      ArrayText jdk (.longs vs) (bracketed ts)
  | floats (vs : List (BitVec 32)) : ArrayText jdk (.floats vs) (bracketed (vs.map jdk.floatToString))
  | doubles (vs : List (BitVec 64)) : ArrayText jdk (.doubles vs) (bracketed (vs.map jdk.doubleToString))
  | refs {es : List Shown} {ts : List JStr} (h : Texts ElementText es ts) :
      ArrayText jdk (.refs es) (bracketed ts)

/-- Two arrays of the same component type, one of those whose text tells the elements apart. -/
inductive SameType : JArray → JArray → Prop
  | bytes (a b) : SameType (.bytes a) (.bytes b)
  | chars (a b) : SameType (.chars a) (.chars b)
  | bools (a b) : SameType (.bools a) (.bools b)
  | shorts (a b) : SameType (.shorts a) (.shorts b)
  | ints (a b) : SameType (.ints a) (.ints b)
  | longs (a b) : SameType (.longs a) (.longs b)

end FastPrintf.Spec
