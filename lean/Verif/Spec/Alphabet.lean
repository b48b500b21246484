/-
The characters that a directive can print, written independently of the library.
-/
import Verif.Spec.Semantics

namespace FastPrintf.Spec

/-- The characters of each conversion that does not quote its argument, apart from the space. -/
def alphabets : List (JChar × JStr) :=
  [(ch! 'd', js! "+-0123456789"), (ch! 'i', js! "+-0123456789"), (ch! 'u', js! "0123456789"),
   (ch! 'o', js! "01234567"), (ch! 'x', js! "0123456789abcdefx"), (ch! 'X', js! "0123456789ABCDEFX"),
   (ch! 'f', js! "+-.0123456789InfityNa"), (ch! 'F', js! "+-.0123456789INFTYA"),
   (ch! 'e', js! "+-.0123456789eInfityNa"), (ch! 'E', js! "+-.0123456789EINFTYA"),
   (ch! 'g', js! "+-.0123456789eInfityNa"), (ch! 'G', js! "+-.0123456789EINFTYA"),
   (ch! 'a', js! "+-.0123456789abcdefxpInityN"), (ch! 'A', js! "+-.0123456789ABCDEFXPINTY"),
   (ch! '%', js! "%")]

/-- The characters of a conversion, none if it is not in the table. -/
def alphabet (c : JChar) : JStr := (alphabets.lookup c).getD []

/-- A text that a directive takes over from its argument: its text under `%s`, its character under `%c`, its name
under `%p`, what the date formatter makes of it under `%t`; raised under `%S` and `%T`. -/
inductive Quotes (jdk : JdkEnv) (env : DateEnv) (date : Option JStr) : JChar → Entry → JStr → Prop
  | text {e : Entry} {s : JStr} (h : TextReading jdk e (.ok s)) : Quotes jdk env date (ch! 's') e s
  | rope (q : Seq) (id : Identity) : Quotes jdk env date (ch! 's') (.ref (.seq q id)) q.text
  | char {e : Entry} {c : JChar} (h : CharReading jdk e (.ok c)) : Quotes jdk env date (ch! 'c') e [c]
  | pointer {e : Entry} {s : JStr} (h : PointerText e (.ok s)) : Quotes jdk env date (ch! 'p') e s
  | time {e : Entry} {t t' : Temporal} {f : DateFmt} {s : JStr} (h : TimeReading e (.ok t))
      (hf : Formatted date t (some (f, t'))) (hs : env.format f t' = .ok s) : Quotes jdk env date (ch! 't') e s
  | upper {lo c : JChar} (hc : (lo, c) ∈ casePairs) {e : Entry} {s : JStr} (h : Quotes jdk env date lo e s) :
      Quotes jdk env date c e (s.map Spec.upper)

/-- `c` can appear in what the directive prints for the argument. -/
def MayPrint (jdk : JdkEnv) (env : DateEnv) (d : Directive) (e : Entry) (c : JChar) : Prop :=
  c = ch! ' ' ∨ c ∈ alphabet d.conv ∨ ∃ s, Quotes jdk env d.date d.conv e s ∧ c ∈ s

/-- The literal text of a format string, without the directives. -/
def literalText : List Piece → JStr
  | [] => []
  | .lit s :: ps => s ++ literalText ps
  | .percent :: ps => ch! '%' :: literalText ps
  | .dir _ :: ps => literalText ps

end FastPrintf.Spec
