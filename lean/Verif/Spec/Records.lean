/-
Lines of several columns, written independently of the library: what a column holds and how a reader of the line gets
it back.
-/
import Verif.Spec.Alphabet
import Verif.Spec.GiveBack
import Verif.Spec.CPrintf

namespace FastPrintf.Spec

/-- What a column holds. -/
inductive Field
  | int (v : Int)
  | nat (n : Nat)
  | double (bits : BitVec 64)
  | text (s : JStr)
  | char (c : JChar)

/-- The directive is a column for the value that the argument carries: an integer under `%d` or `%i`, its unsigned
reading under `%u`, `%o` or `%x`, a finite double under a conversion with enough digits, a text under `%s` that is
not cut and has no space where the padding goes, a character under `%c`. -/
inductive Cell (jdk : JdkEnv) : Directive → Entry → Field → Prop
  | int {d : Directive} {e : Entry} {x : Integral} (hc : d.conv = ch! 'd' ∨ d.conv = ch! 'i')
      (hp : d.prec.precision ≠ some 0) (hx : x.Given e) : Cell jdk d e (.int x.value)
  | nat {d : Directive} {e : Entry} {x : Integral} {n : Nat} (c : UConv) (hc : d.conv = c.char)
      (hp : d.prec.precision ≠ some 0) (hx : x.Given e) (hn : x.unsigned = some n) : Cell jdk d e (.nat n)
  | double {d : Directive} {e : Entry} {bits : BitVec 64} (hd : EnoughDigits d) (hf : finite bits)
      (he : IsDouble e bits) : Cell jdk d e (.double bits)
  | text {d : Directive} {e : Entry} {s : JStr} (hc : d.conv = ch! 's')
      (hp : ∀ p, d.prec.precision = some p → s.length ≤ p) (hs : TextReading jdk e (.ok s))
      (hb : if ch! '-' ∈ d.flags then s.getLast? ≠ some (ch! ' ') else s.head? ≠ some (ch! ' ')) :
      Cell jdk d e (.text s)
  | char {d : Directive} {e : Entry} {c : JChar} (hc : d.conv = ch! 'c') (hr : CharReading jdk e (.ok c)) :
      Cell jdk d e (.char c)

/-- The directives of a line are columns for the values of the arguments; there may be more arguments. -/
inductive Record (jdk : JdkEnv) : List Directive → List Entry → List Field → Prop
  | nil (es : List Entry) : Record jdk [] es []
  | cons {d : Directive} {e : Entry} {v : Field} {ds : List Directive} {es : List Entry} {vs : List Field}
      (h : Cell jdk d e v) (hs : Record jdk ds es vs) : Record jdk (d :: ds) (e :: es) (v :: vs)

/-- The separator is not in the value. -/
def Field.Lacks (c : JChar) : Field → Prop
  | .text s => c ∉ s
  | .char x => x ≠ c
  | _ => True

/-- Without the spaces before, or, if `left`, those after. -/
def stripped (left : Bool) (s : JStr) : JStr :=
  if left then (s.reverse.dropWhile (· == ch! ' ')).reverse else s.dropWhile (· == ch! ' ')

/-- A reader of the column gets the value. -/
def Field.ReadFrom (d : Directive) : Field → JStr → Prop
  | .int v, t => readSigned t = v
  | .nat n, t => ∀ c : UConv, d.conv = c.char → readUnsigned c.base t = n
  | .double bits, t => ReadsAs bits t
  | .text s, t => stripped (ch! '-' ∈ d.flags) t = s
  | .char c, t => (if ch! '-' ∈ d.flags then t.head? else t.getLast?) = some c

/-- A text cut into parts of the given lengths. -/
def chop : List Nat → JStr → List JStr
  | [], _ => []
  | n :: ns, s => s.take n :: chop ns (s.drop n)

/-- The characters that numbers, and format strings around them, are made of. -/
def numberChars : JStr := js! " +-.%{0123456789ABCDEFGHIJKLMNOPQRSTUVWXYZabcdefghijklmnopqrstuvwxyz"

example : chop [2, 3] (js! "abcdef") = [js! "ab", js! "cde"] := by decide
example : stripped false (js! "  a b ") = js! "a b " ∧ stripped true (js! "  a b ") = js! "  a b" := by decide

end FastPrintf.Spec
