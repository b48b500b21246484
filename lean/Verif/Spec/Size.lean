/-
Bounds on the length of the output, written independently of the library.
-/
import Verif.Spec.Semantics

namespace FastPrintf.Spec

/-- The characters that a number needs beside the digits that its precision asks for: a sign, at most 309
digits before the point, the point. -/
def numberExtra : Nat := 311

/-- The most that one directive prints for a number that is not big. -/
def Directive.reach (d : Directive) : Nat := max d.width.width (d.places + numberExtra)

/-- The conversions that print a number, a character, or nothing of the argument. -/
def shortConvs : JStr := js! "diuoxXfFeEgGaAcn%"

/-- The argument is a `BigDecimal` or a `BigInteger`. -/
def BigNumber (e : Entry) : Prop := ∃ u s, IsBig e u s

/-- The texts that `%s`, `%p` and `%t` take from the argument have at most `n` characters. -/
structure TextsWithin (jdk : JdkEnv) (env : DateEnv) (n : Nat) (e : Entry) : Prop where
  text : ∀ s, TextReading jdk e (.ok s) → s.length ≤ n
  rope : ∀ q id, e = .ref (.seq q id) → q.text.length ≤ n
  pointer : ∀ s, PointerText e (.ok s) → s.length ≤ n
  time : ∀ t f t' s, TimeReading e (.ok t) → env.format f t' = .ok s → s.length ≤ n

/-- The number of directives among the pieces of a format string (`%%` is none). -/
def directives : List Piece → Nat
  | [] => 0
  | .dir _ :: ps => directives ps + 1
  | _ :: ps => directives ps

example : directives [.lit (js! "a"), .percent, .dir ⟨[], .absent, .absent, ch! 's', none⟩] = 1 := rfl

end FastPrintf.Spec
