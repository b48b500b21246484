/-
The length a sequence of pieces reports after it has been cut.
-/
import Verif.Spec.Text

namespace FastPrintf.Spec

/-- The texts of the leaves of a sequence, in order. -/
def leafTexts : Seq → List JStr
  | .atom a => [a.text]
  | .concat l r _ _ => leafTexts l ++ leafTexts r
  | .array es _ => es.map Atomic.text

/-- What the first `p` characters of the pieces report as their length: only the part taken from the
last piece that is reached. -/
def cutLength : List JStr → Nat → Nat
  | [], p => p
  | t :: ts, p => if p ≤ t.length then p else cutLength ts (p - t.length)

/-- The length that the text of a sequence reports when a precision `p` applies: its own, unless the
precision is smaller. -/
def reportedLength (q : Seq) (p : Option Nat) : Nat :=
  match p with
  | none => q.text.length
  | some p => if p < q.text.length then cutLength (leafTexts q) p else q.text.length

/-- A mantissa that lost trailing zeros and still has a fraction reports only the digits of the
fraction that are left: for a number below one those after the leading zeros of the fraction.  The
number of characters in front of them, zero without a fraction. -/
def hiddenLength (ms : JStr) : Nat :=
  let ip := ms.takeWhile (· ≠ ch! '.')
  let fp := ms.drop (ip.length + 1)
  if ch! '.' ∈ ms then
    ip.length + 1 + (if ip = js! "0" then (fp.takeWhile (· = ch! '0')).length else 0)
  else 0

/-- What is in front of the `e` of an exponent. -/
def mantissaOf (body : JStr) : JStr := body.takeWhile (· ≠ ch! 'e')

/-- The characters of the body of `%g` that are not counted when a `BigDecimal` with `n` digits and
decimal exponent `x0`, rounded to `M * 10^(x-(P-1))`, is padded: none with `#`; else, if the digits laid
out end in zero (the last of `P` or, if there are fewer, of `n` digits; or rounding carried), those in
front of the last piece of the mantissa. -/
def generalHidden (P n : Nat) (alt : Bool) (x0 : Int) (M : Nat) (x : Int) (body : JStr) : Nat :=
  if alt then 0
  else if 10 ^ (P - min P n + 1) ∣ M ∨ x ≠ x0 then hiddenLength (mantissaOf body)
  else 0

example : cutLength [js! "ab", js! "cde"] 2 = 2 ∧ cutLength [js! "ab", js! "cde"] 3 = 1 := by decide
example : hiddenLength (js! "12.5") = 3 ∧ hiddenLength (js! "0.0012") = 4 ∧
    hiddenLength (mantissaOf (js! "1.5e+10")) = 2 ∧ hiddenLength (js! "12") = 0 := by decide

end FastPrintf.Spec
