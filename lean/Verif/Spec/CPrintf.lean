/-
The C rules for the integer conversions (ISO C17 7.21.6.1), written independently of the library.

`Flags` is the set of flag characters of a directive; a width is a natural number (0 when absent), a
precision is optional.
-/
import Verif.Model.Format
import Verif.Spec.Numeral

namespace FastPrintf.Spec

/-- "If the converted value has fewer characters than the field width, it is padded with spaces (by
default) on the left (or right, if the left adjustment flag has been given)"; with the `0` flag
"leading zeros (following any indication of sign or base) are used to pad". `pre` is the indication of
sign or base, `body` the rest. -/
def field (left zero : Bool) (w : Nat) (pre body : JStr) : JStr :=
  let n := w - (pre.length + body.length)
  if left then pre ++ body ++ List.replicate n 32
  else if zero then pre ++ List.replicate n 48 ++ body
  else List.replicate n 32 ++ pre ++ body

/-- "The precision specifies the minimum number of digits to appear; if the value being converted can
be represented in fewer digits, it is expanded with leading zeros. The default precision is 1. The
result of converting a zero value with a precision of zero is no characters." `ds` is the shortest
numeral of the value. -/
def withPrecision (prec : Option Nat) (zero : Bool) (ds : JStr) : JStr :=
  if zero ∧ prec = some 0 then []
  else List.replicate (prec.getD 1 - ds.length) 48 ++ ds

/-- The sign of a signed conversion: `-` if negative, else `+` with the `+` flag, else a space with
the space flag. -/
def signText (fl : Flags) (negative : Bool) : JStr :=
  if negative then js! "-" else if fl.plus then js! "+" else if fl.leadingSpace then js! " " else []

/-- `s` is the shortest numeral of `n` in base `b`. -/
def Shortest (b n : Nat) (s : JStr) : Prop := IsNumeral b s ∧ NoExtraZero s ∧ valueIn b s = n

/-- `%d`: `out` is what C prints for the value `v`. The `0` flag is ignored if a precision is given,
and if the `-` flag is given. -/
def CSigned (fl : Flags) (w : Nat) (prec : Option Nat) (v : Int) (out : JStr) : Prop :=
  ∃ ds, Shortest 10 v.natAbs ds ∧
    out = field fl.leftJustify (fl.zeroPad && prec.isNone) w (signText fl (v < 0))
      (withPrecision prec (v = 0) ds)

/-- The unsigned conversions. -/
inductive UConv
  | u | o | x
  deriving DecidableEq, Repr

def UConv.base : UConv → Nat
  | u => 10 | o => 8 | x => 16

/-- The character of an unsigned conversion. -/
def UConv.char : UConv → JChar
  | .u => ch! 'u' | .o => ch! 'o' | .x => ch! 'x'

/-- `#`: "for o conversion, it increases the precision, if and only if necessary, to force the first
digit of the result to be a zero (if the value and precision are both 0, a single 0 is printed); for x
conversion, a nonzero result has 0x prefixed to it". Gives the indication of base and the digits. -/
def alternative (c : UConv) (alt : Bool) (v : Nat) (digits : JStr) : JStr × JStr :=
  match c with
  | .u => ([], digits)
  | .o => ([], if alt ∧ digits.head? ≠ some 48 then 48 :: digits else digits)
  | .x => (if alt ∧ v ≠ 0 then js! "0x" else [], digits)

/-- `%u`, `%o`, `%x`: `out` is what C prints for the value `v`. -/
def CUnsigned (c : UConv) (fl : Flags) (w : Nat) (prec : Option Nat) (v : Nat) (out : JStr) : Prop :=
  ∃ ds, Shortest c.base v ds ∧
    out = field fl.leftJustify (fl.zeroPad && prec.isNone) w
      (alternative c fl.alternate v (withPrecision prec (v = 0) ds)).1
      (alternative c fl.alternate v (withPrecision prec (v = 0) ds)).2

/-- Reading printed integers back: blanks around, an optional sign, digits. -/
def trimSpaces (s : JStr) : JStr := ((s.dropWhile (· == 32)).reverse.dropWhile (· == 32)).reverse

def readSigned (s : JStr) : Int :=
  match trimSpaces s with
  | 45 :: ds => -(valueIn 10 ds)
  | 43 :: ds => valueIn 10 ds
  | ds => valueIn 10 ds

/-- Reading a printed unsigned number: blanks around, an optional `0x`, digits. -/
def readUnsigned (b : Nat) (s : JStr) : Nat :=
  match trimSpaces s with
  | 48 :: 120 :: ds => valueIn b ds
  | ds => valueIn b ds

example : CSigned { plus := true, zeroPad := true } 6 none 42 (js! "+00042") :=
  ⟨js! "42", by unfold Shortest IsNumeral NoExtraZero; decide, by decide⟩
example : CUnsigned .o { alternate := true } 0 (some 3) 8 (js! "010") :=
  ⟨js! "10", by unfold Shortest IsNumeral NoExtraZero; decide, by decide⟩
example : readSigned (js! "  -12 ") = -12 := by decide

end FastPrintf.Spec
