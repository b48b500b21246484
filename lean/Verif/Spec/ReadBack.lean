/-
Reading a printed number: what `Double.parseDouble` or C's `strtod` take a decimal text to mean, before
they round it.
-/
import Verif.Spec.Decimal

namespace FastPrintf.Spec

/-- The number behind `e`: an optional sign and digits. -/
def readExponent : JStr → Int
  | [] => 0
  | c :: ds =>
    if c = ch! '-' then -(valueIn 10 ds : Int) else if c = ch! '+' then valueIn 10 ds
    else valueIn 10 (c :: ds)

/-- The value of digits, an optional point and further digits, and an optional exponent after `e`. -/
def readDecimal (s : JStr) : ℚ :=
  let ms := s.takeWhile (· ≠ ch! 'e')
  let ip := ms.takeWhile (· ≠ ch! '.')
  let fp := ms.drop (ip.length + 1)
  (valueIn 10 (ip ++ fp) : ℚ) * 10 ^ (readExponent (s.drop (ms.length + 1)) - fp.length)

/-- Spaces around a number do not count; then comes an optional sign.  The result says whether there was a
minus sign, and the magnitude. -/
def readNumber (s : JStr) : Bool × ℚ :=
  match (s.dropWhile (· = 32)).takeWhile (· ≠ 32) with
  | [] => (false, 0)
  | c :: r =>
    if c = ch! '-' then (true, readDecimal r) else if c = ch! '+' then (false, readDecimal r)
    else (false, readDecimal (c :: r))

/-! ### What `Double.parseDouble` accepts

The grammar is that of its documentation, without the type suffixes `f` and `d`; `Infinity` and `NaN` are left
aside.  Capital letters count as small ones. -/

/-- The value of an integer: an optional sign and digits. -/
def exponentValue (s : JStr) : Option Int :=
  let digits (neg : Bool) (ds : JStr) : Option Int :=
    if ds ≠ [] ∧ ∀ c ∈ ds, IsDigitIn 10 c then some (if neg then -(valueIn 10 ds : Int) else valueIn 10 ds) else none
  match s with
  | c :: ds => if c = ch! '-' then digits true ds else if c = ch! '+' then digits false ds else digits false (c :: ds)
  | [] => none

/-- Digits in base `b`, an optional point, further digits, and what follows. -/
def splitNumber (b : Nat) (s : JStr) : JStr × JStr × JStr :=
  let ip := s.takeWhile (IsDigitIn b ·)
  match s.drop ip.length with
  | c :: r =>
    if c = ch! '.' then (ip, r.takeWhile (IsDigitIn b ·), r.drop (r.takeWhile (IsDigitIn b ·)).length)
    else (ip, [], c :: r)
  | [] => (ip, [], [])

/-- A decimal number with an optional exponent. -/
def javaDecimal (s : JStr) : Option ℚ :=
  let (ip, fp, r) := splitNumber 10 s
  if ip ++ fp = [] then none
  else match r with
    | [] => some ((valueIn 10 (ip ++ fp) : ℚ) * 10 ^ (-(fp.length : Int)))
    | c :: xs =>
      if c = ch! 'e' then (exponentValue xs).map fun (x : Int) => (valueIn 10 (ip ++ fp) : ℚ) * 10 ^ (x - fp.length)
      else none

/-- A hexadecimal number, behind `0x`; the exponent of two is compulsory. -/
def javaHex (s : JStr) : Option ℚ :=
  let (ip, fp, r) := splitNumber 16 s
  if ip ++ fp = [] then none
  else match r with
    | [] => none
    | c :: xs =>
      if c = ch! 'p' then (exponentValue xs).map fun (x : Int) => (valueIn 16 (ip ++ fp) : ℚ) * 2 ^ (x - 4 * fp.length)
      else none

/-- A number without a sign. -/
def javaMagnitude : JStr → Option ℚ
  | 48 :: 120 :: h => javaHex h
  | s => javaDecimal s

/-- A small letter for a capital one. -/
def javaLower (c : JChar) : JChar := if 65 ≤ c ∧ c ≤ 90 then c + 32 else c

/-- `String.trim`: without the spaces and control characters at both ends. -/
def trimmed (s : JStr) : JStr := ((s.dropWhile (· ≤ 32)).reverse.dropWhile (· ≤ 32)).reverse

/-- The number in a text: whether there is a minus sign, and the magnitude. -/
def javaNumber (s : JStr) : Option (Bool × ℚ) :=
  match (trimmed s).map javaLower with
  | c :: r =>
    if c = ch! '-' then (javaMagnitude r).map (true, ·) else if c = ch! '+' then (javaMagnitude r).map (false, ·)
    else (javaMagnitude (c :: r)).map (false, ·)
  | [] => none

/-- The text is a number that, rounded to nearest, ties to even, gives the finite `double`, sign included. -/
def ReadsAs (bits : BitVec 64) (s : JStr) : Prop :=
  ∃ v, javaNumber s = some (decide (negative bits), v) ∧ RoundsTo (magnitude bits) (doubleC bits % 2 = 0) v

example : javaNumber (js! "  -12.50E-03 ") = some (true, 1250 * 10 ^ (-5 : Int)) := by decide +kernel
example : javaNumber (js! "+0X1.8p-3") = some (false, 24 * 2 ^ (-7 : Int)) := by decide +kernel
example : javaNumber (js! ".5e1") = some (false, 5) := by decide +kernel
example : javaNumber (js! "1e") = none ∧ javaNumber (js! "1 2") = none ∧ javaNumber (js! ".") = none ∧
    javaNumber (js! "0x1.8") = none ∧ javaNumber (js! "--1") = none ∧ javaNumber [] = none := by decide +kernel
example : readNumber (js! "  -12.50e-03 ") = (true, 1250 * 10 ^ (-5 : Int)) := by decide +kernel
example : readNumber (js! "+0007") = (false, 7) := by decide +kernel

end FastPrintf.Spec
