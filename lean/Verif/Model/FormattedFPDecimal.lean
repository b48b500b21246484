/-
Model of `io.fastprintf.util.internal.FormattedFPDecimal`: rounding a decimal `f * 10^e` and writing
its digits into character arrays.

`f` is kept as a natural number: it is set by `DoubleToDecimal` to a non-negative `long` below `10^17`
(theorem C26), so `f + (pow10 >> 1)` below does not overflow.  `e` and `n` are `Int`.
-/
import Verif.Model.DoubleToDecimal

namespace FastPrintf.FormattedFPDecimal

open MathUtils

/-- The fields `f`, `e`, `n` (util/internal/FormattedFPDecimal.java:50-52). -/
structure Dec where
  f : Nat
  e : Int
  n : Int
  deriving DecidableEq, Repr

/-- `new char[n]`: a negative size throws (util/internal/FormattedFPDecimal.java:122, 128, 135, 162, 169,
193). -/
def newArray (n : Int) : Res JStr :=
  if n < 0 then .error .illegalArgument else .ok (List.replicate n.toNat 0)

/-- `digits[i] = c`: bounds-checked write (util/internal/FormattedFPDecimal.java:121-203). -/
def setAt (a : JStr) (i : Int) (c : JChar) : Res JStr :=
  if i < 0 ∨ i ≥ a.length then .error .indexOutOfBounds else .ok (a.set i.toNat c)

/-- `toDigit` (util/internal/FormattedFPDecimal.java:73-79): `(char) (d + '0')`. -/
def toDigit (d : Nat) : JChar := (d + 48) % 65536

/-- `round` (util/internal/FormattedFPDecimal.java:206-296). -/
def round (x : Dec) (pp : Int) : Res Dec :=
  if x.n = 0 ∨ pp < 0 then .ok { f := 0, e := 0, n := 1 }
  else if pp ≥ x.n then .ok x
  else do
    let e := x.e + (x.n - pp)
    let p10 ← pow10 (x.n - pp)
    let f := (x.f + p10 / 2) / p10
    if pp = 0 then return { f := f, e := if f = 0 then 0 else e, n := 1 }
    let q ← pow10 pp
    if f = q then return { f := f / 10, e := e + 1, n := pp }
    return { f := f, e := e, n := pp }

/-- `fillWithDigits` (util/internal/FormattedFPDecimal.java:303-310); `k = to - from` iterations are
left, writing at `from + k - 1`. -/
def fillWithDigits (from_ : Int) : (k : Nat) → (x : Nat) → JStr → Res (Nat × JStr)
  | 0, x, a => .ok (x, a)
  | k + 1, x, a => do
    let q := x / 10
    let a ← setAt a (from_ + k) (toDigit (x - q * 10))
    fillWithDigits from_ k q a

/-- `fillWithZeros` (util/internal/FormattedFPDecimal.java:315-319). -/
def fillWithZeros (from_ : Int) : (k : Nat) → JStr → Res JStr
  | 0, a => .ok a
  | k + 1, a => do fillWithZeros from_ k (← setAt a (from_ + k) (ch! '0'))

/-- `plainCharsPureInteger` (util/internal/FormattedFPDecimal.java:121-125). -/
def plainCharsPureInteger (x : Dec) : Res JStr := do
  let a ← newArray (x.n + x.e)
  let a ← fillWithZeros x.n x.e.toNat a
  let (_, a) ← fillWithDigits 0 x.n.toNat x.f a
  return a

/-- `plainCharsMixed` (util/internal/FormattedFPDecimal.java:127-132). -/
def plainCharsMixed (x : Dec) : Res JStr := do
  let a ← newArray (x.n + 1)
  let (y, a) ← fillWithDigits (x.n + 1 + x.e) (-x.e).toNat x.f a
  let a ← setAt a (x.n + x.e) (ch! '.')
  let (_, a) ← fillWithDigits 0 (x.n + x.e).toNat y a
  return a

/-- `plainCharsPureFraction` (util/internal/FormattedFPDecimal.java:134-140). -/
def plainCharsPureFraction (x : Dec) : Res JStr := do
  let a ← newArray (2 - x.e)
  let (_, a) ← fillWithDigits (2 - x.e - x.n) x.n.toNat x.f a
  let a ← fillWithZeros 0 (2 - x.e - x.n).toNat a
  setAt a 1 (ch! '.')

/-- `plainChars` (util/internal/FormattedFPDecimal.java:110-119): the array `digits`. -/
def plainChars (x : Dec) : Res JStr :=
  if x.e ≥ 0 then plainCharsPureInteger x
  else if x.n + x.e > 0 then plainCharsMixed x
  else plainCharsPureFraction x

/-- `plain` (util/internal/FormattedFPDecimal.java:100-108). -/
def plain (x : Dec) (prec : Int) : Res JStr := do
  plainChars (← round x (x.n + x.e + prec))

/-- `getExponentRounded` (util/internal/FormattedFPDecimal.java:96-98). -/
def exponentRounded (x : Dec) : Int := x.n + x.e - 1

/-- `expChars` (util/internal/FormattedFPDecimal.java:190-204): the array `exp`. -/
def expChars (x : Dec) : Res JStr := do
  let er := exponentRounded x
  let aer := er.natAbs
  let a ← newArray (if aer ≥ 100 then 4 else 3)
  let a ← if aer ≥ 100 then setAt a 3 (toDigit (aer - 10 * (aer / 10))) else pure a
  let aer := if aer ≥ 100 then aer / 10 else aer
  let q := aer / 10
  let a ← setAt a 2 (toDigit (aer - 10 * q))
  let a ← setAt a 1 (toDigit q)
  setAt a 0 (if er ≥ 0 then ch! '+' else ch! '-')

/-- `scientificCharsWithFraction` (util/internal/FormattedFPDecimal.java:161-166). -/
def scientificCharsWithFraction (x : Dec) : Res JStr := do
  let a ← newArray (1 + x.n)
  let (y, a) ← fillWithDigits 2 (1 + x.n - 2).toNat x.f a
  let a ← setAt a 1 (ch! '.')
  setAt a 0 (toDigit y)

/-- `scientificCharsNoFraction` (util/internal/FormattedFPDecimal.java:168-171). -/
def scientificCharsNoFraction (x : Dec) : Res JStr := do
  setAt (← newArray 1) 0 (toDigit x.f)

/-- `scientificChars` (util/internal/FormattedFPDecimal.java:151-159): the arrays `digits` and `exp`. -/
def scientificChars (x : Dec) (prec : Int) : Res (JStr × JStr) := do
  let m ← if prec ≠ 0 then scientificCharsWithFraction x else scientificCharsNoFraction x
  return (m, ← expChars x)

/-- `scientific` (util/internal/FormattedFPDecimal.java:142-149). -/
def scientific (x : Dec) (prec : Int) : Res (JStr × JStr) := do
  scientificChars (← round x (prec + 1)) prec

/-- `general` (util/internal/FormattedFPDecimal.java:173-188): mantissa, and exponent if any. -/
def general (x : Dec) (prec : Int) : Res (JStr × Option JStr) := do
  let x ← round x prec
  let er := exponentRounded x
  if -4 ≤ er ∧ er < prec then return (← plainChars x, none)
  else
    let (m, ex) ← scientificChars x (prec - 1)
    return (m, some ex)

/-- `valueOf` up to the choice of the form (util/internal/FormattedFPDecimal.java:58-60): `split` calls
`set(f, e, n)` (81-86) or, for a special value, leaves the initial zeros. -/
def ofBits (bits : BitVec 64) : Res Dec := do
  match ← DoubleToDecimal.split bits with
  | .dec f e n => return { f := f.toNat, e := e, n := n }
  | _ => return { f := 0, e := 0, n := 0 }

end FastPrintf.FormattedFPDecimal
