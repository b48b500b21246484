/-
Model of `io.fastprintf.util.internal.FormattedFPDecimal` as a class on its own: the public `valueOf` with any
character for the form, and the three getters.
-/
import Verif.Model.FormattedFPDecimal

namespace FastPrintf.FormattedFPDecimal

/-- What the getters of a `FormattedFPDecimal` give: `getMantissa()`, `getExponent()` (null if not set) and
`getExponentRounded()` (util/internal/FormattedFPDecimal.java:88-98). -/
structure FPValue where
  mantissa : JStr
  exponent : Option JStr
  rounded : Int
  deriving DecidableEq, Repr

/-- `valueOf` (util/internal/FormattedFPDecimal.java:58-71) with `scientific` (142-149), `plain` (100-108) and
`general` (173-188); the constants are in lines 46-48.  The number is split before the form is looked at. -/
def valueOf (bits : BitVec 64) (prec : Int) (form : JChar) : Res FPValue := do
  let x ← ofBits bits
  if form = ch! 'e' then
    let y ← round x (prec + 1)
    let (m, ex) ← scientificChars y prec
    return { mantissa := m, exponent := some ex, rounded := exponentRounded y }
  else if form = ch! 'f' then
    let y ← round x (x.n + x.e + prec)
    let m ← plainChars y
    return { mantissa := m, exponent := none, rounded := exponentRounded y }
  else if form = ch! 'g' then
    let y ← round x prec
    let er := exponentRounded y
    if -4 ≤ er ∧ er < prec then
      let m ← plainChars y
      return { mantissa := m, exponent := none, rounded := er }
    else
      let (m, ex) ← scientificChars y (prec - 1)
      return { mantissa := m, exponent := some ex, rounded := er }
  else .error .illegalArgument

end FastPrintf.FormattedFPDecimal
