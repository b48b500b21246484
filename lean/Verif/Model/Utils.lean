/-
Model of `io.fastprintf.util.Utils` and `io.fastprintf.util.Preconditions`.
-/
import Verif.Model.Java

namespace FastPrintf

/-- `Utils.isLowerCase` (util/Utils.java:56-60). -/
def isLowerCase (c : JChar) : Bool := c ≥ ch! 'a' && c ≤ ch! 'z'

/-- `Utils.isUpperCase` (util/Utils.java:70-72). -/
def isUpperCase (c : JChar) : Bool := c ≥ ch! 'A' && c ≤ ch! 'Z'

/-- `Utils.toUpperCase(char)` (util/Utils.java:74-79); `CASE_MASK = 0x20` (line 10). -/
def toUpperCase (c : JChar) : JChar := if isLowerCase c then c ^^^ 0x20 else c

/-- `Utils.isDigit` (util/Utils.java:81-83). -/
def isDigit (c : JChar) : Bool := c ≥ ch! '0' && c ≤ ch! '9'

/-- `Utils.isNotDigit` (util/Utils.java:85-87). -/
def isNotDigit (c : JChar) : Bool := !isDigit c

/-- `Utils.toUpperCase(char[])` (util/Utils.java:18-29): the array after the in-place loop.
The returned `mod` flag is not used by any caller and is not modelled. -/
def toUpperCaseArr : JStr → JStr
  | [] => []
  | c :: cs => (if isLowerCase c then c ^^^ 0x20 else c) :: toUpperCaseArr cs

/-- `Utils.toUpperCase(String)` (util/Utils.java:31-46): scans for the first lower-case letter, then
rewrites from there; returns the same string when there is none. -/
def toUpperCaseStr : JStr → JStr
  | [] => []
  | c :: cs => if isLowerCase c then toUpperCaseArr (c :: cs) else c :: toUpperCaseStr cs

/-- `Preconditions.checkPositionIndex` (util/Preconditions.java:45-49). -/
def checkPositionIndex (index size : Int) : Res Unit :=
  if index < 0 ∨ index ≥ size then .error .indexOutOfBounds else .ok ()

/-- `Preconditions.checkPositionIndexes` (util/Preconditions.java:51-56). -/
def checkPositionIndexes (start stop size : Int) : Res Unit :=
  if start < 0 ∨ stop < start ∨ stop > size then .error .indexOutOfBounds else .ok ()

/-- The loop of `Utils.stringSize(long)` (util/Utils.java:236-241) from iteration `i`, with `n`
iterations left, for the negated value `x` and the negative power `p`; `p = 10 * p` wraps at 64 bits. -/
def stringSizeLoop64 (d : Int) (x : Int) : (n : Nat) → (i : Int) → (p : Int) → Int
  | 0, i, _ => i + d
  | n + 1, i, p => if x > p then i + d else stringSizeLoop64 d x n (i + 1) (wrap64 (10 * p))

/-- `Utils.stringSize(long)` (util/Utils.java:230-242): `i` runs from 1 to 18, then `19 + d`. -/
def stringSize64 (x : Int) : Int :=
  if x ≥ 0 then stringSizeLoop64 0 (wrap64 (-x)) 18 1 (-10)
  else stringSizeLoop64 1 x 18 1 (-10)

/-- The loop of `Utils.stringSize(int)` (util/Utils.java:259-264). -/
def stringSizeLoop32 (d : Int) (x : Int) : (n : Nat) → (i : Int) → (p : Int) → Int
  | 0, i, _ => i + d
  | n + 1, i, p => if x > p then i + d else stringSizeLoop32 d x n (i + 1) (wrap32 (10 * p))

/-- `Utils.stringSize(int)` (util/Utils.java:253-265): `i` runs from 1 to 9, then `10 + d`. -/
def stringSize32 (x : Int) : Int :=
  if x ≥ 0 then stringSizeLoop32 0 (wrap32 (-x)) 9 1 (-10)
  else stringSizeLoop32 1 x 9 1 (-10)

/-- A point on the time line as `Utils.longToInstant` builds it (util/Utils.java:126-131). -/
inductive InstantOf
  | epochSecond (s : Int)
  | epochMilli (ms : Int)
  deriving DecidableEq, Repr

/-- `Utils.longToInstant` (util/Utils.java:126-131); `MAX_UNSIGNED_INT = 0xFFFFFFFF` (line 12). -/
def longToInstant (value : Int) : Res InstantOf :=
  if value ≥ 0 then
    if value ≤ 0xFFFFFFFF then .ok (.epochSecond value) else .ok (.epochMilli value)
  else .error .illegalArgument

end FastPrintf
