/-
The C rules for `%f`, `%e` and `%g` of a finite `double` (ISO C17 7.21.6.1, with the correct rounding of
Annex F.5 that glibc implements): the exact binary value is rounded to the digits asked for, to the nearest
decimal, ties to the even one.  Written independently of the library.
-/
import Verif.Spec.Decimal

namespace FastPrintf.Spec

/-- `m` is the integer nearest to `y`, the even one of two. -/
def NearestEven (y : ℚ) (m : Nat) : Prop := |(m : ℚ) - y| < 1 / 2 ∨ (|(m : ℚ) - y| = 1 / 2 ∧ m % 2 = 0)

/-- `x > 0` correctly rounded to `n` significant digits is `m * 10^(e - (n-1))` with `m` of `n` digits: `e`
is the exponent of the rounded value. -/
def CSignificant (x : ℚ) (n m : Nat) (e : Int) : Prop :=
  10 ^ (n - 1) ≤ m ∧ m < 10 ^ n ∧
    ∃ (e0 : Int) (m0 : Nat), 10 ^ e0 ≤ x ∧ x < 10 ^ (e0 + 1) ∧ NearestEven (x * 10 ^ (n - 1 - e0)) m0 ∧
      (m : ℚ) * 10 ^ (e - (n - 1)) = m0 * 10 ^ (e0 - (n - 1))

/-- `%f`: "a double argument representing a floating-point number is converted to decimal notation in the
style [-]ddd.ddd, where the number of digits after the decimal-point character is equal to the precision
specification"; `#` keeps the point. -/
def CFixed (fl : Flags) (w p : Nat) (bits : BitVec 64) (out : JStr) : Prop :=
  ∃ m body, NearestEven (magnitude bits * 10 ^ (p : Int)) m ∧ FixedText m p fl.alternate body ∧
    out = field fl.leftJustify fl.zeroPad w (signText fl (negative bits)) body

/-- The text of style `e` without sign: "[-]d.ddd e±dd, where there is one digit (which is nonzero if the
argument is nonzero) before the decimal-point character and the number of digits after it is equal to the
precision".  "The exponent always contains at least two digits, and only as many more digits as necessary to
represent the exponent.  If the value is zero, the exponent is zero." -/
def CExponential (p : Nat) (alt : Bool) (x : ℚ) (body : JStr) : Prop :=
  ∃ m e ms es, ((x = 0 ∧ m = 0 ∧ e = 0) ∨ (x ≠ 0 ∧ CSignificant x (p + 1) m e)) ∧
    FixedText m p alt ms ∧ ExponentText e es ∧ body = ms ++ ch! 'e' :: es

/-- `%e`. -/
def CScientific (fl : Flags) (w p : Nat) (bits : BitVec 64) (out : JStr) : Prop :=
  ∃ body, CExponential p fl.alternate (magnitude bits) body ∧
    out = field fl.leftJustify fl.zeroPad w (signText fl (negative bits)) body

/-- `%g` without `#`: "Let P equal the precision if nonzero, 6 if the precision is omitted, or 1 if the
precision is zero. Then, if a conversion with style E would have an exponent of X: if P > X ≥ -4, the
conversion is with style f (or F) and precision P - 1 - X; otherwise, the conversion is with style e (or E)
and precision P - 1."  "Any trailing zeros are removed from the fractional portion of the result and the
decimal-point character is removed if there is no fractional portion remaining." -/
def CGeneral (fl : Flags) (w P : Nat) (bits : BitVec 64) (out : JStr) : Prop :=
  ∃ (m : Nat) (X : Int) (body : JStr),
    ((magnitude bits = 0 ∧ m = 0 ∧ X = 0) ∨ (magnitude bits ≠ 0 ∧ CSignificant (magnitude bits) P m X)) ∧
    (if -4 ≤ X ∧ X < P then
      ∃ k, NearestEven (magnitude bits * 10 ^ ((P : Int) - 1 - X)) k ∧
        MinimalText ((k : ℚ) * 10 ^ (X - ((P : Int) - 1))) body
    else ∃ ms es, MinimalText ((m : ℚ) * 10 ^ (-((P : Int) - 1))) ms ∧ ExponentText X es ∧
      body = ms ++ ch! 'e' :: es) ∧
    out = field fl.leftJustify fl.zeroPad w (signText fl (negative bits)) body

/-- Where rounding the decimal `q` half up to `p` places differs from rounding the binary value `x`
correctly.  Either `q` has no digit past the place `p` and is not what `x` rounds to (more digits are asked
for than the number has), or `q` ends in a 5 just past that place and `x` does not round up: it is below
`q`, or equal to it with an even digit before the 5. -/
def Deviates (x q : ℚ) (p : Int) : Prop :=
  (∃ k : Nat, q * 10 ^ p = k ∧ ¬ NearestEven (x * 10 ^ p) k) ∨
    (∃ k : Nat, q * 10 ^ p = k + 1 / 2 ∧ (x < q ∨ (x = q ∧ k % 2 = 0)))

example : NearestEven (5 / 2) 2 := .inr ⟨by norm_num, rfl⟩
example : ¬ NearestEven (5 / 2) 3 := by
  rintro (h | ⟨-, h⟩)
  · norm_num at h
  · omega
example : CSignificant (9996 / 1000) 3 100 1 :=
  ⟨by norm_num, by norm_num, 0, 1000, by norm_num, by norm_num, .inl (by norm_num [abs_lt]), by norm_num⟩

end FastPrintf.Spec
