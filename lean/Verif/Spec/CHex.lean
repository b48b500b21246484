/-
The C rules for `%a`, for `%g` with `#`, and for infinities and NaN (ISO C17 7.21.6.1), written independently
of the library.
-/
import Verif.Spec.CFloat
import Verif.Spec.Hex
import Verif.Spec.Text

namespace FastPrintf.Spec

/-- `%g` with `#`: the style and the precision are chosen as for `CGeneral`; trailing zeros stay and there
always is a point. -/
def CGeneralAlt (fl : Flags) (w P : Nat) (bits : BitVec 64) (out : JStr) : Prop :=
  ∃ (m : Nat) (X : Int) (body : JStr),
    ((magnitude bits = 0 ∧ m = 0 ∧ X = 0) ∨ (magnitude bits ≠ 0 ∧ CSignificant (magnitude bits) P m X)) ∧
    (if -4 ≤ X ∧ X < P then
      ∃ k, NearestEven (magnitude bits * 10 ^ ((P : Int) - 1 - X)) k ∧
        FixedText k ((P : Int) - 1 - X).toNat true body
    else ∃ ms es, FixedText m (P - 1) true ms ∧ ExponentText X es ∧ body = ms ++ ch! 'e' :: es) ∧
    out = field fl.leftJustify fl.zeroPad w (signText fl (negative bits)) body

/-- `%a`: "converted in the style [-]0xh.hhhhp±d, where there is one hexadecimal digit (which is nonzero if
the argument is a normalized floating-point number and is otherwise unspecified) before the decimal-point
character and the number of hexadecimal digits after it is equal to the precision; if the precision is
missing […] then the precision is sufficient for an exact representation of the value […]; if the precision
is zero and the # flag is not specified, no decimal-point character appears. […] The exponent always contains
at least one digit, and only as many more digits as necessary to represent the decimal exponent of 2.  If the
value is zero, the exponent is zero."  "The value is correctly rounded to a hexadecimal floating number with
the given precision."  Several texts can be right for one number: the leading digit is free. -/
def CHex (fl : Flags) (w : Nat) (prec : Option Nat) (bits : BitVec 64) (out : JStr) : Prop :=
  ∃ (lead : JChar) (fp : JStr) (x : Int) (ds : JStr),
    IsDigitIn 16 lead ∧ (expBits bits ≠ 0 → lead ≠ 48) ∧ (∀ c ∈ fp, IsDigitIn 16 c) ∧
    Shortest 10 x.natAbs ds ∧ (magnitude bits = 0 → x = 0) ∧
    (match prec with
      | none => hexValue (digitVal lead) fp x = magnitude bits
      | some p => fp.length = p ∧
          NearestEven (magnitude bits * 2 ^ (4 * (p : Int) - x)) (digitVal lead * 16 ^ p + valueIn 16 fp)) ∧
    out = field fl.leftJustify fl.zeroPad w (signText fl (negative bits) ++ js! "0x")
      (lead :: (if fp = [] ∧ ¬ fl.alternate then [] else ch! '.' :: fp) ++
        ch! 'p' :: (if x < 0 then ch! '-' else ch! '+') :: ds)

/-- "A double argument representing an infinity is converted in one of the styles [-]inf or [-]infinity —
which style is implementation-defined.  A double argument representing a NaN is converted in one of the
styles [-]nan or [-]nan(n-char-sequence)" (the second is left out here); in upper case for the upper-case
conversions.  The sign flags apply as to numbers, the `0` flag does not.  The sign of a NaN is left open. -/
def CNonFinite (upperCase : Bool) (fl : Flags) (w : Nat) (bits : BitVec 64) (out : JStr) : Prop :=
  ∃ (neg : Bool) (name : JStr),
    (if fracBits bits ≠ 0 then name = js! "nan"
      else neg = decide (negative bits) ∧ (name = js! "inf" ∨ name = js! "infinity")) ∧
    out = field fl.leftJustify false w [] (signText fl neg ++ (if upperCase then name.map upper else name))

-- 1.5 can be written in several ways, and `%.0a` of it is rounded to even
example : CHex {} 0 none 0x3FF8000000000000#64 (js! "0x1.8p+0") ∧
    CHex {} 0 none 0x3FF8000000000000#64 (js! "0xcp-3") ∧
    CHex {} 0 (some 0) 0x3FF8000000000000#64 (js! "0x2p+0") := by
  have hm : magnitude 0x3FF8000000000000#64 = 3 / 2 := by
    rw [magnitude, show doubleC 0x3FF8000000000000#64 = 6755399441055744 by decide,
      show doubleQ 0x3FF8000000000000#64 = -52 by decide]
    norm_num
  refine ⟨⟨ch! '1', js! "8", 0, js! "0", by decide, by decide, by decide,
    by unfold Shortest IsNumeral NoExtraZero; decide, by rw [hm]; norm_num, ?_, by decide⟩,
    ⟨ch! 'c', [], -3, js! "3", by decide, by decide, by decide,
    by unfold Shortest IsNumeral NoExtraZero; decide, by rw [hm]; norm_num, ?_, by decide⟩,
    ⟨ch! '2', [], 0, js! "0", by decide, by decide, by decide,
    by unfold Shortest IsNumeral NoExtraZero; decide, by rw [hm]; norm_num, ⟨rfl, ?_⟩, by decide⟩⟩
  · rw [hm]; norm_num [hexValue, valueIn, digitVal]
  · rw [hm]; norm_num [hexValue, valueIn, digitVal]
  · rw [hm]; right; norm_num [valueIn, digitVal]
example : CNonFinite true {} 9 0xFFF0000000000000#64 (js! "-INFINITY") :=
  ⟨true, js! "infinity", by decide, by decide⟩

end FastPrintf.Spec
