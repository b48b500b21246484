/-
A number and its negation in print.
-/
import Verif.Spec.CPrintf
import Verif.Spec.Double
import Verif.Spec.Readings

namespace FastPrintf.Spec

/-- The `double`s differ only in the sign bit, which the second one has set. -/
def Opposite (bits bits' : BitVec 64) : Prop := bits'.toNat = bits.toNat + 2 ^ 63

/-- A finite number with a positive sign and its negation, as the floating conversions read them: `double`s (zero
included), or positive big numbers. -/
inductive Floating.Opposite : Floating → Floating → Prop
  | double {bits bits' : BitVec 64} (h : Spec.Opposite bits bits') (hf : finite bits) : Opposite (.double bits) (.double bits')
  | big {u scale : Int} (h : 0 < u) : Opposite (.big u scale) (.big (-u) scale)

/-- `pos` and `neg` are the printed forms of a number and its negation.  If the flags ask for a sign in front of a
nonnegative number, they differ in this one character, with only blanks before it; otherwise, if there is no
width, the one is the other after a `-`. -/
def Mirrored (fl : Flags) (width : Nat) (pos neg : JStr) : Prop :=
  if fl.plus then ∃ k q, pos = List.replicate k (ch! ' ') ++ ch! '+' :: q ∧ neg = List.replicate k (ch! ' ') ++ ch! '-' :: q
  else if fl.leadingSpace then
    ∃ k q, pos = List.replicate k (ch! ' ') ++ ch! ' ' :: q ∧ neg = List.replicate k (ch! ' ') ++ ch! '-' :: q
  else width = 0 → neg = ch! '-' :: pos

example : Mirrored { plus := true } 6 (js! "  +2.5") (js! "  -2.5") := by
  rw [Mirrored, if_pos rfl]; exact ⟨2, js! "2.5", rfl, rfl⟩
example : Mirrored {} 0 (js! "2.5") (js! "-2.5") ∧ ¬ Mirrored {} 0 (js! "2.5") (js! "-2.6") := by
  constructor <;> simp [Mirrored]

end FastPrintf.Spec
