/-
Which flags of a directive are heeded and which are ignored.
-/
import Verif.Spec.Grammar

namespace FastPrintf.Spec

/-- The conversions that print signed numbers. -/
def signedConvs : JStr := js! "difFeEgGaA"

/-- The conversions that print whole numbers. -/
def wholeConvs : JStr := js! "diuoxX"

/-- The conversions that print floating-point numbers. -/
def pointConvs : JStr := js! "fFeEgGaA"

/-- The precision is 0, or may be 0 because it is an argument. -/
def MayBeZero : Num → Prop
  | .absent => False
  | .star => True
  | .digits ds => decimalValue ds = 0

/-- There is no precision, or perhaps none because it is an argument. -/
def MayBeUnset : Num → Prop
  | .digits _ => False
  | _ => True

/-- Does the directive heed this one of its flags?  `-` and `0` need a width, `-` beats `0`, a precision beats
the `0` of whole numbers, `+` beats the space; `#` asks for a prefix, for a point where there would be none, or for
the zeros of `%g`. -/
def Heeds (d : Directive) (c : JChar) : Prop :=
  (c = ch! '-' ∧ d.width ≠ .absent ∧ d.conv ≠ ch! 'n' ∧ d.conv ≠ ch! '%') ∨
  (c = ch! '0' ∧ d.width ≠ .absent ∧ ch! '-' ∉ d.flags ∧
    (d.conv ∈ pointConvs ∨ d.conv ∈ wholeConvs ∧ MayBeUnset d.prec)) ∨
  (c = ch! '+' ∧ d.conv ∈ signedConvs) ∨
  (c = ch! ' ' ∧ d.conv ∈ signedConvs ∧ ch! '+' ∉ d.flags) ∨
  (c = ch! '#' ∧ (d.conv ∈ js! "oxXgG" ∨ d.conv ∈ js! "fFeE" ∧ MayBeZero d.prec))

/-- May the second number stand for the first in a directive?  Both are absent, both 0 or both positive; for `*`
anything may stand. -/
def SameKind : Num → Num → Prop
  | .absent, .absent => True
  | .star, _ => True
  | .digits a, .digits b => (decimalValue a = 0 ↔ decimalValue b = 0)
  | _, _ => False

/-- A directive that cuts its string to nothing. -/
def CutAway (d : Directive) : Prop :=
  d.conv ∈ js! "sS" ∧ ∃ ds, d.prec = .digits ds ∧ decimalValue ds = 0

end FastPrintf.Spec
