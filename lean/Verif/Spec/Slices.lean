/-
Sequences that were cut with `subSequence` any number of times, and what they are expected to show.
-/
import Verif.Spec.Text
import Verif.Spec.Arguments

namespace FastPrintf

/-- A finite history of operations on sequences, `subSequence` of any sequence among them. -/
inductive SliceExpr
  | leaf (e : LeafExpr)
  | concat (l r : SliceExpr)
  | append (l r : SliceExpr)
  | prepend (l r : SliceExpr)
  | join (es : List LeafExpr)
  | upper (e : SliceExpr)
  | slice (e : SliceExpr) (i j : Int)

/-- Running the history in the model. -/
def SliceExpr.eval : SliceExpr → Res Seq
  | .leaf e => do return .atom (← e.eval)
  | .concat l r => do return Seq.mkConcat (← l.eval) (← r.eval)
  | .append l r => do return (← l.eval).append (← r.eval)
  | .prepend l r => do return (← l.eval).prepend (← r.eval)
  | .join es => do return Seq.join (← es.mapM LeafExpr.eval)
  | .upper e => do (← e.eval).upperCase
  | .slice e i j => do (← e.eval).subSequence i j

namespace Spec

/-- What is known of a sequence: the texts put side by side, and the length it reports. -/
structure Sliced where
  pieces : List JStr
  reports : Nat
  deriving DecidableEq

namespace Sliced

/-- All of its characters. -/
def text (x : Sliced) : JStr := x.pieces.flatten

/-- The parts of the pieces that lie in `[i, j)`. -/
def parts : List JStr → Nat → Nat → List JStr
  | [], _, _ => []
  | t :: ts, i, j =>
    if i < t.length then
      if j ≤ t.length then [sub t i j] else sub t i t.length :: parts ts 0 (j - t.length)
    else parts ts (i - t.length) (j - t.length)

/-- The length of the last of the pieces. -/
def lastLength (ps : List JStr) : Nat := (ps.getLast?.getD []).length

/-- `subSequence(i, j)`: refused outside the reported length; nothing for `i = j`; the same sequence when `[i, j)` is
what it reports to have; and otherwise the parts, with the length of the last of them reported as the whole. -/
def slice (x : Sliced) (i j : Int) : Option Sliced :=
  if 0 ≤ i ∧ i ≤ j ∧ j ≤ x.reports then
    if i = j then some ⟨[], 0⟩
    else if i = 0 ∧ j = x.reports then some x
    else some ⟨parts x.pieces i.toNat j.toNat, lastLength (parts x.pieces i.toNat j.toNat)⟩
  else none

/-- One after the other. -/
def add (x y : Sliced) : Sliced := ⟨x.pieces ++ y.pieces, x.reports + y.reports⟩

/-- The length it reports is the number of its characters. -/
def Exact (x : Sliced) : Prop := x.reports = x.text.length

end Sliced

/-- Pieces that report their length in full. -/
def whole (ts : List JStr) : Sliced := ⟨ts, ts.flatten.length⟩

/-- What a history of operations is expected to give; `none`: some argument is out of range. -/
def _root_.FastPrintf.SliceExpr.expected : SliceExpr → Option Sliced
  | .leaf e => e.plain.map fun t => whole [t]
  | .concat l r => l.expected.bind fun a => r.expected.map fun b => a.add b
  | .append l r => l.expected.bind fun a => r.expected.map fun b => a.add b
  | .prepend l r => l.expected.bind fun a => r.expected.map fun b => b.add a
  | .join es => (es.mapM LeafExpr.plain).map whole
  | .upper e => e.expected.map fun a => ⟨a.pieces.map (·.map upper), a.reports⟩
  | .slice e i j => e.expected.bind fun a => a.slice i j

/-- Every observation a client can make of the sequence is what is known of it: the characters beyond the reported
length are written out and searched, but `charAt` does not reach them. -/
structure Sliced.Seen (x : Sliced) (q : Seq) : Prop where
  length : q.length = x.reports
  isEmpty : q.isEmpty = true ↔ x.text = []
  charAt : ∀ (i : Nat) (c : JChar), i < x.reports → x.text[i]? = some c → q.charAt i = .ok c
  charAt_out : ∀ i : Int, i < 0 ∨ (x.reports : Int) ≤ i → q.charAt i = .error .indexOutOfBounds
  startsWith : ∀ c, q.startsWith c = .ok (x.text.head? == some c)
  indexOf : ∀ c, q.indexOf c = .ok (firstIndex x.text c)
  toStr : q.toStr = .ok x.text
  toBuilder : ∀ sb, q.appendToSB sb = .ok (sb ++ x.text)
  toAppendable : ∃ calls, q.appendToCalls = .ok calls ∧ calls.flatten = x.text

/-- What `%s` takes with a precision: it asks for a slice only if the precision is below the reported length. -/
def Sliced.cut (x : Sliced) : Option Nat → Option Sliced
  | none => some x
  | some p => if p < x.reports then x.slice 0 p else some x

end Spec
end FastPrintf
