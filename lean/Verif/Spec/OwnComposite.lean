/-
Composites of the user's own classes: which are honest, and what a history with such composites stands for.
-/
import Verif.Model.OwnComposite
import Verif.Spec.OwnSeq

namespace FastPrintf.Own

variable {α : Type}

namespace Compound

mutual
/-- The leaves that unfolding ends up with, from left to right. -/
def flat : Compound α → List α
  | .atom a => [a]
  | .concat l r _ _ => l.flat ++ r.flat
  | .array es _ => es
  | .own _ first rest => first.flat ++ flats rest
/-- The same for several. -/
def flats : List (Compound α) → List α
  | [] => []
  | t :: ts => t.flat ++ flats ts
end

mutual
/-- No joined sequence of the library in it is empty. -/
def Full : Compound α → Prop
  | .atom _ => True
  | .concat l r _ _ => l.Full ∧ r.Full
  | .array es _ => es ≠ []
  | .own _ first rest => first.Full ∧ Fulls rest
/-- The same for several. -/
def Fulls : List (Compound α) → Prop
  | [] => True
  | t :: ts => t.Full ∧ Fulls ts
end

/-- Every observation a client can make of the sequence is the observation of the string `t`.  Only `toString` of an
own composite is whatever its class makes of it. -/
structure Agrees (ops : LeafOps α) (r : Compound α) (t : JStr) : Prop where
  length : r.length ops = t.length
  isEmpty : r.isEmpty ops = true ↔ t = []
  charAt : ∀ (i : Nat) (c : JChar), t[i]? = some c → r.charAt ops i = .ok c
  charAt_out : ∀ i : Int, i < 0 ∨ (t.length : Int) ≤ i → r.charAt ops i = .error .indexOutOfBounds
  indexOf : ∀ c, r.indexOf ops c = .ok (Spec.firstIndex t c)
  startsWith : ∀ c, r.startsWith ops c = .ok (t.head? == some c)
  toStr : (∀ g first rest, r ≠ .own g first rest) → r.toStr ops = .ok t
  toBuilder : ∀ sb, r.appendToSB ops sb = .ok (sb ++ t)
  toAppendable : ∃ calls, r.appendToCalls ops = .ok calls ∧ calls.flatten = t

end Compound

/-- A composite is honest when its iterator delivers the leaves that unfolding ends up with and does not fail, its
length is the sum of theirs, and its number of elements is not negative.  Nothing is asked of the lengths and numbers
of elements that the sequences it unfolds into report. -/
def Given.Honest (ops : LeafOps α) (g : Given α) (first : Compound α) (rest : List (Compound α)) : Prop :=
  g.walk.seen = Compound.flats (first :: rest) ∧ g.walk.fault = none ∧ g.length = (g.walk.seen.map ops.length).sum ∧
    0 ≤ g.elementCount ∧ Compound.Fulls (first :: rest)

/-- A history of operations over given leaves and given composites. -/
inductive History (α : Type)
  | leaf (a : α)
  | own (g : Given α) (first : Compound α) (rest : List (Compound α))
  | concat (l r : History α)
  | append (l r : History α)
  | prepend (l r : History α)
  | join (es : List α)
  | upper (e : History α)

namespace History

/-- Running the history. -/
def eval (ops : LeafOps α) : History α → Res (Compound α)
  | .leaf a => .ok (.atom a)
  | .own g first rest => .ok (.own g first rest)
  | .concat l r => do return Compound.mkConcat ops (← l.eval ops) (← r.eval ops)
  | .append l r => do return (← l.eval ops).append ops (← r.eval ops)
  | .prepend l r => do return (← l.eval ops).prepend ops (← r.eval ops)
  | .join es => .ok (Compound.join ops es)
  | .upper e => do (← e.eval ops).upperCase ops

/-- All its leaves are good and its composites honest. -/
def AllGood (ops : LeafOps α) (Good : α → Prop) : History α → Prop
  | .leaf a => Good a
  | .own g first rest => g.Honest ops first rest ∧ ∀ a ∈ g.walk.seen, Good a
  | .concat l r => l.AllGood ops Good ∧ r.AllGood ops Good
  | .append l r => l.AllGood ops Good ∧ r.AllGood ops Good
  | .prepend l r => l.AllGood ops Good ∧ r.AllGood ops Good
  | .join es => ∀ a ∈ es, Good a
  | .upper e => e.AllGood ops Good

/-- The texts it puts side by side, from left to right. -/
def pieces (text : α → JStr) : History α → List JStr
  | .leaf a => [text a]
  | .own g _ _ => g.walk.seen.map text
  | .concat l r => l.pieces text ++ r.pieces text
  | .append l r => l.pieces text ++ r.pieces text
  | .prepend l r => r.pieces text ++ l.pieces text
  | .join es => es.map text
  | .upper e => (e.pieces text).map (·.map Spec.upper)

end History
end FastPrintf.Own
