/-
Which method of an object a question leads to.
-/
import Verif.Model.LiveObjects
import Verif.Spec.Live

namespace FastPrintf.Spec

variable {σ : Type}

/-- The methods of a user's object that can be called. -/
inductive Method
  | longValue | doubleValue | intValue | getTime | toInstant | getTimeInMillis | toText | none
  deriving DecidableEq, Repr

/-- The one method that is called for a question.  An object that is no number and no date is asked for its
text even when a number or a time is wanted: the text goes into the message of the exception. -/
def method : LiveBase σ → Question → Method
  | _, .text => .toText
  | _, .reference => .none
  | _, .nothing => .none
  | .plain, _ => .toText
  | .number .., .floating => .doubleValue
  | .number .., .count => .intValue
  | .number .., .character => .intValue
  | .number .., _ => .longValue
  | .date .., .time => .toInstant
  | .date .., _ => .getTime
  | .calendar .., _ => .getTimeInMillis

/-- Two objects are of the same kind. -/
def Alike : LiveBase σ → Base → Prop
  | .plain, .plain => True
  | .number .., .number .. => True
  | .date .., .date .. => True
  | .calendar .., .calendar .. => True
  | _, _ => False

/-- The method, called in state `s`, answers as the ordinary object does, and the state is then `s'`. -/
def Answered (o : LiveObject σ) (s : σ) (b : Base) (text : Res JStr) (s' : σ) : Method → Prop
  | .longValue => ∃ l d i l' d' i', o.base = .number l d i ∧ b = .number l' d' i' ∧ l s = (l', s')
  | .doubleValue => ∃ l d i l' d' i', o.base = .number l d i ∧ b = .number l' d' i' ∧ d s = (d', s')
  | .intValue => ∃ l d i l' d' i', o.base = .number l d i ∧ b = .number l' d' i' ∧ i s = (i', s')
  | .getTime => ∃ ms i ms' i', o.base = .date ms i ∧ b = .date ms' i' ∧ ms s = (ms', s')
  | .toInstant => ∃ ms i ms' i', o.base = .date ms i ∧ b = .date ms' i' ∧ i s = (i', s')
  | .getTimeInMillis => ∃ ms ms', o.base = .calendar ms ∧ b = .calendar ms' ∧ ms s = (ms', s')
  | .toText => Alike o.base b ∧ o.text s = (text, s')
  | .none => Alike o.base b ∧ s' = s

/-- The questions are asked in turn, and for each the one method is called; `xs` are ordinary objects (what they
are, with their answers, and their texts) that give the answers given on that occasion. -/
inductive Called : List Question → List (LiveObject σ) → σ → List (Base × Res JStr) → σ → Prop
  | over (s : σ) {os : List (LiveObject σ)} {xs : List (Base × Res JStr)}
      (h : List.Forall₂ (fun o x => Alike o.base x.1) os xs) : Called [] os s xs s
  | next {q : Question} {qs : List Question} {o : LiveObject σ} {os : List (LiveObject σ)} {s s' s'' : σ} {b : Base}
      {text : Res JStr} {xs : List (Base × Res JStr)} (h : Answered o s b text s' (method o.base q))
      (rest : Called qs os s' xs s'') : Called (q :: qs) (o :: os) s ((b, text) :: xs) s''

/-- The ordinary objects as arguments. -/
def frozenTraits (os : List (LiveObject σ)) (xs : List (Base × Res JStr)) : List Traits :=
  List.zipWith (fun o x => Thing.methodTraits x.1 x.2 o.id.ref) os xs

end FastPrintf.Spec
