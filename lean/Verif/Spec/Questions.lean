/-
What a format string asks of each argument.
-/
import Verif.Model.Forms
import Verif.Spec.Grammar

namespace FastPrintf.Spec

/-- The readings of an argument that a directive can ask for. -/
inductive Question
  | count
  | integer
  | floating
  | time
  | text
  | character
  | reference
  | nothing
  deriving DecidableEq, Repr

/-- What a conversion asks its argument. -/
def question (conv : JChar) : Question :=
  if conv ∈ js! "diuoxX" then .integer
  else if conv ∈ js! "fFeEgGaA" then .floating
  else if conv ∈ js! "tT" then .time
  else if conv ∈ js! "sS" then .text
  else if conv = ch! 'c' then .character
  else if conv = ch! 'p' then .reference
  else .nothing

/-- What the pieces of a format ask, argument by argument: a `*` asks for a count. -/
def Piece.questions : Piece → List Question
  | .dir d => (if d.width = .star then [.count] else []) ++ (if d.prec = .star then [.count] else []) ++
      [question d.conv]
  | _ => []

/-- Two arguments give the same answer to a question. -/
def SameAnswer (t t' : Traits) : Question → Prop
  | .count => t.asInt = t'.asInt
  | .integer => t.asIntForm = t'.asIntForm
  | .floating => t.asFloatForm = t'.asFloatForm
  | .time => t.asTemporal = t'.asTemporal
  | .text => t.asSeq = t'.asSeq
  | .character => t.asChar = t'.asChar
  | .reference => t.ref = t'.ref
  | .nothing => True

/-- An argument answers a question with an exception. -/
def Refuses (t : Traits) (e : Err) : Question → Prop
  | .count => t.asInt = .error e
  | .integer => t.asIntForm = .error e
  | .floating => t.asFloatForm = .error e
  | .time => t.asTemporal = .error e
  | .text => t.asSeq = .error e
  | .character => t.asChar = .error e
  | .reference => False
  | .nothing => False

/-- Two argument lists give the same answers to a list of questions, or end at the same place. -/
inductive Agree : List Question → List Traits → List Traits → Prop
  | done (as bs : List Traits) : Agree [] as bs
  | short (qs : List Question) : Agree qs [] []
  | next {q : Question} {qs : List Question} {t t' : Traits} {as bs : List Traits}
      (h : SameAnswer t t' q) (rest : Agree qs as bs) : Agree (q :: qs) (t :: as) (t' :: bs)

end FastPrintf.Spec
