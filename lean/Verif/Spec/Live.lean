/-
Calls whose arguments have methods with side effects: what is asked when, and what is printed.
-/
import Verif.Model.Live
import Verif.Spec.Questions

namespace FastPrintf.Spec

variable {σ : Type}

/-- Asked the question in state `s`, the argument answers as `t` does, and the state is then `s'`.  Being
asked nothing changes nothing. -/
def Gives (a : Live σ) (s : σ) (t : Traits) (s' : σ) : Question → Prop
  | .count => a.asInt s = (t.asInt, s')
  | .integer => a.asIntForm s = (t.asIntForm, s')
  | .floating => a.asFloatForm s = (t.asFloatForm, s')
  | .time => a.asTemporal s = (t.asTemporal, s')
  | .text => a.asSeq s = (t.asSeq, s')
  | .character => a.asChar s = (t.asChar, s')
  | .reference => a.ref s = (t.ref, s')
  | .nothing => s' = s

/-- The questions are asked in turn, one of each argument, starting in state `s` and ending in `s'`; `ts` are
ordinary arguments that give the answers given on that occasion.  Of arguments that are not asked, `ts` says
nothing, except that there are as many. -/
inductive Answers : List Question → List (Live σ) → σ → List Traits → σ → Prop
  | over {as : List (Live σ)} {ts : List Traits} (s : σ) (h : as.length = ts.length) : Answers [] as s ts s
  | next {q : Question} {qs : List Question} {a : Live σ} {as : List (Live σ)} {s s' s'' : σ} {t : Traits}
      {ts : List Traits} (h : Gives a s t s' q) (rest : Answers qs as s' ts s'') :
      Answers (q :: qs) (a :: as) s (t :: ts) s''

/-- The first answers decide that a piece throws: with ordinary arguments that give these answers, and whatever
they would answer later, the piece throws `e` and the world is then `s'`.  `one ts s` is what a piece does with
ordinary arguments. -/
def Decided (one : List Traits → σ → Outcome σ) (qs : List Question) (as : List (Live σ)) (s : σ) (e : Err)
    (s' : σ) : Prop :=
  ∃ s₁, (∃ ts, Answers qs as s ts s₁) ∧ ∀ ts, Answers qs as s ts s₁ → one ts s₁ = ⟨s', .error e⟩

/-- A whole call with pieces `ps` and arguments `as`, from the state `s`: how it ends, and in which state.
Piece by piece, the questions of the piece are asked, then the piece does with the answers what it does with
ordinary arguments; or it throws, as soon as the answers given so far decide that. -/
inductive Unfolds (one : Piece → List Traits → σ → Outcome σ) :
    List Piece → List (Live σ) → σ → Res Unit → σ → Prop
  | over (as : List (Live σ)) (s : σ) : Unfolds one [] as s (.ok ()) s
  | piece {p : Piece} {ps : List Piece} {as bs : List (Live σ)} {ts : List Traits} {s s₁ s₂ s' : σ}
      {r : Res Unit} (hl : as.length = p.questions.length) (ha : Answers p.questions as s ts s₁)
      (ho : one p ts s₁ = ⟨s₂, .ok []⟩) (rest : Unfolds one ps bs s₂ r s') :
      Unfolds one (p :: ps) (as ++ bs) s r s'
  | throws {p : Piece} {ps : List Piece} {as : List (Live σ)} {s s' : σ} {e : Err} {n : Nat}
      (hn : n ≤ p.questions.length) (hd : Decided (one p) (p.questions.take n) as s e s')
      (hf : ∀ m < n, ∀ e s', ¬ Decided (one p) (p.questions.take m) as s e s') :
      Unfolds one (p :: ps) as s (.error e) s'

/-- What one piece does with ordinary arguments, on a builder of the world. -/
def onBuilder (env : DateEnv) (b : Live.Builder σ) (p : Piece) (ts : List Traits) (s : σ) : Outcome σ :=
  let o := runSB env [p.compiled] ts (b.get s)
  ⟨b.set s o.target, o.result⟩

/-- What one piece does with ordinary arguments, on another target. -/
def onSink (env : DateEnv) (k : Sink σ) (p : Piece) (ts : List Traits) (s : σ) : Outcome σ :=
  runSink env k [p.compiled] ts s

/-- An argument without side effects and without changes: the ordinary argument `t`. -/
def Steady (a : Live σ) (t : Traits) : Prop :=
  ∀ (s : σ) (q : Question), Gives a s t s q

end FastPrintf.Spec
