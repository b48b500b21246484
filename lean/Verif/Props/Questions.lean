/-
C67: a call looks at an argument only through the reading its directive asks for, and an exception of that
reading ends the call.

All theorems hold for every `FormatTraits`, including user implementations.
-/
import Verif.Proofs.Questions
import Verif.Props.Compile
import Verif.Props.Samples

namespace FastPrintf
open Spec

/-- **C67.**  Two argument lists that give the same answers to what the format asks are formatted alike: the
returned text or exception, and what any target holds afterwards. -/
theorem C67_same_answers (dates : DateSyntax) (env : DateEnv) (f : JStr) (ps : List Piece)
    (h : Reading dates f ps) (as bs : List Traits) (ha : Agree (ps.flatMap Piece.questions) as bs) :
    printf dates env f as = printf dates env f bs ∧
    (∀ sb, (runSB env (ps.map Piece.compiled) as sb).target = (runSB env (ps.map Piece.compiled) bs sb).target) ∧
    ∀ (σ : Type) (k : Sink σ) (st : σ),
      (runSink env k (ps.map Piece.compiled) as st).target =
        (runSink env k (ps.map Piece.compiled) bs st).target := by
  rw [← questions_compiled h] at ha
  refine ⟨?_, fun sb => (runSB_same sb ha).1, fun σ k st => (runSink_same k st ha).1⟩
  obtain ⟨h1, h2⟩ := runSB_same (env := env) [] ha
  have hc := (compile_iff dates f _).2 ⟨ps, h, rfl⟩
  unfold printf
  rw [hc, bind_ok, bind_ok, formatWith_eq, formatWith_eq, h1]
  revert h2
  cases (runSB env (ps.map Piece.compiled) as []).result <;>
    cases (runSB env (ps.map Piece.compiled) bs []).result <;> simp [Except.map]

/-- **C67.**  If the pieces before a directive have been written, and the first reading that the directive asks
for throws, then the call ends with that exception, and a builder holds exactly what was written before. -/
theorem C67_refusal (dates : DateSyntax) (env : DateEnv) (f : JStr) (ps qs : List Piece) (d : Directive)
    (h : Reading dates f (ps ++ .dir d :: qs)) (as rest : List Traits) (t : Traits) (sb out : JStr)
    (hp : runSB env (ps.map Piece.compiled) (as ++ t :: rest) sb = ⟨out, .ok (t :: rest)⟩)
    (q : Question) (hq : (Piece.dir d).questions.head? = some q) (e : Err) (he : Refuses t e q) :
    runSB env ((ps ++ .dir d :: qs).map Piece.compiled) (as ++ t :: rest) sb = ⟨out, .error e⟩ ∧
      printf dates env f (as ++ t :: rest) = .error e := by
  have hd : (Piece.dir d).compiled.questions.head? = some q := by
    rw [Piece.questions_compiled (h.ok _ (by simp))]; exact hq
  obtain ⟨tl, hl⟩ : ∃ tl, (Piece.dir d).compiled.questions = q :: tl := by
    cases hx : (Piece.dir d).compiled.questions with
    | nil => rw [hx] at hd; cases hd
    | cons a tl => rw [hx] at hd; cases hd; exact ⟨tl, rfl⟩
  have hrun : runSB env ((ps ++ .dir d :: qs).map Piece.compiled) (as ++ t :: rest) sb = ⟨out, .error e⟩ := by
    rw [List.map_append, runSB_append, hp]
    show runSB env ((Piece.dir d :: qs).map Piece.compiled) (t :: rest) out = _
    rw [List.map_cons]
    unfold runSB
    rw [Appender.append_refuses hl he]
  refine ⟨hrun, ?_⟩
  have hc := (compile_iff dates f _).2 ⟨_, h, rfl⟩
  unfold printf
  rw [hc, bind_ok, formatWith_eq]
  rw [runSB_prefix] at hrun
  cases hres : (runSB env ((ps ++ .dir d :: qs).map Piece.compiled) (as ++ t :: rest) []).result with
  | error e' => rw [hres] at hrun; cases hrun; rfl
  | ok r => rw [hres] at hrun; cases hrun

/-- Every directive has a first question, and with no `*` it is that of its conversion. -/
theorem C67_first_question (d : Directive) :
    (Piece.dir d).questions.head? =
      some (if d.width = .star ∨ d.prec = .star then .count else question d.conv) := by
  simp only [Piece.questions]
  by_cases h1 : d.width = .star <;> by_cases h2 : d.prec = .star <;> simp [h1, h2]

/-! ### Examples -/

/-- An argument that answers only one question: `%d`. -/
def onlyInteger (v : BitVec 32) : Traits where
  asIntForm := .ok (IntForm.ofInt v)
  asFloatForm := .error .external
  asTemporal := .error .illegalState
  asSeq := .error .nullPointer
  asInt := .error .assertion
  asChar := .error .arithmetic
  ref := .null

-- under `%d` it cannot be told from the number
example : Agree [.integer] [onlyInteger 7#32] [intArg 7#32] := .next rfl (.done _ _)
example : printf ⟨fun _ => true⟩ sampleDateEnv (js! "<%5d>") [onlyInteger 7#32] = .ok (js! "<    7>") := by
  decide +kernel
-- every other question ends the call, each with its own exception
example : printf ⟨fun _ => true⟩ sampleDateEnv (js! "%f") [onlyInteger 7#32] = .error .external := by
  decide +kernel
example : printf ⟨fun _ => true⟩ sampleDateEnv (js! "%t") [onlyInteger 7#32] = .error .illegalState := by
  decide +kernel
example : printf ⟨fun _ => true⟩ sampleDateEnv (js! "%S") [onlyInteger 7#32] = .error .nullPointer := by
  decide +kernel
example : printf ⟨fun _ => true⟩ sampleDateEnv (js! "%.*d") [onlyInteger 7#32, onlyInteger 7#32] =
    .error .assertion := by
  decide +kernel
example : printf ⟨fun _ => true⟩ sampleDateEnv (js! "%c") [onlyInteger 7#32] = .error .arithmetic := by
  decide +kernel
-- `%n` asks nothing, so anything will do, but there must be something
example : printf ⟨fun _ => true⟩ sampleDateEnv (js! "%n") [onlyInteger 7#32] = .ok [] := by decide +kernel
example : printf ⟨fun _ => true⟩ sampleDateEnv (js! "%n") [] = .error (.printf (.missingArgument (ch! 'n'))) := by
  decide +kernel

end FastPrintf
