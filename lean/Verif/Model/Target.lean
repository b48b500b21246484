/-
Model of a target that tells the three `append` methods of `Appendable` apart and that throws what it likes.

In `Model/Engine.lean` a target is given texts, and the only thing it can throw is an `IOException`.
-/
import Verif.Model.Engine

namespace FastPrintf.Targets

/-- A call of `append(char)`, `append(CharSequence)` or `append(CharSequence, int, int)`, as made in
seq/Repeated.java:132, seq/CharArray.java:149 and 153, seq/StrView.java:92 and 96, seq/LazySeq.java:144. -/
inductive Call
  | char (c : JChar)
  | text (s : JStr)
  | range (s : JStr) (start stop : Nat)
  deriving DecidableEq, Repr

/-- What the target throws: an `IOException`, which FastPrintfImpl.java:111-113 catches, or anything else. -/
inductive Thrown
  | io
  | other (e : Err)

/-- The exception that leaves `format` (FastPrintfImpl.java:107-114). -/
def Thrown.surfaces : Thrown → Err
  | .io => .uncheckedIO
  | .other e => e

/-- A target: how its state reacts to a call, and what the call throws.  The parameter of
FastPrintfImpl.java:94. -/
structure Target (σ : Type) where
  step : σ → Call → σ × Option Thrown

/-- A run of calls, up to the first that throws (FastPrintfImpl.java:107-117). -/
def Target.feed {σ : Type} (k : Target σ) : σ → List Call → σ × Option Thrown
  | st, [] => (st, none)
  | st, c :: cs =>
    match k.step st c with
    | (st, none) => k.feed st cs
    | (st, some x) => (st, some x)

/-- The loops over a range that call `append(char)` (seq/StrView.java:91-93, seq/CharArray.java:148-154). -/
def charLoop (s : JStr) (up : Bool) : (n : Nat) → (st : Nat) → Res (List Call)
  | 0, _ => .ok []
  | n + 1, st => do
    let c ← charAtRaw s st
    return .char (Atomic.caseOf up c) :: (← charLoop s up n (st + 1))

/-- `appendTo(Appendable)` of each leaf class (EmptySeq.java:48, Repeated.java:130-134, StrView.java:89-97,
CharArray.java:146-156, LazySeq.java:143-145).  The range of a `StrView` is checked by the target; the check is
made here, so that all targets make it. -/
def leafCalls : Atomic → Res (List Call)
  | .empty => .ok []
  | .repeated c n => .ok (List.replicate n (.char c))
  | .strView s st n up =>
    if up then charLoop s true n st
    else do
      let _ ← Atomic.copyRange s st n
      return [.range s st (st + n)]
  | .charArray a st n up => charLoop a up n st
  | .lazy out n => do return [.text (← Atomic.getCachedString out n)]
  | .failing _ _ e => .error e

/-- The loop of AtomicSeqIterable.java:84-88. -/
def leavesCalls : List Atomic → Res (List Call)
  | [] => .ok []
  | a :: rest => do
    let h ← leafCalls a
    return h ++ (← leavesCalls rest)

/-- The calls that the loop of AtomicSeqIterable.java:84-88 makes before a leaf throws. -/
def leavesCallsBefore : List Atomic → List Call
  | [] => []
  | a :: rest =>
    match leafCalls a with
    | .ok h => h ++ leavesCallsBefore rest
    | .error _ => []

/-- `appendTo(Appendable)` (AtomicSeqIterable.java:84-88, and of the leaves). -/
def seqCalls : Seq → Res (List Call)
  | .atom a => leafCalls a
  | s => do leavesCalls (← s.leaves)

/-- The calls that `appendTo(Appendable)` (AtomicSeqIterable.java:84-88, LazySeq.java:143-145) has made when it
throws. -/
def seqCallsBefore : Seq → List Call
  | .atom _ => []
  | s =>
    match s.leaves with
    | .ok es => leavesCallsBefore es
    | .error _ => []

/-- The loop of `format(Appendable, Args)` for any target but a `StringBuilder` (FastPrintfImpl.java:107-118). -/
def run (env : DateEnv) {σ : Type} (k : Target σ) : List Appender → List Traits → σ → Outcome σ
  | [], args, st => ⟨st, .ok args⟩
  | a :: rest, args, st =>
    match a.append env args with
    | .error e => ⟨st, .error e⟩
    | .ok (seq, args) =>
      match seqCalls seq with
      | .error e =>
        match k.feed st (seqCallsBefore seq) with
        | (st, none) => ⟨st, .error e⟩
        | (st, some x) => ⟨st, .error x.surfaces⟩
      | .ok calls =>
        match k.feed st calls with
        | (st, none) => run env k rest args st
        | (st, some x) => ⟨st, .error x.surfaces⟩

end FastPrintf.Targets
