/-
The exceptions of `Preconditions` and of the sequences once more, with their messages, and calls that are given `null`.
-/
import Verif.Model.Seq
import Verif.Model.Messages
import Verif.Model.Utils

namespace FastPrintf.Detail

/-- The message of an exception.  The messages are those of util/Preconditions.java:9-56 and seq/*.java. -/
inductive Msg
  | absent            -- `getMessage()` is null
  | says (s : JStr)
  | unsaid            -- chosen by the JVM, the JDK or the user's code
  deriving DecidableEq, Repr

/-- An exception with its message (util/Preconditions.java:9-56). -/
structure Thrown where
  err : Err
  msg : Msg
  deriving DecidableEq, Repr

/-- The result of a computation that may throw.  For the methods of util/Preconditions.java and seq/*.java. -/
abbrev Out (α : Type) := Except Thrown α

/-- Where the message does not come from the library.  That is a method of the JDK called in seq/*.java. -/
def lift {α : Type} : Res α → Out α
  | .ok a => .ok a
  | .error e => .error ⟨e, .unsaid⟩

/-- Without the message.  It compares the methods of util/Preconditions.java and seq/*.java here with those
in Model/Seq.lean. -/
def forget {α : Type} : Out α → Res α
  | .ok a => .ok a
  | .error t => .error t.err

/-- A number in `lenientFormat`: its box prints in decimal (util/Utils.java:133-138). -/
def num (n : Int) : Shown := .text (intToString n)

/-- `Preconditions.checkNotNull` (util/Preconditions.java:9-14). -/
def checkNotNull {α : Type} (value : Option α) (name : JStr) : Out α :=
  match value with
  | none =>
    .error ⟨.nullPointer, .says (Messages.lenientFormat (some (js! "Argument '%s' cannot be null")) (some [.text name]))⟩
  | some a => .ok a

/-- `Preconditions.checkArgument` (util/Preconditions.java:16-20) without further arguments. -/
def checkArgument (condition : Bool) (message : JStr) : Out Unit :=
  if condition then .ok ()
  else .error ⟨.illegalArgument, .says (Messages.lenientFormat (some message) (some []))⟩

/-- `Preconditions.checkLongArgument` (util/Preconditions.java:39-43). -/
def checkLongArgument (condition : Bool) (message : JStr) (value : Int) : Out Unit :=
  if condition then .ok ()
  else .error ⟨.illegalArgument, .says (Messages.lenientFormat (some message) (some [num value]))⟩

/-- `Preconditions.checkPositionIndex` (util/Preconditions.java:45-49). -/
def checkPositionIndex (index size : Int) : Out Unit :=
  if index < 0 ∨ index ≥ size then
    .error ⟨.indexOutOfBounds,
      .says (Messages.lenientFormat (some (js! "index: %s, size: %s")) (some [num index, num size]))⟩
  else .ok ()

/-- `Preconditions.checkPositionIndexes` (util/Preconditions.java:51-56). -/
def checkPositionIndexes (start stop size : Int) : Out Unit :=
  if start < 0 ∨ stop < start ∨ stop > size then
    .error ⟨.indexOutOfBounds,
      .says (Messages.lenientFormat (some (js! "start: %s, end: %s, size: %s")) (some [num start, num stop, num size]))⟩
  else .ok ()

/-- `Utils.longToInstant` (util/Utils.java:126-131). -/
def longToInstant (value : Int) : Out InstantOf := do
  checkLongArgument (decide (value ≥ 0)) (js! "The value must not be negative, but was: %s") value
  if value ≤ 0xFFFFFFFF then return .epochSecond value else return .epochMilli value

/-! ### Making sequences -/

/-- `Seq.repeated(char, int)` (Seq.java:102-106). -/
def repeated (c : JChar) (count : Int) : Out Atomic := do
  checkArgument (decide (count ≥ 1)) (js! "count < 1")
  if count = 1 then return .ch c
  return .repeated c count.toNat

/-- `Seq.wrap(String)` (Seq.java:116-124). -/
def wrap (s : Option JStr) : Out Atomic := do
  let s ← checkNotNull s (js! "s")
  return Atomic.wrap s

/-- `Seq.wrap(String, int, int)` (Seq.java:145-152). -/
def wrapRange (s : Option JStr) (start stop : Int) : Out Atomic := do
  let s ← checkNotNull s (js! "s")
  checkPositionIndexes start stop s.length
  if start = stop then return .empty
  if stop = start + 1 then return .ch (← lift (charAtRaw s start.toNat))
  return .strView s start.toNat (stop - start).toNat false

/-- `Seq.wrap(String, int)` (Seq.java:133-135): `s.length()` comes before the check. -/
def wrapFrom (s : Option JStr) (start : Int) : Out Atomic :=
  match s with
  | none => .error ⟨.nullPointer, .unsaid⟩
  | some t => wrapRange s start t.length

/-- `Seq.forArray(char[], int, int)` (Seq.java:164-168); `start + length` is an `int` sum. -/
def forArrayRange (a : Option JStr) (start length : Int) : Out Atomic := do
  let a ← checkNotNull a (js! "ch")
  checkPositionIndexes start (wrap32 (start + length)) a.length
  return .charArray a start.toNat length.toNat false

/-- `Seq.forArray(char[])` (Seq.java:178-181). -/
def forArray (a : Option JStr) : Out Atomic := do
  let a ← checkNotNull a (js! "ch")
  return Atomic.forArray a

/-- `LazySeq.buildEagerly` (LazySeq.java:74-82), for an action that appends `out`. -/
def buildEagerly (out : JStr) (length : Nat) : Out JStr :=
  if length ≠ out.length then
    .error ⟨.illegalState, .says (js! "Length mismatch: expected " ++ intToString length ++ js! " but got " ++
      intToString out.length)⟩
  else .ok out

/-- `Seq.lazy` (Seq.java:206-217), for an action that appends `out`. -/
def mkLazy (action : Option JStr) (length : Int) : Out Atomic := do
  let out ← checkNotNull action (js! "action")
  checkArgument (decide (length ≥ 0)) (js! "length < 0")
  if length = 0 then return .empty
  else if length = 1 then
    let s ← buildEagerly out 1
    return .ch (← lift (charAtRaw s 0))
  else return .lazy out length.toNat

/-! ### Putting sequences together -/

/-- `Seq.concat` (Seq.java:228-232). -/
def concat (left right : Option Seq) : Out Seq := do
  let left ← checkNotNull left (js! "left")
  let right ← checkNotNull right (js! "right")
  return Seq.mkConcat left right

/-- The loop of `Seq.join` over the elements (Seq.java:261-264). -/
def joinChecks : List (Option Atomic) → Out (List Atomic)
  | [] => .ok []
  | a :: rest => do
    let a ← checkNotNull a (js! "seqElement")
    return a :: (← joinChecks rest)

/-- `Seq.join` (Seq.java:252-267).  The result can be `null`: the only element is not checked. -/
def join (l : Option (List (Option Atomic))) : Out (Option Seq) := do
  match ← checkNotNull l (js! "atomicSeqs") with
  | [] => return some .empty
  | [a] => return a.map .atom
  | l => do
    let es ← joinChecks l
    return some (.array es ((es.map Atomic.length).sum))

/-- `append` (Seq.java:286-289, Concat.java:99-102, EmptySeq.java:17-19): the empty sequence returns its argument, the
others ask it `isEmpty()`. -/
def append (self : Seq) (s : Option Seq) : Out (Option Seq) :=
  match self, s with
  | .atom .empty, s => .ok s
  | _, none => .error ⟨.nullPointer, .unsaid⟩
  | self, some s => if s.isEmpty then .ok (some self) else do return some (← concat (some self) (some s))

/-- `prepend` (Seq.java:275-278, Concat.java:93-96, EmptySeq.java:12-14). -/
def prepend (self : Seq) (s : Option Seq) : Out (Option Seq) :=
  match self, s with
  | .atom .empty, s => .ok s
  | _, none => .error ⟨.nullPointer, .unsaid⟩
  | self, some s => if s.isEmpty then .ok (some self) else do return some (← concat (some s) (some self))

/-- `map` (Seq.java:349-352). -/
def map (self : Seq) (mapper : Option (Seq → Out (Option Seq))) : Out (Option Seq) := do
  let f ← checkNotNull mapper (js! "mapper")
  f self

/-! ### Reading sequences -/

/-- `getCachedString` (LazySeq.java:167-174), for an action that appends `out`. -/
def getCachedString (out : JStr) (n : Nat) : Out JStr := buildEagerly out n

/-- `charAt` of each leaf class (EmptySeq.java:27-29, Repeated.java:90-93, StrView.java:44-48, CharArray.java:83-87,
LazySeq.java:118-123). -/
def leafCharAt : Atomic → Int → Out JChar
  | .empty, i => .error ⟨.indexOutOfBounds, .says (intToString i)⟩
  | .repeated c n, i => do
    checkPositionIndex i n
    return c
  | .strView s st n up, i => do
    checkPositionIndex i n
    return Atomic.caseOf up (← lift (charAtRaw s (st + i.toNat)))
  | .charArray a st n up, i => do
    checkPositionIndex i n
    return Atomic.caseOf up (← lift (charAtRaw a (st + i.toNat)))
  | .lazy out n, i => do
    checkPositionIndex i n
    lift (charAtRaw (← getCachedString out n) i.toNat)
  | .failing _ n e, i => do
    checkPositionIndex i n
    .error ⟨e, .unsaid⟩

/-- `subSequence` of each leaf class (EmptySeq.java:37-40, Repeated.java:96-100, StrView.java:26-36,
CharArray.java:90-100, LazySeq.java:90-95). -/
def leafSubSequence : Atomic → Int → Int → Out Atomic
  | .empty, i, j => if i = 0 ∧ j = 0 then .ok .empty else .error ⟨.illegalArgument, .absent⟩
  | .repeated c n, i, j => do
    checkPositionIndexes i j n
    if i = j then return .empty
    return .repeated c (j - i).toNat
  | .strView s st n up, i, j => do
    checkPositionIndexes i j n
    if i = j then return .empty
    if j = i + 1 then return .ch (Atomic.caseOf up (← lift (charAtRaw s (st + i.toNat))))
    return .strView s (st + i.toNat) (j - i).toNat up
  | .charArray a st n up, i, j => do
    checkPositionIndexes i j n
    if i = j then return .empty
    if j = i + 1 then return .ch (Atomic.caseOf up (← lift (charAtRaw a (st + i.toNat))))
    return .charArray a (st + i.toNat) (j - i).toNat up
  | .lazy out n, i, j => do
    checkPositionIndexes i j n
    wrapRange (some (← getCachedString out n)) i j
  | .failing _ n e, i, j => do
    checkPositionIndexes i j n
    .error ⟨e, .unsaid⟩

/-- The loop of `AtomicSeqIterable.charAt` (AtomicSeqIterable.java:68-74). -/
def charAtLoop : List Atomic → Int → Out JChar
  | [], _ => .error ⟨.assertion, .says (js! "Unreachable")⟩
  | a :: rest, i => if i < a.length then leafCharAt a i else charAtLoop rest (i - a.length)

/-- `charAt` (AtomicSeqIterable.java:66-75; leaves: their own). -/
def charAt : Seq → Int → Out JChar
  | .atom a, i => leafCharAt a i
  | s, i => do
    checkPositionIndex i s.length
    charAtLoop (← lift s.leaves) i

/-- The loop of `AtomicSeqIterable.subSequence` (AtomicSeqIterable.java:38-51). -/
def subLoop : List Atomic → (start stop : Int) → (buffer : List Atomic) → Out (List Atomic × Int × Int)
  | [], start, stop, buffer => .ok (buffer, start, stop)
  | a :: rest, start, stop, buffer =>
    if start < a.length then
      if stop ≤ a.length then do
        let p ← leafSubSequence a start stop
        return (buffer ++ [p], start, stop)
      else do
        let p ← leafSubSequence a start a.length
        subLoop rest 0 (stop - a.length) (buffer ++ [p])
    else subLoop rest (start - a.length) (stop - a.length) buffer

/-- `subSequence` (AtomicSeqIterable.java:32-57; leaves: their own). -/
def subSequence : Seq → Int → Int → Out Seq
  | .atom a, i, j => do return .atom (← leafSubSequence a i j)
  | s, i, j => do
    checkPositionIndexes i j s.length
    if i = j then return .empty
    if i = 0 ∧ j = s.length then return s
    let (buffer, start, stop) ← subLoop (← lift s.leaves) i j []
    match buffer with
    | [] => .error ⟨.assertion, .absent⟩
    | [a] => return .atom a
    | buffer => return .array buffer (stop - start)

/-! ### The other public calls -/

/-- `new Compiler(format)` (FastPrintf.java, FastPrintfImpl.java:68-69, Compiler.java:19-21): the check of
`FastPrintf.compile`. -/
def compileCheck (format : Option JStr) : Out JStr := checkNotNull format (js! "source")

/-- The checks of `format(Args)` (FastPrintfImpl.java:81). -/
def formatCheck {α : Type} (args : Option α) : Out α := checkNotNull args (js! "args")

/-- The checks of `format(Appendable, Args)` (FastPrintfImpl.java:95-96). -/
def formatToCheck {α β : Type} (builder : Option β) (args : Option α) : Out (β × α) := do
  let b ← checkNotNull builder (js! "builder")
  let a ← checkNotNull args (js! "args")
  return (b, a)

/-- The check of `setStringBuilderInitialCapacity` (FastPrintfImpl.java:132). -/
def capacityCheck (capacity : Int) : Out Unit :=
  checkArgument (decide (capacity > 0)) (js! "capacity must be positive")

/-- The check of `Args.createWithExpectedSize` (Args.java:135). -/
def expectedSizeCheck (n : Int) : Out Unit :=
  checkArgument (decide (n ≥ 0)) (js! "expectedSize must be non-negative")

/-- The check of `Args.of(Iterable)` (Args.java:84). -/
def iterableCheck {α : Type} (values : Option α) : Out α := checkNotNull values (js! "values")

end FastPrintf.Detail
