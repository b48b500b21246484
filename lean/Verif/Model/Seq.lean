/-
Model of the rope library `io.fastprintf.seq`.

`Atomic` models the classes implementing `AtomicSeq`, `Seq` adds the two composite classes.  The
stored length fields are kept as in the Java classes: nothing in the types forces them to agree with
the content.  Lengths are unbounded integers (Java: `int`; `Model/IntLengths` has them wrap around, and
C77 compares the two), indexes are integers so that negative indexes are rejected by the same checks.
-/
import Verif.Model.Utils

namespace FastPrintf

/-- The classes implementing `AtomicSeq` (seq/EmptySeq.java:5, seq/Repeated.java:11-28,
seq/StrView.java:7-23, seq/CharArray.java:8-22, seq/LazySeq.java:40-63). -/
inductive Atomic
  /-- `EmptySeq` (seq/EmptySeq.java:5). -/
  | empty
  /-- `Repeated` (seq/Repeated.java:11-28): the fields `c` and `count`. -/
  | repeated (c : JChar) (count : Nat)
  /-- `StrView` (seq/StrView.java:7-23). -/
  | strView (str : JStr) (start length : Nat) (upper : Bool)
  /-- `CharArray` (seq/CharArray.java:8-22); for the cached `hash` see `Model/Cache`.  The array is not
  mutated by the library after wrapping; for mutation by a caller of `Seq.forArray` see `Model/Views`. -/
  | charArray (ch : JStr) (start length : Nat) (upper : Bool)
  /-- `LazySeq` (seq/LazySeq.java:40-63): `out` is the text the action appends, `length` the declared
  length.  The action is taken to be a pure function; the cached string is then invisible
  (`Model/Cache` has the field and shows it, C58). -/
  | lazy (out : JStr) (length : Nat)
  /-- `LazySeq` with an action that throws: it appends `out` and then throws `err`. -/
  | failing (out : JStr) (length : Nat) (err : Err)
  deriving DecidableEq, Repr

/-- A `Seq`: a leaf, a `Concat` (seq/Concat.java:39-51) or a `SeqArray` (seq/SeqArray.java:24-37). -/
inductive Seq
  | atom (a : Atomic)
  | concat (left right : Seq) (length : Int) (elementCount : Int)
  | array (elems : List Atomic) (length : Int)
  deriving DecidableEq, Repr

namespace Atomic

/-- `length()` of each leaf class (EmptySeq.java:22-24, Repeated.java:80-82, StrView.java:39-41,
CharArray.java:78-80, LazySeq.java:108-111). -/
def length : Atomic → Int
  | empty => 0
  | repeated _ n => n
  | strView _ _ n _ => n
  | charArray _ _ n _ => n
  | lazy _ n => n
  | failing _ n _ => n

/-- `upperCase ? Utils.toUpperCase(c) : c` (StrView.java:47, CharArray.java:86). -/
def caseOf (upper : Bool) (c : JChar) : JChar := if upper then toUpperCase c else c

/-- `LazySeq.buildEagerly` followed by `toString` / `getCachedString` (LazySeq.java:74-82, 167-174). -/
def getCachedString (out : JStr) (length : Nat) : Res JStr :=
  if length = out.length then .ok out else .error .illegalState

/-- `Seq.ch(char)` (Seq.java:91-93) via `Repeated.ofSingleChar` (Repeated.java:53-58). -/
def ch (c : JChar) : Atomic := repeated c 1

/-- `Seq.repeated(char, int)` (Seq.java:102-106). -/
def mkRepeated (c : JChar) (count : Int) : Res Atomic :=
  if count ≥ 1 then
    if count = 1 then .ok (ch c) else .ok (repeated c count.toNat)
  else .error .illegalArgument

/-- `Seq.wrap(String)` (Seq.java:116-124). -/
def wrap (s : JStr) : Atomic :=
  match s with
  | [] => empty
  | [c] => ch c
  | s => strView s 0 s.length false

/-- `Seq.wrap(String, int, int)` (Seq.java:145-152). -/
def wrapRange (s : JStr) (start stop : Int) : Res Atomic := do
  checkPositionIndexes start stop s.length
  if start = stop then return empty
  if stop = start + 1 then return ch (← charAtRaw s start.toNat)
  return strView s start.toNat (stop - start).toNat false

/-- `Seq.forArray(char[], int, int)` (Seq.java:164-168). -/
def forArrayRange (a : JStr) (start length : Int) : Res Atomic := do
  checkPositionIndexes start (start + length) a.length
  return charArray a start.toNat length.toNat false

/-- `Seq.forArray(char[])` (Seq.java:178-181). -/
def forArray (a : JStr) : Atomic := charArray a 0 a.length false

/-- `Seq.lazy` (Seq.java:206-217). -/
def mkLazy (out : JStr) (length : Int) : Res Atomic :=
  if length ≥ 0 then
    if length = 0 then .ok empty
    else if length = 1 then do
      let s ← getCachedString out 1
      return ch (← charAtRaw s 0)
    else .ok (lazy out length.toNat)
  else .error .illegalArgument

/-- `Seq.lazy` (Seq.java:206-217) with an action that appends `out` and then throws. -/
def mkFailing (out : JStr) (length : Int) (err : Err) : Res Atomic :=
  if length ≥ 0 then
    if length = 0 then .ok empty
    else if length = 1 then .error err
    else .ok (failing out length.toNat err)
  else .error .illegalArgument

/-- `charAt` of each leaf class (EmptySeq.java:27-29, Repeated.java:90-93, StrView.java:44-48,
CharArray.java:83-87, LazySeq.java:118-123). -/
def charAt : Atomic → Int → Res JChar
  | empty, _ => .error .indexOutOfBounds
  | repeated c n, i => do
    checkPositionIndex i n
    return c
  | strView s st n up, i => do
    checkPositionIndex i n
    return caseOf up (← charAtRaw s (st + i.toNat))
  | charArray a st n up, i => do
    checkPositionIndex i n
    return caseOf up (← charAtRaw a (st + i.toNat))
  | lazy out n, i => do
    checkPositionIndex i n
    charAtRaw (← getCachedString out n) i.toNat
  | failing _ n e, i => do
    checkPositionIndex i n
    .error e

/-- `subSequence` of each leaf class (EmptySeq.java:37-40, Repeated.java:96-100, StrView.java:26-36,
CharArray.java:90-100, LazySeq.java:90-95). -/
def subSequence : Atomic → Int → Int → Res Atomic
  | empty, i, j => if i = 0 ∧ j = 0 then .ok empty else .error .illegalArgument
  | repeated c n, i, j => do
    checkPositionIndexes i j n
    if i = j then return empty
    return repeated c (j - i).toNat
  | strView s st n up, i, j => do
    checkPositionIndexes i j n
    if i = j then return empty
    if j = i + 1 then return ch (caseOf up (← charAtRaw s (st + i.toNat)))
    return strView s (st + i.toNat) (j - i).toNat up
  | charArray a st n up, i, j => do
    checkPositionIndexes i j n
    if i = j then return empty
    if j = i + 1 then return ch (caseOf up (← charAtRaw a (st + i.toNat)))
    return charArray a (st + i.toNat) (j - i).toNat up
  | lazy out n, i, j => do
    checkPositionIndexes i j n
    wrapRange (← getCachedString out n) i j
  | failing _ n e, i, j => do
    checkPositionIndexes i j n
    .error e

/-- `upperCase` of each leaf class (EmptySeq.java:43-45, Repeated.java:120-127, StrView.java:131-136,
CharArray.java:168-174, LazySeq.java:103-106). -/
def upperCase : Atomic → Res Atomic
  | empty => .ok empty
  | repeated c n =>
    if isLowerCase c then
      if n = 1 then .ok (ch (toUpperCase c)) else .ok (repeated (toUpperCase c) n)
    else .ok (repeated c n)
  | strView s st n _ => .ok (strView s st n true)
  | charArray a st n _ => .ok (charArray a st n true)
  | lazy out n => do
    match wrap (← getCachedString out n) with
    | strView s st m _ => return strView s st m true
    | repeated c m =>
      if isLowerCase c then
        if m = 1 then return ch (toUpperCase c) else return repeated (toUpperCase c) m
      else return repeated c m
    | other => return other
  | failing _ _ e => .error e

/-- First index `≥ i` among the next `n` positions whose (case-mapped) unit is `c`: the scanning
loops of `StrView.indexOf` and `CharArray.indexOf` (seq/StrView.java:76-82, seq/CharArray.java:189-201). -/
def scanFor (s : JStr) (st : Nat) (up : Bool) (c : JChar) : (n : Nat) → (i : Nat) → Res Int
  | 0, _ => .ok (-1)
  | n + 1, i => do
    let x ← charAtRaw s (st + i)
    if caseOf up x = c then return (i : Int) else scanFor s st up c n (i + 1)

/-- `StrView.fastIndexOf` (StrView.java:60-66). -/
def fastIndexOf (s : JStr) (st n : Nat) (c : JChar) : Int :=
  let index := indexOfFrom s c st
  if index = -1 ∨ index ≥ st + n then -1 else index - st

/-- `Seq.indexOf` default loop (Seq.java:369-377), used by `LazySeq`. -/
def scanCharAt (a : Atomic) (c : JChar) : (n : Nat) → (i : Nat) → Res Int
  | 0, _ => .ok (-1)
  | n + 1, i => do
    let x ← a.charAt i
    if x = c then return (i : Int) else scanCharAt a c n (i + 1)

/-- `indexOf` of each leaf class (EmptySeq.java:59-61, Repeated.java:142-144, StrView.java:69-86,
CharArray.java:182-202; LazySeq inherits Seq.java:369-377). -/
def indexOf : Atomic → JChar → Res Int
  | empty, _ => .ok (-1)
  | repeated c n, x => .ok (if c = x ∧ n > 0 then 0 else -1)
  | strView s st n up, x =>
    if up then
      if isLowerCase x then .ok (-1)
      else if !isUpperCase x then .ok (fastIndexOf s st n x)
      else scanFor s st true x n 0
    else .ok (fastIndexOf s st n x)
  | charArray a st n up, x =>
    if up then
      if isLowerCase x then .ok (-1) else scanFor a st true x n 0
    else scanFor a st false x n 0
  | lazy out n, x => scanCharAt (lazy out n) x n 0
  | failing out n e, x => scanCharAt (failing out n e) x n 0

/-- `Seq.ARRAY_APPEND_THRESHOLD` (Seq.java:83). -/
def arrayAppendThreshold : Nat := 16

/-- The loop `for (i = st; i < st + n; i++) sb.append(f(s.charAt(i)))` (seq/StrView.java:110-112,
seq/CharArray.java:105-107). -/
def appendLoop (s : JStr) (up : Bool) : (n : Nat) → (st : Nat) → JStr → Res JStr
  | 0, _, sb => .ok sb
  | n + 1, st, sb => do
    let c ← charAtRaw s st
    appendLoop s up n (st + 1) (sb ++ [caseOf up c])

/-- A range copy as done by `sb.append(CharSequence, int, int)`, `getChars`, `copyOfRange`
(seq/StrView.java:101, 127, seq/CharArray.java:109, 164). -/
def copyRange (s : JStr) (st n : Nat) : Res JStr :=
  if st + n ≤ s.length then .ok (slice s st n) else .error .indexOutOfBounds

/-- `appendTo(StringBuilder)` of each leaf class: the builder content afterwards
(EmptySeq.java:51, Repeated.java:61-77 and 136-139 (both appenders give the same text),
StrView.java:106-128, CharArray.java:102-113 and 159-165, LazySeq.java:156-159).
`LazySeq` runs its action without checking the length. -/
def appendToSB : Atomic → JStr → Res JStr
  | empty, sb => .ok sb
  | repeated c n, sb => .ok (sb ++ List.replicate n c)
  | strView s st n up, sb =>
    if up then
      if n < arrayAppendThreshold then appendLoop s true n st sb
      else do return sb ++ toUpperCaseArr (← copyRange s st n)
    else if st = 0 ∧ n = s.length then .ok (sb ++ s)
    else do return sb ++ (← copyRange s st n)
  | charArray a st n up, sb =>
    if up then
      if n < arrayAppendThreshold then appendLoop a true n st sb
      else do return sb ++ toUpperCaseArr (← copyRange a st n)
    else do return sb ++ (← copyRange a st n)
  | lazy out _, sb => .ok (sb ++ out)
  | failing _ _ e, _ => .error e

/-- What an `appendTo(StringBuilder)` that throws has added to the builder by then: the action of a
`LazySeq` writes straight to the builder (LazySeq.java:156-159).  The other leaves throw only when they are
built inconsistently, which the library never does. -/
def written : Atomic → JStr
  | failing out _ _ => out
  | _ => []

/-- The single-character `append` calls made by a loop over a range (seq/StrView.java:91-93,
seq/CharArray.java:148-154). -/
def chunkLoop (s : JStr) (up : Bool) : (n : Nat) → (st : Nat) → Res (List JStr)
  | 0, _ => .ok []
  | n + 1, st => do
    let c ← charAtRaw s st
    return [caseOf up c] :: (← chunkLoop s up n (st + 1))

/-- `appendTo(Appendable)` of each leaf class: the successive `append` calls, as the texts they
append (EmptySeq.java:48, Repeated.java:130-134, StrView.java:89-97, CharArray.java:146-156,
LazySeq.java:143-145). -/
def appendToCalls : Atomic → Res (List JStr)
  | empty => .ok []
  | repeated c n => .ok (List.replicate n [c])
  | strView s st n up =>
    if up then chunkLoop s true n st
    else do return [← copyRange s st n]
  | charArray a st n up => chunkLoop a up n st
  | lazy out n => do return [← getCachedString out n]
  | failing _ _ e => .error e

/-- `toString()` of each leaf class (EmptySeq.java:32-34, Repeated.java:102-117, StrView.java:51-58,
CharArray.java:116-123, LazySeq.java:132-134). -/
def toStr : Atomic → Res JStr
  | empty => .ok []
  | repeated c n => .ok (List.replicate n c)
  | strView s st n up => do
    let r ← copyRange s st n
    return if up then toUpperCaseArr r else r
  | charArray a st n up =>
    if up then
      if n < arrayAppendThreshold then appendLoop a true n st []
      else do return toUpperCaseArr (← copyRange a st n)
    else copyRange a st n
  | lazy out n => getCachedString out n
  | failing _ _ e => .error e

end Atomic

namespace Seq

/-- `length()` (Concat.java:81-83, SeqArray.java:40-42). -/
def length : Seq → Int
  | atom a => a.length
  | concat _ _ n _ => n
  | array _ n => n

/-- `elementCount()` (AtomicSeq.java:12-14, Concat.java:129-131, SeqArray.java:95-97). -/
def elementCount : Seq → Int
  | atom _ => 1
  | concat _ _ _ n => n
  | array es _ => es.length

/-- `isEmpty()` (Seq.java:359-361; the leaf overrides are equivalent). -/
def isEmpty (s : Seq) : Bool := s.length == 0

/-- `Seq.empty()` (Seq.java:239-241). -/
def empty : Seq := atom .empty
/-- `Seq.ch(char)` (Seq.java:91-93). -/
def ch (c : JChar) : Seq := atom (.ch c)
/-- `Seq.wrap(String)` (Seq.java:116-124). -/
def wrap (s : JStr) : Seq := atom (.wrap s)

/-- `Seq.repeated` (Seq.java:102-106). -/
def repeated (c : JChar) (n : Int) : Res Seq := do return atom (← Atomic.mkRepeated c n)

/-- `Concat.concat0` (Concat.java:75-78). -/
def concat0 (l r : Seq) : Seq :=
  concat l r (l.length + r.length) (l.elementCount + r.elementCount)

/-- `Concat.concat` (Concat.java:65-73), which `Seq.concat` (Seq.java:228-232) calls. -/
def mkConcat (l r : Seq) : Seq :=
  match l with
  | concat ll lr _ _ => concat0 ll (concat0 lr r)
  | _ => concat0 l r

/-- `prepend` (Seq.java:275-278, Concat.java:93-96; `EmptySeq.prepend` EmptySeq.java:12-14). -/
def prepend (self s : Seq) : Seq :=
  match self with
  | atom .empty => s
  | _ => if s.isEmpty then self else mkConcat s self

/-- `append` (Seq.java:286-289, Concat.java:99-102; `EmptySeq.append` EmptySeq.java:17-19). -/
def append (self s : Seq) : Seq :=
  match self with
  | atom .empty => s
  | _ => if s.isEmpty then self else mkConcat self s

/-- `Seq.join` (Seq.java:252-267). -/
def join (l : List Atomic) : Seq :=
  match l with
  | [] => empty
  | [a] => atom a
  | l => array l ((l.map Atomic.length).sum)

/-- The trampoline loop of `ConcatIterator.next` (Concat.java:166-168) with `Concat.unfold`
(Concat.java:123-126) and `SeqArray.unfold` (SeqArray.java:85-92): unfold composites, pushing the
other children, until a leaf is found.  An empty `SeqArray` would throw (`array[0]`). -/
def unfoldLoop : Seq → List Seq → Res (Atomic × List Seq)
  | atom a, stack => .ok (a, stack)
  | concat l r _ _, stack => unfoldLoop l (r :: stack)
  | array [] _, _ => .error .indexOutOfBounds
  | array (a :: rest) _, stack => .ok (a, rest.map atom ++ stack)

/-- Number of leaves, used only as the fuel of the iterator loop.  The loop is in seq/Concat.java:158-172. -/
def leafCount : Seq → Nat
  | atom _ => 1
  | concat l r _ _ => l.leafCount + r.leafCount
  | array es _ => es.length

/-- Running `ConcatIterator` (Concat.java:141-173) to exhaustion from a given stack. -/
def iterate : (fuel : Nat) → List Seq → Res (List Atomic)
  | _, [] => .ok []
  | 0, _ :: _ => .error .assertion
  | fuel + 1, node :: stack => do
    let (a, stack') ← unfoldLoop node stack
    return a :: (← iterate fuel stack')

/-- The leaves delivered by `iterator()` (Concat.java:111-113, SeqArray.java:65-67); a leaf is
treated as a one-element iteration.  All consumers read the iterator in order and have no effect on
it, so reading all leaves first changes nothing. -/
def leaves : Seq → Res (List Atomic)
  | atom a => .ok [a]
  | concat l r n k => iterate (leafCount (concat l r n k)) [concat l r n k]
  | array es _ => .ok es

/-- The loop of `AtomicSeqIterable.charAt` (AtomicSeqIterable.java:68-74). -/
def charAtLoop : List Atomic → Int → Res JChar
  | [], _ => .error .assertion
  | a :: rest, i => if i < a.length then a.charAt i else charAtLoop rest (i - a.length)

/-- `charAt` (AtomicSeqIterable.java:66-75; leaves: their own). -/
def charAt : Seq → Int → Res JChar
  | atom a, i => a.charAt i
  | s, i => do
    checkPositionIndex i s.length
    charAtLoop (← s.leaves) i

/-- The loop of `AtomicSeqIterable.subSequence` (AtomicSeqIterable.java:38-51): returns the buffer and
the final values of the mutated locals `start` and `end`. -/
def subLoop : List Atomic → (start stop : Int) → (buffer : List Atomic) →
    Res (List Atomic × Int × Int)
  | [], start, stop, buffer => .ok (buffer, start, stop)
  | a :: rest, start, stop, buffer =>
    let seqLength := a.length
    if start < seqLength then
      if stop ≤ seqLength then do
        let p ← a.subSequence start stop
        return (buffer ++ [p], start, stop)
      else do
        let p ← a.subSequence start seqLength
        subLoop rest 0 (stop - seqLength) (buffer ++ [p])
    else subLoop rest (start - seqLength) (stop - seqLength) buffer

/-- `subSequence` (AtomicSeqIterable.java:32-57; leaves: their own).  Line 56 uses the mutated
`end - start` as the length of the new `SeqArray`. -/
def subSequence : Seq → Int → Int → Res Seq
  | atom a, i, j => do return atom (← a.subSequence i j)
  | s, i, j => do
    let length := s.length
    checkPositionIndexes i j length
    if i = j then return empty
    if i = 0 ∧ j = length then return s
    let (buffer, start, stop) ← subLoop (← s.leaves) i j []
    match buffer with
    | [] => .error .assertion
    | [a] => return atom a
    | buffer => return array buffer (stop - start)

/-- The loop of `AtomicSeqIterable.indexOf` (AtomicSeqIterable.java:112-120). -/
def indexOfLoop (c : JChar) : List Atomic → Int → Res Int
  | [], _ => .ok (-1)
  | a :: rest, currentLength => do
    let index ← a.indexOf c
    if index ≠ -1 then return index + currentLength
    indexOfLoop c rest (currentLength + a.length)

/-- `indexOf` (AtomicSeqIterable.java:111-121; leaves: their own). -/
def indexOf : Seq → JChar → Res Int
  | atom a, c => a.indexOf c
  | s, c => do indexOfLoop c (← s.leaves) 0

/-- `upperCase` (AtomicSeqIterable.java:130-136, SeqArray.java:51-57; leaves: their own). -/
def upperCase : Seq → Res Seq
  | atom a => do return atom (← a.upperCase)
  | s => do return array (← (← s.leaves).mapM Atomic.upperCase) s.length

/-- The loop of `AtomicSeqIterable.appendTo(StringBuilder)` (AtomicSeqIterable.java:99-101). -/
def appendLeavesSB : List Atomic → JStr → Res JStr
  | [], sb => .ok sb
  | a :: rest, sb => do appendLeavesSB rest (← a.appendToSB sb)

/-- `appendTo(StringBuilder)` (AtomicSeqIterable.java:97-102): the builder content afterwards. -/
def appendToSB : Seq → JStr → Res JStr
  | atom a, sb => a.appendToSB sb
  | s, sb => do appendLeavesSB (← s.leaves) sb

/-- What `appendTo(StringBuilder)` has made of the builder when it throws: the leaves before the one that
throws are there, and what that one wrote (seq/AtomicSeqIterable.java:97-102). -/
def leavesSBLeft : List Atomic → JStr → JStr
  | [], sb => sb
  | a :: rest, sb =>
    match a.appendToSB sb with
    | .ok sb' => leavesSBLeft rest sb'
    | .error _ => sb ++ a.written

/-- The same for a whole sequence (AtomicSeqIterable.java:97-102). -/
def leftInSB : Seq → JStr → JStr
  | atom a, sb => sb ++ a.written
  | s, sb =>
    match s.leaves with
    | .ok es => leavesSBLeft es sb
    | .error _ => sb

/-- The loop of `AtomicSeqIterable.appendTo(Appendable)` (AtomicSeqIterable.java:85-87). -/
def leavesCalls : List Atomic → Res (List JStr)
  | [] => .ok []
  | a :: rest => do
    let h ← a.appendToCalls
    return h ++ (← leavesCalls rest)

/-- `appendTo(Appendable)` (AtomicSeqIterable.java:84-88): the successive `append` calls. -/
def appendToCalls : Seq → Res (List JStr)
  | atom a => a.appendToCalls
  | s => do leavesCalls (← s.leaves)

/-- The `append` calls made before a leaf throws (seq/AtomicSeqIterable.java:84-88). -/
def leavesCallsBefore : List Atomic → List JStr
  | [] => []
  | a :: rest =>
    match a.appendToCalls with
    | .ok h => h ++ leavesCallsBefore rest
    | .error _ => []

/-- The `append` calls that `appendTo(Appendable)` (AtomicSeqIterable.java:84-88) has made when it throws.  A
`LazySeq` builds its text before it makes its only call (LazySeq.java:143-145). -/
def callsBefore : Seq → List JStr
  | atom _ => []
  | s =>
    match s.leaves with
    | .ok es => leavesCallsBefore es
    | .error _ => []

/-- `toString()` (Concat.java:86-90, SeqArray.java:70-75; leaves: their own). -/
def toStr : Seq → Res JStr
  | atom a => a.toStr
  | s => s.appendToSB []

/-- `startsWith(char)` (Seq.java:385-387). -/
def startsWith (s : Seq) (c : JChar) : Res Bool :=
  if s.length > 0 then do return (← s.charAt 0) == c else .ok false

end Seq
end FastPrintf
