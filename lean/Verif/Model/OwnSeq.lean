/-
Ropes over leaves of any class.

`Seq` and `AtomicSeq` are public interfaces, so a program can have leaves of its own.  `Model/Seq` knows the leaf
classes of the library only; here the leaves are objects of an arbitrary type with the methods of `AtomicSeq`.
Also here: objects that implement `Seq` alone, neither as a leaf nor as a composite; `Seq.concat` takes them, and
the iterator fails on them.

A class of leaves may override the default methods of `Seq` that are fields below; `append`, `prepend` and
`startsWith` are the defaults (Seq.java:275-289, 385-387).  Sums of lengths are not wrapped, as in `Model/Seq`.
-/
import Verif.Model.SeqFormatter

namespace FastPrintf.Own

/-- The methods of the `AtomicSeq` objects of a program (AtomicSeq.java:3-19, Seq.java:270-405), the library's own
among them.  A method that reads an object and fails throws. -/
structure LeafOps (α : Type) where
  /-- `length()`. -/
  length : α → Int
  /-- `isEmpty()`. -/
  isEmpty : α → Bool
  /-- `charAt(int)`. -/
  charAt : α → Int → Res JChar
  /-- `subSequence(int, int)`. -/
  subSequence : α → Int → Int → Res α
  /-- `upperCase()`. -/
  upperCase : α → Res α
  /-- `indexOf(char)`. -/
  indexOf : α → JChar → Res Int
  /-- `appendTo(StringBuilder)`: the content of the builder afterwards. -/
  appendToSB : α → JStr → Res JStr
  /-- `appendTo(Appendable)`: the texts appended, one for each call. -/
  appendToCalls : α → Res (List JStr)
  /-- `toString()`. -/
  toStr : α → Res JStr
  /-- `Seq.repeated(char, int)` (Seq.java:102-106), made by the library. -/
  repeated : JChar → Nat → α
  /-- `Seq.empty()` (Seq.java:239-241). -/
  empty : α
  /-- Whether the object is the `EmptySeq`, which overrides `append` and `prepend` (EmptySeq.java:12-19). -/
  isEmptySeq : α → Bool

/-- A `Seq` over such leaves.  `other` is an object whose class implements `Seq`, but neither `AtomicSeq` nor
`AtomicSeqIterable`, by what it answers to `length()` and `elementCount()` (seq/Seq.java:26,
seq/AtomicSeq.java:3, seq/Concat.java:39-51, seq/SeqArray.java:24-37). -/
inductive Rope (α : Type)
  | atom (a : α)
  | concat (left right : Rope α) (length : Int) (elementCount : Int)
  | array (elems : List α) (length : Int)
  | other (length : Int) (elementCount : Int)

/-- The leaves that an iterator delivers, and the exception it throws after them, if any
(seq/Concat.java:141-173, seq/SeqArray.java:100-120). -/
structure Walk (α : Type) where
  seen : List α
  fault : Option Err

namespace Rope
variable {α : Type} (ops : LeafOps α)

/-- `length()` (Concat.java:81-83, SeqArray.java:40-42). -/
def length : Rope α → Int
  | atom a => ops.length a
  | concat _ _ n _ => n
  | array _ n => n
  | other n _ => n

/-- `elementCount()` (AtomicSeq.java:12-14, Concat.java:129-131, SeqArray.java:95-97). -/
def elementCount : Rope α → Int
  | atom _ => 1
  | concat _ _ _ k => k
  | array es _ => es.length
  | other _ k => k

/-- `isEmpty()` (Seq.java:359-361; leaves: their own). -/
def isEmpty : Rope α → Bool
  | atom a => ops.isEmpty a
  | s => s.length ops == 0

/-- `Concat.concat0` (Concat.java:75-78). -/
def concat0 (l r : Rope α) : Rope α :=
  concat l r (l.length ops + r.length ops) (l.elementCount + r.elementCount)

/-- `Concat.concat` (Concat.java:65-73), which `Seq.concat` (Seq.java:228-232) calls. -/
def mkConcat (l r : Rope α) : Rope α :=
  match l with
  | concat ll lr _ _ => concat0 ops ll (concat0 ops lr r)
  | l => concat0 ops l r

/-- `prepend` (Seq.java:275-278, Concat.java:93-96, EmptySeq.java:12-14). -/
def prepend (self s : Rope α) : Rope α :=
  match self with
  | atom a => if ops.isEmptySeq a then s else if s.isEmpty ops then self else mkConcat ops s self
  | _ => if s.isEmpty ops then self else mkConcat ops s self

/-- `append` (Seq.java:286-289, Concat.java:99-102, EmptySeq.java:17-19). -/
def append (self s : Rope α) : Rope α :=
  match self with
  | atom a => if ops.isEmptySeq a then s else if s.isEmpty ops then self else mkConcat ops self s
  | _ => if s.isEmpty ops then self else mkConcat ops self s

/-- `Seq.join` (Seq.java:252-267). -/
def join (l : List α) : Rope α :=
  match l with
  | [] => atom ops.empty
  | [a] => atom a
  | l => array l ((l.map ops.length).sum)

/-- The trampoline of `ConcatIterator.next` (Concat.java:166-171) with `unfold` (Concat.java:123-126,
SeqArray.java:85-92).  The cast at the end (171) fails for an object that is no leaf. -/
def unfoldLoop : Rope α → List (Rope α) → Res (α × List (Rope α))
  | atom a, stack => .ok (a, stack)
  | concat l r _ _, stack => unfoldLoop l (r :: stack)
  | array [] _, _ => .error .indexOutOfBounds
  | array (a :: rest) _, stack => .ok (a, rest.map atom ++ stack)
  | other _ _, _ => .error .classCast

/-- Number of leaves, used only as the fuel of the iterator loop.  The loop is in seq/Concat.java:158-172. -/
def leafCount : Rope α → Nat
  | atom _ => 1
  | concat l r _ _ => l.leafCount + r.leafCount
  | array es _ => es.length
  | other _ _ => 1

/-- Running `ConcatIterator` (Concat.java:141-173) from a given stack. -/
def iterate : (fuel : Nat) → List (Rope α) → Walk α
  | _, [] => ⟨[], none⟩
  | 0, _ :: _ => ⟨[], some .assertion⟩
  | fuel + 1, node :: stack =>
    match unfoldLoop node stack with
    | .error e => ⟨[], some e⟩
    | .ok (a, stack') => ⟨a :: (iterate fuel stack').seen, (iterate fuel stack').fault⟩

/-- What `iterator()` delivers (Concat.java:111-113, SeqArray.java:65-67); a leaf and an `other` have none. -/
def leaves : Rope α → Walk α
  | atom a => ⟨[a], none⟩
  | concat l r n k => iterate (leafCount (concat l r n k)) [concat l r n k]
  | array es _ => ⟨es, none⟩
  | other _ _ => ⟨[], some .classCast⟩

/-- The end of an iteration: an exception of the iterator, or `r` (seq/AtomicSeqIterable.java:38-51, 68-74,
85-87, 99-101, 113-120, 132-134). -/
def atEnd {β : Type} (fault : Option Err) (r : Res β) : Res β :=
  match fault with
  | some e => .error e
  | none => r

/-- The loop of `AtomicSeqIterable.charAt` (AtomicSeqIterable.java:68-74). -/
def charAtLoop (fault : Option Err) : List α → Int → Res JChar
  | [], _ => atEnd fault (.error .assertion)
  | a :: rest, i => if i < ops.length a then ops.charAt a i else charAtLoop fault rest (i - ops.length a)

/-- `charAt` of a composite (AtomicSeqIterable.java:66-75); leaves have their own, and for an `other` the model has
none. -/
def charAt : Rope α → Int → Res JChar
  | atom a, i => ops.charAt a i
  | s, i => do
    checkPositionIndex i (s.length ops)
    charAtLoop ops s.leaves.fault s.leaves.seen i

/-- The loop of `AtomicSeqIterable.subSequence` (AtomicSeqIterable.java:38-51). -/
def subLoop (fault : Option Err) : List α → (start stop : Int) → (buffer : List α) → Res (List α × Int × Int)
  | [], start, stop, buffer => atEnd fault (.ok (buffer, start, stop))
  | a :: rest, start, stop, buffer =>
    if start < ops.length a then
      if stop ≤ ops.length a then do
        let p ← ops.subSequence a start stop
        return (buffer ++ [p], start, stop)
      else do
        let p ← ops.subSequence a start (ops.length a)
        subLoop fault rest 0 (stop - ops.length a) (buffer ++ [p])
    else subLoop fault rest (start - ops.length a) (stop - ops.length a) buffer

/-- `subSequence` (AtomicSeqIterable.java:32-57; leaves: their own). -/
def subSequence : Rope α → Int → Int → Res (Rope α)
  | atom a, i, j => do return atom (← ops.subSequence a i j)
  | s, i, j => do
    checkPositionIndexes i j (s.length ops)
    if i = j then return atom ops.empty
    if i = 0 ∧ j = s.length ops then return s
    let (buffer, start, stop) ← subLoop ops s.leaves.fault s.leaves.seen i j []
    match buffer with
    | [] => .error .assertion
    | [a] => return atom a
    | buffer => return array buffer (stop - start)

/-- The loop of `AtomicSeqIterable.indexOf` (AtomicSeqIterable.java:112-120). -/
def indexOfLoop (fault : Option Err) (c : JChar) : List α → Int → Res Int
  | [], _ => atEnd fault (.ok (-1))
  | a :: rest, currentLength => do
    let index ← ops.indexOf a c
    if index ≠ -1 then return index + currentLength
    indexOfLoop fault c rest (currentLength + ops.length a)

/-- `indexOf` (AtomicSeqIterable.java:111-121; leaves: their own). -/
def indexOf : Rope α → JChar → Res Int
  | atom a, c => ops.indexOf a c
  | s, c => indexOfLoop ops s.leaves.fault c s.leaves.seen 0

/-- `upperCase` (AtomicSeqIterable.java:130-136, SeqArray.java:51-57; leaves: their own). -/
def upperCase : Rope α → Res (Rope α)
  | atom a => do return atom (← ops.upperCase a)
  | s => do
    let es ← s.leaves.seen.mapM ops.upperCase
    atEnd s.leaves.fault (.ok (array es (s.length ops)))

/-- The loop of `AtomicSeqIterable.appendTo(StringBuilder)` (AtomicSeqIterable.java:99-101). -/
def appendLeavesSB (fault : Option Err) : List α → JStr → Res JStr
  | [], sb => atEnd fault (.ok sb)
  | a :: rest, sb => do appendLeavesSB fault rest (← ops.appendToSB a sb)

/-- `appendTo(StringBuilder)` (AtomicSeqIterable.java:97-102). -/
def appendToSB : Rope α → JStr → Res JStr
  | atom a, sb => ops.appendToSB a sb
  | s, sb => appendLeavesSB ops s.leaves.fault s.leaves.seen sb

/-- The loop of `AtomicSeqIterable.appendTo(Appendable)` (AtomicSeqIterable.java:85-87). -/
def leavesCalls (fault : Option Err) : List α → Res (List JStr)
  | [] => atEnd fault (.ok [])
  | a :: rest => do
    let h ← ops.appendToCalls a
    return h ++ (← leavesCalls fault rest)

/-- `appendTo(Appendable)` (AtomicSeqIterable.java:84-88). -/
def appendToCalls : Rope α → Res (List JStr)
  | atom a => ops.appendToCalls a
  | s => leavesCalls ops s.leaves.fault s.leaves.seen

/-- `toString()` (Concat.java:86-90, SeqArray.java:70-75; leaves: their own). -/
def toStr : Rope α → Res JStr
  | atom a => ops.toStr a
  | s => s.appendToSB ops []

/-- `startsWith(char)` (Seq.java:385-387). -/
def startsWith (s : Rope α) (c : JChar) : Res Bool :=
  if s.length ops > 0 then do return (← s.charAt ops 0) == c else .ok false

/-- `SeqFormatter.spaceJustify` (appender/SeqFormatter.java:32-44). -/
def spaceJustify (ctx : FormatContext) (v0 : Rope α) : Rope α :=
  if SeqFormatter.width ctx > v0.length ops then
    let pad := atom (ops.repeated (ch! ' ') (SeqFormatter.width ctx - v0.length ops).toNat)
    if ctx.hasFlag .leftJustify then v0.append ops pad else v0.prepend ops pad
  else v0

/-- `SeqFormatter.s` (appender/SeqFormatter.java:344-351) for such an argument. -/
def formatS (ctx : FormatContext) (seq : Rope α) : Res (Rope α) := do
  if ctx.isPrecisionSet && ctx.precision < seq.length ops then
    return spaceJustify ops ctx (← seq.subSequence ops 0 ctx.precision)
  else return spaceJustify ops ctx seq

/-- What `%s` (`%S` with `up`) makes of the builder for such an argument (appender/DefaultAppender.java:69-72,
FastPrintfImpl.java:86). -/
def printS (ctx : FormatContext) (up : Bool) (seq : Rope α) (sb : JStr) : Res JStr := do
  let r ← formatS ops ctx seq
  let r ← if up then r.upperCase ops else .ok r
  r.appendToSB ops sb

end Rope
end FastPrintf.Own
