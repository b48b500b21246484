/-
Composites of the user's own classes.

`AtomicSeqIterable` is a public interface too.  A class that implements it says how it unfolds, what its iterator
delivers and how long it is; the other methods have defaults.  `Model/OwnSeq` has leaves of any class, but only the two
composites of the library; here there are objects of such classes as well.
-/
import Verif.Model.OwnSeq

namespace FastPrintf.Own

/-- What an object of a user's class that implements `AtomicSeqIterable` (AtomicSeqIterable.java:22-152) answers.
Simplified: it answers the same each time, the class leaves the default methods as they are, and `unfold` does not
throw. -/
structure Given (α : Type) where
  /-- `length()`. -/
  length : Int
  /-- `elementCount()`. -/
  elementCount : Int
  /-- `iterator()`. -/
  walk : Walk α
  /-- `toString()`, for which there is no default; the one of `Object` shows class and hash code. -/
  shown : Res JStr

/-- A `Seq` that may contain such objects (Concat.java:39-51, SeqArray.java:24-37, AtomicSeqIterable.java:22).  For
`own`, `unfold` (AtomicSeqIterable.java:146) returns `first` and has pushed `rest`, so that the first of `rest` is on
top of the stack. -/
inductive Compound (α : Type)
  | atom (a : α)
  | concat (left right : Compound α) (length : Int) (elementCount : Int)
  | array (elems : List α) (length : Int)
  | own (given : Given α) (first : Compound α) (rest : List (Compound α))

namespace Compound
variable {α : Type} (ops : LeafOps α)

/-- `length()` (Concat.java:81-83, SeqArray.java:40-42; leaves and own composites: theirs). -/
def length : Compound α → Int
  | atom a => ops.length a
  | concat _ _ n _ => n
  | array _ n => n
  | own g _ _ => g.length

/-- `elementCount()` (AtomicSeq.java:12-14, Concat.java:129-131, SeqArray.java:95-97). -/
def elementCount : Compound α → Int
  | atom _ => 1
  | concat _ _ _ k => k
  | array es _ => es.length
  | own g _ _ => g.elementCount

/-- `isEmpty()` (Seq.java:359-361; leaves: their own). -/
def isEmpty : Compound α → Bool
  | atom a => ops.isEmpty a
  | s => s.length ops == 0

/-- `Concat.concat0` (Concat.java:75-78). -/
def concat0 (l r : Compound α) : Compound α :=
  concat l r (l.length ops + r.length ops) (l.elementCount + r.elementCount)

/-- `Concat.concat` (Concat.java:65-73), which `Seq.concat` (Seq.java:228-232) calls. -/
def mkConcat (l r : Compound α) : Compound α :=
  match l with
  | concat ll lr _ _ => concat0 ops ll (concat0 ops lr r)
  | l => concat0 ops l r

/-- `prepend` (Seq.java:275-278, Concat.java:93-96, EmptySeq.java:12-14). -/
def prepend (self s : Compound α) : Compound α :=
  match self with
  | atom a => if ops.isEmptySeq a then s else if s.isEmpty ops then self else mkConcat ops s self
  | _ => if s.isEmpty ops then self else mkConcat ops s self

/-- `append` (Seq.java:286-289, Concat.java:99-102, EmptySeq.java:17-19). -/
def append (self s : Compound α) : Compound α :=
  match self with
  | atom a => if ops.isEmptySeq a then s else if s.isEmpty ops then self else mkConcat ops self s
  | _ => if s.isEmpty ops then self else mkConcat ops self s

/-- `Seq.join` (Seq.java:252-267). -/
def join (l : List α) : Compound α :=
  match l with
  | [] => atom ops.empty
  | [a] => atom a
  | l => array l ((l.map ops.length).sum)

/-- The trampoline of `ConcatIterator.next` (Concat.java:166-171) with `unfold` (Concat.java:123-126,
SeqArray.java:85-92, AtomicSeqIterable.java:146). -/
def unfoldLoop : Compound α → List (Compound α) → Res (α × List (Compound α))
  | atom a, stack => .ok (a, stack)
  | concat l r _ _, stack => unfoldLoop l (r :: stack)
  | array [] _, _ => .error .indexOutOfBounds
  | array (a :: rest) _, stack => .ok (a, rest.map atom ++ stack)
  | own _ first rest, stack => unfoldLoop first (rest ++ stack)

mutual
/-- Number of leaves, used only as the fuel of the iterator loop (Concat.java:158-172). -/
def leafCount : Compound α → Nat
  | atom _ => 1
  | concat l r _ _ => l.leafCount + r.leafCount
  | array es _ => es.length
  | own _ first rest => first.leafCount + leafCounts rest
/-- The same for a stack (Concat.java:143). -/
def leafCounts : List (Compound α) → Nat
  | [] => 0
  | t :: ts => t.leafCount + leafCounts ts
end

/-- Running `ConcatIterator` (Concat.java:141-173) from a given stack. -/
def iterate : (fuel : Nat) → List (Compound α) → Walk α
  | _, [] => ⟨[], none⟩
  | 0, _ :: _ => ⟨[], some .assertion⟩
  | fuel + 1, node :: stack =>
    match unfoldLoop node stack with
    | .error e => ⟨[], some e⟩
    | .ok (a, stack') => ⟨a :: (iterate fuel stack').seen, (iterate fuel stack').fault⟩

/-- What `iterator()` delivers (Concat.java:111-113, SeqArray.java:65-67; own composites: theirs); a leaf has none. -/
def leaves : Compound α → Walk α
  | atom a => ⟨[a], none⟩
  | concat l r n k => iterate (leafCount (concat l r n k) + 1) [concat l r n k]
  | array es _ => ⟨es, none⟩
  | own g _ _ => g.walk

/-- `charAt` (AtomicSeqIterable.java:66-75; leaves: their own). -/
def charAt : Compound α → Int → Res JChar
  | atom a, i => ops.charAt a i
  | s, i => do
    checkPositionIndex i (s.length ops)
    Rope.charAtLoop ops s.leaves.fault s.leaves.seen i

/-- `subSequence` (AtomicSeqIterable.java:32-57; leaves: their own). -/
def subSequence : Compound α → Int → Int → Res (Compound α)
  | atom a, i, j => do return atom (← ops.subSequence a i j)
  | s, i, j => do
    checkPositionIndexes i j (s.length ops)
    if i = j then return atom ops.empty
    if i = 0 ∧ j = s.length ops then return s
    let (buffer, start, stop) ← Rope.subLoop ops s.leaves.fault s.leaves.seen i j []
    match buffer with
    | [] => .error .assertion
    | [a] => return atom a
    | buffer => return array buffer (stop - start)

/-- `indexOf` (AtomicSeqIterable.java:111-121; leaves: their own). -/
def indexOf : Compound α → JChar → Res Int
  | atom a, c => ops.indexOf a c
  | s, c => Rope.indexOfLoop ops s.leaves.fault c s.leaves.seen 0

/-- `upperCase` (AtomicSeqIterable.java:130-136; leaves: their own).  `new ArrayList<>(elementCount())` throws for a
negative number.  `SeqArray` has its own version (SeqArray.java:51-57), which makes the same sequence; its number of
elements is not negative. -/
def upperCase : Compound α → Res (Compound α)
  | atom a => do return atom (← ops.upperCase a)
  | s =>
    if s.elementCount < 0 then .error .illegalArgument
    else do
      let es ← s.leaves.seen.mapM ops.upperCase
      Rope.atEnd s.leaves.fault (.ok (array es (s.length ops)))

/-- `appendTo(StringBuilder)` (AtomicSeqIterable.java:97-102; leaves: their own). -/
def appendToSB : Compound α → JStr → Res JStr
  | atom a, sb => ops.appendToSB a sb
  | s, sb => Rope.appendLeavesSB ops s.leaves.fault s.leaves.seen sb

/-- `appendTo(Appendable)` (AtomicSeqIterable.java:84-88; leaves: their own). -/
def appendToCalls : Compound α → Res (List JStr)
  | atom a => ops.appendToCalls a
  | s => Rope.leavesCalls ops s.leaves.fault s.leaves.seen

/-- `toString()` (Concat.java:86-90, SeqArray.java:70-75; leaves and own composites: theirs). -/
def toStr : Compound α → Res JStr
  | atom a => ops.toStr a
  | own g _ _ => g.shown
  | s => s.appendToSB ops []

/-- `startsWith(char)` (Seq.java:385-387). -/
def startsWith (s : Compound α) (c : JChar) : Res Bool :=
  if s.length ops > 0 then do return (← s.charAt ops 0) == c else .ok false

/-- `SeqFormatter.spaceJustify` (appender/SeqFormatter.java:32-44). -/
def spaceJustify (ctx : FormatContext) (v0 : Compound α) : Compound α :=
  if SeqFormatter.width ctx > v0.length ops then
    let pad := atom (ops.repeated (ch! ' ') (SeqFormatter.width ctx - v0.length ops).toNat)
    if ctx.hasFlag .leftJustify then v0.append ops pad else v0.prepend ops pad
  else v0

/-- `SeqFormatter.s` (appender/SeqFormatter.java:344-351) for such an argument. -/
def formatS (ctx : FormatContext) (seq : Compound α) : Res (Compound α) := do
  if ctx.isPrecisionSet && ctx.precision < seq.length ops then
    return spaceJustify ops ctx (← seq.subSequence ops 0 ctx.precision)
  else return spaceJustify ops ctx seq

/-- What `%s` (`%S` with `up`) makes of the builder for such an argument (appender/DefaultAppender.java:69-72,
FastPrintfImpl.java:86). -/
def printS (ctx : FormatContext) (up : Bool) (seq : Compound α) (sb : JStr) : Res JStr := do
  let r ← formatS ops ctx seq
  let r ← if up then r.upperCase ops else .ok r
  r.appendToSB ops sb

end Compound
end FastPrintf.Own
