/-
Sequences over arrays that their owner goes on changing.

In the rest of the model a `CharArray` holds the content of its array.  Here it holds a reference: the
content is looked up at each call, in the heap of that moment.
-/
import Verif.Model.Cache

namespace FastPrintf

/-- The contents of the `char` arrays, by reference.  Arrays never change their length.  The field is
seq/CharArray.java:10. -/
abbrev Heap := Nat → JStr

/-- `ch[i] = c` on the array `ref`.  Done by the owner of the array that seq/CharArray.java:36-38 wraps. -/
def Heap.write (h : Heap) (ref i : Nat) (c : JChar) : Heap :=
  fun r => if r = ref then (h r).set i c else h r

/-- A leaf as the caller holds it: a `CharArray` with its reference (seq/CharArray.java:10-22), or any
other leaf, which holds no array. -/
inductive ViewLeaf
  | other (a : Atomic)
  | view (ref start length : Nat) (up : Bool)
  deriving DecidableEq, Repr

namespace ViewLeaf

/-- The leaf as it is in the heap of the moment (seq/CharArray.java:78-202 with the array of line 10 as it
is). -/
def now (h : Heap) : ViewLeaf → Atomic
  | other a => a
  | view ref st n up => .charArray (h ref) st n up

/-- `Seq.forArray(char[])` (Seq.java:178-181, CharArray.java:36-38): the array is shared. -/
def forArray (h : Heap) (ref : Nat) : ViewLeaf := view ref 0 (h ref).length false

/-- `Seq.forArray(char[], int, int)` (Seq.java:164-168, CharArray.java:36-38). -/
def forArrayRange (h : Heap) (ref : Nat) (start length : Int) : Res ViewLeaf := do
  checkPositionIndexes start (wrap32 (start + length)) (h ref).length
  return view ref start.toNat length.toNat false

/-- `subSequence` (CharArray.java:89-100): one character is read at once, a longer slice shares the
array. -/
def subSequence (h : Heap) : ViewLeaf → Int → Int → Res ViewLeaf
  | other a, i, j => do return other (← a.subSequence i j)
  | view ref st n up, i, j => do
    checkPositionIndexes i j n
    if i = j then return other .empty
    if j = i + 1 then return other (.ch (Atomic.caseOf up (← charAtRaw (h ref) (st + i.toNat))))
    return view ref (st + i.toNat) (j - i).toNat up

/-- `upperCase` (CharArray.java:167-174): shares the array. -/
def upperCase : ViewLeaf → Res ViewLeaf
  | other a => do return other (← a.upperCase)
  | view ref st n _ => .ok (view ref st n true)

/-- `hashCode()` with the field `hash` (CharArray.java:57-75): the value returned and the field
afterwards. -/
def hashCode (h : Heap) (ref st n : Nat) (up : Bool) (field : BitVec 32) :
    Res (BitVec 32 × BitVec 32) :=
  if field = 0#32 then do
    let hash ← Atomic.arrayHash (h ref) st n up
    return (hash, hash)
  else .ok (field, field)

/-- Several calls of `hashCode()` on the same object, each with the heap of its moment: the values
returned (seq/CharArray.java:58-75). -/
def hashCodes (ref st n : Nat) (up : Bool) : (field : BitVec 32) → List Heap → Res (List (BitVec 32))
  | _, [] => .ok []
  | field, h :: hs => do
    let (r, field') ← hashCode h ref st n up field
    return r :: (← hashCodes ref st n up field' hs)

end ViewLeaf
end FastPrintf
