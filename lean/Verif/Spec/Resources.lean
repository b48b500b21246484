/-
How much of a resource a rope or a format string ought to need, by its shape alone.
-/
import Verif.Model.Seq
import Verif.Spec.Grammar

namespace FastPrintf.Spec

/-- The deque a depth-first walk of a rope needs: while the left part of a concatenation is walked
the right part waits, while the right part is walked nothing does; the elements of a joined rope all
wait for the first. -/
def waiting : Seq → Nat
  | .atom _ => 0
  | .concat l r _ _ => max (waiting l + 1) (waiting r)
  | .array es _ => es.length - 1

/-- The height of a rope as a tree. -/
def height : Seq → Nat
  | .atom _ => 0
  | .concat l r _ _ => max (height l) (height r) + 1
  | .array _ _ => 0

/-- The rope got by appending further sequences to a first one, one after the other. -/
def appendAll (a : Seq) (as : List Seq) : Seq := as.foldl Seq.append a

/-- The rope got by prepending further sequences to a first one, one after the other. -/
def prependAll (a : Seq) (as : List Seq) : Seq := as.foldl Seq.prepend a

/-- The tree that plain concatenation, without any rearrangement, builds from the same calls. -/
def plainAppendAll (a : Seq) (as : List Seq) : Seq := as.foldl Seq.concat0 a

/-- The method calls a piece of a format string leaves open until the whole string is read: one for a
literal run, two for a directive or `%%`. -/
def Piece.calls : Piece → Nat
  | .lit _ => 1
  | _ => 2

end FastPrintf.Spec
