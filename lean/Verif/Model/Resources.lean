/-
Two resources the code uses up: the deque of the rope iterator and the call stack of the compiler.

Both are read off the model by running the same steps and recording, instead of the result, how much
of the resource is in use.
-/
import Verif.Model.Compiler
import Verif.Model.Seq

namespace FastPrintf

namespace Seq

/-- The greatest size of the deque inside the trampoline loop (Concat.java:166-168), entered with
`size` elements left on the deque: each `Concat.unfold` pushes one (Concat.java:123-126), and
`SeqArray.unfold` pushes all elements but the first (SeqArray.java:85-92). -/
def unfoldPeak : Seq → (size : Nat) → Nat
  | atom _, size => size
  | concat l _ _ _, size => unfoldPeak l (size + 1)
  | array es _, size => size + (es.length - 1)

/-- The greatest size of the deque while `ConcatIterator` (Concat.java:141-173) runs to exhaustion,
from a given deque on; the steps are those of `iterate`. -/
def iteratePeak : (fuel : Nat) → List Seq → Nat
  | _, [] => 0
  | 0, _ :: _ => 0
  | fuel + 1, node :: stack =>
    match unfoldLoop node stack with
    | .ok (_, stack') =>
      max (stack.length + 1) (max (unfoldPeak node stack.length) (iteratePeak fuel stack'))
    | .error _ => max (stack.length + 1) (unfoldPeak node stack.length)

/-- The greatest size of the deque during a whole iteration over the leaves: a `Concat` starts with
itself on the deque (Concat.java:111-113, 145-150); an array and a leaf use no deque
(SeqArray.java:65-67). -/
def dequePeak (s : Seq) : Nat :=
  match s with
  | concat l r n k => iteratePeak (leafCount (concat l r n k)) [concat l r n k]
  | _ => 0

/-- The capacity asked for when the deque is created (Concat.java:111-113):
`Math.max(5, elementCount >> 2)`. -/
def dequeCapacity (s : Seq) : Int := max 5 (s.elementCount / 4)

end Seq

namespace Compiler

/-- The greatest number of frames of `parseNext`, `forPattern` and `forFixedString` that are open at
the same time during a call of `parseNext()` (Compiler.java:31-40, 42-63, 203-214): none of the tail
calls frees its caller's frame.  The calls below them (`flags`, `width`, …) return before the next
piece is begun and are not counted. -/
def frames (env : DateSyntax) : (fuel : Nat) → (rest : JStr) → (pos : Nat) → Nat
  | 0, _, _ => 0
  | fuel + 1, rest, pos =>
    match rest with
    | [] => 1
    | c :: rest' =>
      if c = ch! '%' then
        2 + (match forPattern env rest' (pos + 1) with
          | .ok (_, rest1, pos1) => frames env fuel rest1 pos1
          | .error _ => 0)
      else
        match literalRun (c :: rest') with
        | (_, []) => 2
        | (lit, _ :: rest1) =>
          3 + (match forPattern env rest1 (pos + lit.length + 1) with
            | .ok (_, rest2, pos2) => frames env fuel rest2 pos2
            | .error _ => 0)

/-- The frames open at the deepest moment of `compile()` (Compiler.java:23-25). -/
def compileFrames (env : DateSyntax) (source : JStr) : Nat :=
  frames env (source.length + 1) source 0

end Compiler
end FastPrintf
