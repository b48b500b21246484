/-
Specification vocabulary for character sequences: what text a rope stands for, and the plain-string
reading of a history of rope operations.  Nothing here refers to how the operations are implemented.
-/
import Verif.Model.Seq

namespace FastPrintf

namespace Spec

/-- ASCII upper-casing of one code unit, stated directly: `a..z` move down by 32, nothing else moves. -/
def upper (c : JChar) : JChar := if 97 ≤ c ∧ c ≤ 122 then c - 32 else c

/-- The characters `i, ..., j-1` of a text. -/
def sub (s : JStr) (i j : Nat) : JStr := (s.drop i).take (j - i)

/-- Index of the first occurrence, `-1` if absent. -/
def firstIndex (s : JStr) (c : JChar) : Int :=
  match s with
  | [] => -1
  | x :: xs => if x = c then 0 else if firstIndex xs c = -1 then -1 else firstIndex xs c + 1

/-- Text interleaved with a separator. -/
def joinWith (sep : JStr) : List JStr → JStr
  | [] => []
  | [s] => s
  | s :: t :: rest => s ++ sep ++ joinWith sep (t :: rest)

end Spec

/-- The text a leaf stands for. -/
def Atomic.text : Atomic → JStr
  | .empty => []
  | .repeated c n => List.replicate n c
  | .strView s st n up => ((s.drop st).take n).map (fun c => if up then Spec.upper c else c)
  | .charArray a st n up => ((a.drop st).take n).map (fun c => if up then Spec.upper c else c)
  | .lazy out _ => out
  | .failing _ _ _ => []

/-- The text a rope stands for: its leaves from left to right. -/
def Seq.text : Seq → JStr
  | .atom a => a.text
  | .concat l r _ _ => l.text ++ r.text
  | .array es _ => es.flatMap Atomic.text

/-- A finite history of leaf constructions. -/
inductive LeafExpr
  | empty
  | ch (c : JChar)
  | wrap (s : JStr)
  | wrapRange (s : JStr) (i j : Int)
  | repeated (c : JChar) (n : Int)
  | forArray (a : JStr)
  | forArrayRange (a : JStr) (start length : Int)
  | lazy (s : JStr)
  | upper (e : LeafExpr)
  | sub (e : LeafExpr) (i j : Int)

/-- A finite history of rope operations (every public constructor and combinator of `Seq` except
`subSequence` of a composite, which is treated separately). -/
inductive SeqExpr
  | leaf (e : LeafExpr)
  | concat (l r : SeqExpr)
  | append (l r : SeqExpr)
  | prepend (l r : SeqExpr)
  | join (es : List LeafExpr)
  | upper (e : SeqExpr)

/-- Running a leaf history in the model. -/
def LeafExpr.eval : LeafExpr → Res Atomic
  | .empty => .ok .empty
  | .ch c => .ok (.ch c)
  | .wrap s => .ok (.wrap s)
  | .wrapRange s i j => Atomic.wrapRange s i j
  | .repeated c n => Atomic.mkRepeated c n
  | .forArray a => .ok (.forArray a)
  | .forArrayRange a st n => Atomic.forArrayRange a st n
  | .lazy s => Atomic.mkLazy s s.length
  | .upper e => do (← e.eval).upperCase
  | .sub e i j => do (← e.eval).subSequence i j

/-- The plain-string reading of a leaf history; `none`: some argument is out of range. -/
def LeafExpr.plain : LeafExpr → Option JStr
  | .empty => some []
  | .ch c => some [c]
  | .wrap s => some s
  | .wrapRange s i j => if 0 ≤ i ∧ i ≤ j ∧ j ≤ s.length then some (Spec.sub s i.toNat j.toNat) else none
  | .repeated c n => if 1 ≤ n then some (List.replicate n.toNat c) else none
  | .forArray a => some a
  | .forArrayRange a st n =>
    if 0 ≤ st ∧ 0 ≤ n ∧ st + n ≤ a.length then some (Spec.sub a st.toNat (st + n).toNat) else none
  | .lazy s => some s
  | .upper e => e.plain.map (·.map Spec.upper)
  | .sub e i j => e.plain.bind fun s =>
    if 0 ≤ i ∧ i ≤ j ∧ j ≤ s.length then some (Spec.sub s i.toNat j.toNat) else none

/-- Running a rope history in the model. -/
def SeqExpr.eval : SeqExpr → Res Seq
  | .leaf e => do return .atom (← e.eval)
  | .concat l r => do return Seq.mkConcat (← l.eval) (← r.eval)
  | .append l r => do return (← l.eval).append (← r.eval)
  | .prepend l r => do return (← l.eval).prepend (← r.eval)
  | .join es => do return Seq.join (← es.mapM LeafExpr.eval)
  | .upper e => do (← e.eval).upperCase

/-- The plain-string reading of a rope history. -/
def SeqExpr.plain : SeqExpr → Option JStr
  | .leaf e => e.plain
  | .concat l r => l.plain.bind fun a => r.plain.map fun b => a ++ b
  | .append l r => l.plain.bind fun a => r.plain.map fun b => a ++ b
  | .prepend l r => l.plain.bind fun a => r.plain.map fun b => b ++ a
  | .join es => (es.mapM LeafExpr.plain).map List.flatten
  | .upper e => e.plain.map (·.map Spec.upper)

/-- The pieces a rope history puts side by side, from left to right: each leaf operation contributes
one piece, and the combinators only place pieces next to each other or upper-case them. -/
def SeqExpr.pieces : SeqExpr → List JStr
  | .leaf e => e.plain.toList
  | .concat l r => l.pieces ++ r.pieces
  | .append l r => l.pieces ++ r.pieces
  | .prepend l r => r.pieces ++ l.pieces
  | .join es => es.flatMap fun e => e.plain.toList
  | .upper e => e.pieces.map (·.map Spec.upper)

/-- The slice `[i, j)` of the text lies inside one of the pieces the sequence was assembled from. -/
def WithinOnePiece (pieces : List JStr) (i j : Nat) : Prop :=
  ∃ pre p post, pieces = pre ++ p :: post ∧ pre.flatten.length ≤ i ∧
    j ≤ pre.flatten.length + p.length

end FastPrintf
