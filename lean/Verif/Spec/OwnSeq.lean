/-
Ropes over leaves of any class: what is expected of a leaf, and what a rope of such leaves stands for.
-/
import Verif.Model.OwnSeq
import Verif.Spec.Cut

namespace FastPrintf.Own

variable {α : Type}

/-- The good leaves do what `CharSequence` and `Seq` document, for the text they stand for. -/
structure Faithful (ops : LeafOps α) (Good : α → Prop) (text : α → JStr) : Prop where
  length : ∀ a, Good a → ops.length a = (text a).length
  isEmpty : ∀ a, Good a → (ops.isEmpty a = true ↔ text a = [])
  charAt : ∀ a, Good a → ∀ (i : Nat) (c : JChar), (text a)[i]? = some c → ops.charAt a i = .ok c
  charAt_out : ∀ a, Good a → ∀ i : Int, i < 0 ∨ (text a).length ≤ i → ops.charAt a i = .error .indexOutOfBounds
  sub : ∀ a, Good a → ∀ i j : Nat, i ≤ j → j ≤ (text a).length →
    ∃ b, ops.subSequence a i j = .ok b ∧ Good b ∧ text b = Spec.sub (text a) i j
  sub_out : ∀ a, Good a → ∀ i j : Int, ¬ (0 ≤ i ∧ i ≤ j ∧ j ≤ (text a).length) → ∃ e, ops.subSequence a i j = .error e
  upper : ∀ a, Good a → ∃ b, ops.upperCase a = .ok b ∧ Good b ∧ text b = (text a).map Spec.upper
  indexOf : ∀ a, Good a → ∀ c, ops.indexOf a c = .ok (Spec.firstIndex (text a) c)
  toBuilder : ∀ a, Good a → ∀ sb, ops.appendToSB a sb = .ok (sb ++ text a)
  toAppendable : ∀ a, Good a → ∃ calls, ops.appendToCalls a = .ok calls ∧ calls.flatten = text a
  toStr : ∀ a, Good a → ops.toStr a = .ok (text a)
  repeated : ∀ c n, 1 ≤ n → Good (ops.repeated c n) ∧ text (ops.repeated c n) = List.replicate n c
  empty : Good ops.empty ∧ text ops.empty = []
  emptySeq : ∀ a, Good a → ops.isEmptySeq a = true → text a = []

/-- Every observation a client can make of the rope is the observation of the string `t`. -/
structure Agrees (ops : LeafOps α) (r : Rope α) (t : JStr) : Prop where
  length : r.length ops = t.length
  isEmpty : r.isEmpty ops = true ↔ t = []
  charAt : ∀ (i : Nat) (c : JChar), t[i]? = some c → r.charAt ops i = .ok c
  charAt_out : ∀ i : Int, i < 0 ∨ (t.length : Int) ≤ i → r.charAt ops i = .error .indexOutOfBounds
  indexOf : ∀ c, r.indexOf ops c = .ok (Spec.firstIndex t c)
  startsWith : ∀ c, r.startsWith ops c = .ok (t.head? == some c)
  toStr : r.toStr ops = .ok t
  toBuilder : ∀ sb, r.appendToSB ops sb = .ok (sb ++ t)
  toAppendable : ∃ calls, r.appendToCalls ops = .ok calls ∧ calls.flatten = t

/-- A history of rope operations over given leaves. -/
inductive Expr (α : Type)
  | leaf (a : α)
  | concat (l r : Expr α)
  | append (l r : Expr α)
  | prepend (l r : Expr α)
  | join (es : List α)
  | upper (e : Expr α)

namespace Expr

/-- Running the history. -/
def eval (ops : LeafOps α) : Expr α → Res (Rope α)
  | .leaf a => .ok (.atom a)
  | .concat l r => do return Rope.mkConcat ops (← l.eval ops) (← r.eval ops)
  | .append l r => do return (← l.eval ops).append ops (← r.eval ops)
  | .prepend l r => do return (← l.eval ops).prepend ops (← r.eval ops)
  | .join es => .ok (Rope.join ops es)
  | .upper e => do (← e.eval ops).upperCase ops

/-- All its leaves are good. -/
def AllGood (Good : α → Prop) : Expr α → Prop
  | .leaf a => Good a
  | .concat l r => l.AllGood Good ∧ r.AllGood Good
  | .append l r => l.AllGood Good ∧ r.AllGood Good
  | .prepend l r => l.AllGood Good ∧ r.AllGood Good
  | .join es => ∀ a ∈ es, Good a
  | .upper e => e.AllGood Good

/-- The texts it puts side by side, from left to right. -/
def pieces (text : α → JStr) : Expr α → List JStr
  | .leaf a => [text a]
  | .concat l r => l.pieces text ++ r.pieces text
  | .append l r => l.pieces text ++ r.pieces text
  | .prepend l r => r.pieces text ++ l.pieces text
  | .join es => es.map text
  | .upper e => (e.pieces text).map (·.map Spec.upper)

end Expr

/-- The length a slice `[i, j)` of several pieces reports: the part taken from the last piece that is reached. -/
def sliceLength : List JStr → Nat → Nat → Nat
  | [], _, _ => 0
  | t :: ts, i, j =>
    if i < t.length then
      if j ≤ t.length then j - i else sliceLength ts 0 (j - t.length)
    else sliceLength ts (i - t.length) (j - t.length)

/-- The length that `subSequence(i, j)` of pieces put together reports: all of it counts in full, and otherwise the
last part alone. -/
def sliceReports (pieces : List JStr) (i j : Nat) : Nat :=
  if i = 0 ∧ j = pieces.flatten.length then j else sliceLength pieces i j

/-- What `%s` shows of pieces put together, given a precision: their text, cut. -/
def shownText (pieces : List JStr) (p : Option Nat) : JStr := pieces.flatten.take (p.getD pieces.flatten.length)

/-- The length `%s` takes it for. -/
def shownLength (pieces : List JStr) (p : Option Nat) : Nat :=
  match p with
  | none => pieces.flatten.length
  | some p => if p < pieces.flatten.length then Spec.cutLength pieces p else pieces.flatten.length

/-- Spaces for what is missing in a field, on the right or on the left. -/
def blankFill (left : Bool) (missing : Nat) (t : JStr) : JStr :=
  if left then t ++ List.replicate missing (ch! ' ') else List.replicate missing (ch! ' ') ++ t

/-- One walk after the other; an exception ends it. -/
def Walk.andThen (x y : Walk α) : Walk α :=
  match x.fault with
  | some e => ⟨x.seen, some e⟩
  | none => ⟨x.seen ++ y.seen, y.fault⟩

/-- The leaves from left to right, up to the first object that is no leaf. -/
def Rope.upToOther : Rope α → Walk α
  | .atom a => ⟨[a], none⟩
  | .concat l r _ _ => l.upToOther.andThen r.upToOther
  | .array es _ => ⟨es, none⟩
  | .other _ _ => ⟨[], some .classCast⟩

/-- A rope put together by `Seq.concat` from leaves, joined leaves and other objects. -/
inductive Mixed (ops : LeafOps α) : Rope α → Prop
  | leaf (a : α) : Mixed ops (.atom a)
  | joined (es : List α) : Mixed ops (Rope.join ops es)
  | other (n k : Int) : Mixed ops (.other n k)
  | concat {l r : Rope α} : Mixed ops l → Mixed ops r → Mixed ops (Rope.mkConcat ops l r)

/-- The length of such a rope: the sum of the lengths of the objects in it. -/
def Rope.total (ops : LeafOps α) : Rope α → Int
  | .atom a => ops.length a
  | .concat l r _ _ => l.total ops + r.total ops
  | .array es _ => (es.map ops.length).sum
  | .other n _ => n

/-- The leaf classes of the library. -/
def libraryLeaves : LeafOps Atomic where
  length := Atomic.length
  isEmpty a := a.length == 0
  charAt := Atomic.charAt
  subSequence := Atomic.subSequence
  upperCase := Atomic.upperCase
  indexOf := Atomic.indexOf
  appendToSB := Atomic.appendToSB
  appendToCalls := Atomic.appendToCalls
  toStr := Atomic.toStr
  repeated c n := .repeated c n
  empty := .empty
  isEmptySeq a := match a with | .empty => true | _ => false

/-- A rope of the library as a rope over these leaves. -/
def ofSeq : Seq → Rope Atomic
  | .atom a => .atom a
  | .concat l r n k => .concat (ofSeq l) (ofSeq r) n k
  | .array es n => .array es n

end FastPrintf.Own
