/-
Model of `CharArray.equals` and `CharArray.hashCode`, and of the two fields that are filled on first use
without synchronisation: `LazySeq.str` and `CharArray.hash`.
-/
import Verif.Model.Seq

namespace FastPrintf

/-! ### Equality and hash code of character arrays -/

namespace Atomic

/-- The loops of `CharArray.hashCode` (seq/CharArray.java:65-71) from array index `st` with `n` rounds
left: `int` arithmetic. -/
def hashLoop (a : JStr) (up : Bool) : (n st : Nat) → BitVec 32 → Res (BitVec 32)
  | 0, _, hash => .ok hash
  | n + 1, st, hash => do
    let c ← charAtRaw a st
    hashLoop a up n (st + 1) (31#32 * hash + BitVec.ofNat 32 (caseOf up c))

/-- What `CharArray.hashCode` computes when the field `hash` is 0 (CharArray.java:60-74). -/
def arrayHash (a : JStr) (start length : Nat) (up : Bool) : Res (BitVec 32) := hashLoop a up length start 0#32

/-- The loop of `CharArray.equals` (CharArray.java:135-139). -/
def equalsLoop (x y : Atomic) : (n i : Nat) → Res Bool
  | 0, _ => .ok true
  | n + 1, i => do
    let c ← x.charAt i
    let d ← y.charAt i
    if c ≠ d then return false else equalsLoop x y n (i + 1)

/-- `CharArray.equals(Object)` (CharArray.java:125-143) for another sequence; `same` is `this == obj`.
The other leaf classes inherit `Object.equals`. -/
def arrayEquals (x y : Atomic) (same : Bool) : Res Bool :=
  if same then .ok true
  else match x, y with
    | charArray _ _ n _, charArray _ _ m _ => if n ≠ m then .ok false else equalsLoop x y n 0
    | _, _ => .ok false

end Atomic

/-! ### Fields filled on first use by racing threads -/

/-- A class with one field that is filled on first use.  Both classes use the same code: read the field
once into a local variable; if it is the default value compute the value and store it; go on with the
local variable (LazySeq.java:167-174, CharArray.java:59-75).  `pre` is what a method checks before, `post`
what it does with the value. -/
structure Cached (α β ι : Type) where
  dflt : α
  build : Res α
  pre : ι → Res Unit
  post : ι → α → Res β

/-- Where a thread is inside a method.  The methods are seq/LazySeq.java:167-174 and
seq/CharArray.java:58-75. -/
inductive Place (α ι : Type)
  /-- between two calls -/
  | idle
  /-- about to read the field -/
  | reading (op : ι)
  /-- it was the default value -/
  | building (op : ι)
  /-- about to store the value -/
  | storing (op : ι) (v : α)
  /-- about to use the value -/
  | holding (op : ι) (v : α)

/-- A thread: the calls it still has to make, where it is, and the results of its finished calls.  Of
seq/LazySeq.java:167-174 or seq/CharArray.java:58-75. -/
structure Caller (α β ι : Type) where
  todo : List ι
  place : Place α ι
  results : List (Res β)

/-- The shared state: all values the field has had, the default value first, and the threads.  The field is
seq/LazySeq.java:52 or seq/CharArray.java:14. -/
structure Race (α β ι : Type) where
  values : List α
  callers : Nat → Caller α β ι

/-- What a racing read returns.  The fields are neither final nor volatile, so a thread may see any value
written so far, or the default value, whatever it saw before (this allows more than the Java memory model
does).  `choice` says which (seq/LazySeq.java:168, seq/CharArray.java:59). -/
def racyRead {α : Type} (dflt : α) (values : List α) (choice : Nat) : α := (dflt :: values).getD choice dflt

/-- One step of a thread, given the values of the field; the value it stores, if any
(seq/LazySeq.java:167-174, seq/CharArray.java:58-75). -/
def Caller.step {α β ι : Type} [DecidableEq α] (C : Cached α β ι) (values : List α) (choice : Nat)
    (c : Caller α β ι) : Caller α β ι × List α :=
  match c.place with
  | .idle =>
    match c.todo with
    | [] => (c, [])
    | op :: rest =>
      match C.pre op with
      | .ok () => (⟨rest, .reading op, c.results⟩, [])
      | .error e => (⟨rest, .idle, c.results ++ [.error e]⟩, [])
  | .reading op =>
    let v := racyRead C.dflt values choice
    if v = C.dflt then (⟨c.todo, .building op, c.results⟩, []) else (⟨c.todo, .holding op v, c.results⟩, [])
  | .building op =>
    match C.build with
    | .ok v => (⟨c.todo, .storing op v, c.results⟩, [])
    | .error e => (⟨c.todo, .idle, c.results ++ [.error e]⟩, [])
  | .storing op v => (⟨c.todo, .holding op v, c.results⟩, [v])
  | .holding op v => (⟨c.todo, .idle, c.results ++ [C.post op v]⟩, [])

/-- One step of the race: thread `t` moves; `choice` decides what it reads (seq/LazySeq.java:167-174,
seq/CharArray.java:58-75). -/
def Race.step {α β ι : Type} [DecidableEq α] (C : Cached α β ι) (w : Race α β ι) (move : Nat × Nat) :
    Race α β ι :=
  let r := (w.callers move.1).step C w.values move.2
  ⟨w.values ++ r.2, fun t => if t = move.1 then r.1 else w.callers t⟩

/-- A whole run.  Any number of calls of seq/LazySeq.java:167-174 or seq/CharArray.java:58-75. -/
def Race.run {α β ι : Type} [DecidableEq α] (C : Cached α β ι) (w : Race α β ι)
    (schedule : List (Nat × Nat)) : Race α β ι := schedule.foldl (Race.step C) w

/-- Before the first call: the field has its default value (seq/LazySeq.java:52, seq/CharArray.java:21). -/
def Race.initial {α β ι : Type} (calls : Nat → List ι) : Race α β ι := ⟨[], fun t => ⟨calls t, .idle, []⟩⟩

/-- The methods of `LazySeq` that use the cached string (seq/LazySeq.java:91-145). -/
inductive LazyCall
  | charAt (i : Int)
  | subSequence (i j : Int)
  | upperCase
  | toStr
  | appendTo
  deriving DecidableEq

/-- What such a method returns; for `appendTo(Appendable)` the texts it appends (seq/LazySeq.java:91-145). -/
inductive Observed
  | char (c : JChar)
  | seq (a : Atomic)
  | text (s : JStr)
  | calls (l : List JStr)
  deriving DecidableEq

/-- `LazySeq` (LazySeq.java:90-145, 167-174) with an action that appends `out`; the field `str` is `none`
until it is filled. -/
def lazyCached (out : JStr) (length : Nat) : Cached (Option JStr) Observed LazyCall where
  dflt := none
  build := do return some (← Atomic.getCachedString out length)
  pre
    | .charAt i => checkPositionIndex i length
    | .subSequence i j => checkPositionIndexes i j length
    | _ => .ok ()
  post
    | _, none => .error .nullPointer
    | .charAt i, some s => do return .char (← charAtRaw s i.toNat)
    | .subSequence i j, some s => do return .seq (← Atomic.wrapRange s i j)
    | .upperCase, some s => do return .seq (← (Atomic.wrap s).upperCase)
    | .toStr, some s => .ok (.text s)
    | .appendTo, some s => .ok (.calls [s])

/-- `CharArray.hashCode` (CharArray.java:58-75); the field `hash` is 0 until it is filled, and computed
again each time if the hash code is 0. -/
def hashCached (a : JStr) (start length : Nat) (up : Bool) : Cached (BitVec 32) (BitVec 32) Unit where
  dflt := 0#32
  build := Atomic.arrayHash a start length up
  pre _ := .ok ()
  post _ h := .ok h

end FastPrintf
