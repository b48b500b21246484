/-
An `Args` object that is given further values while it is printed.

In `Model/Live.lean` the arguments of a call are a list that nobody changes.  But a method of an argument, or of the
target, can have the very `Args` object of the call and call `put` on it.  Here the iterator over the `ArrayList` in
`ArgsImpl` is modelled with the check that the JDK documents as fail-fast.
-/
import Verif.Model.Live

namespace FastPrintf.LiveArgs

variable {σ : Type}

/-- How a method ends that does not end normally: with an exception as in the other models, or with the
`ConcurrentModificationException` of an iterator from ArgsImpl.java:63, 176 or a stream from 188. -/
inductive Stop
  | thrown (e : Err)
  | comodified
  deriving DecidableEq, Repr

/-- A piece of Java code (FastPrintfImpl.java:94-119, appender/DefaultAppender.java:91-118). -/
def Step (σ α : Type) : Type := σ → Except Stop α × σ

/-- One statement after another (FastPrintfImpl.java:94-119, appender/DefaultAppender.java:91-118). -/
def Step.andThen {α β : Type} (x : Step σ α) (f : α → Step σ β) : Step σ β := fun s =>
  match x s with
  | (.ok a, s) => f a s
  | (.error e, s) => (.error e, s)

instance : Monad (Step σ) where
  pure a := fun s => (.ok a, s)
  bind := Step.andThen

/-- How code of `Model/Live.lean` ends (FastPrintfImpl.java:94-119, appender/DefaultAppender.java:91-118). -/
def ended {α : Type} : Res α → Except Stop α
  | .ok a => .ok a
  | .error e => .error (.thrown e)

/-- Code that does not use the iterator: the methods of an argument and of the target, and the formatters
(appender/SeqFormatter.java, seq/*.java). -/
def quiet {α : Type} (x : Effect σ α) : Step σ α := fun s => (ended (x s).1, (x s).2)

/-- The `ArrayList` of an `ArgsImpl` (ArgsImpl.java:16): the elements when the iterator is made, and how many there
are at any time.  `Args` has no method that removes or replaces an element (ArgsImpl.java:30-58, 69-227), so a change is
seen from the number: `add` raises the `modCount` of the list by one. -/
structure Held (σ : Type) where
  elements : List (Live σ)
  count : σ → Nat

/-- `hasNext()` of `ArrayList.Itr`: `cursor != size` (used in appender/DefaultAppender.java:92, 113). -/
def hasNext (h : Held σ) (cursor : Nat) (s : σ) : Bool := cursor ≠ h.count s

/-- `next()` of `ArrayList.Itr` (used in appender/DefaultAppender.java:95, 114): first the check of `modCount`, then
that of the cursor, whose `NoSuchElementException` cannot come after `hasNext()`. -/
def next (h : Held σ) (cursor : Nat) : Step σ (Live σ × Nat) := fun s =>
  if h.count s ≠ h.elements.length then (.error .comodified, s)
  else match h.elements[cursor]? with
    | some v => (.ok (v, cursor + 1), s)
    | none => (.error (.thrown .external), s)

/-- `nextInt` (appender/DefaultAppender.java:91-96). -/
def nextInt (h : Held σ) (sp : Specifier) (cursor : Nat) : Step σ (Int × Nat) := fun s =>
  if hasNext h cursor s then
    (do
      let (v, cursor) ← next h cursor
      let n ← quiet v.asInt
      return (n, cursor) : Step σ (Int × Nat)) s
  else (.error (.thrown (.printf (.missingArgument sp.char))), s)

/-- The `*` width (appender/DefaultAppender.java:101-108). -/
def starWidth (h : Held σ) (sp : Specifier) (ctx : FormatContext) (cursor : Nat) : Step σ (FormatContext × Nat) :=
  if ctx.isPrecedingWidth then do
    let (w, cursor) ← nextInt h sp cursor
    let ctx ← quiet (.of (if w ≥ 0 then ctx.setWidth w else (ctx.addFlag .leftJustify).setWidth (wrap32 (-w))))
    return (ctx, cursor)
  else pure (ctx, cursor)

/-- The `*` precision (appender/DefaultAppender.java:109-112). -/
def starPrecision (h : Held σ) (sp : Specifier) (ctx : FormatContext) (cursor : Nat) : Step σ (FormatContext × Nat) :=
  if ctx.isPrecedingPrecision then do
    let (p, cursor) ← nextInt h sp cursor
    let ctx ← quiet (.of (ctx.setPrecision (if p ≥ 0 then p else UNSET)))
    return (ctx, cursor)
  else pure (ctx, cursor)

/-- The value (appender/DefaultAppender.java:113-117). -/
def value (env : DateEnv) (h : Held σ) (sp : Specifier) (ctx : FormatContext) (cursor : Nat) : Step σ (Seq × Nat) :=
  fun s =>
    if hasNext h cursor s then
      (do
        let (v, cursor) ← next h cursor
        let seq ← quiet (v.formatterFor env sp ctx)
        return (seq, cursor) : Step σ (Seq × Nat)) s
    else (.error (.thrown (.printf (.missingArgument sp.char))), s)

/-- `Appender.append` (appender/FixedStringAppender.java:20-22, appender/DefaultAppender.java:99-118) up to the call of
the collector. -/
def append (env : DateEnv) (h : Held σ) : Appender → Nat → Step σ (Seq × Nat)
  | .fixed value, cursor => pure (Seq.wrap value, cursor)
  | .dflt sp ctx, cursor => do
    let (ctx, cursor) ← starWidth h sp ctx cursor
    let (ctx, cursor) ← starPrecision h sp ctx cursor
    value env h sp ctx cursor

/-- The loops of `FastPrintfImpl.format` (FastPrintfImpl.java:84-91, 99-118), for any collector. -/
def run (env : DateEnv) (collect : Seq → Effect σ Unit) (h : Held σ) : List Appender → Nat → Step σ Nat
  | [], cursor => pure cursor
  | a :: rest, cursor => do
    let (seq, cursor) ← append env h a cursor
    let _ ← quiet (collect seq)
    run env collect h rest cursor

/-- The loop of `values()` over an iterator (ArgsImpl.java:61-67); `n` is the number of elements when it was made, `asked`
the calls of `asObject()` still to come, `i` the cursor. -/
def valuesLoop {α : Type} (count : σ → Nat) (n : Nat) : List (Effect σ α) → Nat → Step σ (List α)
  | [], i => fun s => if i ≠ count s then (.error .comodified, s) else (.ok [], s)
  | x :: rest, i => fun s =>
    if i = count s then (.ok [], s)
    else if count s ≠ n then (.error .comodified, s)
    else (do
      let v ← quiet x
      return v :: (← valuesLoop count n rest (i + 1)) : Step σ (List α)) s

/-- The calls of `asString()` in `toString()` (ArgsImpl.java:188). -/
def textsLoop {α : Type} : List (Effect σ α) → Step σ (List α)
  | [] => pure []
  | x :: rest => do
    let v ← quiet x
    return v :: (← textsLoop rest)

/-- `toString()` (ArgsImpl.java:187-189) up to the joining: the stream of an `ArrayList` goes through the elements that
were there at the start, and compares `modCount` at the end. -/
def texts {α : Type} (count : σ → Nat) (xs : List (Effect σ α)) : Step σ (List α) := fun s =>
  match textsLoop xs s with
  | (.ok vs, s) => if count s ≠ xs.length then (.error .comodified, s) else (.ok vs, s)
  | (.error e, s) => (.error e, s)

end FastPrintf.LiveArgs
