/-
Model of `io.fastprintf.traits.RefSlot` as objects on a heap.  The rest of the model has a slot as one of three cases
(`RefSlot` in Model/Forms.lean); here a slot is what it is in Java, an object with one field, told from others by its
reference, and the primitive state is a comparison with a private object.

A reference to an object is a natural number, and the null reference is `none : Option Nat`.
-/
import Verif.Model.Java

namespace FastPrintf.RefSlots

/-- `PRIMITIVE_DEFAULT`, an object of its own (traits/RefSlot.java:23). -/
def marker : Nat := 0

/-- `PRIMITIVE` (traits/RefSlot.java:25). -/
def primitive : Nat := 1

/-- `NULL` (traits/RefSlot.java:26). -/
def null : Nat := 2

/-- The slots there are, with their field `value` (traits/RefSlot.java:28-32), and the next free reference.  Simplified:
of other objects nothing but the reference is kept. -/
structure Heap where
  slots : List (Nat × Option Nat)
  next : Nat
  deriving Repr

/-- The heap once the class is loaded (traits/RefSlot.java:23-26). -/
def loaded : Heap := { slots := [(primitive, some marker), (null, none)], next := 3 }

/-- The field `value` of a slot (traits/RefSlot.java:28); `none` if the object is no `RefSlot`. -/
def Heap.value (h : Heap) (s : Nat) : Option (Option Nat) := h.slots.lookup s

/-- `new RefSlot(value)` (traits/RefSlot.java:30-32). -/
def Heap.create (h : Heap) (value : Option Nat) : Nat × Heap :=
  (h.next, { slots := (h.next, value) :: h.slots, next := h.next + 1 })

/-- `ofPrimitive()` (traits/RefSlot.java:34-36). -/
def ofPrimitive (h : Heap) : Nat × Heap := (primitive, h)

/-- `ofNull()` (traits/RefSlot.java:38-40). -/
def ofNull (h : Heap) : Nat × Heap := (null, h)

/-- `of(value)` (traits/RefSlot.java:42-47). -/
def of (h : Heap) (value : Option Nat) : Nat × Heap :=
  match value with
  | none => (null, h)
  | some x => h.create (some x)

/-- `isPrimitive()` (traits/RefSlot.java:49-51). -/
def isPrimitive (h : Heap) (s : Nat) : Bool := s == primitive || h.value s == some (some marker)

/-- `get()` (traits/RefSlot.java:53-58); `none` is the `UnsupportedOperationException`. -/
def get (h : Heap) (s : Nat) : Option (Option Nat) := if isPrimitive h s then none else h.value s

/-- A call that code outside the package can make: the public methods of traits/RefSlot.java:34-58, and the creation of
an object of some other class. -/
inductive Call
  | newObject
  | ofPrimitive
  | ofNull
  | of (value : Option Nat)
  | isPrimitive (slot : Nat)
  | get (slot : Nat)
  deriving DecidableEq, Repr

/-- What a call ends with: a reference, a truth value, or the exception of traits/RefSlot.java:55. -/
inductive Answer
  | reference (r : Option Nat)
  | truth (b : Bool)
  | unsupported
  deriving DecidableEq, Repr

/-- The heap, and the references that code outside the package has got hold of.  The fields of
traits/RefSlot.java:23-28 are private, so it gets none but by calls. -/
structure World where
  heap : Heap
  known : List Nat
  deriving Repr

/-- Before the first call: traits/RefSlot.java:23-26 have run, and nothing has been handed out. -/
def World.start : World := { heap := loaded, known := [] }

/-- A reference is handed out: what the methods of traits/RefSlot.java:34-58 return. -/
def World.hand (h : Heap) (known : List Nat) (r : Option Nat) : Answer × World :=
  (.reference r, { heap := h, known := r.toList ++ known })

/-- One call (traits/RefSlot.java:34-58); `none` if it cannot be made, the code not having the reference it needs or the
object being no slot. -/
def World.step (w : World) : Call → Option (Answer × World)
  | .newObject => some (World.hand { w.heap with next := w.heap.next + 1 } w.known (some w.heap.next))
  | .ofPrimitive => let (s, h) := RefSlots.ofPrimitive w.heap; some (World.hand h w.known (some s))
  | .ofNull => let (s, h) := RefSlots.ofNull w.heap; some (World.hand h w.known (some s))
  | .of value =>
    if ∀ x ∈ value, x ∈ w.known then
      let (s, h) := RefSlots.of w.heap value
      some (World.hand h w.known (some s))
    else none
  | .isPrimitive s =>
    if s ∈ w.known ∧ (w.heap.value s).isSome then some (.truth (RefSlots.isPrimitive w.heap s), w) else none
  | .get s =>
    if s ∈ w.known ∧ (w.heap.value s).isSome then
      match RefSlots.get w.heap s with
      | none => some (.unsupported, w)
      | some r => some (World.hand w.heap w.known r)
    else none

/-- A sequence of calls, of any code outside the package (the methods of traits/RefSlot.java:34-58); `none` if one of
them cannot be made. -/
def World.run : World → List Call → Option World
  | w, [] => some w
  | w, c :: cs =>
    match w.step c with
    | none => none
    | some (_, w') => w'.run cs

end FastPrintf.RefSlots
