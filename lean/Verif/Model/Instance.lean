/-
Model of a `FastPrintfImpl` instance: configuration, the choice of the `StringBuilder` a call writes to,
and formatting calls as they run on threads, with nested calls made by user code (`toString()` of an
argument, say) in the middle of an outer call.

Objects that several calls may reach are kept in a heap and named by references: the builders.  The
thread-local variable of an instance maps a thread to a builder reference.
-/
import Verif.Model.Engine

namespace FastPrintf

/-- `STRING_BUILDER_MAX_RETAINED_CAPACITY` (FastPrintfImpl.java:17). -/
def MAX_RETAINED : Nat := 65536

/-- A `FastPrintfImpl` (FastPrintfImpl.java:19-22).  `id` stands for the identity of the object, and of
its `ThreadLocal`; `cached` says that `threadLocalBuilder` is not null.  The capacity is positive. -/
structure Instance where
  id : Nat
  appenders : List Appender
  capacity : Nat
  cached : Bool

namespace Instance

/-- `compile` (FastPrintfImpl.java:68-77); `fresh` is the identity of the new object.  `Math.addExact`
throws for formats whose capacity is not an `int`. -/
def compile (dates : DateSyntax) (format : JStr) (fresh : Nat) : Res Instance := do
  let appenders ← Compiler.compile dates format
  let sourceLength := max format.length 11
  if (sourceLength + sourceLength / 2 : Int) > intMax then .error .arithmetic
  else return ⟨fresh, appenders, sourceLength + sourceLength / 2, false⟩

/-- `enableThreadLocalCache` (FastPrintfImpl.java:121-128). -/
def enableThreadLocalCache (i : Instance) (fresh : Nat) : Instance :=
  if i.cached then i else ⟨fresh, i.appenders, i.capacity, true⟩

/-- `setStringBuilderInitialCapacity` (FastPrintfImpl.java:130-138). -/
def setStringBuilderInitialCapacity (i : Instance) (capacity : Int) (fresh : Nat) : Res Instance :=
  if capacity > 0 then
    if (i.capacity : Int) = capacity then .ok i
    else .ok ⟨fresh, i.appenders, capacity.toNat, i.cached⟩
  else .error .illegalArgument

end Instance

/-- A `StringBuilder`: its text and its capacity (FastPrintfImpl.java:35-60). -/
structure Builder where
  text : JStr
  capacity : Nat
  deriving DecidableEq, Repr

/-- `ensureCapacity` as documented by the JDK: the new capacity is the larger of the argument and twice
the old capacity plus 2.  Called in FastPrintfImpl.java:58. -/
def Builder.ensureCapacity (b : Builder) (n : Nat) : Builder :=
  if n ≤ b.capacity then b else { b with capacity := max n (2 * b.capacity + 2) }

/-- What a call does, as far as the builders are concerned: it appends text, makes nested calls from user
code, and returns normally or with an exception.  What follows a nested call may depend on its result
(FastPrintfImpl.java:80-91). -/
inductive Work
  | done
  | fail (e : Err)
  | emit (s : JStr) (next : Work)
  | call (f : Instance) (body : Work) (next : Res JStr → Work)

/-- The work of `format(Args)` when the arguments do not run user code: each appender in turn
(FastPrintfImpl.java:87-90). -/
def Work.ofEngine (env : DateEnv) : List Appender → List Traits → Work
  | [], _ => .done
  | a :: rest, args =>
    match a.append env args with
    | .error e => .fail e
    | .ok (seq, args) =>
      match seq.appendToSB [] with
      | .error e => .fail e
      | .ok s => .emit s (ofEngine env rest args)

/-- A thread: the call in progress with its builder, the outer calls waiting for it, the calls still to
be made, and the results of the calls that returned.  It runs FastPrintfImpl.java:80-91. -/
structure Thread where
  active : Option (Nat × Work)
  waiting : List (Nat × (Res JStr → Work))
  todo : List (Instance × Work)
  results : List (Res JStr)

/-- The memory shared by all threads: the builders, the first unused reference, and the value of each
thread-local variable (by instance and thread).  The variable is FastPrintfImpl.java:21. -/
structure Memory where
  heap : Nat → Builder
  next : Nat
  cache : Nat → Nat → Option Nat

/-- The memory and all threads.  It runs FastPrintfImpl.java:80-91 on all threads. -/
structure World where
  mem : Memory
  threads : Nat → Thread

/-- `new StringBuilder(capacity)`: the reference and the memory (FastPrintfImpl.java:31, 50, 64). -/
def Memory.alloc (m : Memory) (capacity : Nat) : Nat × Memory :=
  (m.next, { m with
    heap := fun r => if r = m.next then ⟨[], capacity⟩ else m.heap r
    next := m.next + 1 })

/-- Writes a builder (FastPrintfImpl.java:57-58, 86). -/
def Memory.write (m : Memory) (r : Nat) (b : Builder) : Memory :=
  { m with heap := fun r' => if r' = r then b else m.heap r' }

/-- `threadLocalBuilder.set(builder)` by thread `t` (FastPrintfImpl.java:31, 51). -/
def Memory.setLocal (m : Memory) (id t r : Nat) : Memory :=
  { m with cache := fun id' t' => if id' = id ∧ t' = t then some r else m.cache id' t' }

/-- `threadLocalBuilder.get()` by thread `t`: the first time, the supplier `StringBuilder::new` is run
(FastPrintfImpl.java:31); the default capacity is 16. -/
def Memory.getLocal (m : Memory) (id t : Nat) : Nat × Memory :=
  match m.cache id t with
  | some r => (r, m)
  | none =>
    let (r, m) := m.alloc 16
    (r, m.setLocal id t r)

/-- `stringBuilderFactory.apply(stringBuilderInitialCapacity)` on thread `t`
(FastPrintfImpl.java:33-64). -/
def Memory.acquire (m : Memory) (f : Instance) (t : Nat) : Nat × Memory :=
  if f.cached then
    let (r, m) := m.getLocal f.id t
    let builder := m.heap r
    if builder.capacity > MAX_RETAINED ∧ f.capacity ≤ MAX_RETAINED then
      let (r', m) := m.alloc f.capacity
      (r', m.setLocal f.id t r')
    else
      (r, m.write r ({ builder with text := [] }.ensureCapacity f.capacity))
  else m.alloc f.capacity

/-- How a builder's capacity changes when text is appended: a JDK detail, left open
(FastPrintfImpl.java:86, by way of seq/*.java). -/
structure GrowthEnv where
  grow : (capacity newLength : Nat) → Nat

/-- `builder.append(s)` (FastPrintfImpl.java:86, by way of seq/*.java). -/
def Memory.append (env : GrowthEnv) (m : Memory) (r : Nat) (s : JStr) : Memory :=
  let b := m.heap r
  m.write r ⟨b.text ++ s, env.grow b.capacity (b.text.length + s.length)⟩

/-- The call in progress ends with `res`: the innermost waiting call goes on, or the result is handed to
the thread (FastPrintfImpl.java:90-91). -/
def Thread.finish (th : Thread) (res : Res JStr) : Thread :=
  match th.waiting with
  | [] => { th with active := none, results := th.results ++ [res] }
  | (r, k) :: ws => { th with active := some (r, k res), waiting := ws }

/-- One step of thread `t` (FastPrintfImpl.java:79-91). A thread with nothing to do stays as it is. -/
def Thread.step (env : GrowthEnv) (t : Nat) (th : Thread) (m : Memory) : Thread × Memory :=
  match th.active with
  | none =>
    match th.todo with
    | [] => (th, m)
    | (f, w) :: rest =>
      let (r, m) := m.acquire f t
      ({ th with active := some (r, w), todo := rest }, m)
  | some (r, .emit s k) => ({ th with active := some (r, k) }, m.append env r s)
  | some (r, .call f body k) =>
    let (r', m) := m.acquire f t
    ({ th with active := some (r', body), waiting := (r, k) :: th.waiting }, m)
  | some (r, .done) => (th.finish (.ok (m.heap r).text), m)
  | some (_, .fail e) => (th.finish (.error e), m)

/-- Thread `t` makes a step; the other threads do not move (FastPrintfImpl.java:80-91). -/
def World.step (env : GrowthEnv) (w : World) (t : Nat) : World :=
  let (th, m) := (w.threads t).step env t w.mem
  ⟨m, fun t' => if t' = t then th else w.threads t'⟩

/-- An interleaving: the threads that move, in order (FastPrintfImpl.java:80-91). -/
def World.run (env : GrowthEnv) (w : World) (schedule : List Nat) : World :=
  schedule.foldl (World.step env) w

/-- Memory before any call: no builder, no thread-local value (FastPrintfImpl.java:31 makes the builder at
the first `get()`). -/
def Memory.initial : Memory := ⟨fun _ => ⟨[], 0⟩, 0, fun _ _ => none⟩

/-- Threads about to make their calls (FastPrintfImpl.java:80-91). -/
def World.initial (calls : Nat → List (Instance × Work)) : World :=
  ⟨Memory.initial, fun t => ⟨none, [], calls t, []⟩⟩

end FastPrintf
