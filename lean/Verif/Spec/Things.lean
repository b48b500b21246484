/-
What an argument of a user's own class counts as, and which of its methods answers which question.
-/
import Verif.Model.Things
import Verif.Spec.Questions

namespace FastPrintf.Spec

/-- The ways to print an object. -/
inductive Role
  | text (m : CharMethods)
  | bigInteger (v : Int)
  | bigDecimal (unscaled scale : Int)
  | moment (x : Temporal)
  | traits (x : Traits)
  | object (b : Base)

/-- The ways in which an object may be printed, by what it extends and implements. -/
inductive Plays (t : Thing) : Role → Prop
  | text {m : CharMethods} (h : t.chars = some m) : Plays t (.text m)
  | bigInteger {v : Int} (h : t.base = .bigInteger v) : Plays t (.bigInteger v)
  | bigDecimal {u s : Int} (h : t.base = .bigDecimal u s) : Plays t (.bigDecimal u s)
  | moment {x : Temporal} (h : t.time = some x) : Plays t (.moment x)
  | traits {x : Traits} (h : t.traits = some x) : Plays t (.traits x)
  | object {b : Base} (h : t.base = b) : Plays t (.object b)

/-- Which comes first.  (No object is a `BigInteger` and a `BigDecimal`.) -/
def Role.rank : Role → Nat
  | .text _ => 0
  | .bigInteger _ => 1
  | .bigDecimal _ _ => 1
  | .moment _ => 2
  | .traits _ => 3
  | .object _ => 4

/-- `put` takes the object for the first of the things that it is. -/
structure PutAs (t : Thing) (r : Role) : Prop where
  plays : Plays t r
  first : ∀ r', Plays t r' → r.rank ≤ r'.rank

/-- The exception with which a method of the object answers a question. -/
inductive Raises (text : Res JStr) : Base → Question → Err → Prop
  | text (b : Base) {e : Err} (h : text = .error e) : Raises text b .text e
  | long {l d : Res (BitVec 64)} {i : Res (BitVec 32)} {q : Question} {e : Err} (h : l = .error e)
      (hq : q ∈ [.integer, .time]) : Raises text (.number l d i) q e
  | double {l d : Res (BitVec 64)} {i : Res (BitVec 32)} {e : Err} (h : d = .error e) :
      Raises text (.number l d i) .floating e
  | int {l d : Res (BitVec 64)} {i : Res (BitVec 32)} {q : Question} {e : Err} (h : i = .error e)
      (hq : q ∈ [.count, .character]) : Raises text (.number l d i) q e
  | getTime {ms : Res (BitVec 64)} {x : Res Temporal} {q : Question} {e : Err} (h : ms = .error e)
      (hq : q ∈ [.integer, .floating, .count, .character]) : Raises text (.date ms x) q e
  | toInstant {ms : Res (BitVec 64)} {x : Res Temporal} {e : Err} (h : x = .error e) :
      Raises text (.date ms x) .time e
  | millis {ms : Res (BitVec 64)} {q : Question} {e : Err} (h : ms = .error e)
      (hq : q ∈ [.integer, .floating, .count, .character, .time]) : Raises text (.calendar ms) q e

/-- A simpler argument that an object stands for when it is asked a question; it depends on one method only. -/
inductive StandsIn (jdk : JdkEnv) (text : Res JStr) (id : Identity) : Base → Question → Entry → Prop
  | long {v : BitVec 64} (d : Res (BitVec 64)) (i : Res (BitVec 32)) {q : Question} (hq : q ∈ [.integer, .time]) :
      StandsIn jdk text id (.number (.ok v) d i) q (.prim (.long v))
  | double {v : BitVec 64} (l : Res (BitVec 64)) (i : Res (BitVec 32)) :
      StandsIn jdk text id (.number l (.ok v) i) .floating (.prim (.double v))
  | int {v : BitVec 32} (l d : Res (BitVec 64)) {q : Question} (hq : q ∈ [.count, .character]) :
      StandsIn jdk text id (.number l d (.ok v)) q (.prim (.int v))
  | getTime {v : BitVec 64} (x : Res Temporal) {q : Question} (hq : q ∈ [.integer, .floating, .count, .character]) :
      StandsIn jdk text id (.date (.ok v) x) q (.ref (.object (.utilDate v) text id))
  | toInstant (ms : Res (BitVec 64)) {x : Temporal} :
      StandsIn jdk text id (.date ms (.ok x)) .time (.ref (.temporal x text id))
  | millis {v : BitVec 64} {q : Question} (hq : q ∈ [.integer, .floating, .count, .character, .time]) :
      StandsIn jdk text id (.calendar (.ok v)) q (.ref (.object (.utilDate v) text id))
  | other (b : Base) {q : Question} (hq : q ∈ [.text, .reference]) :
      StandsIn jdk text id b q (.ref (.object .other text id))
  | plain (q : Question) : StandsIn jdk text id .plain q (.ref (.object .other text id))

end FastPrintf.Spec
