/-
Model of a `CharSequence` argument of a foreign class: one that is neither a `String` nor a `Seq`, and whose
`toString()` need not be the text that `length()` and `charAt` give.
-/
import Verif.Model.Args

namespace FastPrintf

/-- What the three methods of a `CharSequence` answer.  They are called several times; the answers are taken
to be the same each time.  The object held by traits/CharSequenceTraits.java:11; the methods are called in
lines 18-76. -/
structure ForeignSeq where
  /-- `length()`. -/
  length : Res Int
  /-- `charAt(i)`. -/
  charAt : Nat → Res JChar
  /-- `toString()`. -/
  toStr : Res JStr
  /-- What `StringBuilder.append(CharSequence)` of the JDK leaves in the builder when a `charAt` throws. -/
  left : JStr := []

namespace ForeignSeq

/-- `StringBuilder.append(CharSequence)` of the JDK on a new builder: the characters from index `i`, `n` of
them, each by `charAt`.  Called in traits/CharSequenceTraits.java:64. -/
def chars (q : ForeignSeq) : (i n : Nat) → Res JStr
  | _, 0 => .ok []
  | i, n + 1 => do return (← q.charAt i) :: (← q.chars (i + 1) n)

/-- `CharSequenceTraits.asSeq` (traits/CharSequenceTraits.java:67-76): `Seq.lazy(this, value.length())`, whose
action appends the sequence (62-64).  The library reads the characters when the rope is cut or written, so a
`charAt` that throws does so then; but at once if there is only one character. -/
def asSeq (q : ForeignSeq) : Res Seq := do
  let n ← q.length
  match q.chars 0 n.toNat with
  | .ok s => return Seq.atom (← Atomic.mkLazy s n)
  | .error e => return Seq.atom (← Atomic.mkFailing q.left n e)

/-- `CharSequenceTraits` (traits/CharSequenceTraits.java:9-77): the numbers are read from `toString()`, the
character (31-37) from `length()` and `charAt(0)`. -/
def traits (jdk : JdkEnv) (q : ForeignSeq) (id : Identity) : Traits where
  asIntForm := do (charSequenceTraits jdk (← q.toStr) q.asSeq id.ref).asIntForm
  asFloatForm := do (charSequenceTraits jdk (← q.toStr) q.asSeq id.ref).asFloatForm
  asTemporal := noTemporal
  asSeq := q.asSeq
  asInt := do (charSequenceTraits jdk (← q.toStr) q.asSeq id.ref).asInt
  asChar := do if (← q.length) ≥ 1 then q.charAt 0 else .error (.printf (.wrongType .emptyToChar))
  ref := id.ref

end ForeignSeq

/-- `CharSequenceTraits.asSeq` (traits/CharSequenceTraits.java:67-76) of a `CharSequence` that is changed from outside
while it is printed: `length()` answers `n`, and the characters are `out` when the action (62-64) appends them.  One
directive asks for the length once and runs the action once at most: `LazySeq` keeps what the action has built
(LazySeq.java:167-174), and what is made from it (90-106) holds that string. -/
def changingSeq (n : Nat) (out : JStr) : Res Seq := do
  return Seq.atom (← Atomic.mkLazy out n)

end FastPrintf
