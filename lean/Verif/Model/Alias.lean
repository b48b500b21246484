/-
Model of `format(target, args)` when the target itself is among the arguments: a `StringBuilder`, or a
`StringBuffer`, which is an `Appendable` of another class.  Such an argument is a `CharSequence` whose content
changes while the call writes.
-/
import Verif.Model.Args
import Verif.Model.Engine

namespace FastPrintf
namespace Alias

/-- An argument of the call: the target, or a value that the call does not change (Args.java:306-334). -/
inductive Arg
  | target
  | other (t : Traits)

/-- The traits of an argument while the target holds `cur`: for the target those of a `CharSequence`
(traits/CharSequenceTraits.java:9-77). -/
def Arg.traits (jdk : JdkEnv) (id : Identity) (cur : JStr) : Arg → Traits
  | target => (Obj.charSeq cur id).toTraits jdk
  | other t => t

/-- `appendTo(StringBuilder)` of a leaf, where the action of a `LazySeq` (seq/LazySeq.java:156-159,
traits/CharSequenceTraits.java:62-64) appends to the builder the builder itself. -/
def leafToBuilder : Atomic → JStr → Res JStr
  | .lazy _ _, sb => .ok (sb ++ sb)
  | a, sb => a.appendToSB sb

/-- `AtomicSeqIterable.appendTo(StringBuilder)` (AtomicSeqIterable.java:97-102) over such leaves. -/
def leavesToBuilder : List Atomic → JStr → Res JStr
  | [], sb => .ok sb
  | a :: rest, sb => do leavesToBuilder rest (← leafToBuilder a sb)

/-- `appendTo(Appendable)` of a leaf to a `StringBuffer`, where the action of a `LazySeq` appends that buffer
to a new builder and checks the length (seq/LazySeq.java:74-82, 143-145): what the buffer holds afterwards,
and the exception if there is one. -/
def leafToBuffer : Atomic → JStr → JStr × Option Err
  | .lazy _ n, st =>
    match Atomic.getCachedString st n with
    | .ok s => (st ++ s, none)
    | .error e => (st, some e)
  | a, st =>
    match a.appendToCalls with
    | .ok calls => (st ++ calls.flatten, none)
    | .error e => (st, some e)

/-- `AtomicSeqIterable.appendTo(Appendable)` (AtomicSeqIterable.java:84-88) over such leaves. -/
def leavesToBuffer : List Atomic → JStr → JStr × Option Err
  | [], st => (st, none)
  | a :: rest, st =>
    match leafToBuffer a st with
    | (st, none) => leavesToBuffer rest st
    | (st, some e) => (st, some e)

/-- How a sequence reaches a target; the flag says whether its lazy leaf is the target.  The two ways are
FastPrintfImpl.java:101 and 107-114. -/
abbrev Step := Bool → Seq → JStr → JStr × Option Err

/-- The consumer of `format(StringBuilder, Args)` (FastPrintfImpl.java:99-105). -/
def builderStep : Step := fun own q sb =>
  match (if own then (do leavesToBuilder (← q.leaves) sb) else q.appendToSB sb) with
  | .ok sb => (sb, none)
  | .error e => (if own then sb else q.leftInSB sb, some e)

/-- The consumer of `format(Appendable, Args)` (FastPrintfImpl.java:107-118) for a `StringBuffer`, whose
`append` does not throw. -/
def bufferStep : Step := fun own q st =>
  if own then
    match q.leaves with
    | .ok ls => leavesToBuffer ls st
    | .error e => (st, some e)
  else
    match q.appendToCalls with
    | .ok calls => (st ++ calls.flatten, none)
    | .error e => (st ++ q.callsBefore.flatten, some e)

/-- Is this argument the target?  Nothing in the code asks this; the model needs it since the traits hold
the target itself (traits/CharSequenceTraits.java:11-15). -/
def Arg.isTarget : Arg → Bool
  | target => true
  | other _ => false

/-- Does the conversion take the sequence of its argument (`asSeq`)?  The lazy leaves of other conversions
are numbers (appender/SeqFormatter.java:344-345, by way of appender/DefaultAppender.java:68-72). -/
def usesSeq (sp : Specifier) : Bool := sp == .s || sp == .upperS

/-- The loops of `format` (FastPrintfImpl.java:99-105, 107-118): the arguments are looked at when their
directive is reached.  The value of a directive is the last argument it takes. -/
def run (env : DateEnv) (jdk : JdkEnv) (id : Identity) (step : Step) :
    List Appender → List Arg → JStr → JStr × Res Unit
  | [], _, st => (st, .ok ())
  | .fixed v :: rest, args, st =>
    match step false (Seq.wrap v) st with
    | (st, some e) => (st, .error e)
    | (st, none) => run env jdk id step rest args st
  | .dflt sp ctx :: rest, args, st =>
    match DefaultAppender.append env sp ctx (args.map (Arg.traits jdk id st)) with
    | .error e => (st, .error e)
    | .ok (q, left) =>
      let used := args.length - left.length
      let own := usesSeq sp && (args[used - 1]?.map Arg.isTarget).getD false
      match step own q st with
      | (st, some e) => (st, .error e)
      | (st, none) => run env jdk id step rest (args.drop used) st

/-- `FastPrintf.compile(format).format(target, args)`, where `target` holds `st`
(FastPrintfImpl.java:94-119). -/
def format (dates : DateSyntax) (env : DateEnv) (jdk : JdkEnv) (id : Identity) (step : Step) (f : JStr)
    (args : List Arg) (st : JStr) : JStr × Res Unit :=
  match Compiler.compile dates f with
  | .error e => (st, .error e)
  | .ok as => run env jdk id step as args st

end Alias
end FastPrintf
