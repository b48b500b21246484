/-
Model of `DefaultAppender`, `FixedStringAppender.append` and the loops of `FastPrintfImpl.format`.

The argument iterator is the list of arguments not yet read.  Output goes to a target; what the target
holds is part of the state, so that the effect of a call that throws part-way is visible.
-/
import Verif.Model.SeqFormatter
import Verif.Model.Compiler

namespace FastPrintf

namespace DefaultAppender

/-- `formatterForSpecifier` (appender/DefaultAppender.java:26-89): the formatter of a specifier,
applied. `n` (and any other case) yields the empty sequence. -/
def formatterFor (env : DateEnv) (sp : Specifier) (ctx : FormatContext) (v : Traits) : Res Seq :=
  match sp with
  | .d => do SeqFormatter.d ctx (← v.asIntForm)
  | .u => do SeqFormatter.u ctx (← v.asIntForm)
  | .x => do SeqFormatter.x ctx (← v.asIntForm)
  | .upperX => do (← SeqFormatter.x ctx (← v.asIntForm)).upperCase
  | .o => do SeqFormatter.o ctx (← v.asIntForm)
  | .f => do SeqFormatter.f ctx (← v.asFloatForm)
  | .upperF => do (← SeqFormatter.f ctx (← v.asFloatForm)).upperCase
  | .e => do SeqFormatter.e ctx (← v.asFloatForm)
  | .upperE => do (← SeqFormatter.e ctx (← v.asFloatForm)).upperCase
  | .g => do SeqFormatter.g ctx (← v.asFloatForm)
  | .upperG => do (← SeqFormatter.g ctx (← v.asFloatForm)).upperCase
  | .a => do SeqFormatter.a ctx (← v.asFloatForm)
  | .upperA => do (← SeqFormatter.a ctx (← v.asFloatForm)).upperCase
  | .s => SeqFormatter.s ctx v
  | .upperS => do (← SeqFormatter.s ctx v).upperCase
  | .t => SeqFormatter.t env ctx v
  | .upperT => do (← SeqFormatter.t env ctx v).upperCase
  | .c => SeqFormatter.c ctx v
  | .p => SeqFormatter.p ctx v
  | .percent => .ok (Seq.ch (ch! '%'))
  | .n => .ok Seq.empty

/-- `nextInt` (appender/DefaultAppender.java:91-96). -/
def nextInt (sp : Specifier) : List Traits → Res (Int × List Traits)
  | [] => .error (.printf (.missingArgument sp.char))
  | v :: rest => do return (← v.asInt, rest)

/-- The `*` width (appender/DefaultAppender.java:101-108); `-w` is `int` negation. -/
def starWidth (sp : Specifier) (ctx : FormatContext) (args : List Traits) : Res (FormatContext × List Traits) :=
  if ctx.isPrecedingWidth then do
    let (w, args) ← nextInt sp args
    if w ≥ 0 then return (← ctx.setWidth w, args)
    else return (← (ctx.addFlag .leftJustify).setWidth (wrap32 (-w)), args)
  else .ok (ctx, args)

/-- The `*` precision (appender/DefaultAppender.java:109-112). -/
def starPrecision (sp : Specifier) (ctx : FormatContext) (args : List Traits) : Res (FormatContext × List Traits) :=
  if ctx.isPrecedingPrecision then do
    let (p, args) ← nextInt sp args
    return (← ctx.setPrecision (if p ≥ 0 then p else UNSET), args)
  else .ok (ctx, args)

/-- `append` (appender/DefaultAppender.java:99-118): the sequence handed to the collector and the
arguments left. -/
def append (env : DateEnv) (sp : Specifier) (ctx : FormatContext) (args : List Traits) :
    Res (Seq × List Traits) := do
  let (ctx, args) ← starWidth sp ctx args
  let (ctx, args) ← starPrecision sp ctx args
  match args with
  | v :: rest => return (← formatterFor env sp ctx v, rest)
  | [] => .error (.printf (.missingArgument sp.char))

end DefaultAppender

/-- `Appender.append` (appender/FixedStringAppender.java:16, 20-22; appender/DefaultAppender.java:99-118). -/
def Appender.append (env : DateEnv) : Appender → List Traits → Res (Seq × List Traits)
  | .fixed value, args => .ok (Seq.wrap value, args)
  | .dflt sp ctx, args => DefaultAppender.append env sp ctx args

/-- How a call ended: what the target holds, and either the arguments left or the exception.  Of the calls
FastPrintfImpl.java:80-119. -/
structure Outcome (σ : Type) where
  target : σ
  result : Res (List Traits)

/-- The loop of `format(Args)` and of `format(StringBuilder, Args)` (FastPrintfImpl.java:84-91, 99-105)
on a builder holding `sb`. -/
def runSB (env : DateEnv) : List Appender → List Traits → JStr → Outcome JStr
  | [], args, sb => ⟨sb, .ok args⟩
  | a :: rest, args, sb =>
    match a.append env args with
    | .error e => ⟨sb, .error e⟩
    | .ok (seq, args) =>
      match seq.appendToSB sb with
      | .error e => ⟨seq.leftInSB sb, .error e⟩
      | .ok sb => runSB env rest args sb

/-- An `Appendable`: how its state reacts to `append(CharSequence)`; `false` means that the call threw
an `IOException` (after whatever it did to the state).  The target of FastPrintfImpl.java:94-119 when it is
no `StringBuilder`. -/
structure Sink (σ : Type) where
  step : σ → JStr → σ × Bool

/-- A run of `append` calls, stopping at the first one that throws (FastPrintfImpl.java:107-117). -/
def Sink.feed {σ : Type} (k : Sink σ) : σ → List JStr → σ × Bool
  | st, [] => (st, true)
  | st, c :: cs =>
    match k.step st c with
    | (st, true) => k.feed st cs
    | (st, false) => (st, false)

/-- The loop of `format(Appendable, Args)` for any other `Appendable` (FastPrintfImpl.java:107-118). -/
def runSink (env : DateEnv) {σ : Type} (k : Sink σ) : List Appender → List Traits → σ → Outcome σ
  | [], args, st => ⟨st, .ok args⟩
  | a :: rest, args, st =>
    match a.append env args with
    | .error e => ⟨st, .error e⟩
    | .ok (seq, args) =>
      match seq.appendToCalls with
      | .error e =>
        match k.feed st seq.callsBefore with
        | (st, true) => ⟨st, .error e⟩
        | (st, false) => ⟨st, .error .uncheckedIO⟩
      | .ok calls =>
        match k.feed st calls with
        | (st, true) => runSink env k rest args st
        | (st, false) => ⟨st, .error .uncheckedIO⟩

/-- `format(Args)` of an instance without thread-local cache (FastPrintfImpl.java:79-91): a fresh
builder, then its text. -/
def formatWith (env : DateEnv) (appenders : List Appender) (args : List Traits) : Res JStr :=
  match runSB env appenders args [] with
  | ⟨_, .error e⟩ => .error e
  | ⟨sb, .ok _⟩ => .ok sb

/-- `FastPrintf.compile(format).format(args)` (FastPrintfImpl.java:68-91). -/
def printf (dates : DateSyntax) (env : DateEnv) (format : JStr) (args : List Traits) : Res JStr := do
  formatWith env (← Compiler.compile dates format) args

end FastPrintf
