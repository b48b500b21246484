/-
Arguments whose methods have side effects.

`Traits` gives one answer per method.  Here a method of an argument is a program: it may look at the state of
the whole world and change it before it returns or throws.  The world includes the target of the call, so
that a method may also look at what has been printed so far, or print something itself.  The code is that of
`DefaultAppender` and `FastPrintfImpl` once more, with every call of a method of an argument as a step of its own.

A sequence that `asSeq()` returned is a value: it does not change between the call and the writing.
-/
import Verif.Model.Engine

namespace FastPrintf

/-- A piece of Java code that may change the state, and returns or throws.  What it changed before throwing
stays changed.  The code is that of FastPrintfImpl.java:80-119 and appender/DefaultAppender.java:91-118. -/
def Effect (σ α : Type) : Type := σ → Res α × σ

namespace Effect

/-- One statement after another; an exception ends the method.  The statements of
FastPrintfImpl.java:80-119 and appender/DefaultAppender.java:91-118. -/
def andThen {σ α β : Type} (x : Effect σ α) (f : α → Effect σ β) : Effect σ β := fun s =>
  match x s with
  | (.ok a, s) => f a s
  | (.error e, s) => (.error e, s)

instance {σ : Type} : Monad (Effect σ) where
  pure a := fun s => (.ok a, s)
  bind := andThen

/-- Code that changes nothing.  As the steps of appender/DefaultAppender.java:91-118 that call no method of
an argument. -/
def of {σ α : Type} (r : Res α) : Effect σ α := fun s => (r, s)

end Effect

/-- `interface FormatTraits` (traits/FormatTraits.java), with methods that are programs.  `ref()` does not
throw, as in `Traits`. -/
structure Live (σ : Type) where
  asIntForm : Effect σ IntForm
  asFloatForm : Effect σ FloatForm
  asTemporal : Effect σ Temporal
  asSeq : Effect σ Seq
  asInt : Effect σ Int
  asChar : Effect σ JChar
  ref : σ → RefSlot × σ

namespace Live

variable {σ : Type}

/-- `c` (appender/SeqFormatter.java:340-342). -/
def c (ctx : FormatContext) (v : Live σ) : Effect σ Seq := do
  let ch ← v.asChar
  .of (SeqFormatter.spaceJustify ctx (Seq.ch ch))

/-- `s` (appender/SeqFormatter.java:344-351). -/
def s (ctx : FormatContext) (v : Live σ) : Effect σ Seq := do
  let seq ← v.asSeq
  .of (if ctx.isPrecisionSet && ctx.precision < seq.length then do
      SeqFormatter.spaceJustify ctx (← seq.subSequence 0 ctx.precision)
    else SeqFormatter.spaceJustify ctx seq)

/-- `p` (appender/SeqFormatter.java:353-373). -/
def p (ctx : FormatContext) (v : Live σ) : Effect σ Seq := fun s =>
  match v.ref s with
  | (.primitive, s) => (.error (.printf .primitivePointer), s)
  | (.null, s) => (SeqFormatter.spaceJustify ctx (Seq.wrap (js! "null")), s)
  | (.object name hash, s) =>
    let seq := Seq.wrap (toRadix 16 hash.toNat)
    let seq := seq.prepend (Seq.ch (ch! '@'))
    let seq := seq.prepend (Seq.wrap name)
    (SeqFormatter.spaceJustify ctx seq, s)

/-- `t` (appender/SeqFormatter.java:388-401). -/
def t (env : DateEnv) (ctx : FormatContext) (v : Live σ) : Effect σ Seq := do
  let ta ← v.asTemporal
  .of (do
    let (fmt, ta) ← SeqFormatter.chooseFormatter ctx ta
    SeqFormatter.spaceJustify ctx (Seq.wrap (← env.format fmt ta)))

/-- `formatterForSpecifier` (appender/DefaultAppender.java:26-89), applied. -/
def formatterFor (env : DateEnv) (sp : Specifier) (ctx : FormatContext) (v : Live σ) : Effect σ Seq :=
  match sp with
  | .d => do let n ← v.asIntForm; .of (SeqFormatter.d ctx n)
  | .u => do let n ← v.asIntForm; .of (SeqFormatter.u ctx n)
  | .x => do let n ← v.asIntForm; .of (SeqFormatter.x ctx n)
  | .upperX => do let n ← v.asIntForm; .of (do (← SeqFormatter.x ctx n).upperCase)
  | .o => do let n ← v.asIntForm; .of (SeqFormatter.o ctx n)
  | .f => do let n ← v.asFloatForm; .of (SeqFormatter.f ctx n)
  | .upperF => do let n ← v.asFloatForm; .of (do (← SeqFormatter.f ctx n).upperCase)
  | .e => do let n ← v.asFloatForm; .of (SeqFormatter.e ctx n)
  | .upperE => do let n ← v.asFloatForm; .of (do (← SeqFormatter.e ctx n).upperCase)
  | .g => do let n ← v.asFloatForm; .of (SeqFormatter.g ctx n)
  | .upperG => do let n ← v.asFloatForm; .of (do (← SeqFormatter.g ctx n).upperCase)
  | .a => do let n ← v.asFloatForm; .of (SeqFormatter.a ctx n)
  | .upperA => do let n ← v.asFloatForm; .of (do (← SeqFormatter.a ctx n).upperCase)
  | .s => v.s ctx
  | .upperS => do let seq ← v.s ctx; .of seq.upperCase
  | .t => v.t env ctx
  | .upperT => do let seq ← v.t env ctx; .of seq.upperCase
  | .c => v.c ctx
  | .p => v.p ctx
  | .percent => .of (.ok (Seq.ch (ch! '%')))
  | .n => .of (.ok Seq.empty)

/-- `nextInt` (appender/DefaultAppender.java:91-96). -/
def nextInt (sp : Specifier) : List (Live σ) → Effect σ (Int × List (Live σ))
  | [] => .of (.error (.printf (.missingArgument sp.char)))
  | v :: rest => do
    let n ← v.asInt
    return (n, rest)

/-- The `*` width (appender/DefaultAppender.java:101-108). -/
def starWidth (sp : Specifier) (ctx : FormatContext) (args : List (Live σ)) :
    Effect σ (FormatContext × List (Live σ)) :=
  if ctx.isPrecedingWidth then do
    let (w, args) ← nextInt sp args
    let ctx ← .of (if w ≥ 0 then ctx.setWidth w else (ctx.addFlag .leftJustify).setWidth (wrap32 (-w)))
    return (ctx, args)
  else .of (.ok (ctx, args))

/-- The `*` precision (appender/DefaultAppender.java:109-112). -/
def starPrecision (sp : Specifier) (ctx : FormatContext) (args : List (Live σ)) :
    Effect σ (FormatContext × List (Live σ)) :=
  if ctx.isPrecedingPrecision then do
    let (p, args) ← nextInt sp args
    let ctx ← .of (ctx.setPrecision (if p ≥ 0 then p else UNSET))
    return (ctx, args)
  else .of (.ok (ctx, args))

/-- `Appender.append` (appender/FixedStringAppender.java:20-22, appender/DefaultAppender.java:99-118) up to
the call of the collector. -/
def append (env : DateEnv) : Appender → List (Live σ) → Effect σ (Seq × List (Live σ))
  | .fixed value, args => .of (.ok (Seq.wrap value, args))
  | .dflt sp ctx, args => do
    let (ctx, args) ← starWidth sp ctx args
    let (ctx, args) ← starPrecision sp ctx args
    match args with
    | v :: rest => do
      let seq ← formatterFor env sp ctx v
      return (seq, rest)
    | [] => .of (.error (.printf (.missingArgument sp.char)))

/-- The loops of `FastPrintfImpl.format` (FastPrintfImpl.java:84-91, 99-118), for any collector. -/
def run (env : DateEnv) (collect : Seq → Effect σ Unit) :
    List Appender → List (Live σ) → Effect σ (List (Live σ))
  | [], args => .of (.ok args)
  | a :: rest, args => do
    let (seq, args) ← append env a args
    collect seq
    run env collect rest args

/-- Where in the world the builder of the call is.  The target of FastPrintfImpl.java:83, 94. -/
structure Builder (σ : Type) where
  get : σ → JStr
  set : σ → JStr → σ
  /-- storing what is there changes nothing -/
  same : ∀ s, set s (get s) = s

/-- The collector for a `StringBuilder` (FastPrintfImpl.java:86, 101). -/
def Builder.collect (b : Builder σ) (seq : Seq) : Effect σ Unit := fun s =>
  match seq.appendToSB (b.get s) with
  | .ok text => (.ok (), b.set s text)
  | .error e => (.error e, b.set s (seq.leftInSB (b.get s)))

/-- The collector for another `Appendable` (FastPrintfImpl.java:107-114). -/
def sinkCollect (k : Sink σ) (seq : Seq) : Effect σ Unit := fun s =>
  match seq.appendToCalls with
  | .error e =>
    match k.feed s seq.callsBefore with
    | (s, true) => (.error e, s)
    | (s, false) => (.error .uncheckedIO, s)
  | .ok calls =>
    match k.feed s calls with
    | (s, true) => (.ok (), s)
    | (s, false) => (.error .uncheckedIO, s)

/-- An argument that knows nothing of a builder that is only reachable inside the call.  That builder is
made in FastPrintfImpl.java:83. -/
def beside (v : Live σ) : Live (σ × JStr) where
  asIntForm := fun s => ((v.asIntForm s.1).1, ((v.asIntForm s.1).2, s.2))
  asFloatForm := fun s => ((v.asFloatForm s.1).1, ((v.asFloatForm s.1).2, s.2))
  asTemporal := fun s => ((v.asTemporal s.1).1, ((v.asTemporal s.1).2, s.2))
  asSeq := fun s => ((v.asSeq s.1).1, ((v.asSeq s.1).2, s.2))
  asInt := fun s => ((v.asInt s.1).1, ((v.asInt s.1).2, s.2))
  asChar := fun s => ((v.asChar s.1).1, ((v.asChar s.1).2, s.2))
  ref := fun s => ((v.ref s.1).1, ((v.ref s.1).2, s.2))

/-- `format(Args)` without cache (FastPrintfImpl.java:79-91): the builder is new and nobody else has it. -/
def printf (dates : DateSyntax) (env : DateEnv) (format : JStr) (args : List (Live σ)) : Effect σ JStr := fun s =>
  match Compiler.compile dates format with
  | .error e => (.error e, s)
  | .ok apps =>
    match run env (Builder.collect ⟨Prod.snd, fun s text => (s.1, text), fun _ => rfl⟩) apps (args.map beside) (s, []) with
    | (.error e, s) => (.error e, s.1)
    | (.ok _, s) => (.ok s.2, s.1)

end Live
end FastPrintf
