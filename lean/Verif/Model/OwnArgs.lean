/-
`Args` of the user's own class.

`Args` is an interface, and a call uses only its `iterator()`.  Here that method and the two methods of the iterator are
arbitrary programs, which may throw, have side effects, never end to deliver values, or deliver `null`.
-/
import Verif.Model.Live

namespace FastPrintf.OwnArgs

variable {σ : Type}

/-- An `Iterator<FormatTraits>` (appender/DefaultAppender.java:91-118); `none` is `null`. -/
structure Iter (σ : Type) where
  hasNext : Effect σ Bool
  next : Effect σ (Option (Live σ))

/-- The variable `iterator` when `iterator()` has returned `null` (FastPrintfImpl.java:82, 97): a call of its methods
throws. -/
def nullIter : Iter σ := ⟨.of (.error .nullPointer), .of (.error .nullPointer)⟩

/-- `iterator.next().asInt()` (appender/DefaultAppender.java:95), where the argument may be `null`. -/
def intOf : Option (Live σ) → Effect σ Int
  | some v => v.asInt
  | none => .of (.error .nullPointer)

/-- `nextInt` (appender/DefaultAppender.java:91-96). -/
def nextInt (it : Iter σ) (sp : Specifier) : Effect σ Int := do
  let more ← it.hasNext
  if more then do
    let v ← it.next
    intOf v
  else .of (.error (.printf (.missingArgument sp.char)))

/-- The `*` width (appender/DefaultAppender.java:101-108). -/
def starWidth (it : Iter σ) (sp : Specifier) (ctx : FormatContext) : Effect σ FormatContext :=
  if ctx.isPrecedingWidth then do
    let w ← nextInt it sp
    .of (if w ≥ 0 then ctx.setWidth w else (ctx.addFlag .leftJustify).setWidth (wrap32 (-w)))
  else .of (.ok ctx)

/-- The `*` precision (appender/DefaultAppender.java:109-112). -/
def starPrecision (it : Iter σ) (sp : Specifier) (ctx : FormatContext) : Effect σ FormatContext :=
  if ctx.isPrecedingPrecision then do
    let p ← nextInt it sp
    .of (ctx.setPrecision (if p ≥ 0 then p else UNSET))
  else .of (.ok ctx)

/-- `format(context, traits)` (appender/DefaultAppender.java:120-122) with the formatter of lines 26-89, where the
argument may be `null`: that of `%` (line 85) and that of `n` (line 87) do not look at it, every other calls one of its
methods first (appender/SeqFormatter.java:118-401). -/
def formatted (env : DateEnv) (sp : Specifier) (ctx : FormatContext) : Option (Live σ) → Effect σ Seq
  | some v => v.formatterFor env sp ctx
  | none =>
    match sp with
    | .percent => .of (.ok (Seq.ch (ch! '%')))
    | .n => .of (.ok Seq.empty)
    | _ => .of (.error .nullPointer)

/-- The value (appender/DefaultAppender.java:113-117). -/
def value (env : DateEnv) (it : Iter σ) (sp : Specifier) (ctx : FormatContext) : Effect σ Seq := do
  let more ← it.hasNext
  if more then do
    let v ← it.next
    formatted env sp ctx v
  else .of (.error (.printf (.missingArgument sp.char)))

/-- `Appender.append` (appender/FixedStringAppender.java:20-22, appender/DefaultAppender.java:99-118) up to the call of
the collector. -/
def append (env : DateEnv) (it : Iter σ) : Appender → Effect σ Seq
  | .fixed value => .of (.ok (Seq.wrap value))
  | .dflt sp ctx => do
    let ctx ← starWidth it sp ctx
    let ctx ← starPrecision it sp ctx
    value env it sp ctx

/-- The loops of `FastPrintfImpl.format` (FastPrintfImpl.java:84-91, 99-118), for any collector. -/
def run (env : DateEnv) (collect : Seq → Effect σ Unit) (it : Iter σ) : List Appender → Effect σ Unit
  | [] => .of (.ok ())
  | a :: rest => do
    let seq ← append env it a
    collect seq
    run env collect it rest

/-- A call (FastPrintfImpl.java:80-91, 94-119) with an `Args` whose `iterator()` is the given program. -/
def format (env : DateEnv) (collect : Seq → Effect σ Unit) (iterator : Effect σ (Option (Iter σ)))
    (apps : List Appender) : Effect σ Unit := do
  let it ← iterator
  run env collect (it.getD nullIter) apps

end FastPrintf.OwnArgs
