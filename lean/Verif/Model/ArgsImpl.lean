/-
Model of the argument container `io.fastprintf.ArgsImpl` and of the factory methods of `Args`.
-/
import Verif.Model.Args

namespace FastPrintf

/-- The ways a `CharSequence` is distinguished by `CharSequenceTraits.asSeq`
(traits/CharSequenceTraits.java:67-76). -/
inductive CharSeqView
  | string (s : JStr)
  | seq (q : Seq)
  | other (s : JStr)

/-- A non-null reference as `instanceof` sees it: each field says what the object is when viewed as that
type.  An object may have several views (a class may implement both `CharSequence` and
`TemporalAccessor`).  The tests of ArgsImpl.java:180-184 and 192-227. -/
structure Ref where
  id : Identity
  boxed : Option Prim := none
  charSequence : Option CharSeqView := none
  bigInteger : Option Int := none
  bigDecimal : Option (Int × Int) := none
  temporal : Option Temporal := none
  formatTraits : Option Traits := none
  kind : ObjectKind := .other
  text : Res JStr

/-- A Java value in a list of objects: `null`, the box of a primitive (a new object), or a reference.  What
Args.java:64, 83, 334 accept and ArgsImpl.java:61-67 returns. -/
inductive Value
  | null
  | box (p : Prim)
  | ref (r : Ref)
  /-- Whatever `asObject()` of a `FormatTraits` object supplied by the caller returns. -/
  | ofTraits (t : Traits)

/-- An element of `ArgsImpl.traits`: the traits object; `view` says which class of traits was chosen
(ArgsImpl.java:16, 30-33). -/
inductive StoredArg
  | null
  | prim (p : Prim)
  | view (r : Ref) (o : Obj)
  | custom (t : Traits)

/-- The `FormatTraits` the formatter reads (ArgsImpl.java:30-58, 175-177). -/
def StoredArg.toTraits (env : JdkEnv) : StoredArg → Traits
  | null => nullTraits
  | prim p => p.traits env .primitive
  | view _ o => o.toTraits env
  | custom t => t

/-- `asObject()`: the default `ref().get()` (traits/FormatTraits.java:141-143, traits/RefSlot.java), and
for the traits of primitives the box or the reference (for instance traits/IntTraits.java:69-71). -/
def StoredArg.asObject : StoredArg → Value
  | null => .null
  | prim p => .box p
  | view r _ => .ref r
  | custom t => .ofTraits t

/-- The `CharSequence` that such a view stands for, as `CharSequenceTraits` holds it
(traits/CharSequenceTraits.java:11-15). -/
def CharSeqView.obj (id : Identity) : CharSeqView → Obj
  | string s => .string s id
  | seq q => .seq q id
  | other s => .charSeq s id

namespace ArgsImpl

/-- `putObject` (ArgsImpl.java:179-184). -/
def putObject (l : List StoredArg) (r : Ref) : List StoredArg :=
  match r.formatTraits with
  | some t => l ++ [.custom t]
  | none => l ++ [.view r (.object r.kind r.text r.id)]

/-- `put(Object)` (ArgsImpl.java:192-222): `none` is null; the eight box classes exclude one another. -/
def put (l : List StoredArg) : Option Ref → List StoredArg
  | none => l ++ [.null]
  | some r =>
    match r.boxed with
    | some p => l ++ [.view r (.boxed p r.id)]
    | none =>
    match r.charSequence with
    | some v => l ++ [.view r (v.obj r.id)]
    | none =>
    match r.bigInteger with
    | some n => l ++ [.view r (.bigInteger n r.id)]
    | none =>
    match r.bigDecimal with
    | some (u, s) => l ++ [.view r (.bigDecimal u s r.id)]
    | none =>
    match r.temporal with
    | some t => l ++ [.view r (.temporal t r.text r.id)]
    | none => putObject l r

/-- A call of one of the `put` methods.  The typed methods take a reference together with its view as the
parameter type (ArgsImpl.java:70-184, 192-227). -/
inductive Put
  | putNull
  | putPrim (p : Prim)                       -- putBoolean, putChar, ..., putDouble
  | putBoxed (v : Option (Ref × Prim))       -- putBooleanOrNull, ..., putDoubleOrNull
  | putCharSequence (v : Option (Ref × CharSeqView))
  | putString (v : Option (Ref × JStr))
  | putBigInteger (v : Option (Ref × Int))
  | putBigDecimal (v : Option (Ref × (Int × Int)))
  | putDateTime (v : Option (Ref × Temporal))
  | put (v : Option Ref)

/-- The `put` methods (ArgsImpl.java:30-58, 69-177, 191-227): each adds one element at the end. -/
def Put.apply (l : List StoredArg) : Put → List StoredArg
  | putNull => l ++ [.null]
  | putPrim p => l ++ [.prim p]
  | putBoxed none => l ++ [.null]
  | putBoxed (some (r, p)) => l ++ [.view r (.boxed p r.id)]
  | putCharSequence none => l ++ [.null]
  | putCharSequence (some (r, v)) => l ++ [.view r (v.obj r.id)]
  | putString none => l ++ [.null]
  | putString (some (r, s)) => l ++ [.view r (.string s r.id)]
  | putBigInteger none => l ++ [.null]
  | putBigInteger (some (r, n)) => l ++ [.view r (.bigInteger n r.id)]
  | putBigDecimal none => l ++ [.null]
  | putBigDecimal (some (r, (u, s))) => l ++ [.view r (.bigDecimal u s r.id)]
  | putDateTime none => l ++ [.null]
  | putDateTime (some (r, t)) => l ++ [.view r (.temporal t r.text r.id)]
  | put v => ArgsImpl.put l v

/-- A chain of `put` calls on a container.  Each call returns the container (ArgsImpl.java:30-33). -/
def puts (l : List StoredArg) (ps : List Put) : List StoredArg := ps.foldl Put.apply l

/-- `values()` (ArgsImpl.java:60-67). -/
def values (l : List StoredArg) : List Value := l.map StoredArg.asObject

/-- `iterator()` (ArgsImpl.java:174-177): what the formatter reads. -/
def traits (env : JdkEnv) (l : List StoredArg) : List Traits := l.map (StoredArg.toTraits env)

/-- `Args.of(Object...)` (Args.java:64-75); `none` is a null array. -/
def ofArray : Option (List (Option Ref)) → List StoredArg
  | none => [] ++ [.null]
  | some vs => vs.foldl put []

/-- `Args.of(Iterable)` (Args.java:83-95). -/
def ofIterable : Option (List (Option Ref)) → Res (List StoredArg)
  | none => .error .nullPointer
  | some vs => .ok (vs.foldl put [])

/-- `Args.create()` and `Args.createWithExpectedSize(int)` (Args.java:103-105, 134-137). -/
def create : List StoredArg := []
/-- `Args.createWithExpectedSize(int)` (Args.java:134-137). -/
def createWithExpectedSize (n : Int) : Res (List StoredArg) :=
  if n ≥ 0 then .ok [] else .error .illegalArgument

end ArgsImpl
end FastPrintf
