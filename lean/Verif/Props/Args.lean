/-
C36: the argument container.
-/
import Verif.Model.ArgsImpl
import Verif.Props.Samples

namespace FastPrintf

open ArgsImpl

/-! What the caller supplies, and how it is to be read, said without reference to the container. -/

/-- The traits the documentation of `put(Object)` promises: the first of the listed types the object
has, a `FormatTraits` object itself last but before a plain object. -/
inductive ReadAs (env : JdkEnv) (r : Ref) : Traits → Prop
  | boxed {p} (h : r.boxed = some p) : ReadAs env r (p.traits env r.id.ref)
  | charSequence {v} (h0 : r.boxed = none) (h : r.charSequence = some v) :
      ReadAs env r ((v.obj r.id).toTraits env)
  | bigInteger {n} (h0 : r.boxed = none) (h1 : r.charSequence = none) (h : r.bigInteger = some n) :
      ReadAs env r (bigIntegerTraits n r.id.ref)
  | bigDecimal {u s} (h0 : r.boxed = none) (h1 : r.charSequence = none) (h2 : r.bigInteger = none)
      (h : r.bigDecimal = some (u, s)) : ReadAs env r (bigDecimalTraits env u s r.id.ref)
  | temporal {t} (h0 : r.boxed = none) (h1 : r.charSequence = none) (h2 : r.bigInteger = none)
      (h3 : r.bigDecimal = none) (h : r.temporal = some t) :
      ReadAs env r (temporalTraits env t r.text r.id.ref)
  | custom {t} (h0 : r.boxed = none) (h1 : r.charSequence = none) (h2 : r.bigInteger = none)
      (h3 : r.bigDecimal = none) (h4 : r.temporal = none) (h : r.formatTraits = some t) :
      ReadAs env r t
  | object (h0 : r.boxed = none) (h1 : r.charSequence = none) (h2 : r.bigInteger = none)
      (h3 : r.bigDecimal = none) (h4 : r.temporal = none) (h5 : r.formatTraits = none) :
      ReadAs env r (objectTraits r.kind r.text r.id.ref)

/-- An object that is only a `FormatTraits`. -/
def OnlyTraits (r : Ref) (t : Traits) : Prop :=
  r.boxed = none ∧ r.charSequence = none ∧ r.bigInteger = none ∧ r.bigDecimal = none ∧
  r.temporal = none ∧ r.formatTraits = some t

/-- The object a `put` call supplies: null, a primitive, a reference, or (only for `put(Object)`) a
`FormatTraits` object, which stands for the value it wraps. -/
inductive Supplies : Put → Value → Prop
  | putNull : Supplies .putNull .null
  | putPrim p : Supplies (.putPrim p) (.box p)
  | putBoxedNull : Supplies (.putBoxed none) .null
  | putBoxed r p : Supplies (.putBoxed (some (r, p))) (.ref r)
  | putCharSequenceNull : Supplies (.putCharSequence none) .null
  | putCharSequence r v : Supplies (.putCharSequence (some (r, v))) (.ref r)
  | putStringNull : Supplies (.putString none) .null
  | putString r s : Supplies (.putString (some (r, s))) (.ref r)
  | putBigIntegerNull : Supplies (.putBigInteger none) .null
  | putBigInteger r n : Supplies (.putBigInteger (some (r, n))) (.ref r)
  | putBigDecimalNull : Supplies (.putBigDecimal none) .null
  | putBigDecimal r d : Supplies (.putBigDecimal (some (r, d))) (.ref r)
  | putDateTimeNull : Supplies (.putDateTime none) .null
  | putDateTime r t : Supplies (.putDateTime (some (r, t))) (.ref r)
  | putObjectNull : Supplies (.put none) .null
  | putTraits {r t} (h : OnlyTraits r t) : Supplies (.put (some r)) (.ofTraits t)
  | putObject {r} (h : ∀ t, ¬ OnlyTraits r t) : Supplies (.put (some r)) (.ref r)

/-- One `put` call adds one element at the end. -/
theorem apply_eq (l : List StoredArg) (p : Put) : p.apply l = l ++ p.apply [] := by
  rcases p with _ | _ | (_ | _) | (_ | _) | (_ | _) | (_ | _) | (_ | _) | (_ | _) | (_ | r) <;>
    try rfl
  simp only [Put.apply, put, putObject]
  repeat' split
  all_goals rfl

theorem puts_eq (l : List StoredArg) (ps : List Put) : puts l ps = l ++ ps.flatMap (·.apply []) := by
  induction ps generalizing l with
  | nil => simp [puts]
  | cons p ps ih =>
    rw [puts, List.foldl_cons, ← puts, ih, apply_eq]
    simp

/-- One `put` call supplies exactly one value and `asObject` gives it back. -/
theorem supplies_of_apply (p : Put) : ∃ e, p.apply [] = [e] ∧ Supplies p e.asObject := by
  rcases p with _ | p | (_ | ⟨r, p⟩) | (_ | ⟨r, v⟩) | (_ | ⟨r, v⟩) | (_ | ⟨r, v⟩) | (_ | ⟨r, v⟩) |
    (_ | ⟨r, v⟩) | (_ | r)
  case put.some =>
    simp only [Put.apply, put, putObject]
    cases h0 : r.boxed with
    | some p => exact ⟨_, rfl, .putObject fun t ht => by simp [OnlyTraits, h0] at ht⟩
    | none =>
    cases h1 : r.charSequence with
    | some p => exact ⟨_, rfl, .putObject fun t ht => by simp [OnlyTraits, h1] at ht⟩
    | none =>
    cases h2 : r.bigInteger with
    | some p => exact ⟨_, rfl, .putObject fun t ht => by simp [OnlyTraits, h2] at ht⟩
    | none =>
    cases h3 : r.bigDecimal with
    | some p => exact ⟨_, rfl, .putObject fun t ht => by simp [OnlyTraits, h3] at ht⟩
    | none =>
    cases h4 : r.temporal with
    | some p => exact ⟨_, rfl, .putObject fun t ht => by simp [OnlyTraits, h4] at ht⟩
    | none =>
    cases h5 : r.formatTraits with
    | some t => exact ⟨_, rfl, .putTraits ⟨h0, h1, h2, h3, h4, h5⟩⟩
    | none => exact ⟨_, rfl, .putObject fun t ht => by simp [OnlyTraits, h5] at ht⟩
  all_goals exact ⟨_, rfl, by constructor⟩

/-- **C36.** For every sequence of `put` calls, of any mixture, on any container: `values()` has the earlier
values first and then exactly the supplied values, one for each call and in the order of the calls. -/
theorem C36_values (l : List StoredArg) (ps : List Put) :
    ∃ vs, values (puts l ps) = values l ++ vs ∧ List.Forall₂ Supplies ps vs := by
  rw [puts_eq]
  refine ⟨values (ps.flatMap (·.apply [])), by simp [values], ?_⟩
  induction ps with
  | nil => exact .nil
  | cons p ps ih =>
    obtain ⟨e, he, hs⟩ := supplies_of_apply p
    rw [List.flatMap_cons, he]
    exact .cons hs ih

/-- A call supplies only one value, so `C36_values` determines `values()`. -/
theorem C36_supplied_unique (p : Put) (v v' : Value) (h : Supplies p v) (h' : Supplies p v') :
    v = v' := by
  cases h <;> cases h' <;> try rfl
  · rename_i h _ h'
    have e : some _ = some _ := h.2.2.2.2.2.symm.trans h'.2.2.2.2.2
    cases e; rfl
  · rename_i h h'; exact absurd h (h' _)
  · rename_i h _ h'; exact absurd h' (h _)

/-- The example of C36: a primitive, a null, a string and a custom object in this order. -/
example : let r : Ref := { id := ⟨js! "S", 1#32⟩, charSequence := some (.string (js! "x")), text := .ok [] }
    values (puts [] [.putPrim (.int 5#32), .putString none, .put (some r)])
      = [.box (.int 5#32), .null, .ref r] := rfl

/-- How each call's argument is read by the conversions. -/
inductive Reads (env : JdkEnv) : Put → Traits → Prop
  | putNull : Reads env .putNull nullTraits
  | putPrim p : Reads env (.putPrim p) (p.traits env .primitive)
  | putBoxedNull : Reads env (.putBoxed none) nullTraits
  | putBoxed r p : Reads env (.putBoxed (some (r, p))) (p.traits env r.id.ref)
  | putCharSequenceNull : Reads env (.putCharSequence none) nullTraits
  | putCharSequence r v : Reads env (.putCharSequence (some (r, v))) ((v.obj r.id).toTraits env)
  | putStringNull : Reads env (.putString none) nullTraits
  | putString r s : Reads env (.putString (some (r, s)))
      (charSequenceTraits env s (.ok (Seq.wrap s)) r.id.ref)
  | putBigIntegerNull : Reads env (.putBigInteger none) nullTraits
  | putBigInteger r n : Reads env (.putBigInteger (some (r, n))) (bigIntegerTraits n r.id.ref)
  | putBigDecimalNull : Reads env (.putBigDecimal none) nullTraits
  | putBigDecimal r u s : Reads env (.putBigDecimal (some (r, (u, s)))) (bigDecimalTraits env u s r.id.ref)
  | putDateTimeNull : Reads env (.putDateTime none) nullTraits
  | putDateTime r t : Reads env (.putDateTime (some (r, t))) (temporalTraits env t r.text r.id.ref)
  | putObjectNull : Reads env (.put none) nullTraits
  | putObject {r t} (h : ReadAs env r t) : Reads env (.put (some r)) t

/-- **C36.** The formatter reads the arguments in the order of the calls, each as its declared type, and
the argument of `put(Object)` by the order of preference of `ReadAs`. -/
theorem C36_read_in_order (env : JdkEnv) (l : List StoredArg) (ps : List Put) :
    ∃ ts, traits env (puts l ps) = traits env l ++ ts ∧ List.Forall₂ (Reads env) ps ts := by
  rw [puts_eq]
  refine ⟨traits env (ps.flatMap (·.apply [])), by simp [traits], ?_⟩
  induction ps with
  | nil => exact .nil
  | cons p ps ih =>
    have key : ∃ e, p.apply [] = [e] ∧ Reads env p (e.toTraits env) := by
      rcases p with _ | p | (_ | ⟨r, p⟩) | (_ | ⟨r, v⟩) | (_ | ⟨r, v⟩) | (_ | ⟨r, v⟩) | (_ | ⟨r, v⟩) |
        (_ | ⟨r, v⟩) | (_ | r)
      case put.some =>
        simp only [Put.apply, put, putObject]
        cases h0 : r.boxed with
        | some p => exact ⟨_, rfl, .putObject (.boxed h0)⟩
        | none =>
        cases h1 : r.charSequence with
        | some p => exact ⟨_, rfl, .putObject (.charSequence h0 h1)⟩
        | none =>
        cases h2 : r.bigInteger with
        | some p => exact ⟨_, rfl, .putObject (.bigInteger h0 h1 h2)⟩
        | none =>
        cases h3 : r.bigDecimal with
        | some p => exact ⟨_, rfl, .putObject (.bigDecimal h0 h1 h2 h3)⟩
        | none =>
        cases h4 : r.temporal with
        | some p => exact ⟨_, rfl, .putObject (.temporal h0 h1 h2 h3 h4)⟩
        | none =>
        cases h5 : r.formatTraits with
        | some t => exact ⟨_, rfl, .putObject (.custom h0 h1 h2 h3 h4 h5)⟩
        | none => exact ⟨_, rfl, .putObject (.object h0 h1 h2 h3 h4 h5)⟩
      all_goals exact ⟨_, rfl, by constructor⟩
    obtain ⟨e, he, hs⟩ := key
    rw [List.flatMap_cons, he]
    exact .cons hs ih

/-- An object that is both a text and a date is read as text by `put` and as a date by `putDateTime`. -/
example : let t : Temporal := .stamp (.epochMilli 0)
    let r : Ref := { id := ⟨js! "D", 1#32⟩, charSequence := some (.other (js! "x")), temporal := some t, text := .ok (js! "x") }
    ((traits sampleJdk (puts [] [.put (some r)])).map fun a => a.asTemporal) = [.error (.printf (.wrongType .noTemporal))] ∧
    ((traits sampleJdk (puts [] [.putDateTime (some (r, t))])).map fun a => a.asTemporal) = [.ok t] :=
  ⟨rfl, rfl⟩

/-- **C36.** `Args.of` of an array or of an iterable is the chain of `put` calls; a null array is one null
argument; a null iterable is rejected. -/
theorem C36_of (vs : List (Option Ref)) :
    ofArray (some vs) = puts create (vs.map .put) ∧
    ofIterable (some vs) = .ok (puts create (vs.map .put)) ∧
    ofArray none = puts create [.putNull] ∧
    ofIterable none = .error .nullPointer := by
  have : vs.foldl put [] = puts [] (vs.map .put) := by
    simp only [puts, List.foldl_map]; rfl
  exact ⟨this, congrArg _ this, rfl, rfl⟩

/-- **C36.** `createWithExpectedSize` gives an empty container for every size that is not negative and
rejects the others. -/
theorem C36_expected_size (n : Int) :
    createWithExpectedSize n = if n < 0 then .error .illegalArgument else .ok create := by
  unfold createWithExpectedSize create
  split_ifs <;> first | rfl | omega

end FastPrintf
