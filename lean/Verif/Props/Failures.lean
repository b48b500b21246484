/-
C46: which exceptions can come out of a call.

The other way round: no internal error (an index out of bounds, an arithmetic overflow, a null
dereference, a failed assertion, a bad sub-range) ever escapes from the padding, digit and rope code.
-/
import Verif.Proofs.Failures
import Verif.Proofs.RopeText
import Verif.Props.Engine
import Verif.Props.BigDecimal

namespace FastPrintf
open Spec

/-- The arguments the property is about: everything but user implementations of `FormatTraits`.  Objects
of foreign classes must have a working `toString`, a `Date` a working `toInstant`, a `Seq` must be a consistent rope, a temporal must
not be too far away to be counted in milliseconds, and big numbers must not make the position of the first
digit overflow an `int`. -/
def Spec.Ordinary (jdk : JdkEnv) : Entry → Prop
  | .prim _ => True
  | .ref .null => True
  | .ref (.boxed _ _) => True
  | .ref (.string _ _) => True
  | .ref (.seq q _) => q.WF
  | .ref (.charSeq _ _) => True
  | .ref (.bigInteger v _) => ∃ n, DigitCount v.natAbs n ∧ ScaleOk n 0
  | .ref (.bigDecimal u scale _) => ∃ n, DigitCount u.natAbs n ∧ ScaleOk n scale
  | .ref (.temporal t text _) => (∃ s, text = .ok s) ∧
      ∀ i, jdk.instantFrom t = some i → ∃ ms, epochMilli i = some ms
  | .ref (.object kind text _) => (∃ s, text = .ok s) ∧ ∀ ms i, kind = .date ms i → ∃ t, i = .ok t
  | .ref (.traits _) => False

/-- A number that is negative as a `long`. -/
inductive Spec.NegativeNumber : Entry → Prop
  | prim (v : BitVec 64) (h : v.toInt < 0) : NegativeNumber (.prim (.long v))
  | boxed (v : BitVec 64) (id : Identity) (h : v.toInt < 0) : NegativeNumber (.ref (.boxed (.long v) id))
  | big (v : Int) (id : Identity) (h : wrap64 v < 0) : NegativeNumber (.ref (.bigInteger v id))
  | object (l d : BitVec 64) (i : BitVec 32) (text : Res JStr) (id : Identity) (h : l.toInt < 0) :
      NegativeNumber (.ref (.object (.number l d i) text id))

/-- What can go wrong with dates: a negative number cannot be a timestamp, and the JDK may refuse to
format a date. -/
def Spec.DateFailure (env : DateEnv) (args : List Entry) (e : Err) : Prop :=
  (e = .illegalArgument ∧ ∃ a ∈ args, NegativeNumber a) ∨ ∃ fmt ta, env.format fmt ta = .error e

/-- The format has a `%t` or `%T` directive. -/
def Spec.HasDate (dates : DateSyntax) (f : JStr) : Prop :=
  ∃ ps, Reading dates f ps ∧ ∃ d, Piece.dir d ∈ ps ∧ IsDateConv d.conv

theorem orPrintf_quiet {α : Type} {x : Res α} (hx : ∀ e, x = .error e → e = .numberFormat) {e : Err}
    (h : orPrintf x = .error e) : IsPrintf e := by
  cases x with
  | ok a => cases h
  | error e' =>
    rw [hx e' rfl] at h
    cases h; exact ⟨_, rfl⟩

theorem parseSigned_error {jdk : JdkEnv} {lo hi : Int} {s : JStr} {e : Err}
    (h : parseSigned jdk lo hi s = .error e) : e = .numberFormat := by
  unfold parseSigned at h
  dsimp only at h
  split at h
  · split_ifs at h; cases h; rfl
  · cases h; rfl

theorem longToInstant_error {v : Int} {e : Err} (h : longToInstant v = .error e) :
    e = .illegalArgument ∧ v < 0 := by
  unfold longToInstant at h
  split_ifs at h with h1 h2
  cases h
  exact ⟨rfl, by omega⟩

theorem stamp_error {v : Int} {e : Err}
    (h : (do return Temporal.stamp (← longToInstant v) : Res Temporal) = .error e) :
    e = .illegalArgument ∧ v < 0 := by
  rcases bind_eq_error.1 h with h | ⟨_, _, h⟩
  · exact longToInstant_error h
  · cases h

theorem mkLazy_quiet {s : JStr} {n : Int} (hn : n = s.length) {e : Err}
    (h : (do return Seq.atom (← Atomic.mkLazy s n) : Res Seq) = .error e) : IsPrintf e := by
  obtain ⟨a, ha, _⟩ := mkLazy_text s hn
  rw [ha] at h; cases h

theorem Prim.quiet (jdk : JdkEnv) (ref : RefSlot) (p : Prim) : (p.traits jdk ref).Quiet where
  wf := Prim.traits_wf jdk ref p
  digits := Prim.traits_hasDigits jdk ref p
  int := by cases p <;> rintro e ⟨⟩
  ints := by
    intro i e hi
    cases p <;> cases hi
    · exact (IntForm.ofInt_means _).quiet e
    · exact (IntForm.ofInt_means _).quiet e
    · exact (IntForm.ofByte_means _).quiet e
    · exact (IntForm.ofShort_means _).quiet e
    · exact (IntForm.ofInt_means _).quiet e
    · exact (IntForm.ofLong_means _).quiet e
    · exact (IntForm.ofInt_means _).quiet e
    · exact (IntForm.ofLong_means _).quiet e
  float := by cases p <;> rintro e ⟨⟩
  floats := by cases p <;> rintro f ⟨⟩ <;> exact FloatForm.double_total _
  seq := by
    cases p
    case int v =>
      have h1 := v.toInt_lt; have h2 := v.le_toInt
      exact fun e h => mkLazy_quiet (stringSize32_eq (by omega)) h
    case long v =>
      have h1 := v.toInt_lt; have h2 := v.le_toInt
      exact fun e h => mkLazy_quiet (stringSize64_eq (by omega)) h
    all_goals rintro e ⟨⟩
  number := by cases p <;> rintro e ⟨⟩
  char := by cases p <;> rintro e ⟨⟩

theorem charSequence_quiet (jdk : JdkEnv) (s : JStr) (x : Res Seq) (ref : RefSlot)
    (hw : (charSequenceTraits jdk s x ref).WF) (hx : ∀ e, x = .error e → IsPrintf e) :
    (charSequenceTraits jdk s x ref).Quiet where
  wf := hw
  digits := charSequence_hasDigits _ _ _ _
  int e h := by
    rcases bind_eq_error.1 h with h | ⟨_, _, h⟩
    · exact orPrintf_quiet (fun _ h => parseSigned_error h) h
    · cases h
  ints i e hi := by
    obtain ⟨_, _, hi⟩ := bind_eq_ok.1 hi
    cases hi
    exact (IntForm.ofLong_means _).quiet e
  float e h := by
    simp only [charSequenceTraits] at h
    split at h <;> cases h
    exact ⟨_, rfl⟩
  floats f h := by
    simp only [charSequenceTraits] at h
    split at h <;> cases h
    exact FloatForm.double_total _
  seq := hx
  number e h := orPrintf_quiet (fun _ h => parseSigned_error h) h
  char e h := by
    simp only [charSequenceTraits] at h
    split at h <;> cases h
    exact ⟨_, rfl⟩

/-- An ordinary argument fails only in the documented way, dates apart. -/
theorem Spec.Ordinary.quiet {jdk : JdkEnv} {a : Entry} (h : Ordinary jdk a) : (a.toTraits jdk).Quiet := by
  have wb : WellBehaved a := by
    cases a with
    | prim p => trivial
    | ref o => cases o <;> trivial
  have hw := wb.wf jdk
  have hd := wb.hasDigits jdk
  cases a with
  | prim p => exact Prim.quiet jdk _ p
  | ref o =>
    cases o with
    | null =>
      exact ⟨hw, hd, by rintro e ⟨⟩; exact ⟨_, rfl⟩, by rintro i e ⟨⟩, by rintro e ⟨⟩; exact ⟨_, rfl⟩,
        by rintro f ⟨⟩, by rintro e ⟨⟩, by rintro e ⟨⟩; exact ⟨_, rfl⟩, by rintro e ⟨⟩; exact ⟨_, rfl⟩⟩
    | boxed p id => exact Prim.quiet jdk _ p
    | string s id => exact charSequence_quiet jdk s _ _ hw (by rintro e ⟨⟩)
    | seq q id =>
      have hr := (RopeText.of_wf h).traits jdk id.ref
      simp only [Entry.toTraits, Obj.toTraits, hr] at hw ⊢
      exact charSequence_quiet jdk _ _ _ hw (by rintro e ⟨⟩)
    | charSeq s id => exact charSequence_quiet jdk s _ _ hw fun e he => mkLazy_quiet rfl he
    | bigInteger v id =>
      obtain ⟨n, h1, h2⟩ := h
      exact ⟨hw, hd, by rintro e ⟨⟩, by rintro i e ⟨⟩; exact (IntForm.ofBigInteger_means _).quiet e,
        by rintro e ⟨⟩, by rintro f ⟨⟩; exact .inr (FloatForm.total_big h1 h2),
        by rintro e ⟨⟩, by rintro e ⟨⟩, by rintro e ⟨⟩⟩
    | bigDecimal u s id =>
      obtain ⟨n, h1, h2⟩ := h
      exact ⟨hw, hd, by rintro e ⟨⟩, by rintro i e ⟨⟩; exact (IntForm.ofBigInteger_means _).quiet e,
        by rintro e ⟨⟩, by rintro f ⟨⟩; exact .inr (FloatForm.total_big h1 h2),
        by rintro e ⟨⟩, by rintro e ⟨⟩, by rintro e ⟨⟩⟩
    | temporal t text id =>
      obtain ⟨⟨s, rfl⟩, h2⟩ := h
      refine ⟨hw, hd, ?_, ?_, ?_, ?_, by rintro e ⟨⟩, ?_, by rintro e ⟨⟩; exact ⟨_, rfl⟩⟩
      · intro e he
        simp only [Entry.toTraits, Obj.toTraits, temporalTraits] at he
        split at he
        · cases he; exact ⟨_, rfl⟩
        · rename_i i hi
          obtain ⟨ms, hm⟩ := h2 i hi
          rw [hm] at he; cases he
      · intro i e hi
        simp only [Entry.toTraits, Obj.toTraits, temporalTraits] at hi
        split at hi
        · cases hi
        · split at hi <;> cases hi
          exact (IntForm.ofLong_means _).quiet e
      · intro e he
        simp only [Entry.toTraits, Obj.toTraits, temporalTraits] at he
        split at he <;> cases he
        exact ⟨_, rfl⟩
      · intro f hf
        simp only [Entry.toTraits, Obj.toTraits, temporalTraits] at hf
        split at hf <;> cases hf
        exact FloatForm.double_total _
      · intro e he
        simp only [Entry.toTraits, Obj.toTraits, temporalTraits] at he
        split at he <;> cases he
        exact ⟨_, rfl⟩
    | traits t => exact h.elim
    | object kind text id =>
      obtain ⟨⟨s, rfl⟩, _⟩ := h
      refine ⟨hw, hd, ?_, ?_, ?_, ?_, by rintro e ⟨⟩, ?_, ?_⟩
      · cases kind <;> rintro e ⟨⟩; exact ⟨_, rfl⟩
      · cases kind <;> rintro i e ⟨⟩ <;> exact (IntForm.ofLong_means _).quiet e
      · cases kind <;> rintro e ⟨⟩; exact ⟨_, rfl⟩
      · cases kind <;> rintro f ⟨⟩ <;> exact FloatForm.double_total _
      · cases kind <;> rintro e ⟨⟩; exact ⟨_, rfl⟩
      · cases kind <;> rintro e ⟨⟩; exact ⟨_, rfl⟩

/-- Reading an ordinary argument as a date fails by a `PrintfException`, or because it is a negative
number. -/
theorem Spec.Ordinary.temporal {jdk : JdkEnv} {a : Entry} (h : Ordinary jdk a) {e : Err}
    (he : (a.toTraits jdk).asTemporal = .error e) : IsPrintf e ∨ (e = .illegalArgument ∧ NegativeNumber a) := by
  have stamp : ∀ {v : Int}, (do return Temporal.stamp (← longToInstant v) : Res Temporal) = .error e →
      (v < 0 → NegativeNumber a) → IsPrintf e ∨ (e = .illegalArgument ∧ NegativeNumber a) :=
    fun h1 h2 => .inr ⟨(stamp_error h1).1, h2 (stamp_error h1).2⟩
  cases a with
  | prim p =>
    cases p
    case int v => exact absurd (stamp_error he).2 (by omega)
    case long v => exact stamp he (.prim v)
    all_goals cases he; exact .inl ⟨_, rfl⟩
  | ref o =>
    cases o with
    | boxed p id =>
      cases p
      case int v => exact absurd (stamp_error he).2 (by omega)
      case long v => exact stamp he (.boxed v id)
      all_goals cases he; exact .inl ⟨_, rfl⟩
    | bigInteger v id => exact stamp he (.big v id)
    | temporal t text id => cases he
    | traits t => exact h.elim
    | object kind text id =>
      cases kind with
      | number l d i => exact stamp he (.object l d i text id)
      | date ms i => obtain ⟨t, rfl⟩ := h.2 ms i rfl; cases he
      | calendar ms => cases he
      | other => cases he; exact .inl ⟨_, rfl⟩
    | _ => cases he; exact .inl ⟨_, rfl⟩

/-- **C46.**  A call with ordinary arguments ends with a text, with a `PrintfSyntaxException`, with a
`PrintfException`, or — only if the format asks for a date — with an error about the date. -/
theorem C46_documented_failures (dates : DateSyntax) (env : DateEnv) (jdk : JdkEnv) (f : JStr)
    (args : List Entry) (ha : ∀ a ∈ args, Ordinary jdk a) (e : Err)
    (he : printf dates env f (args.map (Entry.toTraits jdk)) = .error e) :
    Documented e ∨ (HasDate dates f ∧ DateFailure env args e) := by
  unfold printf at he
  rcases bind_eq_error.1 he with hc | ⟨apps, hc, he⟩
  · rcases C04_compile_failures_are_located dates f with ⟨_, h⟩ | ⟨w, i, h, _⟩ | ⟨⟨name, v, h⟩, _⟩
    all_goals rw [hc] at h; cases h
    · exact .inl (.inl ⟨w, i, rfl⟩)
    · exact .inl (.inr ⟨_, rfl⟩)
  · obtain ⟨ps, hr, rfl⟩ := (compile_iff dates f _).1 hc
    rw [formatWith_eq] at he
    have hres : (runSB env (ps.map Piece.compiled) (args.map (Entry.toTraits jdk)) []).result = .error e := by
      cases hx : (runSB env (ps.map Piece.compiled) (args.map (Entry.toTraits jdk)) []).result with
      | ok r => rw [hx] at he; cases he
      | error e' => rw [hx] at he; cases he; rfl
    rcases runSB_quiet (fun a hm => by
        obtain ⟨p, hp, rfl⟩ := List.mem_map.1 hm
        exact Piece.compiled_stored (hr.ok p hp)) (fun v hm => by
        obtain ⟨a, hm', rfl⟩ := List.mem_map.1 hm
        exact (ha a hm').quiet) hres with h | ⟨⟨b, hb, hd⟩, h⟩
    · exact .inl h.documented
    · have hdate : HasDate dates f := by
        obtain ⟨p, hp, rfl⟩ := List.mem_map.1 hb
        refine ⟨ps, hr, ?_⟩
        cases p with
        | lit s => exact hd.elim
        | percent => exact hd.elim
        | dir d =>
          refine ⟨d, hp, ?_⟩
          have := (by decide : ∀ c ∈ convChars, convOf c = .t ∨ convOf c = .upperT → c = 116 ∨ c = 84)
            d.conv (hr.ok _ hp).conv hd
          exact this
      rcases h with ⟨v, hv, h⟩ | h
      · obtain ⟨a, hm, rfl⟩ := List.mem_map.1 hv
        rcases (ha a hm).temporal h with h | ⟨h1, h2⟩
        · exact .inl h.documented
        · exact .inr ⟨hdate, .inl ⟨h1, a, hm, h2⟩⟩
      · exact .inr ⟨hdate, .inr h⟩

/-- Without a date directive, only the two exceptions of the library are possible. -/
theorem C46_without_dates (dates : DateSyntax) (env : DateEnv) (jdk : JdkEnv) (f : JStr)
    (args : List Entry) (ha : ∀ a ∈ args, Ordinary jdk a) (hf : ¬ HasDate dates f) (e : Err)
    (he : printf dates env f (args.map (Entry.toTraits jdk)) = .error e) : Documented e :=
  (C46_documented_failures dates env jdk f args ha e he).resolve_right fun h => hf h.1

/-- The same for every target: writing to an `Appendable` can moreover end with the wrapped
`IOException` of that target. -/
theorem C46_targets (dates : DateSyntax) (env : DateEnv) (jdk : JdkEnv) (f : JStr) (apps : List Appender)
    (hc : Compiler.compile dates f = .ok apps) (args : List Entry) (ha : ∀ a ∈ args, Ordinary jdk a) (e : Err) :
    (∀ sb, (runSB env apps (args.map (Entry.toTraits jdk)) sb).result = .error e →
      Documented e ∨ (HasDate dates f ∧ DateFailure env args e)) ∧
    (∀ (σ : Type) (k : Sink σ) (st : σ), (runSink env k apps (args.map (Entry.toTraits jdk)) st).result = .error e →
      Documented e ∨ (HasDate dates f ∧ DateFailure env args e) ∨ e = .uncheckedIO) := by
  have hv : ∀ v ∈ args.map (Entry.toTraits jdk), v.WF := by
    intro v hm
    obtain ⟨a, hm', rfl⟩ := List.mem_map.1 hm
    exact (ha a hm').quiet.wf
  obtain ⟨h1, ⟨chunks, _, h2⟩, _⟩ := C34_targets_agree dates env f apps hc _ hv
  have key : (runSB env apps (args.map (Entry.toTraits jdk)) []).result = .error e →
      Documented e ∨ (HasDate dates f ∧ DateFailure env args e) := by
    intro h
    refine C46_documented_failures dates env jdk f args ha e ?_
    unfold printf
    rw [hc, bind_ok, formatWith_eq, h]; rfl
  refine ⟨fun sb h => ?_, fun σ k st h => ?_⟩
  · rw [h1] at h; exact key h
  · rw [h2] at h
    generalize k.feed st chunks = r at h
    obtain ⟨st', b⟩ := r
    cases b with
    | true => exact (key h).imp_right .inl
    | false => cases h; exact .inr (.inr rfl)

/-! ### Examples -/

/-- A date formatter that refuses everything. -/
def refusingDateEnv : DateEnv where
  format _ _ := .error .dateTime

example : ∀ a ∈ [Entry.prim (.double 0x7FF0000000000000#64), .ref .null, .ref (.string (js! "x1") ⟨[], 1#32⟩),
    .ref (.bigDecimal 995 2 ⟨[], 1#32⟩)], Ordinary sampleJdk a := by
  intro a hm
  simp only [List.mem_cons, List.not_mem_nil, or_false] at hm
  rcases hm with rfl | rfl | rfl | rfl
  all_goals try trivial
  exact ⟨3, ⟨js! "995", by unfold Shortest IsNumeral NoExtraZero; decide, rfl⟩, by unfold ScaleOk; omega⟩

-- each kind of failure occurs
example : printf ⟨fun _ => true⟩ sampleDateEnv (js! "%q") [] = .error (.syntaxErr (.unknownSpecifier (ch! 'q')) 1) := rfl
example : printf ⟨fun _ => true⟩ sampleDateEnv (js! "%d") [strArg (js! "x1")] = .error (.printf (.wrongType .textToInt)) := rfl
example : printf ⟨fun _ => true⟩ sampleDateEnv (js! "%d") [] = .error (.printf (.missingArgument (ch! 'd'))) := rfl
example : printf ⟨fun _ => true⟩ sampleDateEnv (js! "%*d") [intArg 70000#32, intArg 1#32] =
    .error (.printf (.exceedsMaximum .width 70000)) := rfl
example : printf ⟨fun _ => true⟩ sampleDateEnv (js! "%a") [bigArg 15 1] = .error (.printf (.wrongType .bigDecimalHex)) := rfl
example : printf ⟨fun _ => true⟩ sampleDateEnv (js! "%x") [bigIntArg (-1)] = .error (.printf (.wrongType .negativeUnsigned)) := rfl
example : printf ⟨fun _ => true⟩ sampleDateEnv (js! "%t") [bigIntArg (-1)] = .error .illegalArgument := rfl
example : printf ⟨fun _ => true⟩ refusingDateEnv (js! "%t") [intArg 1#32] = .error .dateTime := rfl

/-- The condition on big numbers is needed: rounding `15E+2147483648` to one digit would need a scale
below `Integer.MIN_VALUE`, and `BigDecimal.round` answers with an `ArithmeticException`. -/
theorem C46_scale_witness : printf ⟨fun _ => true⟩ sampleDateEnv (js! "%.0e") [bigArg 15 (-2147483648)] =
    .error .arithmetic := rfl

end FastPrintf
