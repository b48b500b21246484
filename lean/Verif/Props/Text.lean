/-
Properties of the conversions that do not compute: C18, C19, C20, C37, C40, C41.
-/
import Verif.Proofs.Library
import Verif.Props.Integers
import Verif.Props.Engine

namespace FastPrintf
open Spec DefaultAppender

theorem field_padded (left : Bool) (w : Nat) (s : JStr) : field left false w [] s = padded left w s := by
  unfold field padded; cases left <;> simp

theorem left_eq (d : Directive) : d.context.flags.leftJustify = decide (ch! '-' ∈ d.flags) := by
  simp [Directive.context, flagSet]

theorem decimalText_eq {v : Int} {s : JStr} (h : DecimalText v s) : s = intToString v := by
  obtain ⟨ds, h1, rfl⟩ := h
  rw [h1.eq (by omega) (by omega)]
  unfold intToString natToString
  split_ifs <;> simp

theorem decimalText_intToString (v : Int) : DecimalText v (intToString v) := by
  refine ⟨_, shortest_toRadix (by omega) (by omega) _, ?_⟩
  unfold intToString natToString
  split_ifs <;> simp

theorem prim_shows (jdk : JdkEnv) (ref : RefSlot) {x : Integral} {p : Prim} (hp : x.prim? = some p) :
    ∃ q, (p.traits jdk ref).asSeq = .ok q ∧ q.WF ∧ q.flat.length = 1 ∧
      ((∀ b, x ≠ .bool b) → (∀ c, x ≠ .char c) → q.text = intToString x.value) ∧
      (∀ b, x = .bool b → q.text = if b then js! "true" else js! "false") ∧
      (∀ c, x = .char c → q.text = [c.toNat]) := by
  cases x with
  | byte v => cases hp; exact ⟨_, rfl, Seq.wrap_wf _, rfl, fun _ _ => Seq.wrap_text _, by simp, by simp⟩
  | short v => cases hp; exact ⟨_, rfl, Seq.wrap_wf _, rfl, fun _ _ => Seq.wrap_text _, by simp, by simp⟩
  | char v =>
    cases hp
    exact ⟨_, rfl, Seq.ch_wf _, rfl, by simp, by simp, by rintro c ⟨⟩; exact Seq.ch_text _⟩
  | bool v =>
    cases hp
    exact ⟨_, rfl, Seq.wrap_wf _, rfl, by simp, by rintro c ⟨⟩; exact Seq.wrap_text _, by simp⟩
  | int v =>
    cases hp
    have h1 := v.toInt_lt; have h2 := v.le_toInt
    obtain ⟨a, ha, hw, ht⟩ := mkLazy_text (intToString v.toInt) (stringSize32_eq (v := v.toInt) (by omega))
    exact ⟨.atom a, by simp only [Prim.traits, intTraits, ha, bind_ok]; rfl, hw, rfl, fun _ _ => ht,
      by simp, by simp⟩
  | long v =>
    cases hp
    have h1 := v.toInt_lt; have h2 := v.le_toInt
    obtain ⟨a, ha, hw, ht⟩ := mkLazy_text (intToString v.toInt) (stringSize64_eq (v := v.toInt) (by omega))
    exact ⟨.atom a, by simp only [Prim.traits, longTraits, ha, bind_ok]; rfl, hw, rfl, fun _ _ => ht,
      by simp, by simp⟩
  | big v => cases hp

theorem Spec.Shows.asSeq {e : Entry} {s : JStr} (h : Shows e s) (jdk : JdkEnv) :
    ∃ q, (e.toTraits jdk).asSeq = .ok q ∧ q.WF ∧ q.flat.length = 1 ∧ q.text = s := by
  cases h with
  | null => exact ⟨_, rfl, Seq.wrap_wf _, rfl, Seq.wrap_text _⟩
  | string s id => exact ⟨_, rfl, Seq.wrap_wf _, rfl, Seq.wrap_text _⟩
  | charSeq s id =>
    obtain ⟨a, ha, hw, ht⟩ := mkLazy_text s rfl
    exact ⟨.atom a, by simp only [Entry.toTraits, Obj.toTraits, charSequenceTraits, ha, bind_ok]; rfl,
      hw, rfl, ht⟩
  | number hx hb hc hs =>
    rw [decimalText_eq hs]
    cases hx with
    | prim hp =>
      obtain ⟨q, h1, h2, h3, h4, _⟩ := prim_shows jdk .primitive hp
      exact ⟨q, h1, h2, h3, h4 hb hc⟩
    | boxed hp id =>
      obtain ⟨q, h1, h2, h3, h4, _⟩ := prim_shows jdk id.ref hp
      exact ⟨q, h1, h2, h3, h4 hb hc⟩
    | big v id => exact ⟨_, rfl, Seq.wrap_wf _, rfl, Seq.wrap_text _⟩
  | bool hx =>
    cases hx with
    | prim hp =>
      obtain ⟨q, h1, h2, h3, _, h4, _⟩ := prim_shows jdk .primitive hp
      exact ⟨q, h1, h2, h3, h4 _ rfl⟩
    | boxed hp id =>
      obtain ⟨q, h1, h2, h3, _, h4, _⟩ := prim_shows jdk id.ref hp
      exact ⟨q, h1, h2, h3, h4 _ rfl⟩
  | char hx =>
    cases hx with
    | prim hp =>
      obtain ⟨q, h1, h2, h3, _, _, h4⟩ := prim_shows jdk .primitive hp
      exact ⟨q, h1, h2, h3, h4 _ rfl⟩
    | boxed hp id =>
      obtain ⟨q, h1, h2, h3, _, _, h4⟩ := prim_shows jdk id.ref hp
      exact ⟨q, h1, h2, h3, h4 _ rfl⟩

/-- **C18.** `%s` prints the text of the argument cut to the precision and padded with spaces to the
width; the flags other than `-` have no effect. -/
theorem C18_s (dates : DateSyntax) (env : DateEnv) (jdk : JdkEnv) (d : Directive) (h : d.Ok dates)
    (hp : d.Plain) (hc : d.conv = ch! 's') (e : Entry) (s : JStr) (hs : Shows e s)
    (rest : List Traits) :
    printf dates env d.text (e.toTraits jdk :: rest) =
      .ok (padded (ch! '-' ∈ d.flags) d.width.width
        (match d.prec.precision with | none => s | some p => s.take p)) := by
  obtain ⟨q, h1, h2, h3, h4⟩ := hs.asSeq jdk
  obtain ⟨r, n, r1, r2, _, r4, r5⟩ := SeqFormatter.s_sane hp.precOK h1 h2
  obtain ⟨r6, _⟩ := r5 (.inl h3)
  have hf : formatterFor env (convOf d.conv) d.context (e.toTraits jdk) = .ok r := by
    rw [hc]; exact r1
  rw [printf_plain_ok h hp hf r2, r4, r6, SeqFormatter.fieldBy_eq, field_padded, hp.width_eq, left_eq,
    hp.prec_eq, h4]
  congr 2
  cases d.prec.precision with
  | none => simp
  | some p => rfl

example : printf sampleDates sampleDateEnv (js! "[%-8.3s]") [strArg (js! "abcdef")] =
    .ok (js! "[abc     ]") := rfl
example : Shows (.ref (.string (js! "abcdef") ⟨js! "java.lang.String", 1#32⟩)) (js! "abcdef") :=
  .string _ _
example : Shows (.prim (.int (-42))) (js! "-42") :=
  .number (.prim (x := .int (-42)) rfl) (by simp) (by simp) (decimalText_intToString _)

/-- **C18 (ropes as arguments).** An argument that is itself a composite rope: the text is right, but
there can be too much padding when the precision cuts it (the defect of C22). -/
theorem C18_rope (dates : DateSyntax) (env : DateEnv) (jdk : JdkEnv) (d : Directive) (h : d.Ok dates)
    (hp : d.Plain) (hc : d.conv = ch! 's') (q : Seq) (hq : q.WF) (id : Identity)
    (rest : List Traits) :
    ∃ n, printf dates env d.text ((Entry.ref (.seq q id)).toTraits jdk :: rest) =
      .ok (if ch! '-' ∈ d.flags
        then q.text.take (d.prec.precision.getD q.text.length) ++ List.replicate n 32
        else List.replicate n 32 ++ q.text.take (d.prec.precision.getD q.text.length)) ∧
      d.width.width - (q.text.take (d.prec.precision.getD q.text.length)).length ≤ n ∧
      n ≤ d.width.width ∧
      (q.text.length ≤ d.prec.precision.getD q.text.length →
        n = d.width.width - q.text.length) := by
  have h1 : ((Entry.ref (.seq q id)).toTraits jdk).asSeq = .ok q := rfl
  obtain ⟨r, n, r1, r2, r3, r4, r5⟩ := SeqFormatter.s_sane hp.precOK h1 hq
  have hf : formatterFor env (convOf d.conv) d.context ((Entry.ref (.seq q id)).toTraits jdk) = .ok r := by
    rw [hc]; exact r1
  rw [hp.prec_eq] at r3 r4 r5
  rw [printf_plain_ok h hp hf r2, r4, hp.width_eq]
  refine ⟨d.width.width - n, ?_, by omega, by omega, ?_⟩
  · unfold SeqFormatter.fieldBy
    by_cases hm : ch! '-' ∈ d.flags <;> simp [Directive.context, flagSet, hm]
  · intro hle
    obtain ⟨r6, _⟩ := r5 (.inr hle)
    rw [List.length_take] at r6
    omega

/-- The composite rope `ab` + `cd`. -/
def sampleRope : Seq := (Seq.wrap (js! "ab")).append (Seq.wrap (js! "cd"))

theorem sampleRope_wf : sampleRope.WF := Seq.append_wf (Seq.wrap_wf _) (Seq.wrap_wf _)

/-- The excess does occur: `%5.3s` of the rope `ab`+`cd` has more than 5 characters. -/
theorem C18_rope_overpads :
    printf sampleDates sampleDateEnv (js! "%5.3s")
      [(Entry.ref (.seq sampleRope ⟨js! "Concat", 1#32⟩)).toTraits sampleJdk] = .ok (js! "    abc") := rfl

/-! ### Upper case -/

theorem formatterFor_upper (env : DateEnv) {lo up : JChar} (h : (lo, up) ∈ casePairs)
    (ctx : FormatContext) (v : Traits) :
    formatterFor env (convOf up) ctx v = formatterFor env (convOf lo) ctx v >>= Seq.upperCase := by
  simp only [casePairs, List.mem_cons, List.not_mem_nil, or_false, Prod.mk.injEq] at h
  rcases h with ⟨rfl, rfl⟩ | ⟨rfl, rfl⟩ | ⟨rfl, rfl⟩ | ⟨rfl, rfl⟩ | ⟨rfl, rfl⟩ | ⟨rfl, rfl⟩ | ⟨rfl, rfl⟩
  · simp only [formatterFor, convOf]
    cases v.asIntForm <;> rfl
  · simp only [formatterFor, convOf]
    cases v.asFloatForm <;> rfl
  · simp only [formatterFor, convOf]
    cases v.asFloatForm <;> rfl
  · simp only [formatterFor, convOf]
    cases v.asFloatForm <;> rfl
  · simp only [formatterFor, convOf]
    cases v.asFloatForm <;> rfl
  · rfl
  · rfl

theorem nextInt_twin (sp sp' : Specifier) (args : List Traits) : args = [] ∨ nextInt sp args = nextInt sp' args := by
  cases args with
  | nil => exact .inl rfl
  | cons v rest => exact .inr rfl

theorem starWidth_twin (sp sp' : Specifier) (ctx : FormatContext) (args : List Traits) :
    starWidth sp ctx args = starWidth sp' ctx args ∨
      (args.length < starCost ctx.width ∧ ∀ sp, starWidth sp ctx args = .error (.printf (.missingArgument sp.char))) := by
  unfold starWidth starCost
  by_cases h : ctx.isPrecedingWidth = true
  · simp only [if_pos h]
    rcases nextInt_twin sp sp' args with rfl | hn
    · exact .inr ⟨by rw [if_pos (by simpa [FormatContext.isPrecedingWidth] using h)]; simp, fun _ => rfl⟩
    · exact .inl (by rw [hn])
  · simp only [if_neg h, true_or]

theorem starPrecision_twin (sp sp' : Specifier) (ctx : FormatContext) (args : List Traits) :
    starPrecision sp ctx args = starPrecision sp' ctx args ∨
      (args.length < starCost ctx.precision ∧
        ∀ sp, starPrecision sp ctx args = .error (.printf (.missingArgument sp.char))) := by
  unfold starPrecision starCost
  by_cases h : ctx.isPrecedingPrecision = true
  · simp only [if_pos h]
    rcases nextInt_twin sp sp' args with rfl | hn
    · exact .inr ⟨by rw [if_pos (by simpa [FormatContext.isPrecedingPrecision] using h)]; simp, fun _ => rfl⟩
    · exact .inl (by rw [hn])
  · simp only [if_neg h, true_or]

/-- The twins agree, but each names its own letter when an argument is missing. -/
theorem append_upper (env : DateEnv) {lo up : JChar} (h : (lo, up) ∈ casePairs)
    (ctx : FormatContext) (args : List Traits) :
    append env (convOf up) ctx args =
      (append env (convOf lo) ctx args >>= fun r => r.1.upperCase >>= fun u => .ok (u, r.2)) ∨
    (args.length < starCost ctx.width + starCost ctx.precision + 1 ∧
      append env (convOf lo) ctx args = .error (.printf (.missingArgument (convOf lo).char)) ∧
      append env (convOf up) ctx args = .error (.printf (.missingArgument (convOf up).char))) := by
  rcases starWidth_twin (convOf up) (convOf lo) ctx args with hw | ⟨hl, hw⟩
  · cases h1 : starWidth (convOf lo) ctx args with
    | error e => left; unfold append; rw [hw, h1]; rfl
    | ok r1 =>
      obtain ⟨c1, a1⟩ := r1
      have hlen : a1.length + starCost ctx.width = args.length := by
        by_cases hs : args.length < starCost ctx.width
        · obtain ⟨e, he, -⟩ := (reads_starWidth (convOf lo) ctx).short args hs
          rw [he] at h1; cases h1
        · obtain ⟨r, hr⟩ := (reads_starWidth (convOf lo) ctx).enough (args.take (starCost ctx.width))
            (by rw [List.length_take]; omega)
          have := hr (args.drop (starCost ctx.width))
          rw [List.take_append_drop, h1] at this
          cases r with
          | error e => cases this
          | ok c =>
            cases this
            rw [List.length_drop]; omega
      have hp1 := starWidth_precision h1
      rcases starPrecision_twin (convOf up) (convOf lo) c1 a1 with hp | ⟨hl, hp⟩
      · cases h2 : starPrecision (convOf lo) c1 a1 with
        | error e => left; unfold append; rw [hw, h1]; simp only [bind_ok]; rw [hp, h2]; rfl
        | ok r2 =>
          obtain ⟨c2, a2⟩ := r2
          have hlen2 : a2.length + starCost c1.precision = a1.length := by
            by_cases hs : a1.length < starCost c1.precision
            · obtain ⟨e, he, -⟩ := (reads_starPrecision (convOf lo) c1).short a1 hs
              rw [he] at h2; cases h2
            · obtain ⟨r, hr⟩ := (reads_starPrecision (convOf lo) c1).enough (a1.take (starCost c1.precision))
                (by rw [List.length_take]; omega)
              have := hr (a1.drop (starCost c1.precision))
              rw [List.take_append_drop, h2] at this
              cases r with
              | error e => cases this
              | ok c =>
                cases this
                rw [List.length_drop]; omega
          cases a2 with
          | nil =>
            right
            refine ⟨by rw [← hp1]; simp only [List.length_nil] at hlen2; omega, ?_, ?_⟩
            · unfold append; rw [h1]; simp only [bind_ok]; rw [h2]; rfl
            · unfold append; rw [hw, h1]; simp only [bind_ok]; rw [hp, h2]; rfl
          | cons v rest =>
            left
            unfold append
            rw [hw, h1]
            simp only [bind_ok]
            rw [hp, h2]
            simp only [bind_ok, formatterFor_upper env h]
            cases formatterFor env (convOf lo) c2 v <;> rfl
      · right
        refine ⟨by rw [← hp1]; omega, ?_, ?_⟩
        · unfold append; rw [h1]; simp only [bind_ok]; rw [hp]; rfl
        · unfold append; rw [hw, h1]; simp only [bind_ok]; rw [hp]; rfl
  · right
    refine ⟨by omega, ?_, ?_⟩
    · unfold append; rw [hw]; rfl
    · unfold append; rw [hw]; rfl

/-- **C19.** An upper-case conversion prints what its lower-case twin prints, with `a`-`z` raised and
nothing else changed, and fails exactly when it fails, with the same exception; except that, when arguments are
missing, each twin names itself in the exception. -/
theorem C19_upper_case (dates : DateSyntax) (env : DateEnv) (jdk : JdkEnv) (d : Directive)
    (h : d.Ok dates) (up : JChar) (hu : (d.conv, up) ∈ casePairs) (es : List Entry)
    (he : ∀ e ∈ es, WellBehaved e) :
    ({ d with conv := up } : Directive).Ok dates ∧
    (printf dates env ({ d with conv := up } : Directive).text (es.map (·.toTraits jdk)) =
      (printf dates env d.text (es.map (·.toTraits jdk))).map (fun s => s.map Spec.upper) ∨
     (es.length < (Piece.dir d).arity ∧
      printf dates env d.text (es.map (·.toTraits jdk)) = .error (.printf (.missingArgument d.conv)) ∧
      printf dates env ({ d with conv := up } : Directive).text (es.map (·.toTraits jdk)) =
        .error (.printf (.missingArgument up)))) := by
  have hmem : up ∈ convChars ∧ up ≠ ch! '%' ∧ (IsDateConv d.conv → IsDateConv up) := by
    have : ∀ p ∈ casePairs, p.2 ∈ convChars ∧ p.2 ≠ ch! '%' ∧ ((p.1 = ch! 't' ∨ p.1 = ch! 'T') →
      (p.2 = ch! 't' ∨ p.2 = ch! 'T')) := by decide
    exact this _ hu
  have hch : (convOf d.conv).char = d.conv ∧ (convOf up).char = up := by
    have : ∀ p ∈ casePairs, (convOf p.1).char = p.1 ∧ (convOf p.2).char = p.2 := by decide
    exact this _ hu
  have hok : ({ d with conv := up } : Directive).Ok dates :=
    ⟨h.flagsOk, h.noRepeat, h.width, h.prec, hmem.1,
      fun p hp => ⟨hmem.2.2 (h.date p hp).1, (h.date p hp).2⟩, fun hc => absurd hc hmem.2.1⟩
  refine ⟨hok, ?_⟩
  have hv : ∀ v ∈ es.map (·.toTraits jdk), v.WF := by
    intro v hv
    obtain ⟨e, h1, rfl⟩ := List.mem_map.1 hv
    exact (he e h1).wf jdk
  rw [printf_dir hok, printf_dir h]
  change (append env (convOf up) d.context _ >>= _ = _) ∨ _ ∧ _ ∧ (append env (convOf up) d.context _ >>= _ = _)
  rcases append_upper env hu d.context (es.map (·.toTraits jdk)) with hap | ⟨hl, ha, hb⟩
  · left
    rw [hap]
    cases ha : append env (convOf d.conv) d.context (es.map (·.toTraits jdk)) with
    | error e => rfl
    | ok r =>
      obtain ⟨q, rest⟩ := r
      have hs : q.Sane := by
        refine (Appender.append_sane (a := .dflt (convOf d.conv) d.context) ?_ hv ha).1
        exact ⟨stored_value (WidthOk.ok h.width), stored_value h.prec⟩
      obtain ⟨u, u1, u2, u3, _⟩ := Seq.upperCase_sane hs
      simp only [bind_ok, u1]
      rw [Seq.appendToSB_ok u2, Seq.appendToSB_ok hs, u3]
      rfl
  · right
    refine ⟨?_, ?_, ?_⟩
    · rw [← cost_compiled]
      rw [List.length_map] at hl
      exact hl
    · rw [ha, hch.1]; rfl
    · rw [hb, hch.2]; rfl

/-- With the arguments the directive needs there is no difference but the case. -/
theorem upper_case_enough (dates : DateSyntax) (env : DateEnv) (jdk : JdkEnv) (d : Directive)
    (h : d.Ok dates) (up : JChar) (hu : (d.conv, up) ∈ casePairs) (es : List Entry)
    (he : ∀ e ∈ es, WellBehaved e) (hn : (Piece.dir d).arity ≤ es.length) :
    printf dates env ({ d with conv := up } : Directive).text (es.map (·.toTraits jdk)) =
      (printf dates env d.text (es.map (·.toTraits jdk))).map (fun s => s.map Spec.upper) := by
  rcases (C19_upper_case dates env jdk d h up hu es he).2 with h | ⟨h, -⟩
  · exact h
  · omega

example : printf sampleDates sampleDateEnv (js! "%.*X") [intArg 4#32] = .error (.printf (.missingArgument (ch! 'X'))) := rfl
example : printf sampleDates sampleDateEnv (js! "%#X") [intArg 48879#32] = .ok (js! "0XBEEF") := rfl
example : printf sampleDates sampleDateEnv (js! "%S") [strArg (js! "aé")] = .ok (js! "Aé") := rfl
example : WellBehaved (.prim (.int 48879#32)) := trivial

/-! ### Characters -/

/-- The code unit `%c` prints: the low 16 bits of a number, the first unit of a text. -/
inductive Spec.UnitOf : Entry → JChar → Prop
  | number {x : Integral} {e : Entry} (hx : x.Given e) : UnitOf e (x.value % 65536).toNat
  | string (c : JChar) (s : JStr) (id : Identity) : UnitOf (.ref (.string (c :: s) id)) c
  | charSeq (c : JChar) (s : JStr) (id : Identity) : UnitOf (.ref (.charSeq (c :: s) id)) c

theorem toChar_wrap32 (v : Int) : toChar (wrap32 v) = (v % 65536).toNat := by
  unfold toChar wrap32
  rw [Int.bmod_def]
  split_ifs <;> omega

theorem prim_unit (jdk : JdkEnv) (ref : RefSlot) {x : Integral} {p : Prim} (hp : x.prim? = some p) :
    (p.traits jdk ref).asChar = .ok (x.value % 65536).toNat := by
  cases x with
  | byte v => cases hp; rfl
  | short v => cases hp; rfl
  | char v =>
    cases hp
    have := v.isLt
    simp only [Prim.traits, charTraits, Integral.value]
    congr 1; omega
  | bool v => cases hp; cases v <;> rfl
  | int v => cases hp; rfl
  | long v => cases hp; exact congrArg _ (toChar_wrap32 _)
  | big v => cases hp

theorem Spec.UnitOf.asChar {e : Entry} {c : JChar} (h : UnitOf e c) (jdk : JdkEnv) :
    (e.toTraits jdk).asChar = .ok c := by
  cases h with
  | number hx =>
    cases hx with
    | prim hp => exact prim_unit jdk _ hp
    | boxed hp id => exact prim_unit jdk _ hp
    | big v id => exact congrArg _ (toChar_wrap32 _)
  | string c s id => rfl
  | charSeq c s id => rfl

/-- **C20.** `%c` prints one code unit, padded with spaces. -/
theorem C20_c (dates : DateSyntax) (env : DateEnv) (jdk : JdkEnv) (d : Directive) (h : d.Ok dates)
    (hp : d.Plain) (hc : d.conv = ch! 'c') (e : Entry) (c : JChar) (hu : UnitOf e c)
    (rest : List Traits) :
    printf dates env d.text (e.toTraits jdk :: rest) =
      .ok (padded (ch! '-' ∈ d.flags) d.width.width [c]) := by
  obtain ⟨r, r1, r2, r3⟩ := SeqFormatter.c_ok d.context (hu.asChar jdk)
  have hf : formatterFor env (convOf d.conv) d.context (e.toTraits jdk) = .ok r := by
    rw [hc]; exact r1
  rw [printf_plain_ok h hp hf r2.sane, r3, field_padded, hp.width_eq, left_eq]

/-- **C20 (rejections).** An empty text and null have no code unit. -/
theorem C20_c_rejects (dates : DateSyntax) (env : DateEnv) (jdk : JdkEnv) (d : Directive)
    (h : d.Ok dates) (hp : d.Plain) (hc : d.conv = ch! 'c') (o : Obj)
    (ho : o = .null ∨ ∃ id, o = .string [] id ∨ o = .charSeq [] id) (rest : List Traits) :
    printf dates env d.text ((Entry.ref o).toTraits jdk :: rest) =
      .error (.printf (.wrongType (match o with | .null => .nullToInt | _ => .emptyToChar))) := by
  rw [printf_plain h hp, hc]
  rcases ho with rfl | ⟨id, rfl | rfl⟩ <;> rfl

example : printf sampleDates sampleDateEnv (js! "%3c") [intArg 65601#32] = .ok (js! "  A") := rfl
example : UnitOf (.prim (.int 65601#32)) (ch! 'A') := .number (x := .int 65601#32) (.prim rfl)

/-! ### References -/

/-- **C37 (null under `%s`, `%S`, `%p`).** It prints `null` (`NULL`), padded, cut by a precision under
`%s` only. -/
theorem C37_null_shown (dates : DateSyntax) (env : DateEnv) (jdk : JdkEnv) (d : Directive)
    (h : d.Ok dates) (hp : d.Plain) (rest : List Traits) :
    (d.conv = ch! 's' → printf dates env d.text ((Entry.ref .null).toTraits jdk :: rest) =
      .ok (padded (ch! '-' ∈ d.flags) d.width.width
        (match d.prec.precision with | none => js! "null" | some p => (js! "null").take p))) ∧
    (d.conv = ch! 'p' → printf dates env d.text ((Entry.ref .null).toTraits jdk :: rest) =
      .ok (padded (ch! '-' ∈ d.flags) d.width.width (js! "null"))) := by
  refine ⟨fun hc => C18_s dates env jdk d h hp hc _ _ .null rest, fun hc => ?_⟩
  obtain ⟨r, r1, r2, r3⟩ := SeqFormatter.p_ok d.context (v := nullTraits) (by simp [nullTraits])
  have hf : formatterFor env (convOf d.conv) d.context ((Entry.ref .null).toTraits jdk) = .ok r := by
    rw [hc]; exact r1
  rw [printf_plain_ok h hp hf r2.sane, r3, field_padded, hp.width_eq, left_eq]
  rfl

/-- **C37 (null elsewhere).** Every other conversion that looks at its argument rejects null, saying what it wanted
instead. -/
theorem C37_null_rejected (dates : DateSyntax) (env : DateEnv) (jdk : JdkEnv) (d : Directive)
    (h : d.Ok dates) (hp : d.Plain) (hc : d.conv ∉ js! "sSpn%") (rest : List Traits) :
    printf dates env d.text ((Entry.ref .null).toTraits jdk :: rest) =
      .error (.printf (.wrongType (if d.conv ∈ js! "diuoxXc" then .nullToInt else if d.conv ∈ js! "tT" then
        .nullToTemporal else .nullToFloat))) := by
  rw [printf_plain h hp]
  have : formatterFor env (convOf d.conv) d.context ((Entry.ref .null).toTraits jdk) =
      .error (.printf (.wrongType (if d.conv ∈ js! "diuoxXc" then .nullToInt else if d.conv ∈ js! "tT" then
        .nullToTemporal else .nullToFloat))) := by
    have hm := h.conv
    simp only [convChars, List.mem_cons, List.not_mem_nil, or_false] at hm hc
    rcases hm with hm | hm | hm | hm | hm | hm | hm | hm | hm | hm | hm | hm | hm | hm | hm | hm | hm |
      hm | hm | hm | hm | hm <;> rw [hm] at hc ⊢ <;> first | rfl | (exfalso; revert hc; decide)
  rw [this]; rfl

/-- **C37 (`%p`).** A primitive is rejected; any object prints its class name, `@` and its identity
hash code in hexadecimal. -/
theorem C37_p (dates : DateSyntax) (env : DateEnv) (jdk : JdkEnv) (d : Directive)
    (h : d.Ok dates) (hp : d.Plain) (hc : d.conv = ch! 'p') (rest : List Traits) :
    (∀ p : Prim, printf dates env d.text ((Entry.prim p).toTraits jdk :: rest) =
      .error (.printf .primitivePointer)) ∧
    (∀ o id, identity? o = some id → ∃ hex, Shortest 16 id.hash.toNat hex ∧
      printf dates env d.text ((Entry.ref o).toTraits jdk :: rest) =
        .ok (padded (ch! '-' ∈ d.flags) d.width.width (id.className ++ js! "@" ++ hex))) := by
  constructor
  · intro p
    rw [printf_plain h hp, hc]
    cases p <;> rfl
  · intro o id ho
    have href : ((Entry.ref o).toTraits jdk).ref = .object id.className id.hash := by
      cases o <;> simp only [identity?, reduceCtorEq, Option.some.injEq] at ho <;> subst ho <;>
        first | rfl | (rename_i p _; cases p <;> rfl)
    obtain ⟨r, r1, r2, r3⟩ := SeqFormatter.p_ok d.context (v := (Entry.ref o).toTraits jdk)
      (by rw [href]; simp)
    rw [href] at r3
    have hf : formatterFor env (convOf d.conv) d.context ((Entry.ref o).toTraits jdk) = .ok r := by
      rw [hc]; exact r1
    refine ⟨_, shortest_toRadix (by omega) (by omega) _, ?_⟩
    rw [printf_plain_ok h hp hf r2.sane, r3, field_padded, hp.width_eq, left_eq]

example : printf sampleDates sampleDateEnv (js! "%p") [strArg (js! "x")] =
    .ok (js! "java.lang.String@1") := rfl
example : printf sampleDates sampleDateEnv (js! "%p") [intArg 3#32] =
    .error (.printf .primitivePointer) := rfl
example : printf sampleDates sampleDateEnv (js! "%6s|%d") [nullTraits, nullTraits] =
    .error (.printf (.wrongType .nullToInt)) := rfl

/-! ### Numeric timestamps and lengths -/

/-- **C40.** Numbers under `%t`: a number `n` from 0 to 4294967295 is a second count, a larger one a
millisecond count, a negative one is rejected by `IllegalArgumentException`. -/
theorem C40_timestamps (v : BitVec 64) (ref : RefSlot) :
    ((longTraits v ref).asTemporal =
      if v.toInt < 0 then .error .illegalArgument
      else if v.toInt ≤ 4294967295 then .ok (.stamp (.epochSecond v.toInt))
      else .ok (.stamp (.epochMilli v.toInt))) ∧
    (∀ w : BitVec 32, (intTraits w ref).asTemporal = .ok (.stamp (.epochSecond w.toNat))) ∧
    (∀ n : Int, (bigIntegerTraits n ref).asTemporal =
      (longTraits (BitVec.ofInt 64 n) ref).asTemporal) := by
  refine ⟨?_, ?_, ?_⟩
  · simp only [longTraits, longToInstant]
    by_cases h1 : v.toInt < 0
    · rw [if_pos h1, if_neg (by omega)]; rfl
    · rw [if_neg h1, if_pos (by omega)]
      by_cases h2 : v.toInt ≤ 4294967295
      · rw [if_pos h2, if_pos h2]; rfl
      · rw [if_neg h2, if_neg h2]; rfl
  · intro w
    have := w.isLt
    simp only [intTraits, longToInstant]
    rw [if_pos (by omega), if_pos (by omega)]; rfl
  · intro n
    simp only [bigIntegerTraits, longTraits, wrap64]
    rw [BitVec.toInt_ofInt]

/-- The point on the time line, in milliseconds. -/
def Spec.millis : InstantOf → Int
  | .epochSecond s => s * 1000
  | .epochMilli ms => ms

/-- The reading is not monotonic: adding one to 4294967295 goes back by more than 135 years. -/
theorem C40_not_monotonic : ∃ a b, longToInstant 4294967295 = .ok a ∧
    longToInstant 4294967296 = .ok b ∧ Spec.millis b + 135 * 365 * 86400000 < Spec.millis a :=
  ⟨_, _, rfl, rfl, by decide⟩

/-- **C41.** The length declared for the lazily rendered text of an `int` or `long` is its length. -/
theorem C41_declared_length (ref : RefSlot) :
    (∀ v : BitVec 32, ∀ s, DecimalText v.toInt s → stringSize32 v.toInt = s.length) ∧
    (∀ v : BitVec 64, ∀ s, DecimalText v.toInt s → stringSize64 v.toInt = s.length) ∧
    (∀ v : BitVec 32, ∀ s, DecimalText v.toInt s → ∃ q, (intTraits v ref).asSeq = .ok q ∧
      q.length = s.length ∧ q.text = s) ∧
    (∀ v : BitVec 64, ∀ s, DecimalText v.toInt s → ∃ q, (longTraits v ref).asSeq = .ok q ∧
      q.length = s.length ∧ q.text = s) := by
  have s32 : ∀ v : BitVec 32, stringSize32 v.toInt = (intToString v.toInt).length := by
    intro v
    have h1 := v.toInt_lt; have h2 := v.le_toInt
    exact stringSize32_eq (by omega)
  have s64 : ∀ v : BitVec 64, stringSize64 v.toInt = (intToString v.toInt).length := by
    intro v
    have h1 := v.toInt_lt; have h2 := v.le_toInt
    exact stringSize64_eq (by omega)
  refine ⟨?_, ?_, ?_, ?_⟩
  · intro v s hs; rw [decimalText_eq hs, s32]
  · intro v s hs; rw [decimalText_eq hs, s64]
  · intro v s hs
    rw [decimalText_eq hs]
    obtain ⟨a, ha, hw, ht⟩ := mkLazy_text _ (s32 v)
    refine ⟨.atom a, by simp only [intTraits, ha, bind_ok]; rfl, ?_, ht⟩
    rw [← show (Seq.atom a).text = a.text from rfl] at ht
    rw [← ht]; exact Seq.WF.length_text (s := .atom a) hw
  · intro v s hs
    rw [decimalText_eq hs]
    obtain ⟨a, ha, hw, ht⟩ := mkLazy_text _ (s64 v)
    refine ⟨.atom a, by simp only [longTraits, ha, bind_ok]; rfl, ?_, ht⟩
    rw [← show (Seq.atom a).text = a.text from rfl] at ht
    rw [← ht]; exact Seq.WF.length_text (s := .atom a) hw

example : stringSize64 (-9223372036854775808) = 20 := by decide
example : DecimalText (-9223372036854775808) (js! "-9223372036854775808") := decimalText_intToString _

/-- **C09/C34, the arguments they speak about.**  Every argument the library makes itself from a
primitive, a number, a string, a date or `null` is well formed and has digits; the hypotheses of
those properties only restrict `FormatTraits` and `Seq` implementations written by the caller. -/
theorem C34_library_arguments (jdk : JdkEnv) (e : Entry) (h : WellBehaved e) :
    (e.toTraits jdk).WF ∧ (e.toTraits jdk).HasDigits :=
  ⟨h.wf jdk, h.hasDigits jdk⟩

end FastPrintf
