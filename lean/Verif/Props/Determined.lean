/-
C56: the semantics of `Spec/Semantics` has one result, so a call does exactly what can be derived from
the tables.
-/
import Verif.Proofs.Determined
import Verif.Props.Semantics

namespace FastPrintf
open Spec DefaultAppender

/-! ### One directive -/

theorem whole_sound {dates : DateSyntax} (env : DateEnv) {jdk : JdkEnv} {d : Directive} (h : d.Ok dates)
    (hp : d.Plain) (hc : d.conv ∈ js! "diuox") {e : Entry} {x : Integral} (hr : WholeReading jdk e (.ok x)) :
    ∃ e', x.Given e' ∧ printf dates env d.text [e.toTraits jdk] = printf dates env d.text [e'.toTraits jdk] := by
  have hci : d.conv ∈ intConvs := by
    simp only [intConvs, List.mem_cons, List.not_mem_nil, or_false] at hc ⊢
    omega
  cases hr with
  | given hx => exact ⟨e, hx, rfl⟩
  | other hr =>
    obtain ⟨e', hx⟩ := x.given_exists
    exact ⟨e', hx, C48_read_as_integer dates env jdk d h hp hci e x hr e' hx []⟩

theorem real_sound {dates : DateSyntax} (env : DateEnv) {jdk : JdkEnv} {d : Directive} (h : d.Ok dates)
    (hp : d.Plain) (hc : d.conv ∈ floatConvs) {e : Entry} (he : Covered e) {x : Floating}
    (hr : RealReading jdk e (.ok x)) : FloatText d x (printf dates env d.text [e.toTraits jdk]) := by
  have hca : d.conv ∈ allFloatConvs := by
    simp only [floatConvs, allFloatConvs, List.mem_cons, List.not_mem_nil, or_false] at hc ⊢
    omega
  cases hr with
  | @double _ b hb =>
    cases hb with
    | prim => exact floatText_double env h hp hc b
    | boxed _ id =>
      have := floatText_double env (jdk := jdk) h hp hc b
      rw [printf_plain h hp] at this ⊢
      have heq : formatterFor env (convOf d.conv) d.context ((Entry.ref (.boxed (.double b) id)).toTraits jdk) =
          formatterFor env (convOf d.conv) d.context ((Entry.prim (.double b)).toTraits jdk) := by
        obtain ⟨k, hk, _⟩ := formatterFor_float (env := env) hca d.context
        rw [hk, hk]; rfl
      rw [heq]; exact this
  | big u s id => exact floatText_big env h hp hc id (fun n hn => he.scale u s n (.decimal u s id) hn)
  | other hr =>
    cases x with
    | double b =>
      rw [C49_read_as_double dates env jdk d h hp hca e b hr _ (.prim b)]
      exact floatText_double env h hp hc b
    | big u s =>
      rw [C49_read_as_bigDecimal dates env jdk d h hp hca e u s hr someId]
      refine floatText_big env h hp hc someId (fun n hn => ?_)
      cases hr with
      | bigInteger v id => exact he.scale u 0 n (.integer u id) hn

theorem Spec.PointerText.unique {e : Entry} {r r' : Res JStr} (h : PointerText e r) (h' : PointerText e r') :
    r = r' := by
  cases h with
  | prim => cases h'; rfl
  | null => cases h' with
    | null => rfl
    | object h => cases h
  | object h hx => cases h' with
    | null => cases h
    | object h' hx' =>
      rw [h] at h'
      cases h'
      rw [hx.unique (by omega) (by omega) hx']

/-- **C56 (one directive).** If the tables allow a result for a directive without `*` and an argument,
then that is what the call does. -/
theorem C56_directive (dates : DateSyntax) (env : DateEnv) (jdk : JdkEnv) (d : Directive) (h : d.Ok dates)
    (hp : d.Plain) (e : Entry) (he : Covered e) (r : Res JStr) (hr : Prints jdk env d e r) :
    printf dates env d.text [e.toTraits jdk] = r := by
  induction hr with
  | signed hc hr ht =>
    obtain ⟨e', hx, heq⟩ := whole_sound env h hp (by rcases hc with hc | hc <;> simp [hc]) hr
    rw [heq, printf_d env jdk h hp hc hx, signedNumberText_unique (dText_signed ..) ht]
  | @unsigned d e c hc x hr n hn out ht =>
    obtain ⟨e', hx, heq⟩ := whole_sound env h hp (by rw [hc]; cases c <;> decide) hr
    rw [heq, printf_u env jdk h hp hc hx hn, unsignedNumberText_unique (uText_unsigned ..) ht]
  | @negative d e c hc x hr hn =>
    obtain ⟨e', hx, heq⟩ := whole_sound env h hp (by rw [hc]; cases c <;> decide) hr
    rw [heq]
    cases x with
    | big v =>
      have hv : v < 0 := by
        by_contra hv
        simp [Integral.unsigned, hv] at hn
      cases hx with
      | prim hq => cases hq
      | boxed hq id => cases hq
      | big v id => rw [C14_negative_big_rejected dates env jdk d h hp c hc v hv id]; rfl
    | _ => simp [Integral.unsigned] at hn
  | @noInteger d e hc err hr =>
    cases hr with
    | other hr =>
      refine C48_no_integer dates env jdk d h hp ?_ e err hr []
      simp only [intConvs, List.mem_cons, List.not_mem_nil, or_false] at hc ⊢
      omega
  | @floating d e hc x hr r ht =>
    exact (real_sound env h hp hc he hr).unique ht
  | @noFloat d e hc err hr =>
    cases hr with
    | other hr =>
      refine C49_no_double dates env jdk d h hp ?_ e err hr []
      simp only [floatConvs, allFloatConvs, List.mem_cons, List.not_mem_nil, or_false] at hc ⊢
      omega
  | text hc hr => exact C54_s dates env jdk _ h hp hc _ _ hr []
  | @rope d hc q id => exact C54_rope dates env jdk d h hp hc q he.behaved id []
  | char hc hr => exact C51_c dates env jdk _ h hp hc _ _ hr []
  | @pointer d e hc r hr =>
    obtain ⟨r', hr', h1⟩ := C54_p dates env jdk d h hp hc e he.listed []
    rw [h1, hr'.unique hr]
  | time hc hr hf => exact C52_t dates env jdk _ h hp hc _ _ hr _ _ hf []
  | noFormat hc hr hf => exact C52_no_formatter dates env jdk _ h hp hc _ _ hr hf []
  | noTime hc hr => exact C52_no_time dates env jdk _ h hp hc _ _ hr []
  | nothing hc => rw [printf_plain h hp, hc]; rfl
  | percent hc => rw [printf_plain h hp, hc]; rfl
  | @upper d e lo hc r hr ih =>
    have key : ∀ p ∈ casePairs, p.1 ∈ convChars ∧ p.1 ≠ ch! '%' ∧
        ((p.2 = ch! 't' ∨ p.2 = ch! 'T') → (p.1 = ch! 't' ∨ p.1 = ch! 'T')) := by decide
    obtain ⟨k1, k2, k3⟩ := key _ hc
    have hok : ({ d with conv := lo } : Directive).Ok dates :=
      ⟨h.flagsOk, h.noRepeat, h.width, h.prec, k1,
        fun p hp => ⟨k3 (h.date p hp).1, (h.date p hp).2⟩, fun hc => absurd hc k2⟩
    have hup := upper_case_enough dates env jdk { d with conv := lo } hok d.conv hc [e]
      (by simpa using he.behaved) (by simp [Piece.arity, hp.width, hp.prec])
    have hd : ({ ({ d with conv := lo } : Directive) with conv := d.conv } : Directive) = d := rfl
    rw [hd] at hup
    simp only [List.map_cons, List.map_nil] at hup
    rw [hup, ih hok ⟨hp.width, hp.prec⟩ he]

theorem prints_sound {dates : DateSyntax} (env : DateEnv) {jdk : JdkEnv} {d : Directive}
    (h : d.Formed dates) (hp : d.Plain) {e : Entry} (he : Covered e) {r : Res JStr}
    (hr : Prints jdk env d e r) :
    (formatterFor env (convOf d.conv) d.context (e.toTraits jdk) >>= fun s => s.appendToSB []) = r := by
  by_cases hc : d.conv = ch! '%'
  · have : r = .ok (js! "%") := by
      cases hr with
      | percent => rfl
      | @unsigned _ _ c hc' => cases c <;> (rw [hc] at hc'; exact absurd hc' (by decide))
      | @negative _ _ c hc' => cases c <;> (rw [hc] at hc'; exact absurd hc' (by decide))
      | signed hc' => rw [hc] at hc'; exact absurd hc' (by decide)
      | noInteger hc' => rw [hc] at hc'; exact absurd hc' (by decide)
      | floating hc' => rw [hc] at hc'; exact absurd hc' (by decide)
      | noFloat hc' => rw [hc] at hc'; exact absurd hc' (by decide)
      | @upper _ _ lo hc' =>
        have key : ∀ p ∈ casePairs, p.2 ≠ ch! '%' := by decide
        exact absurd hc (key _ hc')
      | _ hc' => rw [hc] at hc'; exact absurd hc' (by decide)
    rw [this, hc]; rfl
  · have hok : d.Ok dates := ⟨h.flagsOk, h.noRepeat, h.width, h.prec, h.conv, h.date, fun h => absurd h hc⟩
    rw [← printf_plain hok hp env _ []]
    exact C56_directive dates env jdk d hok hp e he r hr

/-! ### Stars -/

/-- The directive that results from `d` when stars are replaced. -/
structure Spec.Refines (dates : DateSyntax) (d d' : Directive) : Prop where
  formed : d'.Formed dates
  plain : d'.Plain
  conv : d'.conv = d.conv

/-- What `Settles` allows is what the appender does. -/
def SoundStep (dates : DateSyntax) (env : DateEnv) (jdk : JdkEnv) (d : Directive) (es : List Entry) :
    Res (Directive × List Entry) → Prop
  | .error err => append env (convOf d.conv) d.context (es.map (·.toTraits jdk)) = .error err
  | .ok (d', es') => Refines dates d d' ∧ (∀ e ∈ es', e ∈ es) ∧
      append env (convOf d.conv) d.context (es.map (·.toTraits jdk)) =
        valueStep env (convOf d.conv) d'.context (es'.map (·.toTraits jdk))

theorem SoundStep.after {dates : DateSyntax} {env : DateEnv} {jdk : JdkEnv} {d d1 : Directive} {e : Entry}
    {es : List Entry} {r : Res (Directive × List Entry)} (h : SoundStep dates env jdk d1 es r)
    (hc : d1.conv = d.conv)
    (heq : append env (convOf d.conv) d.context ((e :: es).map (·.toTraits jdk)) =
      append env (convOf d.conv) d1.context (es.map (·.toTraits jdk))) :
    SoundStep dates env jdk d (e :: es) r := by
  cases r with
  | error err =>
    have h : append env (convOf d1.conv) d1.context (es.map (·.toTraits jdk)) = .error err := h
    show append env (convOf d.conv) d.context _ = _
    rw [heq, ← hc, h]
  | ok p =>
    obtain ⟨d', es'⟩ := p
    obtain ⟨h1, h2, h3⟩ := h
    refine ⟨⟨h1.formed, h1.plain, h1.conv.trans hc⟩, fun a h => List.mem_cons_of_mem _ (h2 a h), ?_⟩
    rw [heq, ← hc, h3]

theorem settles_sound {dates : DateSyntax} (env : DateEnv) {jdk : JdkEnv} {d : Directive}
    {es : List Entry} {r : Res (Directive × List Entry)} (hs : Settles jdk d es r)
    (h : d.Formed dates) (he : ∀ e ∈ es, Covered e) : SoundStep dates env jdk d es r := by
  have noStar : ∀ {d : Directive}, d.width ≠ .star → ∀ args,
      append env (convOf d.conv) d.context args = afterWidth env (convOf d.conv) d.context args :=
    fun hw args => append_noStar (context_noStar hw) args
  have ha : ∀ {es : List Entry}, (∀ e ∈ es, Covered e) →
      ∀ v ∈ es.map (·.toTraits jdk), v.WF ∧ v.HasDigits := by
    intro es he v hv
    obtain ⟨a, h1, rfl⟩ := List.mem_map.1 hv
    exact ⟨(he a h1).behaved.wf jdk, (he a h1).behaved.hasDigits jdk⟩
  have starW : ∀ {d : Directive}, d.width = .star → ∀ (v : Traits) args,
      append env (convOf d.conv) d.context (v :: args) = v.asInt >>= fun w =>
        (if w ≥ 0 then d.context.setWidth w else (d.context.addFlag .leftJustify).setWidth (wrap32 (-w))) >>=
          fun c => afterWidth env (convOf d.conv) c args :=
    fun hw v args => append_star (by simp [Directive.context, hw, Num.value]) v args
  have starP : ∀ {d : Directive}, d.width ≠ .star → d.prec = .star → ∀ (v : Traits) args,
      append env (convOf d.conv) d.context (v :: args) = v.asInt >>= fun p =>
        d.context.setPrecision (if p ≥ 0 then p else UNSET) >>= fun c => valueStep env (convOf d.conv) c args := by
    intro d hw hp v args
    rw [noStar hw, afterWidth_star (by simp [Directive.context, hp, Num.value])]
  induction hs with
  | @plain d hp es =>
    refine ⟨⟨h, hp, rfl⟩, fun e h => h, ?_⟩
    rw [noStar hp.width, afterWidth_noStar (context_noStarPrec hp.prec)]
  | @missing d hp =>
    show append env (convOf d.conv) d.context [] = _
    by_cases hw : d.width = .star
    · rw [append_eq]
      unfold starWidth FormatContext.isPrecedingWidth
      rw [if_pos (by simp [Directive.context, hw, Num.value]), ← convOf_char h.conv]
      rfl
    · have hpr : d.prec = .star := by
        by_contra hpr; exact hp ⟨hw, hpr⟩
      rw [noStar hw]
      unfold afterWidth starPrecision FormatContext.isPrecedingPrecision
      rw [if_pos (by simp [Directive.context, hpr, Num.value]), ← convOf_char h.conv]
      rfl
  | @unreadable d hp e err hr es =>
    show append env (convOf d.conv) d.context (e.toTraits jdk :: _) = _
    by_cases hw : d.width = .star
    · rw [starW hw, hr.int]; rfl
    · have hpr : d.prec = .star := by
        by_contra hpr; exact hp ⟨hw, hpr⟩
      rw [starP hw hpr, hr.int]; rfl
  | @width d hw e n hr w hwr es r hs ih =>
    have he' : ∀ a ∈ es, Covered a := fun a h1 => he a (List.mem_cons_of_mem _ h1)
    rcases hwr with ⟨rfl, rfl⟩ | ⟨ds, rfl, hok, hv⟩
    · refine (ih (h.newWidth trivial) he').after rfl ?_
      rw [List.map_cons, starW hw, hr.int, bind_ok, if_pos (le_refl (0 : Int)),
        setWidth_eq (.inr (.inr (by omega))), bind_ok]
      refine Eq.trans ?_ (noStar (d := { d with width := .absent }) (by simp) _).symm
      refine afterWidth_padsNothing (c1 := { d.context with width := 0 })
        (c2 := { d with width := .absent }.context)
        ⟨rfl, rfl, rfl, le_refl (0 : Int), ?_, .inr ⟨.inl rfl, .inr rfl⟩⟩ (stored_value h.prec) (ha he')
      simp only [Directive.context, Num.value, UNSET]; omega
    · refine (ih (h.newWidth hok) he').after rfl ?_
      have hcap := hok.2.2.2
      rw [List.map_cons, starW hw, hr.int, bind_ok, if_pos (by omega),
        setWidth_eq (.inr (.inr (by simp only [numberCap] at hcap; omega))), bind_ok]
      refine Eq.trans ?_ (noStar (d := { d with width := .digits ds }) (by simp) _).symm
      rw [← hv]; rfl
  | @negativeWidth d hw e n hr hn w hwr es r hs ih =>
    have he' : ∀ a ∈ es, Covered a := fun a h1 => he a (List.mem_cons_of_mem _ h1)
    have hrange := (StarReading.range hr).1
    simp only [minInt] at hrange
    rcases hwr with (⟨h0, -⟩ | ⟨ds, rfl, hok, hv⟩) | ⟨hmin, rfl⟩
    · omega
    · refine (ih (h.newFlags hok) he').after rfl ?_
      have hcap := hok.2.2.2
      simp only [numberCap] at hcap
      rw [List.map_cons, starW hw, hr.int, bind_ok, if_neg (by omega), wrap32_small (by omega),
        setWidth_eq (.inr (.inr (by omega))), bind_ok, addFlag_eq]
      refine Eq.trans ?_ (noStar (d := { d with flags := withMinus d.flags, width := .digits ds }) (by simp) _).symm
      rw [← hv]
      simp only [Directive.context, flagSet_withMinus, Num.value]
    · refine (ih (h.newFlags trivial) he').after rfl ?_
      have hwr : wrap32 (-n) = PRECEDING := by rw [hmin]; decide
      rw [List.map_cons, starW hw, hr.int, bind_ok, if_neg (by omega), hwr, setWidth_eq (.inr (.inl rfl)), bind_ok,
        addFlag_eq]
      refine Eq.trans ?_ (noStar (d := { d with flags := withMinus d.flags, width := .absent }) (by simp) _).symm
      refine afterWidth_padsNothing (c1 := { d.context with
          flags := { d.context.flags with leftJustify := true }, width := PRECEDING })
        (c2 := { d with flags := withMinus d.flags, width := .absent }.context)
        ⟨?_, rfl, rfl, ?_, ?_, .inl rfl⟩ (stored_value h.prec) (ha he')
      · simp only [Directive.context, flagSet_withMinus]
      · show PRECEDING ≤ 0; decide
      · simp only [Directive.context, Num.value, UNSET]; omega
  | @hugeWidth d hw e n hr hn hm es =>
    have hrange := (StarReading.range hr).1
    simp only [minInt] at hrange hm
    simp only [numberCap] at hn
    show append env (convOf d.conv) d.context (e.toTraits jdk :: _) = _
    rw [starW hw, hr.int, bind_ok]
    by_cases h0 : n ≥ 0
    · rw [abs_of_nonneg h0] at hn ⊢
      rw [if_pos h0]
      simp only [FormatContext.setWidth, checkValue_over (show 65536 < n by omega), bind_error]
    · rw [abs_of_neg (by omega)] at hn ⊢
      rw [if_neg h0, wrap32_small (by omega)]
      simp only [FormatContext.setWidth, checkValue_over (show 65536 < -n by omega), bind_error]
  | @precision d hw hp e n hr ds hd hn es =>
    have hcap := hd.2
    simp only [numberCap] at hcap
    refine ⟨⟨h.newPrec hd, ⟨hw, by simp⟩, rfl⟩,
      fun e h => List.mem_cons_of_mem _ h, ?_⟩
    rw [List.map_cons, starP hw hp, hr.int, bind_ok, if_pos (by omega), setPrecision_eq (.inr (.inr (by omega))),
      bind_ok, ← hn]
    rfl
  | @negativePrecision d hw hp e n hr hn es =>
    refine ⟨⟨h.newPrec (p := .absent) trivial, ⟨hw, by simp⟩, rfl⟩,
      fun e h => List.mem_cons_of_mem _ h, ?_⟩
    rw [List.map_cons, starP hw hp, hr.int, bind_ok, if_neg (by omega), setPrecision_eq (.inl rfl), bind_ok]
    rfl
  | @hugePrecision d hw hp e n hr hn es =>
    simp only [numberCap] at hn
    show append env (convOf d.conv) d.context (e.toTraits jdk :: _) = _
    rw [starP hw hp, hr.int, bind_ok, if_pos (by omega)]
    simp only [FormatContext.setPrecision, checkValue_over (show 65536 < n by omega), bind_error]

/-! ### The whole format string -/

theorem output_sound {dates : DateSyntax} (env : DateEnv) {jdk : JdkEnv}
    {ps : List Piece} {es : List Entry} {r : Res JStr} (hr : Output jdk env ps es r)
    (hps : ∀ p ∈ ps, p.Ok dates) (he : ∀ e ∈ es, Covered e) :
    formatWith env (ps.map Piece.compiled) (es.map (·.toTraits jdk)) = r := by
  -- what follows a text
  have follow : ∀ (ps : List Piece) (t : JStr) (args : List Traits),
      (match runSB env (ps.map Piece.compiled) args t with
        | ⟨_, .error e⟩ => .error e
        | ⟨sb, .ok _⟩ => .ok sb) = (formatWith env (ps.map Piece.compiled) args).map (t ++ ·) := by
    intro ps t args
    unfold formatWith
    rw [runSB_prefix env _ args t]
    cases hr : runSB env (ps.map Piece.compiled) args [] with
    | mk target result => cases result <;> rfl
  have fixed : ∀ (ps : List Piece) (es : List Entry) (t : JStr),
      formatWith env (.fixed t :: ps.map Piece.compiled) (es.map (·.toTraits jdk)) =
      (formatWith env (ps.map Piece.compiled) (es.map (·.toTraits jdk))).map (t ++ ·) := by
    intro ps es t
    rw [← follow]
    conv_lhs => unfold formatWith
    rw [runSB_fixed]
    rfl
  have hcomp : ∀ d : Directive, (Piece.dir d).compiled = .dflt (convOf d.conv) d.context := fun _ => rfl
  induction hr with
  | done => rfl
  | @lit s ps es r hr ih =>
    rw [List.map_cons, show (Piece.lit s).compiled = .fixed s from rfl, fixed,
      ih (fun q hq => hps q (List.mem_cons_of_mem _ hq)) he]
  | @percent ps es r hr ih =>
    rw [List.map_cons, show (Piece.percent).compiled = .fixed (js! "%") from rfl, fixed,
      ih (fun q hq => hps q (List.mem_cons_of_mem _ hq)) he]
  | @badStar d es err hset ps =>
    have hd : d.Ok dates := hps (.dir d) (by simp)
    have h2 : append env (convOf d.conv) d.context (es.map (·.toTraits jdk)) = .error err :=
      settles_sound env hset hd.formed he
    rw [List.map_cons, hcomp]
    unfold formatWith runSB
    simp only [Appender.append, h2]
  | @noArgument d d' es hset ps =>
    have hd : d.Ok dates := hps (.dir d) (by simp)
    obtain ⟨-, -, h6⟩ := settles_sound env hset hd.formed he
    rw [List.map_cons, hcomp]
    unfold formatWith runSB
    simp only [Appender.append, h6, List.map_nil, valueStep, convOf_char hd.conv]
  | @fails d d' es es' e hset err hp ps =>
    have hd : d.Ok dates := hps (.dir d) (by simp)
    obtain ⟨h1, h5, h6⟩ := settles_sound env hset hd.formed he
    have hpr := prints_sound env h1.formed h1.plain (he e (h5 e (by simp))) hp
    rw [h1.conv] at hpr
    rw [List.map_cons, hcomp]
    cases hf : formatterFor env (convOf d.conv) d'.context (e.toTraits jdk) with
    | error err' =>
      rw [hf] at hpr
      cases hpr
      unfold formatWith runSB
      simp only [Appender.append, h6, List.map_cons, valueStep, hf, Except.map]
    | ok q =>
      rw [hf, bind_ok] at hpr
      have hq : q.Sane := by
        refine (Appender.append_sane (env := env) (a := .dflt (convOf d.conv) d'.context)
          (args := (e :: es').map (·.toTraits jdk)) (rest := es'.map (·.toTraits jdk)) ?_ ?_ ?_).1
        · exact ⟨stored_value (WidthOk.ok h1.formed.width), stored_value h1.formed.prec⟩
        · intro v hv
          obtain ⟨a, k1, rfl⟩ := List.mem_map.1 hv
          exact (he a (h5 a k1)).behaved.wf jdk
        · simp only [Appender.append, append_noStar h1.plain.width_ne, afterWidth_noStar h1.plain.prec_ne,
            List.map_cons, valueStep, hf, Except.map]
      rw [Seq.appendToSB_ok hq] at hpr
      cases hpr
  | @prints d d' es es' e hset out hp ps r hr ih =>
    have hd : d.Ok dates := hps (.dir d) (by simp)
    obtain ⟨h1, h5, h6⟩ := settles_sound env hset hd.formed he
    have hpr := prints_sound env h1.formed h1.plain (he e (h5 e (by simp))) hp
    rw [h1.conv] at hpr
    rw [List.map_cons, hcomp]
    have hrest := ih (fun q hq => hps q (List.mem_cons_of_mem _ hq))
      (fun a h => he a (h5 a (List.mem_cons_of_mem _ h)))
    cases hf : formatterFor env (convOf d.conv) d'.context (e.toTraits jdk) with
    | error err' =>
      rw [hf] at hpr
      cases hpr
    | ok q =>
      rw [hf, bind_ok] at hpr
      have hq : q.Sane := by
        refine (Appender.append_sane (env := env) (a := .dflt (convOf d.conv) d'.context)
          (args := (e :: es').map (·.toTraits jdk)) (rest := es'.map (·.toTraits jdk)) ?_ ?_ ?_).1
        · exact ⟨stored_value (WidthOk.ok h1.formed.width), stored_value h1.formed.prec⟩
        · intro v hv
          obtain ⟨a, k1, rfl⟩ := List.mem_map.1 hv
          exact (he a (h5 a k1)).behaved.wf jdk
        · simp only [Appender.append, append_noStar h1.plain.width_ne, afterWidth_noStar h1.plain.prec_ne,
            List.map_cons, valueStep, hf, Except.map]
      rw [Seq.appendToSB_ok hq] at hpr
      cases hpr
      rw [← hrest, ← follow]
      conv_lhs => unfold formatWith
      conv_lhs => unfold runSB
      simp only [Appender.append, h6, List.map_cons, valueStep, hf, Except.map, Seq.appendToSB_ok hq,
        List.nil_append]
      rfl

/-- **C56.** Whatever result can be derived from the tables for a format string and arguments, the call
has: the text, or the exception. -/
theorem C56_sound (dates : DateSyntax) (env : DateEnv) (jdk : JdkEnv) (f : JStr) (ps : List Piece)
    (h : Reading dates f ps) (es : List Entry) (he : ∀ e ∈ es, Covered e) (r : Res JStr) (hr : Output jdk env ps es r) :
    printf dates env f (es.map (·.toTraits jdk)) = r := by
  rw [printf_eq h]
  exact output_sound env hr h.ok he

/-- **C56 (both ways).** -/
theorem C56_iff (dates : DateSyntax) (env : DateEnv) (jdk : JdkEnv) (hj : InstantsFit jdk) (f : JStr)
    (ps : List Piece) (h : Reading dates f ps) (es : List Entry) (he : ∀ e ∈ es, Covered e) (r : Res JStr) :
    printf dates env f (es.map (·.toTraits jdk)) = r ↔ Output jdk env ps es r :=
  ⟨fun heq => heq ▸ C55_semantics dates env jdk hj f ps h es he, C56_sound dates env jdk f ps h es he r⟩

/-- **C56 (one result).** -/
theorem C56_determined (dates : DateSyntax) (env : DateEnv) (jdk : JdkEnv) (f : JStr) (ps : List Piece)
    (h : Reading dates f ps) (es : List Entry) (he : ∀ e ∈ es, Covered e) (r r' : Res JStr) (hr : Output jdk env ps es r)
    (hr' : Output jdk env ps es r') : r = r' :=
  (C56_sound dates env jdk f ps h es he r hr).symm.trans (C56_sound dates env jdk f ps h es he r' hr')

/-! ### Examples -/

/-- `%*s%%`. -/
def starFormat : List Piece := [.dir ⟨[], .star, .absent, ch! 's', none⟩, .percent]

theorem starFormat_reading : Reading sampleDates (js! "%*s%%") starFormat := by
  refine ⟨by decide, ?_, by simp [starFormat, Separated, MayFollow, IsDateConv]⟩
  intro p hp
  simp only [starFormat, List.mem_cons, List.not_mem_nil, or_false] at hp
  rcases hp with rfl | rfl
  · exact ⟨by decide, by decide, trivial, trivial, by decide, by simp, by simp⟩
  · trivial

-- the tables say what `%*s%%` prints for -4 and "ab", and so does the library
example : printf sampleDates sampleDateEnv (js! "%*s%%")
    ([.prim (.int (-4)), .ref (.string (js! "ab") someId)].map (Entry.toTraits sampleJdk)) =
      .ok (js! "ab  %") := by
  refine C56_sound _ _ _ _ _ starFormat_reading _ ?_ _ ?_
  · intro e he
    simp only [List.mem_cons, List.not_mem_nil, or_false] at he
    rcases he with rfl | rfl
    · exact .prim (by simp)
    · exact .string _ _
  · have hs : Settles sampleJdk ⟨[], .star, .absent, ch! 's', none⟩
        [.prim (.int (-4)), .ref (.string (js! "ab") someId)]
        (.ok (⟨js! "-", .digits (js! "4"), .absent, ch! 's', none⟩, [.ref (.string (js! "ab") someId)])) := by
      refine .negativeWidth rfl (n := -4) ?_ (by decide) (w := .digits (js! "4"))
        (.inl (.inr ⟨_, rfl, ?_, by decide⟩)) (.plain ⟨by simp, by simp⟩ _)
      · exact .integral (x := .int (-4)) (.prim rfl) ⟨by decide, by decide, 0, by decide⟩
      · exact ⟨by decide, by decide, by simp [IsDigit], by decide⟩
    exact .prints hs (.text rfl (.shows (.string _ _))) (.percent (.done []))

end FastPrintf
