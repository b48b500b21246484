/-
C102: what an `Appendable` that is no `StringBuilder` is given, call by call.

C34 says that the calls make up the text; here is how the text is cut into calls.
-/
import Verif.Proofs.AppendCallsArgs
import Verif.Props.Failing
import Verif.Props.Hex

namespace FastPrintf
open Spec DefaultAppender

theorem recorder_feed (seen cs : List JStr) : recorder.feed seen cs = (seen ++ cs, true) := by
  induction cs generalizing seen with
  | nil => simp [Sink.feed]
  | cons c cs ih =>
    rw [Sink.feed]
    simp only [recorder] at ih ⊢
    rw [ih]; simp

/-- The directive reads its stars and then one argument. -/
theorem append_formatter {env : DateEnv} {sp : Specifier} {ctx : FormatContext} (hw : Stored ctx.width)
    (hp : Stored ctx.precision) {args rest : List Traits} {s : Seq}
    (h : append env sp ctx args = .ok (s, rest)) :
    ∃ c v, SeqFormatter.PrecOK c ∧ v ∈ args ∧ formatterFor env sp c v = .ok s := by
  have keep : ∀ {α : Type} {c : JChar} {n : Nat} {f : List Traits → Res (α × List Traits)}, Reads c n f →
      ∀ {as : List Traits} {x : α} {r : List Traits}, f as = .ok (x, r) → ∀ v ∈ r, v ∈ as := by
    intro α c n f hr as x r hf v hv
    by_cases hl : as.length < n
    · obtain ⟨e, g1, _⟩ := hr.short as hl
      rw [hf] at g1; cases g1
    · obtain ⟨y, hy⟩ := hr.enough (as.take n) (by rw [List.length_take]; omega)
      have := hy (as.drop n)
      rw [List.take_append_drop, hf] at this
      cases y with
      | error e => cases this
      | ok y =>
        simp only [Except.map, Except.ok.injEq, Prod.mk.injEq] at this
        rw [this.2] at hv
        exact List.mem_of_mem_drop hv
  rw [append_eq] at h
  obtain ⟨⟨c, r1⟩, h1, h⟩ := bind_eq_ok.1 h
  obtain ⟨⟨c', r2⟩, h2, h⟩ := bind_eq_ok.1 h
  simp only at h2 h
  cases r2 with
  | nil => cases h
  | cons v r2 =>
    simp only [valueStep] at h
    obtain ⟨s', h3, h4⟩ := map_ok_iff.1 h
    cases h4
    exact ⟨c', v, (ready_of_stars hw hp h1 h2).precOK,
      keep (reads_starWidth sp ctx) h1 v (keep (reads_starPrecision sp c) h2 v (by simp)), h3⟩

theorem append_rest {env : DateEnv} {a : Appender} {args rest : List Traits} {s : Seq}
    (h : a.append env args = .ok (s, rest)) : ∀ v ∈ rest, v ∈ args := by
  intro v hv
  have hr := a.reads env
  by_cases hl : args.length < a.cost
  · obtain ⟨e, h1, _⟩ := hr.short args hl
    rw [h] at h1; cases h1
  · obtain ⟨r, hr⟩ := hr.enough (args.take a.cost) (by rw [List.length_take]; omega)
    have := hr (args.drop a.cost)
    rw [List.take_append_drop, h] at this
    cases r with
    | error e => cases this
    | ok x =>
      simp only [Except.map, Except.ok.injEq, Prod.mk.injEq] at this
      rw [this.2] at hv
      exact List.mem_of_mem_drop hv

theorem append_full {env : DateEnv} {a : Appender} (ha : a.Stored) {args rest : List Traits}
    (hv : ∀ v ∈ args, v.Full) {s : Seq} (h : a.append env args = .ok (s, rest)) : s.Full := by
  cases a with
  | fixed t => cases h; exact Seq.full_wrap t
  | dflt sp ctx =>
    obtain ⟨c, v, h1, h2, h3⟩ := append_formatter ha.1 ha.2 h
    exact Seq.full_formatter h1 (hv v h2) h3

/-- The calls of one compiled piece. -/
theorem received_one {env : DateEnv} {a : Appender} {args rest : List Traits} {s : Seq} (hs : s.Sane)
    (h : a.append env args = .ok (s, rest)) : received env [a] args = s.calls := by
  simp only [received, runSink, h, Seq.appendToCalls_eq hs, recorder_feed]
  simp

theorem run_one {env : DateEnv} {a : Appender} {args rest : List Traits} {s : Seq} (hs : s.Sane)
    (h : a.append env args = .ok (s, rest)) : (runSB env [a] args []).target = s.text := by
  simp [runSB, h, Seq.appendToSB_ok hs]

theorem received_sink (env : DateEnv) (apps : List Appender) (hs : ∀ a ∈ apps, a.Stored)
    (args : List Traits) (hv : ∀ v ∈ args, v.WF) :
    (received env apps args).flatten = (runSB env apps args []).target ∧
    ∀ (σ : Type) (k : Sink σ) (st : σ), runSink env k apps args st =
      match k.feed st (received env apps args) with
      | (st, true) => ⟨st, (runSB env apps args []).result⟩
      | (st, false) => ⟨st, .error .uncheckedIO⟩ := by
  obtain ⟨cs, h1, h2⟩ := runSink_chunks env apps hs args hv
  have : received env apps args = cs := by
    rw [received, h2, recorder_feed]; simp
  rw [this]
  exact ⟨h1, h2⟩

theorem received_full (env : DateEnv) (apps : List Appender) (hs : ∀ a ∈ apps, a.Stored)
    (args : List Traits) (hv : ∀ v ∈ args, v.Full) (seen : List JStr) (hseen : [] ∉ seen) :
    [] ∉ (runSink env recorder apps args seen).target := by
  induction apps generalizing args seen with
  | nil => exact hseen
  | cons a apps ih =>
    cases ha : a.append env args with
    | error e => simp only [runSink, ha]; exact hseen
    | ok r =>
      obtain ⟨s, rest⟩ := r
      obtain ⟨h1, _⟩ := Appender.append_sane (hs a (by simp)) (fun v h => (hv v h).wf) ha
      have hf := append_full (hs a (by simp)) hv ha
      simp only [runSink, ha, Seq.appendToCalls_eq h1, recorder_feed]
      refine ih (fun b hb => hs b (by simp [hb])) rest (fun v h => hv v (append_rest ha v h)) _ ?_
      intro hm
      rcases List.mem_append.1 hm with hm | hm
      · exact hseen hm
      · exact hf [] hm rfl

theorem compiled_all {dates : DateSyntax} {s : JStr} {apps : List Appender} (hc : Compiler.compile dates s = .ok apps) :
    ∀ a ∈ apps, a.Stored := by
  obtain ⟨ps, hr, rfl⟩ := (compile_iff dates s _).1 hc
  intro a ha
  obtain ⟨p, hp, rfl⟩ := List.mem_map.1 ha
  exact Piece.compiled_stored (hr.ok p hp)

/-- **C102.**  Every target that is no `StringBuilder` is given the same calls, up to the first that throws; they make
up the text that a `StringBuilder` would hold; and no call is empty, so there are no more calls than characters. -/
theorem C102_calls (dates : DateSyntax) (env : DateEnv) (jdk : JdkEnv) (format : JStr) (apps : List Appender)
    (hc : Compiler.compile dates format = .ok apps) (es : List Entry) (hb : ∀ e ∈ es, Built e) :
    (received env apps (es.map (·.toTraits jdk))).flatten = (runSB env apps (es.map (·.toTraits jdk)) []).target ∧
    (∀ (σ : Type) (k : Sink σ) (st : σ), runSink env k apps (es.map (·.toTraits jdk)) st =
      match k.feed st (received env apps (es.map (·.toTraits jdk))) with
      | (st, true) => ⟨st, (runSB env apps (es.map (·.toTraits jdk)) []).result⟩
      | (st, false) => ⟨st, .error .uncheckedIO⟩) ∧
    [] ∉ received env apps (es.map (·.toTraits jdk)) ∧
    (received env apps (es.map (·.toTraits jdk))).length ≤
      (runSB env apps (es.map (·.toTraits jdk)) []).target.length := by
  have hv : ∀ v ∈ es.map (·.toTraits jdk), v.Full := by
    intro v hv
    obtain ⟨e, he, rfl⟩ := List.mem_map.1 hv
    exact (hb e he).full jdk
  obtain ⟨h1, h2⟩ := received_sink env apps (compiled_all hc) _ (fun v h => (hv v h).wf)
  have h3 : [] ∉ received env apps (es.map (·.toTraits jdk)) :=
    received_full env apps (compiled_all hc) _ hv [] (by simp)
  refine ⟨h1, h2, h3, ?_⟩
  rw [← h1]
  generalize received env apps (es.map (·.toTraits jdk)) = cs at h3
  induction cs with
  | nil => simp
  | cons c cs ih =>
    rw [List.mem_cons, not_or] at h3
    have := List.length_pos_of_ne_nil (Ne.symm h3.1)
    have := ih h3.2
    simp only [List.length_cons, List.flatten_cons, List.length_append]
    omega

/-- **C102.**  The calls of a whole are the calls of its parts: once the first part of the format is through, leaving
some arguments, the calls of the rest follow. -/
theorem C102_parts (env : DateEnv) (as bs : List Appender) (args rest : List Traits)
    (h : (runSink env recorder as args []).result = .ok rest)
    (hs : ∀ a ∈ bs, a.Stored) (hv : ∀ v ∈ rest, v.WF) :
    received env (as ++ bs) args = received env as args ++ received env bs rest := by
  have : runSink env recorder as args [] = ⟨received env as args, .ok rest⟩ := by
    rw [← h]; rfl
  rw [received, runSink_append, this]
  simp only [Outcome.andThen]
  rw [(received_sink env bs hs rest hv).2, recorder_feed]

/-- **C102.**  Literal text is one call. -/
theorem C102_literal (env : DateEnv) (t : JStr) (args : List Traits) :
    received env [(Piece.lit t).compiled] args = inOne t ∧
    received env [Piece.percent.compiled] args = [js! "%"] := by
  refine ⟨?_, ?_⟩
  · rw [received_one (rest := args) (Seq.wrap_wf t).sane rfl, Seq.wrap_calls]
  · rw [received_one (rest := args) (Seq.wrap_wf (js! "%")).sane rfl, Seq.wrap_calls]; rfl

theorem received_singles {env : DateEnv} {a : Appender} (ha : a.Stored) {args : List Traits} (hv : ∀ v ∈ args, v.WF)
    (h : ∀ s rest, a.append env args = .ok (s, rest) → s.On fun c => c.length = 1) :
    received env [a] args = oneByOne (runSB env [a] args []).target := by
  cases hx : a.append env args with
  | error e => simp [received, runSink, runSB, hx, oneByOne]
  | ok r =>
    obtain ⟨s, rest⟩ := r
    obtain ⟨h1, _⟩ := Appender.append_sane ha hv hx
    rw [received_one h1 hx, run_one h1 hx, Seq.singles_calls h1 (h s rest hx)]
    rfl

/-- **C102.**  An upper-case conversion hands over its field one character per call, whatever the argument. -/
theorem C102_upper (dates : DateSyntax) (env : DateEnv) (d : Directive) (hd : d.Ok dates) (lo : JChar)
    (hc : (lo, d.conv) ∈ casePairs) (args : List Traits) (hv : ∀ v ∈ args, v.WF) :
    received env [(Piece.dir d).compiled] args =
      oneByOne (runSB env [(Piece.dir d).compiled] args []).target := by
  have hst : (Piece.dir d).compiled.Stored := Piece.compiled_stored (dates := dates) (p := .dir d) hd
  refine received_singles hst hv ?_
  intro s rest h
  obtain ⟨c, v, h1, h2, h3⟩ := append_formatter hst.1 hst.2 h
  have up : ∀ {sp : Specifier} {α : Type} {x : Res α} {g : α → Res Seq},
      formatterFor env sp c v = (x >>= g) → (x >>= fun a => g a >>= fun s => s.upperCase) = .ok s →
      s.On fun c => c.length = 1 := by
    intro sp α x g he hq
    obtain ⟨a, g1, g2⟩ := bind_eq_ok.1 hq
    obtain ⟨q, g3, g4⟩ := bind_eq_ok.1 g2
    exact Seq.on_upper (formatterFor_sane h1 (hv v h2) (he.trans (bind_eq_ok.2 ⟨a, g1, g3⟩))) g4
  have up' : ∀ {sp : Specifier}, (formatterFor env sp c v >>= fun s => s.upperCase) = .ok s →
      s.On fun c => c.length = 1 := by
    intro sp hq
    obtain ⟨q, g3, g4⟩ := bind_eq_ok.1 hq
    exact Seq.on_upper (formatterFor_sane h1 (hv v h2) g3) g4
  simp only [casePairs, List.mem_cons, Prod.mk.injEq, List.not_mem_nil, or_false] at hc
  rcases hc with ⟨_, h⟩ | ⟨_, h⟩ | ⟨_, h⟩ | ⟨_, h⟩ | ⟨_, h⟩ | ⟨_, h⟩ | ⟨_, h⟩ <;> rw [h] at h3
  · exact up (sp := .x) rfl h3
  · exact up (sp := .e) rfl h3
  · exact up (sp := .f) rfl h3
  · exact up (sp := .g) rfl h3
  · exact up (sp := .a) rfl h3
  · exact up' (sp := .s) h3
  · exact up' (sp := .t) h3

theorem plain_received {d : Directive} (hp : d.Plain) {env : DateEnv}
    {v : Traits} {rest : List Traits} {s : Seq} (hs : s.Sane)
    (h : formatterFor env (convOf d.conv) d.context v = .ok s) :
    received env [(Piece.dir d).compiled] (v :: rest) = s.calls := by
  refine received_one (rest := rest) hs ?_
  show Appender.append env (.dflt (convOf d.conv) d.context) (v :: rest) = _
  rw [plain_step hp, h]; rfl

theorem justified {d : Directive} (hp : d.Plain) {s r : Seq} (h : SeqFormatter.spaceJustify d.context s = .ok r)
    {n : Nat} (hl : s.length = n) {cs : List JStr} (hc : s.calls = cs) :
    r.calls = inField d n cs := by
  obtain ⟨m, rfl, h⟩ := justify_calls h
  have e2 : UNSET = -1 := rfl
  have hw := hp.width_eq
  have hn : (SeqFormatter.width d.context - s.length).toNat = d.width.width - n := by
    have := hp.width_ne
    unfold SeqFormatter.width FormatContext.isWidthSet
    rw [hl]
    split_ifs with hx
    · omega
    · simp at hx
      omega
  rw [h, hn, hc, inField]
  simp only [SeqFormatter.hasFlag_left, left_eq, decide_eq_true_eq]

/-- **C102.**  `%s` of anything but a sequence hands over the text, cut to the precision, in one call, and the blanks
one by one. -/
theorem C102_text (env : DateEnv) (jdk : JdkEnv) (d : Directive)
    (hp : d.Plain) (hc : d.conv = ch! 's') (e : Entry) (t : JStr) (ht : TextReading jdk e (.ok t))
    (rest : List Traits) :
    received env [(Piece.dir d).compiled] (e.toTraits jdk :: rest) =
      inField d (cut d.prec.precision t).length (inOne (cut d.prec.precision t)) := by
  have hb := ht.built
  obtain ⟨n1, n2⟩ := ht.foreign
  obtain ⟨q, h1, h2, h3, h4⟩ := ht.asSeq.1 t rfl
  have hfull := (hb.full jdk).seq q h1
  obtain ⟨a, rfl, hlump⟩ := Entry.asSeq_lump jdk n1 n2 h1
  obtain ⟨r, n, r1, r2, _⟩ := SeqFormatter.s_sane hp.precOK h1 h2
  rw [plain_received hp (s := r) r2 (by rw [hc]; exact r1)]
  have hlen := Atomic.length_text (a := a) h2
  have one : ∀ b : Atomic, b.WF → b.calls.length ≤ 1 → (∀ c ∈ b.calls, c ≠ []) →
      (Seq.atom b).calls = inOne b.text := by
    intro b b1 b2 b3
    have : (Seq.atom b).calls = b.calls := by simp [Seq.calls, Seq.flat]
    rw [this, inOne_of b2 b3, Atomic.calls_text b1]
  have hfa : ∀ c ∈ a.calls, c ≠ [] := by
    intro c hcc; exact hfull c (by simpa [Seq.calls, Seq.flat] using hcc)
  have h4 : a.text = t := h4
  subst h4
  have hprec := hp.prec_eq
  unfold SeqFormatter.s at r1
  rw [h1, bind_ok] at r1
  by_cases hx : (d.context.isPrecisionSet && decide (d.context.precision < (Seq.atom a).length)) = true
  · rw [if_pos hx] at r1
    rw [Bool.and_eq_true, SeqFormatter.isPrecisionSet_iff, decide_eq_true_eq] at hx
    have hge : 0 ≤ d.context.precision := by
      rcases hp.precOK with h | h
      · exact absurd h hx.1
      · exact h
    obtain ⟨q', g1, g2⟩ := bind_eq_ok.1 r1
    obtain ⟨b, g3, g4⟩ := bind_eq_ok.1 g1
    cases g4
    have hx2 : d.context.precision < a.length := hx.2
    obtain ⟨b', b1, b2, b3⟩ := Atomic.subSequence_ok (a := a) h2 (i := 0) (j := d.context.precision)
      (by omega)
    rw [g3] at b1; cases b1
    have hcut : b.text = cut d.prec.precision a.text := by
      rw [b3, ← hprec, SeqFormatter.precOf, if_neg hx.1]
      simp [cut, Spec.sub]
    exact justified hp g2 (by rw [← hcut]; exact Atomic.length_text b2)
      (by rw [one b b2 (lump_sub h2 hlump g3) (Seq.leaf_sub Seq.kind_nonempty h2 hfa g3), hcut])
  · rw [if_neg hx] at r1
    have hcut : cut d.prec.precision a.text = a.text := by
      rw [← hprec, SeqFormatter.precOf]
      by_cases hu : d.context.precision = UNSET
      · rw [if_pos hu]; rfl
      · rw [if_neg hu]
        have : ¬ d.context.precision < a.length := by
          intro hlt
          exact hx (by rw [Bool.and_eq_true, SeqFormatter.isPrecisionSet_iff, decide_eq_true_eq]; exact ⟨hu, hlt⟩)
        simp only [cut]
        rw [List.take_of_length_le (by omega)]
    rw [hcut]
    exact justified hp r1 hlen (one a h2 hlump hfa)

/-- **C102.**  `%s` of a sequence that is not cut makes the calls that the sequence's own `appendTo` makes. -/
theorem C102_seq (env : DateEnv) (jdk : JdkEnv) (d : Directive) (hp : d.Plain) (hc : d.conv = ch! 's') (x : SeqExpr)
    (q : Seq) (hq : x.eval = .ok q) (id : Identity) (hk : KeepsAll d q.length.toNat) (rest : List Traits) :
    ∃ cs, q.appendToCalls = .ok cs ∧
      received env [(Piece.dir d).compiled] ((Entry.ref (.seq q id)).toTraits jdk :: rest) =
        inField d cs.flatten.length cs := by
  have hw := x.eval_wf q hq
  have hl := hw.length_text
  have h1 : ((Entry.ref (.seq q id)).toTraits jdk).asSeq = .ok q := rfl
  refine ⟨q.calls, Seq.appendToCalls_eq hw.sane, ?_⟩
  obtain ⟨r, n, r1, r2, _⟩ := SeqFormatter.s_sane hp.precOK h1 hw
  rw [plain_received hp (s := r) r2 (by rw [hc]; exact r1)]
  unfold SeqFormatter.s at r1
  rw [h1, bind_ok, if_neg] at r1
  · exact justified hp r1 (by rw [Seq.calls_text hw.sane]; exact hl) rfl
  · intro hx
    rw [Bool.and_eq_true, SeqFormatter.isPrecisionSet_iff, decide_eq_true_eq] at hx
    have hge : 0 ≤ d.context.precision := by
      rcases hp.precOK with h | h
      · exact absurd h hx.1
      · exact h
    have := hk d.context.precision.toNat (by
      rw [← hp.prec_eq, SeqFormatter.precOf, if_neg hx.1])
    omega

/-- **C102.**  The character of `%c`, the date of `%t`, and the class name, the `@` and the hash code of `%p` are one
call each. -/
theorem C102_others (env : DateEnv) (jdk : JdkEnv) (d : Directive) (hp : d.Plain) (e : Entry) (rest : List Traits) :
    (d.conv = ch! 'c' → ∀ c, CharReading jdk e (.ok c) →
      received env [(Piece.dir d).compiled] (e.toTraits jdk :: rest) = inField d 1 [[c]]) ∧
    (d.conv = ch! 't' → ∀ t f t' s, TimeReading e (.ok t) → Formatted d.date t (some (f, t')) → env.format f t' = .ok s →
      received env [(Piece.dir d).compiled] (e.toTraits jdk :: rest) = inField d s.length (inOne s)) ∧
    (d.conv = ch! 'p' → ∀ o id hex, e = .ref o → identity? o = some id → Shortest 16 id.hash.toNat hex →
      received env [(Piece.dir d).compiled] (e.toTraits jdk :: rest) =
        inField d (id.className.length + 1 + hex.length) (inOne id.className ++ [js! "@", hex])) := by
  refine ⟨?_, ?_, ?_⟩
  · intro hc c hr
    obtain ⟨r, r1, r2, _⟩ := SeqFormatter.spaceJustify_ok d.context (Seq.ch_wf c)
    rw [plain_received hp (s := r) r2.sane (by
      rw [hc, show convOf (ch! 'c') = .c from rfl]
      simp only [formatterFor, SeqFormatter.c, hr.char_eq, bind_ok]; exact r1)]
    exact justified hp r1 rfl rfl
  · intro hc t f t' s hr hf hs
    obtain ⟨r, r1, r2, _⟩ := SeqFormatter.spaceJustify_ok d.context (Seq.wrap_wf s)
    have hl := (Seq.wrap_wf s).length_text
    rw [Seq.wrap_text] at hl
    rw [plain_received hp (s := r) r2.sane (by
      rw [hc, show convOf (ch! 't') = .t from rfl]
      simp only [formatterFor, SeqFormatter.t, hr.temporal_eq, bind_ok]
      rw [Spec.Formatted.choose (ctx := d.context) hf]
      simp only [chosen, bind_ok, hs]; exact r1)]
    exact justified hp r1 hl (Seq.wrap_calls s)
  · intro hc o id hex he hid hx
    obtain rfl := hx.eq (by omega) (by omega)
    subst he
    have hr : ((Entry.ref o).toTraits jdk).ref = .object id.className id.hash := by
      cases o <;> simp only [identity?, reduceCtorEq, Option.some.injEq] at hid <;> subst hid <;>
        first | rfl | (rename_i p _; cases p <;> rfl)
    generalize id.className = name, id.hash = hash at *
    have w1 := Seq.wrap_wf (toRadix 16 hash.toNat)
    have w2 := Seq.prepend_wf w1 (Seq.ch_wf (ch! '@'))
    have w3 := Seq.prepend_wf w2 (Seq.wrap_wf name)
    obtain ⟨r, r1, r2, _⟩ := SeqFormatter.spaceJustify_ok d.context w3
    rw [plain_received hp (s := r) r2.sane (by
      rw [hc, show convOf (ch! 'p') = .p from rfl]
      simp only [formatterFor, SeqFormatter.p, hr]; exact r1)]
    refine justified hp r1 ?_ ?_
    · rw [w3.length_text, Seq.prepend_text (Seq.wrap_wf name).sane, Seq.prepend_text (Seq.ch_wf (ch! '@')).sane,
        Seq.wrap_text, Seq.ch_text, Seq.wrap_text]
      simp; omega
    · have hne : toRadix 16 hash.toNat ≠ [] := toRadix_ne_nil _ _
      have hn : (Seq.wrap name).isEmpty = true → (Seq.wrap name).calls = [] := by
        intro h
        rw [Seq.wrap_calls]
        cases name with
        | nil => rfl
        | cons a l =>
          have := (Seq.wrap_wf (a :: l)).length_text
          rw [Seq.wrap_text] at this
          simp [Seq.isEmpty, this] at h
          omega
      have hn' : (Seq.ch (ch! '@')).isEmpty = true → (Seq.ch (ch! '@')).calls = [] := fun h => absurd h (by decide)
      rw [Seq.prepend_calls hn, Seq.prepend_calls hn',
        Seq.wrap_calls, Seq.wrap_calls]
      simp only [Seq.block, inOne, if_neg hne]
      rfl

/-- **C102.**  `%d` of an integer hands over its digits in one call; blanks, the sign and the zeros filled in come one
by one, the blanks of a left-justified field after the digits and everything else before. -/
theorem C102_decimal (env : DateEnv) (jdk : JdkEnv) (d : Directive)
    (hp : d.Plain) (hc : d.conv = ch! 'd' ∨ d.conv = ch! 'i') (x : Integral) (e : Entry) (hx : x.Given e)
    (hz : ¬ (x.value = 0 ∧ d.prec.precision = some 0)) (rest : List Traits) :
    ∃ before after digits : JStr, Shortest 10 x.value.natAbs digits ∧
      (∀ c ∈ before, c ∈ js! " +-0") ∧ (∀ c ∈ after, c = ch! ' ') ∧
      received env [(Piece.dir d).compiled] (e.toTraits jdk :: rest) =
        oneByOne before ++ [digits] ++ oneByOne after := by
  obtain ⟨f, hf, hm⟩ := hx.means jdk
  have hconv : convOf d.conv = .d := by rcases hc with hc | hc <;> rw [hc] <;> rfl
  obtain ⟨r, h0, hw⟩ : ∃ r, SeqFormatter.d d.context f = .ok r ∧ r.Sane := by
    obtain ⟨r, h0, hw, _⟩ := SeqFormatter.d_ok hp.precOK hm.dec (toRadix_ne_nil _ _)
    exact ⟨r, h0, hw.sane⟩
  have hfor : formatterFor env (convOf d.conv) d.context (e.toTraits jdk) = .ok r := by
    rw [hconv]; simp only [formatterFor, hf, bind_ok]; exact h0
  rw [plain_received hp hw hfor]
  unfold SeqFormatter.d at h0
  rw [hm.signum, if_neg (by rw [signumOf_zero, hp.prec_zero]; exact hz), hm.dec, bind_ok] at h0
  obtain ⟨v1, g1, g2⟩ := bind_eq_ok.1 h0
  have c1 := zeroFill_calls g1
  obtain ⟨sg, s1, s2⟩ := sign_calls d.context v1 (signumOf x.value < 0)
  obtain ⟨n, _, c2⟩ := justify_calls g2
  rw [Seq.wrap_calls, Seq.block, inOne, if_neg (toRadix_ne_nil _ _)] at c1
  rw [s2, c1] at c2
  generalize (SeqFormatter.dPrecision d.context (signumOf x.value) -
    (Seq.wrap (toRadix 10 x.value.natAbs)).length).toNat = z at c2
  by_cases hl : d.context.hasFlag .leftJustify = true
  · rw [if_pos hl] at c2
    refine ⟨sg ++ List.replicate z (ch! '0'), List.replicate n (ch! ' '), toRadix 10 x.value.natAbs,
      shortest_toRadix (by omega) (by omega) _, ?_, ?_, c2.trans ?_⟩
    · intro c h
      rcases List.mem_append.1 h with h | h
      · have := s1 c h; simp at this ⊢; tauto
      · rw [List.eq_of_mem_replicate h]; simp
    · intro c h; exact List.eq_of_mem_replicate h
    · simp [oneByOne]
  · rw [if_neg hl] at c2
    refine ⟨List.replicate n (ch! ' ') ++ (sg ++ List.replicate z (ch! '0')), [], toRadix 10 x.value.natAbs,
      shortest_toRadix (by omega) (by omega) _, ?_, by simp, c2.trans ?_⟩
    · intro c h
      rcases List.mem_append.1 h with h | h
      · rw [List.eq_of_mem_replicate h]; simp
      rcases List.mem_append.1 h with h | h
      · have := s1 c h; simp at this ⊢; tauto
      · rw [List.eq_of_mem_replicate h]; simp
    · simp [oneByOne]

/-- The calls of `%u`, `%o` and `%x` of a value that they can print. -/
theorem received_unsigned {env : DateEnv} {d : Directive} (hp : d.Plain) {v : Traits} {sg : Int} {n b : Nat}
    {pre : JStr} (h2 : 2 ≤ b) (h16 : b ≤ 16) (hsg : sg = 0 ↔ n = 0)
    (hf : formatterFor env (convOf d.conv) d.context v =
      SeqFormatter.formatUnsignedInteger d.context sg (.ok (toRadix b n)) pre)
    (hz : ¬ (n = 0 ∧ d.prec.precision = some 0)) (rest : List Traits) :
    ∃ i k j : Nat, ∃ digits : JStr, Shortest b n digits ∧ (i = 0 ∨ j = 0) ∧
      received env [(Piece.dir d).compiled] (v :: rest) =
        oneByOne (List.replicate i (ch! ' ')) ++ inOne (if n ≠ 0 ∧ ch! '#' ∈ d.flags then pre else []) ++
          oneByOne (List.replicate k (ch! '0')) ++ [digits] ++ oneByOne (List.replicate j (ch! ' ')) := by
  obtain ⟨r, h0, hw, _⟩ := SeqFormatter.unsigned_ok d.context sg (toStr := .ok (toRadix b n)) rfl pre
  rw [plain_received hp hw.sane (hf.trans h0)]
  unfold SeqFormatter.formatUnsignedInteger at h0
  rw [if_neg (by rw [hsg, hp.prec_zero]; exact hz), bind_ok] at h0
  obtain ⟨v1, g1, g2⟩ := bind_eq_ok.1 h0
  have c1 := zeroFill_calls g1
  rw [Seq.wrap_calls, Seq.block, inOne, if_neg (toRadix_ne_nil _ _)] at c1
  obtain ⟨m, _, c2⟩ := justify_calls g2
  have halt : d.context.hasFlag .alternate = true ↔ ch! '#' ∈ d.flags := by
    rw [SeqFormatter.hasFlag_alt]; simp [Directive.context, flagSet]
  have c3 : (if sg ≠ 0 ∧ d.context.hasFlag .alternate = true then v1.prepend (Seq.wrap pre) else v1).calls =
      inOne (if n ≠ 0 ∧ ch! '#' ∈ d.flags then pre else []) ++ v1.calls := by
    by_cases hx : n ≠ 0 ∧ ch! '#' ∈ d.flags
    · rw [if_pos hx, if_pos ⟨fun h => hx.1 (hsg.1 h), halt.2 hx.2⟩, Seq.prepend_calls, Seq.wrap_calls]
      intro he
      rw [Seq.wrap_calls]
      have hl := (Seq.wrap_wf pre).length_text
      rw [Seq.wrap_text] at hl
      have : pre.length = 0 := by
        have : (Seq.wrap pre).length = 0 := by simpa [Seq.isEmpty] using he
        omega
      rw [List.length_eq_zero_iff.1 this]; rfl
    · rw [if_neg hx, if_neg (fun h => hx ⟨fun h0 => h.1 (hsg.2 h0), halt.1 h.2⟩)]
      rfl
  rw [c3, c1] at c2
  generalize (SeqFormatter.uPrecision d.context pre - (Seq.wrap (toRadix b n)).length).toNat = z at c2
  by_cases hl : d.context.hasFlag .leftJustify = true
  · rw [if_pos hl] at c2
    exact ⟨0, z, m, toRadix b n, shortest_toRadix h2 h16 _, .inl rfl, c2.trans (by simp [oneByOne])⟩
  · rw [if_neg hl] at c2
    exact ⟨m, z, 0, toRadix b n, shortest_toRadix h2 h16 _, .inr rfl, c2.trans (by simp [oneByOne])⟩

/-- **C102.**  `%u`, `%o` and `%x` of an integer that they can print hand over its digits in one call, and so the
prefix that `#` asks for; blanks and the zeros filled in come one by one. -/
theorem C102_unsigned (env : DateEnv) (jdk : JdkEnv) (d : Directive)
    (hp : d.Plain) (b : Nat) (pre : JStr) (hc : (d.conv, b, pre) ∈
      [(ch! 'u', 10, js! ""), (ch! 'o', 8, js! "0"), (ch! 'x', 16, js! "0x")])
    (x : Integral) (n : Nat) (hn : x.unsigned = some n) (e : Entry) (hx : x.Given e)
    (hz : ¬ (n = 0 ∧ d.prec.precision = some 0)) (rest : List Traits) :
    ∃ i k j : Nat, ∃ digits : JStr, Shortest b n digits ∧ (i = 0 ∨ j = 0) ∧
      received env [(Piece.dir d).compiled] (e.toTraits jdk :: rest) =
        oneByOne (List.replicate i (ch! ' ')) ++ inOne (if n ≠ 0 ∧ ch! '#' ∈ d.flags then pre else []) ++
          oneByOne (List.replicate k (ch! '0')) ++ [digits] ++ oneByOne (List.replicate j (ch! ' ')) := by
  obtain ⟨f, hf, hm⟩ := hx.means jdk
  have hsg : f.signum = 0 ↔ n = 0 := by rw [hm.signum, signumOf_zero]; exact hm.zero n hn
  simp only [List.mem_cons, Prod.mk.injEq, List.not_mem_nil, or_false] at hc
  rcases hc with ⟨hc, rfl, rfl⟩ | ⟨hc, rfl, rfl⟩ | ⟨hc, rfl, rfl⟩
  · refine received_unsigned hp (by omega) (by omega) hsg ?_ hz rest
    rw [hc]
    show (do SeqFormatter.u d.context (← (e.toTraits jdk).asIntForm)) = _
    rw [hf, bind_ok, SeqFormatter.u, hm.uns, hn]; rfl
  · refine received_unsigned hp (by omega) (by omega) hsg ?_ hz rest
    rw [hc]
    show (do SeqFormatter.o d.context (← (e.toTraits jdk).asIntForm)) = _
    rw [hf, bind_ok, SeqFormatter.o, hm.oct, hn]; rfl
  · refine received_unsigned hp (by omega) (by omega) hsg ?_ hz rest
    rw [hc]
    show (do SeqFormatter.x d.context (← (e.toTraits jdk).asIntForm)) = _
    rw [hf, bind_ok, SeqFormatter.x, hm.hex, hn]; rfl

/-- **C102.**  `%f`, `%g` and `%e` of a finite `double` hand over their field one character per call; `%e` of a zero is
the exception, whose exponent `+00` is one call. -/
theorem C102_double (env : DateEnv) (jdk : JdkEnv) (d : Directive) (hp : d.Plain) (bits : BitVec 64)
    (hf : finite bits) (hc : d.conv = ch! 'f' ∨ d.conv = ch! 'g' ∨ (d.conv = ch! 'e' ∧ magnitude bits ≠ 0))
    (e : Entry) (he : IsDouble e bits) (rest : List Traits) :
    received env [(Piece.dir d).compiled] (e.toTraits jdk :: rest) =
      oneByOne (runSB env [(Piece.dir d).compiled] (e.toTraits jdk :: rest) []).target := by
  have one : ∀ c : JChar, ([c] : JStr).length = 1 := fun _ => rfl
  have hform := he.form jdk
  have hwf : (e.toTraits jdk).WF := by
    cases he
    · exact Prim.traits_wf jdk _ (.double bits)
    · exact Prim.traits_wf jdk _ (.double bits)
  have hnf : ((FloatForm.ofDouble bits).isNaN || (FloatForm.ofDouble bits).isInfinite) = true →
      ∀ t : JStr, t ≠ [] → t.length = 1 := by
    intro h
    have := (finite_iff bits).1 hf
    exact absurd (h.symm.trans this) (by simp)
  have hstep : (Piece.dir d).compiled.append env (e.toTraits jdk :: rest) =
      (formatterFor env (convOf d.conv) d.context (e.toTraits jdk)).map (·, rest) := plain_step hp env _ rest
  cases hr : formatterFor env (convOf d.conv) d.context (e.toTraits jdk) with
  | error x =>
    rw [hr] at hstep
    simp [received, runSink, runSB, hstep, Except.map, oneByOne]
  | ok s =>
    rw [hr] at hstep
    have hs := formatterFor_sane hp.precOK hwf hr
    rw [received_one hs hstep, run_one hs hstep, Seq.singles_calls hs, oneByOne]
    rcases hc with hc | hc | ⟨hc, h0⟩ <;> rw [hc] at hr
    · have hr : (do SeqFormatter.f d.context (← (e.toTraits jdk).asFloatForm)) = Except.ok s := hr
      rw [hform, bind_ok] at hr
      refine Seq.on_f one hnf ?_ hr
      intro l hl
      exact DoubleWrapper.decimalLayout_single hl
    · have hr : (do SeqFormatter.g d.context (← (e.toTraits jdk).asFloatForm)) = Except.ok s := hr
      rw [hform, bind_ok] at hr
      refine Seq.on_g Seq.kind_single hnf ?_ hr
      intro l hl
      exact ⟨DoubleWrapper.generalLayout_single hl, (DoubleWrapper.generalLayout_wf hl).1.sane⟩
    · have hr : (do SeqFormatter.e d.context (← (e.toTraits jdk).asFloatForm)) = Except.ok s := hr
      rw [hform, bind_ok] at hr
      refine Seq.on_e one hnf ?_ hr
      intro l hl
      exact DoubleWrapper.scientificLayout_single (by rwa [Ne, magnitude_zero_iff] at h0) hl

/-- **C102.**  NaN and the infinities are one call. -/
theorem C102_nonfinite (env : DateEnv) (jdk : JdkEnv) (d : Directive) (hp : d.Plain) (hc : d.conv ∈ floatConvs)
    (bits : BitVec 64) (hf : ¬ finite bits) (e : Entry) (he : IsDouble e bits) (rest : List Traits) :
    received env [(Piece.dir d).compiled] (e.toTraits jdk :: rest) =
      inField d (nonFiniteName bits (flagSet d.flags).plus).length [nonFiniteName bits (flagSet d.flags).plus] := by
  have hv := he.form jdk
  have hnf : ((FloatForm.ofDouble bits).isNaN || (FloatForm.ofDouble bits).isInfinite) = true := by
    rw [← Bool.not_eq_false]; exact fun hx => hf ((finite_iff bits).2 hx)
  obtain ⟨r, r1, r2, r3⟩ := SeqFormatter.nonFinite_ok d.context (FloatForm.ofDouble bits)
  have hs : formatterFor env (convOf d.conv) d.context (e.toTraits jdk) = .ok r := by
    simp only [floatConvs, List.mem_cons, List.not_mem_nil, or_false] at hc
    rcases hc with hc | hc | hc | hc <;> rw [hc]
    · rw [show convOf (ch! 'a') = .a from rfl]
      simp only [formatterFor, hv, bind_ok]
      unfold SeqFormatter.a; rw [if_pos hnf, r1]
    · rw [show convOf (ch! 'e') = .e from rfl]
      simp only [formatterFor, hv, bind_ok]
      unfold SeqFormatter.e; rw [if_pos hnf, r1]
    · rw [show convOf (ch! 'f') = .f from rfl]
      simp only [formatterFor, hv, bind_ok]
      unfold SeqFormatter.f; rw [if_pos hnf, r1]
    · rw [show convOf (ch! 'g') = .g from rfl]
      simp only [formatterFor, hv, bind_ok]
      unfold SeqFormatter.g; rw [if_pos hnf, r1]
  rw [plain_received hp r2.sane hs]
  have key : ∃ t : JStr, t = SeqFormatter.nonFiniteText d.context (FloatForm.ofDouble bits) ∧ t ≠ [] ∧
      SeqFormatter.spaceJustify d.context (Seq.wrap t) = .ok r := by
    unfold SeqFormatter.nanOrInfinity at r1
    rw [SeqFormatter.hasFlag_plus] at r1
    unfold SeqFormatter.nonFiniteText
    split_ifs at r1 ⊢ <;> exact ⟨_, rfl, by decide, r1⟩
  obtain ⟨t, ht, hne, hj⟩ := key
  rw [nonFiniteText_eq hf] at ht
  have hl := (Seq.wrap_wf t).length_text
  rw [Seq.wrap_text] at hl
  rw [justified hp hj hl (Seq.wrap_calls t), Seq.block, inOne, if_neg hne, ht]
  rfl

/-- The calls that a format makes. -/
def callsBy (format : JStr) (es : List Entry) : Res (List JStr) := do
  let apps ← Compiler.compile ⟨fun _ => true⟩ format
  return received sampleDateEnv apps (es.map (·.toTraits sampleJdk))

/-- A `String` argument of the examples. -/
def someString (s : JStr) : Entry := .ref (.string s ⟨js! "java.lang.String", 1#32⟩)

example : Built (someString (js! "abc")) := trivial
example : Built (.ref (.seq (.wrap (js! "ab")) ⟨js! "S", 1#32⟩)) := ⟨.leaf (.wrap (js! "ab")), rfl⟩
example : callsBy (js! "x=%5s;") [someString (js! "abc")] =
    .ok [js! "x=", js! " ", js! " ", js! "abc", js! ";"] := by decide +kernel
example : callsBy (js! "%-4.2s") [someString (js! "abc")] = .ok [js! "ab", js! " ", js! " "] := by decide +kernel
example : callsBy (js! "%s") [someString []] = .ok [] := by decide +kernel
example : callsBy (js! "%5S%%") [someString (js! "abc")] =
    .ok [js! " ", js! " ", js! "A", js! "B", js! "C", js! "%"] := by decide +kernel
example : callsBy (js! "%+06d") [.prim (.int 123#32)] = .ok [js! "+", js! "0", js! "0", js! "123"] := by decide +kernel
example : callsBy (js! "%-5d") [.prim (.int 123#32)] = .ok [js! "123", js! " ", js! " "] := by decide +kernel
example : callsBy (js! "%#7x") [.prim (.int 4080#32)] = .ok [js! " ", js! " ", js! "0x", js! "ff0"] := by decide +kernel
example : callsBy (js! "%.1f") [.prim (.double 0x3ff8000000000000#64)] = .ok [js! "1", js! ".", js! "5"] := by
  decide +kernel
example : callsBy (js! "%.0e") [.prim (.double 0#64)] = .ok [js! "0", js! "e", js! "+00"] := by decide +kernel
-- a number that is printed as nothing makes no call, and what follows a failure none either
example : callsBy (js! "%.0d") [.prim (.int 0#32)] = .ok [] := by decide +kernel
example : callsBy (js! "a%db") [someString (js! "q")] = .ok [js! "a"] := by decide +kernel
example : callsBy (js! "%3c%-3c") [.prim (.char 65), .prim (.char 66)] =
    .ok [js! " ", js! " ", js! "A", js! "B", js! " ", js! " "] := by decide +kernel
example : callsBy (js! "%6t") [.prim (.int 5#32)] = .ok [js! " ", js! " ", js! "2024"] := by decide +kernel
example : callsBy (js! "%p") [.ref (.object .other (.ok []) ⟨js! "a.B", 255#32⟩)] =
    .ok [js! "a.B", js! "@", js! "ff"] := by decide +kernel
example : callsBy (js! "%+10.2f") [.prim (.double 0x7ff0000000000000#64)] = .ok [js! " ", js! "+Infinity"] := by
  decide +kernel
example : callsBy (js! "%-6s") [.ref (.seq (.append (.wrap (js! "ab")) (.wrap (js! "cd"))) ⟨js! "S", 1#32⟩)] =
    .ok [js! "ab", js! "cd", js! " ", js! " "] := by decide +kernel

end FastPrintf
