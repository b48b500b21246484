/-
**C108.**  Besides the format and the arguments, the result of a call depends on nothing but a short list of
calls into the JDK.
-/
import Verif.Props.Questions
import Verif.Proofs.Readings
import Verif.Proofs.FlagUse
import Verif.Spec.Outside

namespace FastPrintf
open Spec

namespace Surroundings

/-! Compiling. -/

/-- The two JDKs agree on the patterns that are written in a text. -/
def SamePatterns (dates dates' : DateSyntax) (f : JStr) : Prop :=
  ∀ pre c p post, IsDateConv c → f = pre ++ c :: ch! '{' :: p ++ ch! '}' :: post →
    dates.valid p = dates'.valid p

theorem SamePatterns.tail {dates dates' : DateSyntax} {a b : JStr} (h : SamePatterns dates dates' (a ++ b)) :
    SamePatterns dates dates' b := by
  intro pre c p post hc hb
  exact h (a ++ pre) c p post hc (by rw [hb]; simp)

theorem datePart_same {dates dates' : DateSyntax} {c : JChar} (hc : c ∈ convChars) {rest : JStr} (pos : Nat)
    (h : SamePatterns dates dates' (c :: rest)) :
    Compiler.datePart dates (convOf c) rest pos = Compiler.datePart dates' (convOf c) rest pos := by
  unfold Compiler.datePart
  by_cases ht : (convOf c).isDateTime = true
  · rw [if_pos ht, if_pos ht]
    have hd : IsDateConv c := by
      have key : ∀ c ∈ convChars, (convOf c).isDateTime = true → c = 116 ∨ c = 84 := by decide
      exact key c hc ht
    cases rest with
    | nil => rfl
    | cons b rest =>
      unfold Compiler.dateTimeFormatter
      by_cases hb : b = ch! '{'
      · subst hb
        simp only [ne_eq, not_true_eq_false, if_false]
        cases hs : Compiler.scanBrace rest false 0 with
        | none => rfl
        | some n =>
          obtain ⟨m, hm, pre, post, hf, hl, -⟩ := (scanBrace_iff rest false 0 n).1 hs
          have hv : dates.valid (rest.take n) = dates'.valid (rest.take n) := by
            have hp : rest.take n = pre := by rw [hf, show n = pre.length by omega, List.take_left]
            rw [hp]
            exact h [] c pre post hd (by rw [hf]; rfl)
          simp only [hv]
      · simp only [ne_eq, hb, not_false_eq_true, if_true]
  · rw [if_neg ht, if_neg ht]

theorem datePart_rest {dates : DateSyntax} {sp : Specifier} {rest rest' : JStr} {pos pos' : Nat} {v : Option JStr}
    (h : Compiler.datePart dates sp rest pos = .ok (v, rest', pos')) : ∃ a, rest = a ++ rest' := by
  unfold Compiler.datePart at h
  split at h
  · cases rest with
    | nil => cases h; exact ⟨[], rfl⟩
    | cons b rest =>
      unfold Compiler.dateTimeFormatter at h
      by_cases hb : b = ch! '{'
      · simp only [hb, ne_eq, not_true_eq_false, if_false] at h
        cases hs : Compiler.scanBrace rest false 0 with
        | none => rw [hs] at h; cases h
        | some n =>
          rw [hs] at h
          simp only at h
          split at h
          · cases h
          · split at h
            · cases h
              exact ⟨b :: rest.take (n + 1), by simp⟩
            · cases h
      · simp only [ne_eq, hb, not_false_eq_true, if_true] at h
        cases h; exact ⟨[], rfl⟩
  · cases h; exact ⟨[], rfl⟩

theorem width_rest {rest rest' : JStr} {pos pos' : Nat} {v : Int}
    (h : Compiler.width rest pos = .ok (v, rest', pos')) : ∃ a, rest = a ++ rest' := by
  cases rest with
  | nil => cases h
  | cons c rest =>
    unfold Compiler.width at h
    have := (takeDigits_spec (c :: rest)).1
    simp only at h
    split at h
    · cases h; exact ⟨[c], rfl⟩
    · split at h
      · cases h; exact ⟨_, this⟩
      · split at h
        · cases h; exact ⟨_, this⟩
        · cases h

theorem forPattern_same {dates dates' : DateSyntax} {rest : JStr} (pos : Nat)
    (h : SamePatterns dates dates' rest) :
    Compiler.forPattern dates rest pos = Compiler.forPattern dates' rest pos ∧
      ∀ a rest' pos', Compiler.forPattern dates rest pos = .ok (a, rest', pos') → ∃ x, rest = x ++ rest' := by
  cases rest with
  | nil => exact ⟨rfl, fun a rest' pos' h => by cases h⟩
  | cons c rest =>
    unfold Compiler.forPattern
    by_cases hc : c = ch! '%'
    · simp only [hc, if_true, true_and]
      intro a rest' pos' h; cases h; exact ⟨[ch! '%'], rfl⟩
    simp only [hc, if_false]
    rcases h1 : Compiler.flags (c :: rest) pos {} with e | ⟨fs, rest1, pos1⟩
    · exact ⟨rfl, fun a rest' pos' h => by cases h⟩
    obtain ⟨x1, e1, -⟩ := (flags_iff _ _ _ _ _ _).1 h1
    simp only [bind_ok]
    rcases h2 : Compiler.width rest1 pos1 with e | ⟨w, rest2, pos2⟩
    · exact ⟨rfl, fun a rest' pos' h => by cases h⟩
    obtain ⟨x2, e2⟩ := width_rest h2
    simp only [bind_ok]
    rcases h3 : Compiler.precision rest2 pos2 with e | ⟨p, rest3, pos3⟩
    · exact ⟨rfl, fun a rest' pos' h => by cases h⟩
    obtain ⟨n3, e3, -⟩ := (precision_iff _ _ _ _ _).1 h3
    simp only [bind_ok]
    rcases h4 : Compiler.specifier rest3 pos3 with e | ⟨sp, rest4, pos4⟩
    · exact ⟨rfl, fun a rest' pos' h => by cases h⟩
    obtain ⟨b, e4, hb, hsp, -⟩ := (specifier_iff _ _ _ _ _).1 h4
    have hall : c :: rest = x1 ++ x2 ++ precText n3 ++ (b :: rest4) := by
      rw [e1, e2, e3, e4]; simp
    rw [hall] at h
    subst hsp
    simp only [bind_ok, datePart_same hb pos4 h.tail]
    refine ⟨trivial, ?_⟩
    rcases h5 : Compiler.datePart dates' (convOf b) rest4 pos4 with e | ⟨v, rest5, pos5⟩
    · exact fun a rest' pos' h => by cases h
    obtain ⟨x5, e5⟩ := datePart_rest h5
    simp only [bind_ok]
    intro a rest' pos' h
    cases hx : FormatContext.create fs w p v with
    | error e => rw [hx] at h; cases h
    | ok ctx =>
      rw [hx] at h; cases h
      exact ⟨x1 ++ x2 ++ precText n3 ++ b :: x5, by rw [hall, e5]; simp⟩

theorem parseNext_same {dates dates' : DateSyntax} {fuel : Nat} {rest : JStr} (pos : Nat)
    (h : SamePatterns dates dates' rest) :
    Compiler.parseNext dates fuel rest pos = Compiler.parseNext dates' fuel rest pos := by
  induction fuel generalizing rest pos with
  | zero => rfl
  | succ fuel ih =>
    unfold Compiler.parseNext
    cases rest with
    | nil => rfl
    | cons c rest =>
      simp only
      by_cases hc : c = ch! '%'
      · rw [if_pos hc, if_pos hc]
        have hr : SamePatterns dates dates' rest := SamePatterns.tail (a := [c]) h
        obtain ⟨f1, f2⟩ := forPattern_same (pos + 1) hr
        rw [← f1]
        rcases hx : Compiler.forPattern dates rest (pos + 1) with e | ⟨a, rest1, pos1⟩
        · rfl
        obtain ⟨x, e⟩ := f2 _ _ _ hx
        simp only [bind_ok]
        rw [ih pos1 (SamePatterns.tail (a := x) (by rw [← e]; exact hr))]
      · rw [if_neg hc, if_neg hc]
        have hl := (literalRun_spec (c :: rest)).1
        generalize Compiler.literalRun (c :: rest) = lr at *
        obtain ⟨lit, _ | ⟨b, rest1⟩⟩ := lr
        · rfl
        simp only at hl ⊢
        have hr : SamePatterns dates dates' rest1 :=
          SamePatterns.tail (a := lit ++ [b]) (by rw [hl] at h; simpa using h)
        obtain ⟨f1, f2⟩ := forPattern_same (pos + lit.length + 1) hr
        rw [← f1]
        rcases hx : Compiler.forPattern dates rest1 (pos + lit.length + 1) with e | ⟨a, rest2, pos2⟩
        · rfl
        obtain ⟨x, e⟩ := f2 _ _ _ hx
        simp only [bind_ok]
        rw [ih pos2 (SamePatterns.tail (a := x) (by rw [← e]; exact hr))]

/-! The formatters. -/

/-- The two JDKs print alike what a directive with this conversion and this pattern has printed by them. -/
def SameDates (env env' : DateEnv) (sp : Specifier) (date : Option JStr) : Prop :=
  sp.isDateTime = true → ∀ t fmt t', Formatted date t (some (fmt, t')) → env.format fmt t' = env'.format fmt t'

theorem t_same {env env' : DateEnv} {ctx : FormatContext}
    (h : ∀ t fmt t', Formatted ctx.dateTimeFormatter t (some (fmt, t')) → env.format fmt t' = env'.format fmt t')
    (v : Traits) : SeqFormatter.t env ctx v = SeqFormatter.t env' ctx v := by
  unfold SeqFormatter.t
  cases v.asTemporal with
  | error e => rfl
  | ok t =>
    simp only [bind_ok]
    obtain ⟨r, hr⟩ : ∃ r, Formatted ctx.dateTimeFormatter t r := by
      cases hd : ctx.dateTimeFormatter with
      | some p => exact ⟨_, .pattern p t⟩
      | none =>
        cases hk : t.kind with
        | instant => exact ⟨_, .instant hk⟩
        | offsetDateTime => exact ⟨_, .offset (.inl hk)⟩
        | zonedDateTime => exact ⟨_, .offset (.inr hk)⟩
        | localDateTime => exact ⟨_, .localDateTime hk⟩
        | localDate => exact ⟨_, .localDate hk⟩
        | other => exact ⟨_, .other hk⟩
    rw [hr.choose]
    cases r with
    | none => rfl
    | some x =>
      obtain ⟨fmt, t'⟩ := x
      simp only [chosen, bind_ok, h t fmt t' hr]

theorem formatterFor_env {env env' : DateEnv} {sp : Specifier} {ctx : FormatContext}
    (h : SameDates env env' sp ctx.dateTimeFormatter) (v : Traits) :
    DefaultAppender.formatterFor env sp ctx v = DefaultAppender.formatterFor env' sp ctx v := by
  cases sp with
  | t => exact t_same (h rfl) v
  | upperT => simp only [DefaultAppender.formatterFor, t_same (h rfl) v]
  | _ => rfl

theorem starPrecision_conv {sp : Specifier} {ctx c : FormatContext} {args rest : List Traits}
    (h : DefaultAppender.starPrecision sp ctx args = .ok (c, rest)) :
    c.dateTimeFormatter = ctx.dateTimeFormatter := by
  unfold DefaultAppender.starPrecision at h
  split at h
  · obtain ⟨⟨w, r⟩, _, h2⟩ := bind_eq_ok.1 h
    obtain ⟨c', h3, h4⟩ := bind_eq_ok.1 h2
    cases h4
    rw [(DefaultAppender.setPrecision_ok h3).2]
  · cases h; rfl

/-- The two JDKs print alike what a compiled piece has printed by them. -/
def SameFor (env env' : DateEnv) : Appender → Prop
  | .fixed _ => True
  | .dflt sp ctx => SameDates env env' sp ctx.dateTimeFormatter

theorem append_env {env env' : DateEnv} {a : Appender} (h : SameFor env env' a) (args : List Traits) :
    a.append env args = a.append env' args := by
  cases a with
  | fixed t => rfl
  | dflt sp ctx =>
    simp only [Appender.append, DefaultAppender.append_eq]
    rcases h1 : DefaultAppender.starWidth sp ctx args with e | ⟨c1, args1⟩
    · rfl
    simp only [bind_ok]
    rcases h2 : DefaultAppender.starPrecision sp c1 args1 with e | ⟨c2, args2⟩
    · rfl
    simp only [bind_ok]
    cases args2 with
    | nil => rfl
    | cons v rest =>
      have hd : c2.dateTimeFormatter = ctx.dateTimeFormatter := by
        rw [starPrecision_conv h2, DefaultAppender.starWidth_conv h1]
      simp only [DefaultAppender.valueStep]
      rw [formatterFor_env (by rw [hd]; exact h) v]

theorem runSB_env {env env' : DateEnv} {apps : List Appender} (h : ∀ a ∈ apps, SameFor env env' a)
    (args : List Traits) (sb : JStr) : runSB env apps args sb = runSB env' apps args sb := by
  induction apps generalizing args sb with
  | nil => rfl
  | cons a apps ih =>
    simp only [runSB]
    rw [append_env (h a (by simp)) args]
    cases a.append env' args with
    | error e => rfl
    | ok r =>
      obtain ⟨seq, args⟩ := r
      simp only
      cases seq.appendToSB sb with
      | error e => rfl
      | ok sb => exact ih (fun b hb => h b (by simp [hb])) args sb

theorem runSink_env {env env' : DateEnv} {apps : List Appender} (h : ∀ a ∈ apps, SameFor env env' a)
    {σ : Type} (k : Sink σ) (args : List Traits) (st : σ) : runSink env k apps args st = runSink env' k apps args st := by
  induction apps generalizing args st with
  | nil => rfl
  | cons a apps ih =>
    simp only [runSink]
    rw [append_env (h a (by simp)) args]
    cases a.append env' args with
    | error e => rfl
    | ok r =>
      obtain ⟨seq, args⟩ := r
      simp only
      cases seq.appendToCalls with
      | error e => rfl
      | ok calls =>
        simp only
        rcases k.feed st calls with ⟨st, _ | _⟩
        · rfl
        · exact ih (fun b hb => h b (by simp [hb])) args st

/-! The arguments. -/

theorem parseDigits_same {jdk jdk' : JdkEnv} {s : JStr} (h : ∀ c ∈ s, jdk.digit c = jdk'.digit c) :
    parseDigits jdk s = parseDigits jdk' s := by
  have key : ∀ (s : JStr), (∀ c ∈ s, jdk.digit c = jdk'.digit c) → ∀ acc : Option Nat,
      s.foldl (fun acc c => do return (← acc) * 10 + (← jdk.digit c)) acc =
        s.foldl (fun acc c => do return (← acc) * 10 + (← jdk'.digit c)) acc := by
    intro s
    induction s with
    | nil => intro _ _; rfl
    | cons c s ih =>
      intro h acc
      simp only [List.foldl_cons, h c (by simp)]
      exact ih (fun d hd => h d (by simp [hd])) _
  cases s with
  | nil => rfl
  | cons c s => exact key (c :: s) h (some 0)

/-- Within the range, or a `NumberFormatException`. -/
def within (lo hi : Int) : Option Int → Res Int
  | some n => if lo ≤ n ∧ n ≤ hi then .ok n else .error .numberFormat
  | none => .error .numberFormat

theorem parseSigned_unsigned (jdk : JdkEnv) (lo hi : Int) (s : JStr) :
    parseSigned jdk lo hi s = within lo hi ((parseDigits jdk (unsigned s)).map fun (n : Nat) =>
      if s.head? = some 45 then -(n : Int) else n) := by
  rcases s with _ | ⟨c, s⟩
  · rfl
  by_cases h1 : c = 45
  · subst h1
    simp only [parseSigned, unsigned, within, true_or, if_true, List.head?_cons]
    rfl
  by_cases h2 : c = 43
  · subst h2
    simp only [parseSigned, unsigned, within, or_true, if_true, List.head?_cons, Option.some.injEq, h1, if_false]
    rfl
  · simp only [unsigned, h1, h2, or_self, if_false, List.head?_cons, Option.some.injEq]
    simp [parseSigned, within, h1, h2]
    rfl

theorem parseSigned_same {jdk jdk' : JdkEnv} {lo hi : Int} {s : JStr}
    (h : ∀ c ∈ unsigned s, jdk.digit c = jdk'.digit c) : parseSigned jdk lo hi s = parseSigned jdk' lo hi s := by
  rw [parseSigned_unsigned, parseSigned_unsigned, parseDigits_same h]

theorem primTraits_same {jdk jdk' : JdkEnv} {p : Prim} {q : Question} (ref : RefSlot)
    (h : ∀ o, primNeeds p q o → o.Same jdk jdk') : SameAnswer (p.traits jdk ref) (p.traits jdk' ref) q := by
  cases p <;> cases q <;> first | rfl | trivial | skip
  · have := h _ rfl
    simp only [Outside.Same] at this
    simp only [SameAnswer, Prim.traits, floatTraits, this]
  · have := h _ rfl
    simp only [Outside.Same] at this
    simp only [SameAnswer, Prim.traits, doubleTraits, this]

theorem textTraits_same {jdk jdk' : JdkEnv} {s : JStr} {q : Question} (r : Res Seq) (ref : RefSlot)
    (h : ∀ o, textNeeds s q o → o.Same jdk jdk') :
    SameAnswer (charSequenceTraits jdk s r ref) (charSequenceTraits jdk' s r ref) q := by
  cases q <;> first | rfl | trivial | skip
  · have := fun lo hi => parseSigned_same (lo := lo) (hi := hi) (s := s) (jdk := jdk) (jdk' := jdk')
      fun c hc => h (.digitOf c) ⟨c, hc, rfl⟩
    simp only [SameAnswer, charSequenceTraits, this]
  · have := fun lo hi => parseSigned_same (lo := lo) (hi := hi) (s := s) (jdk := jdk) (jdk' := jdk')
      fun c hc => h (.digitOf c) ⟨c, hc, rfl⟩
    simp only [SameAnswer, charSequenceTraits, this]
  · have := h _ rfl
    simp only [Outside.Same] at this
    simp only [SameAnswer, charSequenceTraits, this]

theorem entry_same {jdk jdk' : JdkEnv} {e : Entry} {q : Question}
    (h : ∀ o, Needs e q o → o.Same jdk jdk') : SameAnswer (e.toTraits jdk) (e.toTraits jdk') q := by
  cases e with
  | prim p => exact primTraits_same _ h
  | ref o =>
    cases o with
    | boxed p id => exact primTraits_same _ h
    | string s id => exact textTraits_same _ _ h
    | charSeq s id => exact textTraits_same _ _ h
    | seq r id =>
      have key : ∀ s, r.toStr = .ok s → SameAnswer (charSequenceTraits jdk s (.ok r) id.ref)
          (charSequenceTraits jdk' s (.ok r) id.ref) q :=
        fun s hs => textTraits_same _ _ fun o ho => h o ⟨s, hs, ho⟩
      rcases hs : r.toStr with e | s
      · cases q <;> first | rfl | trivial | (simp only [SameAnswer, Entry.toTraits, Obj.toTraits, seqTraits, hs]; rfl)
      · have := key s hs
        cases q <;> first | rfl | trivial | skip
        all_goals
          simp only [SameAnswer] at this
          simp only [SameAnswer, Entry.toTraits, Obj.toTraits, seqTraits, hs, bind_ok, this]
    | bigDecimal u s id =>
      cases q <;> first | rfl | trivial | skip
      have := h _ rfl
      simp only [Outside.Same] at this
      simp only [SameAnswer, Entry.toTraits, Obj.toTraits, bigDecimalTraits, this]
    | temporal t text id =>
      cases q <;> first | rfl | trivial | skip
      all_goals
        have := h _ rfl
        simp only [Outside.Same] at this
        simp only [SameAnswer, Entry.toTraits, Obj.toTraits, temporalTraits, this]
    | null => cases q <;> first | rfl | trivial
    | bigInteger v id => cases q <;> first | rfl | trivial
    | traits t => cases q <;> first | rfl | trivial
    | object k t id => cases q <;> first | rfl | trivial

theorem agree_of {jdk jdk' : JdkEnv} {qs : List Question} {es : List Entry}
    (h : ∀ (i : Nat) q e, qs[i]? = some q → es[i]? = some e → ∀ o, Needs e q o → o.Same jdk jdk') :
    Agree qs (es.map (·.toTraits jdk)) (es.map (·.toTraits jdk')) := by
  induction qs generalizing es with
  | nil => exact .done _ _
  | cons q qs ih =>
    cases es with
    | nil => exact .short _
    | cons e es =>
      exact .next (entry_same (h 0 q e rfl rfl)) (ih fun i q e hq he => h (i + 1) q e (by simpa using hq) (by simpa using he))

end Surroundings

open Surroundings

/-- **C108.**  Compiling depends on nothing but the format, and for a format with `t{pattern}` or `T{pattern}` in it on
whether the JDK accepts the pattern: the same pieces or the same exception. -/
theorem C108_compile (dates dates' : DateSyntax) (f : JStr)
    (h : ∀ pre c p post, IsDateConv c → f = pre ++ c :: ch! '{' :: p ++ ch! '}' :: post →
      dates.valid p = dates'.valid p) :
    Compiler.compile dates f = Compiler.compile dates' f :=
  parseNext_same 0 h

/-- **C108.**  Formatting depends on nothing but the format and the arguments, on what the JDK makes of the dates that
`%t` and `%T` are given, and on what the arguments need from the JDK for what they are asked. -/
theorem C108_same (dates dates' : DateSyntax) (env env' : DateEnv) (jdk jdk' : JdkEnv) (f : JStr)
    (ps : List Piece) (h : Reading dates f ps)
    (hv : ∀ d p, Piece.dir d ∈ ps → d.date = some p → dates'.valid p = true)
    (ht : ∀ d, Piece.dir d ∈ ps → IsDateConv d.conv → ∀ t fmt t', Formatted d.date t (some (fmt, t')) →
      env.format fmt t' = env'.format fmt t')
    (es : List Entry)
    (hn : ∀ (i : Nat) q e, (ps.flatMap Piece.questions)[i]? = some q → es[i]? = some e →
      ∀ o, Needs e q o → o.Same jdk jdk') :
    printf dates env f (es.map (·.toTraits jdk)) = printf dates' env' f (es.map (·.toTraits jdk')) ∧
    (∀ sb, (runSB env (ps.map Piece.compiled) (es.map (·.toTraits jdk)) sb).target =
      (runSB env' (ps.map Piece.compiled) (es.map (·.toTraits jdk')) sb).target) ∧
    ∀ (σ : Type) (k : Sink σ) (st : σ),
      (runSink env k (ps.map Piece.compiled) (es.map (·.toTraits jdk)) st).target =
        (runSink env' k (ps.map Piece.compiled) (es.map (·.toTraits jdk')) st).target := by
  have h' : Reading dates' f ps := by
    refine ⟨h.text, fun p hp => ?_, h.separated⟩
    have := h.ok p hp
    cases p with
    | lit s => exact this
    | percent => exact this
    | dir d =>
      have hd : d.Ok dates := this
      exact { hd with date := fun p hp' => ⟨(hd.date p hp').1, (hd.date p hp').2.1, (hd.date p hp').2.2.1,
        (hd.date p hp').2.2.2.1, hv d p hp hp'⟩ }
  have hs : ∀ a ∈ ps.map Piece.compiled, SameFor env env' a := by
    intro a ha
    obtain ⟨p, hp, rfl⟩ := List.mem_map.1 ha
    cases p with
    | lit s => trivial
    | percent => trivial
    | dir d =>
      intro hd
      refine ht d hp ?_
      have key : ∀ c ∈ convChars, (convOf c).isDateTime = true → c = 116 ∨ c = 84 := by decide
      exact key _ (h.ok _ hp).conv hd
  obtain ⟨k1, k2, k3⟩ := C67_same_answers dates env f ps h _ _ (agree_of hn)
  refine ⟨?_, fun sb => ?_, fun σ k st => ?_⟩
  · rw [k1]
    unfold printf
    rw [(compile_iff dates f _).2 ⟨ps, h, rfl⟩, (compile_iff dates' f _).2 ⟨ps, h', rfl⟩, bind_ok, bind_ok]
    unfold formatWith
    rw [runSB_env hs]
  · rw [k2, runSB_env hs]
  · rw [k3, runSink_env hs]

namespace Surroundings

/-! Each need is real: two JDKs that differ in one answer. -/

/-- A JDK that knows nothing: every text is empty, every number is zero. -/
def flat : JdkEnv where
  doubleToString _ := []
  floatToString _ := []
  parseDouble _ := some 0#64
  digit _ := some 0
  bigDecimalToString _ _ := []
  instantFrom _ := some (0, 0)

/-- The same but for one answer. -/
def except : Outside → JdkEnv
  | .doubleText b => { flat with doubleToString := fun x => if x = b then js! "x" else [] }
  | .floatText b => { flat with floatToString := fun x => if x = b then js! "x" else [] }
  | .doubleOf s => { flat with parseDouble := fun x => if x = s then none else some 0#64 }
  | .digitOf c => { flat with digit := fun x => if x = c then none else some 0 }
  | .decimalText u s => { flat with bigDecimalToString := fun x y => if x = u ∧ y = s then js! "x" else [] }
  | .instantOf t => { flat with instantFrom := fun x => if x = t then none else some (0, 0) }

theorem except_same {o o' : Outside} (h : o' ≠ o) : o'.Same flat (except o) := by
  cases o <;> cases o' <;> simp only [Outside.Same, except, flat] <;> try rfl
  · rw [if_neg]; rintro rfl; exact h rfl
  · rw [if_neg]; rintro rfl; exact h rfl
  · rw [if_neg]; rintro rfl; exact h rfl
  · rw [if_neg]; rintro rfl; exact h rfl
  · rw [if_neg]; rintro ⟨rfl, rfl⟩; exact h rfl
  · rw [if_neg]; rintro rfl; exact h rfl

theorem digits_flat {s : JStr} (h : s ≠ []) : parseDigits flat s = some 0 := by
  have key : ∀ s : JStr, s.foldl (fun acc c => do return (← acc) * 10 + (← flat.digit c)) (some 0) = some 0 := by
    intro s
    induction s with
    | nil => rfl
    | cons c s ih => exact ih
  cases s with
  | nil => exact absurd rfl h
  | cons c s => exact key (c :: s)

theorem digits_except {s : JStr} {c : JChar} (h : c ∈ s) : parseDigits (except (.digitOf c)) s = none := by
  rcases hp : parseDigits (except (.digitOf c)) s with _ | n
  · rfl
  · obtain ⟨-, hd⟩ := (parseDigits_iff _ _ _).1 hp
    exfalso
    revert h
    clear hp
    induction hd with
    | nil => simp
    | @snoc ds n k d hd hk ih =>
      intro h
      rcases List.mem_append.1 h with h | h
      · exact ih h
      · have : c = d := by simpa using h
        subst this
        simp [except] at hk

/-- The argument answers a question one way with one JDK, and another way with the other. -/
def Differs (t t' : Traits) : Question → Prop
  | .count => t.asInt = .ok 0 ∧ ∃ e, t'.asInt = .error e
  | .integer => t.asIntForm = .ok (IntForm.ofLong 0#64) ∧ ∃ e, t'.asIntForm = .error e
  | .floating => t.asFloatForm = .ok (FloatForm.ofDouble 0#64) ∧ ∃ e, t'.asFloatForm = .error e
  | .text => t.asSeq = .ok (Seq.wrap []) ∧ t'.asSeq = .ok (Seq.wrap (js! "x"))
  | _ => False

theorem textDiffers {s : JStr} {q : Question} {o : Outside} (r r' : Res Seq) (ref ref' : RefSlot)
    (h : textNeeds s q o) :
    Differs (charSequenceTraits flat s r ref) (charSequenceTraits (except o) s r' ref') q := by
  cases q <;> first | (exact h.elim) | skip
  · obtain ⟨c, hc, rfl⟩ := h
    simp only [Differs, charSequenceTraits, parseSigned_unsigned, digits_flat (List.ne_nil_of_mem hc),
      digits_except hc]
    refine ⟨?_, _, rfl⟩
    split <;> rfl
  · obtain ⟨c, hc, rfl⟩ := h
    simp only [Differs, charSequenceTraits, parseSigned_unsigned, digits_flat (List.ne_nil_of_mem hc),
      digits_except hc]
    refine ⟨?_, _, rfl⟩
    split <;> rfl
  · cases h
    simp only [Differs, charSequenceTraits, except, if_true]
    exact ⟨rfl, _, rfl⟩

theorem primDiffers {p : Prim} {q : Question} {o : Outside} (ref ref' : RefSlot) (h : primNeeds p q o) :
    Differs (p.traits flat ref) (p.traits (except o) ref') q := by
  cases p <;> cases q <;> first | (exact h.elim) | skip
  all_goals
    cases h
    simp only [Differs, Prim.traits, floatTraits, doubleTraits, except, if_true]
    exact ⟨rfl, trivial⟩

theorem entryDiffers {e : Entry} {q : Question} {o : Outside} (h : Needs e q o) :
    Differs (e.toTraits flat) (e.toTraits (except o)) q := by
  cases e with
  | prim p => exact primDiffers _ _ h
  | ref r =>
    cases r with
    | boxed p id => exact primDiffers _ _ h
    | string s id => exact textDiffers _ _ _ _ h
    | charSeq s id => exact textDiffers _ _ _ _ h
    | seq r id =>
      obtain ⟨s, hs, h⟩ := h
      have := textDiffers (.ok r) (.ok r) id.ref id.ref h
      cases q <;> first | (exact h.elim) | skip
      all_goals
        simp only [Differs] at this
        simp only [Differs, Entry.toTraits, Obj.toTraits, seqTraits, hs, bind_ok, this]
      all_goals exact ⟨trivial, trivial⟩
    | bigDecimal u s id =>
      cases q <;> first | (exact h.elim) | skip
      cases h
      simp only [Differs, Entry.toTraits, Obj.toTraits, bigDecimalTraits, except, and_self, if_true]
      exact ⟨rfl, trivial⟩
    | temporal t text id =>
      cases q <;> first | (exact h.elim) | skip
      all_goals
        cases h
        simp only [Differs, Entry.toTraits, Obj.toTraits, temporalTraits, except, if_true]
        exact ⟨rfl, _, rfl⟩
    | null => cases q <;> exact h.elim
    | bigInteger v id => cases q <;> exact h.elim
    | traits t => cases q <;> exact h.elim
    | object k t id => cases q <;> exact h.elim

theorem reading_bare (dates : DateSyntax) {w : Num} {c : JChar} (hw : w = .absent ∨ w = .star)
    (hc : c ∈ convChars) (hp : c ≠ ch! '%') :
    Reading dates (Directive.text ⟨[], w, .absent, c, none⟩) [.dir ⟨[], w, .absent, c, none⟩] := by
  refine reading_dir ⟨by simp, by simp, ?_, ?_, hc, by simp, fun h => absurd h hp⟩
  · rcases hw with rfl | rfl <;> trivial
  · trivial

theorem probe_differs {t t' u u' : Traits} {q : Question} (h : Differs t t' q) (dates : DateSyntax) (env : DateEnv)
    (hu : u.asIntForm = .ok (IntForm.ofInt 1#32)) :
    printf dates env (probe q) [t, u] ≠ printf dates env (probe q) [t', u'] := by
  cases q <;> first | (exact h.elim) | skip
  · obtain ⟨h1, e, h2⟩ := h
    have hr := reading_bare dates (.inr rfl) (show ch! 'd' ∈ convChars by decide) (by decide)
    have k1 := (C67_same_answers dates env (probe .count) _ hr [t, u]
      [intTraits 0#32 .primitive, intTraits 1#32 .primitive] (.next h1 (.next hu (.done _ _)))).1
    have k2 := (C67_refusal dates env (probe .count) [] [] _ hr [] [u'] t' [] [] rfl .count rfl e h2).2
    rw [k1, show printf dates env (probe .count) [t', u'] = .error e from k2]
    rw [show printf dates env (probe .count) [intTraits 0#32 .primitive, intTraits 1#32 .primitive] = .ok (js! "1") from rfl]
    simp
  · obtain ⟨h1, e, h2⟩ := h
    have hr := reading_bare dates (.inl rfl) (show ch! 'd' ∈ convChars by decide) (by decide)
    have k1 := (C67_same_answers dates env (probe .integer) _ hr [t, u]
      [longTraits 0#64 .primitive] (.next h1 (.done _ _))).1
    have k2 := (C67_refusal dates env (probe .integer) [] [] _ hr [] [u'] t' [] [] rfl .integer rfl e h2).2
    rw [k1, show printf dates env (probe .integer) [t', u'] = .error e from k2]
    rw [show printf dates env (probe .integer) [longTraits 0#64 .primitive] = .ok (js! "0") from rfl]
    simp
  · obtain ⟨h1, e, h2⟩ := h
    have hr := reading_bare dates (.inl rfl) (show ch! 'f' ∈ convChars by decide) (by decide)
    have k1 := (C67_same_answers dates env (probe .floating) _ hr [t, u]
      [doubleTraits flat 0#64 .primitive] (.next h1 (.done _ _))).1
    have k2 := (C67_refusal dates env (probe .floating) [] [] _ hr [] [u'] t' [] [] rfl .floating rfl e h2).2
    rw [k1, show printf dates env (probe .floating) [t', u'] = .error e from k2]
    rw [show printf dates env (probe .floating) [doubleTraits flat 0#64 .primitive] = .ok (js! "0.000000") from
      rfl]
    simp
  · obtain ⟨h1, h2⟩ := h
    have hr := reading_bare dates (.inl rfl) (show ch! 's' ∈ convChars by decide) (by decide)
    have k1 := (C67_same_answers dates env (probe .text) _ hr [t, u]
      [charSequenceTraits flat [] (.ok (Seq.wrap [])) .primitive] (.next h1 (.done _ _))).1
    have k2 := (C67_same_answers dates env (probe .text) _ hr [t', u']
      [charSequenceTraits flat [] (.ok (Seq.wrap (js! "x"))) .primitive] (.next h2 (.done _ _))).1
    rw [k1, k2, show printf dates env (probe .text)
      [charSequenceTraits flat [] (.ok (Seq.wrap [])) .primitive] = .ok [] from rfl]
    rw [show printf dates env (probe .text)
      [charSequenceTraits flat [] (.ok (Seq.wrap (js! "x"))) .primitive] = .ok (js! "x") from rfl]
    simp

end Surroundings

/-- **C108.**  The table of needs is exact: for each entry there are two JDKs that differ in nothing but the answer to
that call, and a format that prints the argument in two ways. -/
theorem C108_exact (e : Entry) (q : Question) (o : Outside) (h : Needs e q o) :
    ∃ jdk jdk' : JdkEnv, (∀ o', o' ≠ o → o'.Same jdk jdk') ∧ ∀ dates env,
      printf dates env (probe q) ([e, .prim (.int 1#32)].map (·.toTraits jdk)) ≠
        printf dates env (probe q) ([e, .prim (.int 1#32)].map (·.toTraits jdk')) :=
  ⟨flat, except o, fun _ ho => except_same ho, fun dates env => probe_differs (entryDiffers h) dates env rfl⟩

/-- **C108.**  What `%t` is given to print is printed by the JDK: for each formatter that can be chosen and each date it is
applied to there are two JDKs that differ in nothing but that, and that print the argument in two ways. -/
theorem C108_dates (dates : DateSyntax) (date : Option JStr) (hd : ∀ p, date = some p → DateOk dates p)
    (t : Temporal) (fmt : DateFmt) (t' : Temporal) (h : Formatted date t (some (fmt, t')))
    (text : Res JStr) (id : Identity) :
    ∃ env env' : DateEnv, (∀ f x, (f, x) ≠ (fmt, t') → env.format f x = env'.format f x) ∧ ∀ jdk,
      printf dates env (Directive.text ⟨[], .absent, .absent, ch! 't', date⟩) [(Entry.ref (.temporal t text id)).toTraits jdk] ≠
        printf dates env' (Directive.text ⟨[], .absent, .absent, ch! 't', date⟩)
          [(Entry.ref (.temporal t text id)).toTraits jdk] := by
  have hok : Directive.Ok dates ⟨[], .absent, .absent, ch! 't', date⟩ :=
    ⟨by simp, by simp, trivial, trivial, show ch! 't' ∈ convChars by decide, fun p hp => ⟨.inl rfl, hd p hp⟩, fun h => by cases h⟩
  have key : ∀ (env : DateEnv) (jdk : JdkEnv), printf dates env (Directive.text ⟨[], .absent, .absent, ch! 't', date⟩)
      [(Entry.ref (.temporal t text id)).toTraits jdk] =
      env.format fmt t' >>= fun s => (Seq.wrap s).appendToSB [] := by
    intro env jdk
    rw [printf_dir hok]
    have hc : SeqFormatter.chooseFormatter ⟨{}, UNSET, UNSET, date⟩ t = .ok (fmt, t') :=
      Formatted.choose (ctx := ⟨{}, UNSET, UNSET, date⟩) h
    have hf : DefaultAppender.append env .t ⟨{}, UNSET, UNSET, date⟩ [(Entry.ref (.temporal t text id)).toTraits jdk] =
        env.format fmt t' >>= fun s => .ok (Seq.wrap s, []) := by
      rw [DefaultAppender.append_eq]
      change (SeqFormatter.t env ⟨{}, UNSET, UNSET, date⟩ _).map _ = _
      unfold SeqFormatter.t
      change (SeqFormatter.chooseFormatter ⟨{}, UNSET, UNSET, date⟩ t >>= _).map _ = _
      rw [hc, bind_ok]
      simp only
      cases env.format fmt t' with
      | error e => rfl
      | ok s =>
        rw [bind_ok, SeqFormatter.spaceJustify_unset rfl (by rw [(Seq.wrap_wf s).length_text]; omega)]
        rfl
    change (DefaultAppender.append env .t ⟨{}, UNSET, UNSET, date⟩ _ >>= _) = _
    rw [hf]
    cases env.format fmt t' <;> rfl
  refine ⟨⟨fun _ _ => .ok []⟩, ⟨fun f x => if f = fmt ∧ x = t' then .ok (js! "x") else .ok []⟩, ?_, ?_⟩
  · intro f x hne
    simp only
    rw [if_neg]
    rintro ⟨rfl, rfl⟩
    exact hne rfl
  · intro jdk
    rw [key, key]
    simp only [and_self, if_true, bind_ok]
    intro h
    have : (Except.ok [] : Res JStr) = .ok (js! "x") := h
    simp at this

/-- **C108.**  A format of number conversions, characters and references, applied to arguments that are no texts and
no dates, gives the same result whatever the JDK: the library computes it alone. -/
theorem C108_alone (dates dates' : DateSyntax) (env env' : DateEnv) (jdk jdk' : JdkEnv) (f : JStr)
    (ps : List Piece) (h : Reading dates f ps) (hc : ∀ d, Piece.dir d ∈ ps → d.conv ∉ js! "sStT")
    (es : List Entry)
    (hs : ∀ e ∈ es, (∀ s id, e ≠ .ref (.string s id)) ∧ (∀ s id, e ≠ .ref (.charSeq s id)) ∧
      (∀ s id, e ≠ .ref (.seq s id)) ∧ ∀ t x id, e ≠ .ref (.temporal t x id)) :
    printf dates env f (es.map (·.toTraits jdk)) = printf dates' env' f (es.map (·.toTraits jdk')) := by
  have hq : ∀ q ∈ ps.flatMap Piece.questions, q ≠ .text := by
    intro q hq
    obtain ⟨p, hp, hq⟩ := List.mem_flatMap.1 hq
    cases p with
    | lit s => simp [Piece.questions] at hq
    | percent => simp [Piece.questions] at hq
    | dir d =>
      have h1 := hc d hp
      have h2 : question d.conv ≠ .text := by
        have key : ∀ c ∈ convChars, c ∉ js! "sStT" → question c ≠ .text := by decide
        exact key _ (h.ok _ hp).conv h1
      simp only [Piece.questions, List.mem_append, List.mem_singleton] at hq
      rcases hq with (hq | hq) | rfl
      · split at hq <;> simp at hq
        rw [hq]; decide
      · split at hq <;> simp at hq
        rw [hq]; decide
      · exact h2
  refine (C108_same dates dates' env env' jdk jdk' f ps h ?_ ?_ es ?_).1
  · intro d p hp hd
    have := hc d hp
    rcases ((h.ok _ hp).date p hd).1 with h1 | h1 <;> rw [h1] at this <;> exact absurd (by decide) this
  · intro d hp hd
    have := hc d hp
    rcases hd with h1 | h1 <;> rw [h1] at this <;> exact absurd (by decide) this
  · intro i q e hi he o hn
    have h1 := hq q (List.mem_of_getElem? hi)
    obtain ⟨n1, n2, n3, n4⟩ := hs e (List.mem_of_getElem? he)
    exfalso
    cases e with
    | prim p => cases p <;> cases q <;> first | (exact hn.elim) | (exact h1 rfl)
    | ref r =>
      cases r with
      | boxed p id => cases p <;> cases q <;> first | (exact hn.elim) | (exact h1 rfl)
      | string s id => exact n1 s id rfl
      | charSeq s id => exact n2 s id rfl
      | seq s id => exact n3 s id rfl
      | temporal t x id => exact n4 t x id rfl
      | _ => cases q <;> first | (exact hn.elim) | (exact h1 rfl)

/-! The two sides of the theorems, on concrete calls: `%d|%.2f` needs nothing from the JDK, `%s` of a `double` does. -/

example (dates dates' : DateSyntax) (env env' : DateEnv) (jdk jdk' : JdkEnv) :
    printf dates env (js! "%d|%.2f") ([.prim (.int 7#32), .prim (.double 0x3FF8000000000000#64)].map (Entry.toTraits jdk)) =
      printf dates' env' (js! "%d|%.2f")
        ([.prim (.int 7#32), .prim (.double 0x3FF8000000000000#64)].map (Entry.toTraits jdk')) := by
  refine C108_alone dates dates' env env' jdk jdk' _
    [.dir ⟨[], .absent, .absent, ch! 'd', none⟩, .lit (js! "|"), .dir ⟨[], .absent, .digits (js! "2"), ch! 'f', none⟩]
    ?_ ?_ _ (by simp)
  · refine ⟨by decide, ?_, ?_⟩
    · intro p hp
      simp only [List.mem_cons, List.not_mem_nil, or_false] at hp
      rcases hp with rfl | rfl | rfl
      · exact ⟨by simp, by simp, trivial, trivial, show ch! 'd' ∈ convChars by decide, by simp, by simp⟩
      · exact ⟨by decide, by decide⟩
      · exact ⟨by simp, by simp, trivial, ⟨by simp [IsDigit], by decide⟩, show ch! 'f' ∈ convChars by decide, by simp, by simp⟩
    · simp [Separated, MayFollow, IsDateConv]
  · intro d hd
    simp only [List.mem_cons, List.not_mem_nil, or_false, Piece.dir.injEq, reduceCtorEq, false_or] at hd
    rcases hd with rfl | rfl <;> decide

example : Needs (.prim (.double 0#64)) .text (.doubleText 0#64) := rfl
example (s : JStr) (id : Identity) : Needs (.ref (.string s id)) .floating (.doubleOf s) := rfl
example (id : Identity) : Needs (.ref (.string (js! "-12") id)) .integer (.digitOf (ch! '2')) := ⟨_, by decide, rfl⟩
example (id : Identity) : ¬ Needs (.ref (.string (js! "-12") id)) .integer (.digitOf (ch! '-')) := by
  rintro ⟨c, hc, h⟩; cases h; revert hc; decide

end FastPrintf
