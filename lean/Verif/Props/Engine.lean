/-
Properties of formatting as a whole: C01, C02, C05, C06, C07, C10, C34, C38.

`printf dates env format args` models `FastPrintf.compile(format).format(args)`, where `args` is the
list of arguments as `FormatTraits`.  All theorems hold for every `FormatTraits`, including user
implementations, unless they say `Traits.WF` (an argument whose character sequences report their own
length, as all the library's do).
-/
import Verif.Proofs.Star
import Verif.Props.Samples
import Verif.Props.Compile

namespace FastPrintf
open Spec

/-! ### C01 -/

/-- **C01.** A format string without `%` prints itself, whatever the arguments. -/
theorem C01_literal_verbatim (dates : DateSyntax) (env : DateEnv) (s : JStr) (h : ch! '%' ∉ s)
    (args : List Traits) : printf dates env s args = .ok s := by
  by_cases hs : s = []
  · subst hs
    rw [printf_eq (reading_nil.2 rfl)]; rfl
  · have hr : Reading dates s [.lit s] :=
      reading_lit.2 ⟨[], by simp, hs, h, by simp, reading_nil.2 rfl⟩
    rw [printf_eq hr, formatWith_eq]
    simp only [List.map_cons, List.map_nil, Piece.compiled, runSB_fixed]
    rfl

example : printf sampleDates sampleDateEnv (js! "50 dollars") [intArg 7#32] = .ok (js! "50 dollars") :=
  C01_literal_verbatim _ _ _ (by decide) _

/-! ### C02 -/

/-- Doubling every `%`. -/
def escapePercent (s : JStr) : JStr := s.flatMap fun c => if c = ch! '%' then js! "%%" else [c]

/-- **C02.** Doubling each `%` gives a format that prints the original string, whatever the arguments. -/
theorem C02_escape_complete (dates : DateSyntax) (env : DateEnv) (s : JStr) (args : List Traits) :
    printf dates env (escapePercent s) args = .ok s := by
  have key : ∀ s : JStr, ∃ ps, Reading dates (escapePercent s) ps ∧ ¬ EndsWithBareDate ps ∧
      (∀ d, .dir d ∉ ps) ∧
      ∀ sb, runSB env (ps.map Piece.compiled) args sb = ⟨sb ++ s, .ok args⟩ := by
    intro s
    induction s with
    | nil =>
      refine ⟨[], reading_nil.2 rfl, ?_, by simp, ?_⟩
      · rintro ⟨d, h, _⟩; simp at h
      · intro sb; simp [runSB]
    | cons c s ih =>
      obtain ⟨ps, h1, h2, h3, h4⟩ := ih
      by_cases hc : c = 37
      · subst hc
        refine ⟨.percent :: ps, ?_, ?_, ?_, ?_⟩
        · rw [reading_cons (by simp)]
          exact ⟨escapePercent s, by simp [escapePercent, Piece.text], trivial,
            (by intro d hd; cases hd), h1⟩
        · rintro ⟨d, h, _⟩
          have := List.mem_of_getLast? h
          simp only [List.mem_cons, reduceCtorEq, false_or] at this
          exact h3 d this
        · intro d; simpa using h3 d
        · intro sb
          simp only [List.map_cons, Piece.compiled]
          rw [runSB_fixed, h4]
          simp
      · have hl : Reading dates [c] [.lit [c]] :=
          reading_lit.2 ⟨[], by simp, by simp, by simpa using Ne.symm hc, by simp, reading_nil.2 rfl⟩
        have nb : ¬ EndsWithBareDate [Piece.lit [c]] := by
          rintro ⟨d, h, _⟩; simp at h
        have hg := reading_glue hl h1 (fun h => absurd h nb)
        have nd : ∀ d, .dir d ∉ glue [.lit [c]] ps := by
          intro d
          cases ps with
          | nil => simp [glue]
          | cons p ps =>
            have := h3 d
            simp only [List.mem_cons, not_or] at this
            cases p <;> simp [glue, this]
        refine ⟨glue [.lit [c]] ps, ?_, ?_, nd, ?_⟩
        · have : escapePercent (c :: s) = [c] ++ escapePercent s := by
            simp [escapePercent, hc]
          rw [this]; exact hg
        · rintro ⟨d, h, _⟩
          exact nd d (List.mem_of_getLast? h)
        · intro sb
          rw [runSB_glue]
          simp only [List.map_cons, List.map_nil, List.cons_append, List.nil_append, Piece.compiled]
          rw [runSB_fixed, h4]
          simp
  obtain ⟨ps, h1, _, _, h4⟩ := key s
  rw [printf_eq h1, formatWith_eq, h4]
  rfl

example : escapePercent (js! "a%%b%") = js! "a%%%%b%%" := rfl
example : printf sampleDates sampleDateEnv (js! "a%%%%b%%") [] = .ok (js! "a%%b%") :=
  C02_escape_complete sampleDates sampleDateEnv (js! "a%%b%") []

/-! ### C05 -/

/-- **C05.** If `a` and `b` compile, and `a` does not end in a bare `%t`/`%T` while `b` begins with
`{`, then `a ++ b` compiles, and on every builder and argument list running it is running `a`, then `b`
on the arguments `a` left. -/
theorem C05_compositional (dates : DateSyntax) (env : DateEnv) (a b : JStr) (as bs : List Appender)
    (ha : Compiler.compile dates a = .ok as) (hb : Compiler.compile dates b = .ok bs)
    (hx : ∀ ps, Reading dates a ps → EndsWithBareDate ps → b.head? ≠ some (ch! '{')) :
    ∃ cs, Compiler.compile dates (a ++ b) = .ok cs ∧
      ∀ args sb, runSB env cs args sb =
        match runSB env as args sb with
        | ⟨sb, .error e⟩ => ⟨sb, .error e⟩
        | ⟨sb, .ok rest⟩ => runSB env bs rest sb := by
  obtain ⟨ps, h1, rfl⟩ := (compile_iff dates a _).1 ha
  obtain ⟨qs, h2, rfl⟩ := (compile_iff dates b _).1 hb
  refine ⟨_, (compile_iff dates _ _).2 ⟨_, reading_glue h1 h2 (hx ps h1), rfl⟩, ?_⟩
  intro args sb
  rw [runSB_glue, runSB_append]
  rcases runSB env (ps.map Piece.compiled) args sb with ⟨t, r⟩
  cases r <;> rfl

/-- **C05, for the returned strings.** -/
theorem C05_printf_append (dates : DateSyntax) (env : DateEnv) (a b ta tb : JStr)
    (as : List Appender) (args rest : List Traits)
    (ha : Compiler.compile dates a = .ok as) (hr : runSB env as args [] = ⟨ta, .ok rest⟩)
    (hb : printf dates env b rest = .ok tb)
    (hx : ∀ ps, Reading dates a ps → EndsWithBareDate ps → b.head? ≠ some (ch! '{')) :
    printf dates env (a ++ b) args = .ok (ta ++ tb) := by
  unfold printf at hb
  obtain ⟨bs, hb1, hb2⟩ := bind_eq_ok.1 hb
  obtain ⟨cs, h1, h2⟩ := C05_compositional dates env a b as bs ha hb1 hx
  unfold printf
  rw [h1, bind_ok, formatWith_eq, h2, hr]
  dsimp only
  rw [runSB_prefix]
  rw [formatWith_eq] at hb2
  cases hres : (runSB env bs rest []).result with
  | error e => rw [hres] at hb2; cases hb2
  | ok r =>
    rw [hres] at hb2
    simp only [Except.map, Except.ok.injEq] at hb2 ⊢
    rw [hb2]

-- the exception is real: "%t" and "{}" compile on their own, put together they do not
example : (Compiler.compile sampleDates (js! "%t")).toOption.isSome = true ∧
    (Compiler.compile sampleDates (js! "{}")).toOption.isSome = true ∧
    Compiler.compile sampleDates (js! "%t{}") = .error (.syntaxErr .emptyDatePattern 3) :=
  ⟨rfl, rfl, rfl⟩

/-! ### C06 and C07 -/

/-- How many arguments a piece needs: none for literals and `%%`, one for a directive, and one more
for each `*` in it. -/
def Spec.Piece.arity : Piece → Nat
  | .lit _ => 0
  | .percent => 0
  | .dir d => 1 + (if d.width = .star then 1 else 0) + (if d.prec = .star then 1 else 0)

/-- The number of arguments a reading needs. -/
def Spec.arity (ps : List Piece) : Nat := (ps.map Piece.arity).sum

theorem cost_compiled (p : Piece) : p.compiled.cost = p.arity := by
  have h : ∀ n : Num, DefaultAppender.starCost n.value = if n = .star then 1 else 0 := by
    intro n
    cases n with
    | absent => rfl
    | star => rfl
    | digits ds =>
      have e2 : PRECEDING = -2147483648 := rfl
      have hn : (Num.digits ds).value ≠ PRECEDING := by simp only [Num.value]; omega
      unfold DefaultAppender.starCost
      rw [if_neg hn, if_neg (by simp)]
  cases p with
  | lit s => rfl
  | percent => rfl
  | dir d =>
    simp only [Piece.compiled, Appender.cost, Piece.arity, h]
    omega

theorem cost_arity (ps : List Piece) : ((ps.map Piece.compiled).map Appender.cost).sum = arity ps := by
  unfold arity
  rw [List.map_map]
  congr 1
  apply List.map_congr_left
  intro p _
  exact cost_compiled p

/-- **C06.** A successful run reads exactly as many arguments as there are directives and stars: what
is left is the argument list without its first `arity` elements. -/
theorem C06_consumption_fixed (dates : DateSyntax) (env : DateEnv) (s : JStr) (ps : List Piece)
    (h : Reading dates s ps) (apps : List Appender) (hc : Compiler.compile dates s = .ok apps)
    (args rest : List Traits) (sb t : JStr) (hr : runSB env apps args sb = ⟨t, .ok rest⟩) :
    arity ps ≤ args.length ∧ rest = args.drop (arity ps) := by
  have : apps = ps.map Piece.compiled := by
    have := (compile_iff dates s _).2 ⟨ps, h, rfl⟩
    rw [hc] at this
    exact Except.ok.inj this
  subst this
  obtain ⟨h1, h2⟩ := runSB_reads env (ps.map Piece.compiled) sb
  rw [cost_arity] at h1 h2
  by_cases hl : args.length < arity ps
  · obtain ⟨e, he, _⟩ := h2 args hl
    rw [hr] at he; cases he
  · refine ⟨by omega, ?_⟩
    obtain ⟨t', r, h3⟩ := h1 (args.take (arity ps)) (by rw [List.length_take]; omega)
    have := h3 (args.drop (arity ps))
    rw [List.take_append_drop, hr] at this
    cases r with
    | error e => cases this
    | ok u =>
      simp only [Except.map, Outcome.mk.injEq, Except.ok.injEq] at this
      exact this.2

-- three directives, one star: four arguments are read, the fifth is left
example : arity [.dir ⟨[], .star, .absent, ch! 'd', none⟩, .lit (js! " "), .percent,
    .dir ⟨[], .absent, .absent, ch! 's', none⟩, .dir ⟨[], .absent, .absent, ch! 'x', none⟩] = 4 := rfl
example : ((runSB sampleDateEnv [.dflt .d ⟨{}, PRECEDING, UNSET, none⟩, .fixed (js! "%")]
    [intArg 3#32, intArg 5#32, intArg 9#32] []).result.map List.length) = .ok 1 := rfl

/-- **C07 (surplus).** Arguments added at the end do not change a result. -/
theorem C07_surplus_ignored (dates : DateSyntax) (env : DateEnv) (s t : JStr)
    (args more : List Traits) (h : printf dates env s args = .ok t) :
    printf dates env s (args ++ more) = .ok t := by
  unfold printf at h ⊢
  obtain ⟨apps, h1, h2⟩ := bind_eq_ok.1 h
  rw [h1, bind_ok]
  rw [formatWith_eq] at h2 ⊢
  obtain ⟨a, b⟩ := runSB_reads env apps []
  by_cases hl : args.length < (apps.map Appender.cost).sum
  · obtain ⟨e, he, _⟩ := b args hl
    rw [he] at h2; cases h2
  · obtain ⟨t', r, h3⟩ := a (args.take (apps.map Appender.cost).sum) (by rw [List.length_take]; omega)
    have e1 := h3 (args.drop (apps.map Appender.cost).sum)
    have e2 := h3 (args.drop (apps.map Appender.cost).sum ++ more)
    rw [List.take_append_drop] at e1
    rw [← List.append_assoc, List.take_append_drop] at e2
    rw [e1] at h2
    rw [e2]
    cases r with
    | error e => cases h2
    | ok u => exact h2

/-- **C07 (missing).** With fewer arguments than the format needs there is never a result; if the
arguments given are acceptable (some continuation of them formats), the exception is the
"missing argument" `PrintfException`. -/
theorem C07_missing_reported (dates : DateSyntax) (env : DateEnv) (s : JStr) (ps : List Piece)
    (h : Reading dates s ps) (args : List Traits) (hl : args.length < arity ps) :
    (∃ e, printf dates env s args = .error e) ∧
    (∀ more t, printf dates env s (args ++ more) = .ok t →
      ∃ c, printf dates env s args = .error (.printf (.missingArgument c))) := by
  rw [printf_eq h]
  obtain ⟨_, b⟩ := runSB_reads env (ps.map Piece.compiled) []
  rw [cost_arity] at b
  obtain ⟨e, he, hm⟩ := b args hl
  have hf : formatWith env (ps.map Piece.compiled) args = .error e := by
    rw [formatWith_eq, he]; rfl
  refine ⟨⟨e, hf⟩, ?_⟩
  intro more t ht
  rcases hm with ⟨c, rfl⟩ | hm
  · exact ⟨c, hf⟩
  · rw [printf_eq h, formatWith_eq, hm more] at ht
    cases ht

example : printf sampleDates sampleDateEnv (js! "%d-%d") [intArg 3#32] =
    .error (.printf (.missingArgument (ch! 'd'))) := rfl
example : printf sampleDates sampleDateEnv (js! "%d-%d") [intArg 3#32, intArg 4#32, intArg 5#32] =
    .ok (js! "3-4") :=
  C07_surplus_ignored _ _ _ _ [intArg 3#32, intArg 4#32] [intArg 5#32] rfl

/-! ### C38 -/

/-- **C38.** `%n`, and `%%` decorated with flags, width or precision, need one argument like any other
directive: without one they fail, with one they print nothing, respectively one `%` whatever the width,
and the argument is used up. -/
theorem C38_n_and_decorated_percent (dates : DateSyntax) (env : DateEnv) (d : Directive)
    (hd : d.Ok dates) (hc : d.conv = ch! 'n' ∨ d.conv = ch! '%') (hw : d.width ≠ .star)
    (hp : d.prec ≠ .star) :
    printf dates env d.text [] = .error (.printf (.missingArgument d.conv)) ∧
    (∀ v rest, runSB env [(Piece.dir d).compiled] (v :: rest) [] =
      ⟨if d.conv = ch! 'n' then [] else js! "%", .ok rest⟩) ∧
    (∀ v rest, printf dates env d.text (v :: rest) =
      .ok (if d.conv = ch! 'n' then [] else js! "%")) := by
  have e2 : PRECEDING = -2147483648 := rfl
  have hw' : d.context.width ≠ PRECEDING := by
    cases hx : d.width with
    | absent => simp only [Directive.context, hx]; decide
    | star => exact absurd hx hw
    | digits ds => simp only [Directive.context, hx, Num.value]; omega
  have hp' : d.context.precision ≠ PRECEDING := by
    cases hx : d.prec with
    | absent => simp only [Directive.context, hx]; decide
    | star => exact absurd hx hp
    | digits ds => simp only [Directive.context, hx, Num.value]; omega
  have hstep : ∀ v rest, DefaultAppender.append env (convOf d.conv) d.context (v :: rest) =
      .ok (if d.conv = ch! 'n' then Seq.empty else Seq.ch (ch! '%'), rest) := by
    intro v rest
    rw [append_noStar hw', afterWidth_noStar hp']
    rcases hc with hc | hc <;> rw [hc] <;> rfl
  refine ⟨?_, ?_, ?_⟩
  · rw [printf_dir hd, append_noStar hw', afterWidth_noStar hp']; rcases hc with hc | hc <;> rw [hc] <;> rfl
  · intro v rest
    have : (Piece.dir d).compiled = .dflt (convOf d.conv) d.context := rfl
    rw [this]
    simp only [runSB, Appender.append, hstep]
    split_ifs <;> rfl
  · intro v rest
    rw [printf_dir hd, hstep]
    rw [bind_ok]
    split_ifs <;> rfl

-- `%%` needs no argument, `%5%` needs one and ignores the width
example : printf sampleDates sampleDateEnv (js! "%%") [] = .ok (js! "%") := rfl
example : printf sampleDates sampleDateEnv (js! "%5%") [] = .error (.printf (.missingArgument (ch! '%'))) := rfl
example : printf sampleDates sampleDateEnv (js! "%5%") [intArg 1#32] = .ok (js! "%") := rfl
example : printf sampleDates sampleDateEnv (js! "%n") [intArg 1#32] = .ok [] := rfl

/-! ### C10 -/

/-- **C10.** Whatever the format and the arguments, a directive that gets past the reading of its `*`
arguments has no numeric width or precision above 65536, and the number of characters it may be padded
to is at most 65536.  (The remaining possible width, `PRECEDING`, is left over from `*` with
`Integer.MIN_VALUE`; it comes with `-` and pads nothing, see C09.) -/
theorem C10_width_and_precision_capped (dates : DateSyntax) (s : JStr) (apps : List Appender)
    (hc : Compiler.compile dates s = .ok apps) (sp : Specifier) (ctx c c' : FormatContext)
    (hm : .dflt sp ctx ∈ apps) (args r r' : List Traits)
    (h1 : DefaultAppender.starWidth sp ctx args = .ok (c, r))
    (h2 : DefaultAppender.starPrecision sp c r = .ok (c', r')) :
    (c'.width = UNSET ∨ (0 ≤ c'.width ∧ c'.width ≤ 65536) ∨
      (c'.width = PRECEDING ∧ c'.flags.leftJustify = true)) ∧
    (c'.precision = UNSET ∨ (0 ≤ c'.precision ∧ c'.precision ≤ 65536)) ∧
    SeqFormatter.width c' ≤ 65536 := by
  obtain ⟨ps, hr, rfl⟩ := (compile_iff dates s _).1 hc
  obtain ⟨p, hp, he⟩ := List.mem_map.1 hm
  have hs := Piece.compiled_stored (hr.ok p hp)
  rw [he] at hs
  have := ready_of_stars hs.1 hs.2 h1 h2
  refine ⟨this.width, this.prec, ?_⟩
  have e1 : UNSET = -1 := rfl
  have e2 : PRECEDING = -2147483648 := rfl
  unfold SeqFormatter.width
  rcases this.width with h | h | h <;> split_ifs <;> omega

example : ∃ c', DefaultAppender.starWidth (convOf (ch! 'd')) ⟨{}, PRECEDING, UNSET, none⟩ [intArg 65536#32, intArg 1#32] =
    .ok (c', [intArg 1#32]) ∧ c'.width = 65536 := ⟨_, rfl, rfl⟩

/-! ### C34 -/

theorem runSink_chunks (env : DateEnv) (apps : List Appender) (hs : ∀ a ∈ apps, a.Stored)
    (args : List Traits) (hv : ∀ v ∈ args, v.WF) :
    ∃ chunks : List JStr, chunks.flatten = (runSB env apps args []).target ∧
      ∀ (σ : Type) (k : Sink σ) (st : σ), runSink env k apps args st =
        match k.feed st chunks with
        | (st, true) => ⟨st, (runSB env apps args []).result⟩
        | (st, false) => ⟨st, .error .uncheckedIO⟩ := by
  have feed_append : ∀ {σ : Type} (k : Sink σ) (xs ys : List JStr) (st : σ),
      k.feed st (xs ++ ys) = match k.feed st xs with
        | (st, true) => k.feed st ys
        | (st, false) => (st, false) := by
    intro σ k xs ys
    induction xs with
    | nil => intro st; rfl
    | cons x xs ih =>
      intro st
      simp only [List.cons_append, Sink.feed]
      rcases k.step st x with ⟨st', b⟩
      cases b
      · rfl
      · exact ih st'
  induction apps generalizing args with
  | nil => exact ⟨[], rfl, fun σ k st => rfl⟩
  | cons a apps ih =>
    cases ha : a.append env args with
    | error e =>
      refine ⟨[], by simp [runSB, ha], fun σ k st => ?_⟩
      simp [runSink, runSB, ha, Sink.feed]
    | ok r =>
      obtain ⟨seq, rest⟩ := r
      obtain ⟨h1, h2⟩ := Appender.append_sane (hs a (by simp)) hv ha
      obtain ⟨cs, c1, c2⟩ := Seq.appendToCalls_ok h1
      obtain ⟨ds, d1, d2⟩ := ih (fun b hb => hs b (by simp [hb])) rest h2
      have hrun : runSB env (a :: apps) args [] =
          ⟨seq.text ++ (runSB env apps rest []).target, (runSB env apps rest []).result⟩ := by
        conv_lhs => unfold runSB
        rw [ha]
        simp only [Seq.appendToSB_ok h1, List.nil_append]
        rw [runSB_prefix]
      refine ⟨cs ++ ds, by rw [hrun]; simp [c2, d1], fun σ k st => ?_⟩
      rw [hrun, feed_append]
      conv_lhs => unfold runSink
      rw [ha]
      simp only [c1]
      rcases k.feed st cs with ⟨st', b⟩
      cases b
      · rfl
      · exact d2 σ k st'

/-- **C34.** The three targets get the same text.  On a `StringBuilder` holding `sb` the run appends to
`sb` what it produces from an empty one, with the same ending; and there is a list of chunks, making up
that same text, that is handed in order to any other `Appendable`, whose first `IOException` stops the
run and surfaces as an unchecked exception. -/
theorem C34_targets_agree (dates : DateSyntax) (env : DateEnv) (s : JStr) (apps : List Appender)
    (hc : Compiler.compile dates s = .ok apps) (args : List Traits) (hv : ∀ v ∈ args, v.WF) :
    (∀ sb, runSB env apps args sb =
      ⟨sb ++ (runSB env apps args []).target, (runSB env apps args []).result⟩) ∧
    (∃ chunks : List JStr, chunks.flatten = (runSB env apps args []).target ∧
      ∀ (σ : Type) (k : Sink σ) (st : σ), runSink env k apps args st =
        match k.feed st chunks with
        | (st, true) => ⟨st, (runSB env apps args []).result⟩
        | (st, false) => ⟨st, .error .uncheckedIO⟩) ∧
    (∀ t, printf dates env s args = .ok t ↔
      ∃ rest, runSB env apps args [] = ⟨t, .ok rest⟩) := by
  obtain ⟨ps, hr, rfl⟩ := (compile_iff dates s _).1 hc
  refine ⟨fun sb => runSB_prefix env _ args sb, runSink_chunks env _ ?_ args hv, ?_⟩
  · intro a ha
    obtain ⟨p, hp, rfl⟩ := List.mem_map.1 ha
    exact Piece.compiled_stored (hr.ok p hp)
  · intro t
    rw [printf_eq hr, formatWith_eq]
    rcases runSB env (ps.map Piece.compiled) args [] with ⟨t', r⟩
    cases r with
    | error e => simp [Except.map]
    | ok rest => simp [Except.map]

/-- **C34 (failure part-way).** If the run fails, the builder holds its old content followed by the
output of the pieces before the one that failed. -/
theorem C34_partial_output (env : DateEnv) (apps : List Appender) (args : List Traits) (sb : JStr)
    (hs : ∀ a ∈ apps, a.Stored) (hv : ∀ v ∈ args, v.WF) (t : JStr) (e : Err)
    (h : runSB env apps args sb = ⟨t, .error e⟩) :
    ∃ done a todo rest, apps = done ++ a :: todo ∧ runSB env done args sb = ⟨t, .ok rest⟩ ∧
      a.append env rest = .error e := by
  induction apps generalizing args sb with
  | nil => cases h
  | cons a apps ih =>
    cases ha : a.append env args with
    | error e' =>
      simp only [runSB, ha] at h
      cases h
      exact ⟨[], a, apps, args, rfl, rfl, ha⟩
    | ok r =>
      obtain ⟨seq, rest⟩ := r
      obtain ⟨h1, h2⟩ := Appender.append_sane (hs a (by simp)) hv ha
      simp only [runSB, ha, Seq.appendToSB_ok h1] at h
      obtain ⟨dn, b, todo, rest', g1, g2, g3⟩ := ih rest _ (fun b hb => hs b (by simp [hb])) h2 h
      refine ⟨a :: dn, b, todo, rest', by rw [g1]; rfl, ?_, g3⟩
      simp only [runSB, ha, Seq.appendToSB_ok h1]
      exact g2

/-- A writer that accepts a limited number of characters and then throws. -/
def limited (n : Nat) : Sink JStr where
  step st c := if (st ++ c).length ≤ n then (st ++ c, true) else (st, false)

-- the writer that breaks gets the first pieces and the caller an unchecked exception
example : (runSink sampleDateEnv (limited 9) [.fixed (js! "n="), .dflt .d ⟨{}, UNSET, UNSET, none⟩,
      .fixed (js! "!")] [intArg 77#32] (js! "old: ")).target = js! "old: n=77" ∧
    (runSink sampleDateEnv (limited 9) [.fixed (js! "n="), .dflt .d ⟨{}, UNSET, UNSET, none⟩,
      .fixed (js! "!")] [intArg 77#32] (js! "old: ")).result.toOption.isNone = true := ⟨rfl, rfl⟩
-- failing directive: what came before stays
example : (runSB sampleDateEnv [.fixed (js! "n="), .dflt .d ⟨{}, UNSET, UNSET, none⟩]
    [nullTraits] (js! "old: ")).target = js! "old: n=" := rfl

end FastPrintf
