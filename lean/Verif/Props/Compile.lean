/-
Properties of compiling a format string: C03, C04, C08 (compile half), C11, C39.

`Compiler.compile env s` models `FastPrintf.compile(s)` up to the list of compiled pieces; `env` says
which date-time patterns the JDK accepts.  The grammar is in `Verif.Spec.Grammar`.
-/
import Verif.Proofs.Pattern
import Verif.Proofs.Errors

namespace FastPrintf
open Spec Compiler

/-- A date syntax for the examples: patterns made of the letters y, M, d and dashes. -/
def sampleDates : DateSyntax where
  valid p := p.all (fun c => c == ch! 'y' || c == ch! 'M' || c == ch! 'd' || c == ch! '-')

/-! ### C03 -/

/-- **C03.** `compile` succeeds exactly on the strings that have a reading in the grammar, the
compiled pieces are those of the reading, and a string has at most one reading. -/
theorem C03_compile_accepts_exactly_the_grammar (env : DateSyntax) (s : JStr) :
    (∀ apps, compile env s = .ok apps ↔ ∃ ps, Reading env s ps ∧ apps = ps.map Piece.compiled) ∧
    (∀ ps qs, Reading env s ps → Reading env s qs → ps = qs) :=
  ⟨compile_iff env s, fun _ _ h h' => reading_unique h h'⟩

/-- A format with a literal, an escape, a directive with everything in it and a date. -/
def sampleFormat : JStr := js! "at %-05.3d%% %t{yyyy}!"

def sampleReading : List Piece :=
  [.lit (js! "at "), .dir ⟨js! "-0", .digits (js! "5"), .digits (js! "3"), ch! 'd', none⟩, .percent,
   .lit (js! " "), .dir ⟨[], .absent, .absent, ch! 't', some (js! "yyyy")⟩, .lit (js! "!")]

theorem sampleFormat_reading : Reading sampleDates sampleFormat sampleReading := by
  obtain ⟨ps, h1, h2⟩ := (compile_iff sampleDates sampleFormat _).1
    (by rfl : compile sampleDates sampleFormat = .ok (sampleReading.map Piece.compiled))
  refine ⟨by decide, ?_, ?_⟩
  · have d1 : Directive.Ok sampleDates
        ⟨js! "-0", .digits (js! "5"), .digits (js! "3"), ch! 'd', none⟩ :=
      ⟨by decide, by decide, ⟨by decide, by decide, by simp [IsDigit], by decide⟩,
        ⟨by simp [IsDigit], by decide⟩, by decide, by simp, by simp⟩
    have d2 : Directive.Ok sampleDates ⟨[], .absent, .absent, ch! 't', some (js! "yyyy")⟩ := by
      refine ⟨by decide, by decide, trivial, trivial, by decide, ?_, by simp⟩
      intro p hp
      cases hp
      refine ⟨Or.inl rfl, by decide, by decide, ?_, by decide⟩
      intro pre post h
      have : (125 : Nat) ∈ js! "yyyy" := by rw [h]; simp
      exact absurd this (by decide)
    intro p hp
    simp only [sampleReading, List.mem_cons, List.not_mem_nil, or_false] at hp
    rcases hp with rfl | rfl | rfl | rfl | rfl | rfl
    · exact ⟨by decide, by decide⟩
    · exact d1
    · trivial
    · exact ⟨by decide, by decide⟩
    · exact d2
    · exact ⟨by decide, by decide⟩
  · simp [sampleReading, Separated, MayFollow, IsDateConv]

-- a format that compiles (so C03's equivalence is not vacuous), and one that does not
example : compile sampleDates sampleFormat = .ok (sampleReading.map Piece.compiled) :=
  ((C03_compile_accepts_exactly_the_grammar _ _).1 _).2 ⟨_, sampleFormat_reading, rfl⟩
example : ¬ ∃ ps, Reading sampleDates (js! "%++d") ps := by
  rintro ⟨ps, h⟩
  have := ((C03_compile_accepts_exactly_the_grammar sampleDates (js! "%++d")).1 _).2 ⟨ps, h, rfl⟩
  cases this

/-! ### C04 -/

/-- **C04.** Compiling any string ends (the model is a total function whose recursion bound is never
reached: it never reports `assertion`), and when it fails, either it is a syntax exception with an index
inside the string (the end included), or it is the "exceeds the maximum" `PrintfException` and the
string contains a directive that writes a number above 65536. -/
theorem C04_compile_failures_are_located (env : DateSyntax) (s : JStr) :
    (∃ apps, compile env s = .ok apps) ∨
    (∃ why i, compile env s = .error (.syntaxErr why i) ∧ i ≤ s.length) ∨
    ((∃ name v, compile env s = .error (.printf (.exceedsMaximum name v))) ∧
      ∃ pre d post, Directive.OverCap d ∧ s = pre ++ d.text ++ post) := by
  cases h : compile env s with
  | ok apps => exact Or.inl ⟨apps, rfl⟩
  | error e =>
    right
    rcases compile_err h with ⟨why, i, rfl, _, hi⟩ | ⟨⟨name, v, rfl⟩, hd⟩
    · exact Or.inl ⟨why, i, rfl, hi⟩
    · exact Or.inr ⟨⟨name, v, rfl⟩, hd⟩

example : compile sampleDates (js! "%5") = .error (.syntaxErr (.unexpectedEnd .atSpecifier) 2) := rfl
example : compile sampleDates (js! "%70000d") = .error (.printf (.exceedsMaximum .width 70000)) := rfl
example : compile sampleDates (js! "%9999999999d") = .error (.syntaxErr (.invalidWidth (js! "9999999999")) 1) := rfl

/-! ### C08 -/

/-- **C08 (order).** In a format that compiles, permuting the flags of any directive gives a format
that compiles to the same pieces, hence behaves the same. -/
theorem C08_flag_order_irrelevant (env : DateSyntax) (s : JStr) (ps qs : List Piece) (d : Directive)
    (h : Reading env s (ps ++ .dir d :: qs)) (fl : JStr) (hp : fl.Perm d.flags) :
    compile env ((ps ++ .dir { d with flags := fl } :: qs).flatMap Piece.text) = compile env s := by
  have e1 := (compile_iff env s _).2 ⟨_, h, rfl⟩
  rw [e1]
  have ok : Directive.Ok env { d with flags := fl } := by
    have hd : d.Ok env := h.ok (.dir d) (by simp)
    exact ⟨fun c hc => hd.flagsOk c (hp.mem_iff.1 hc), hp.nodup_iff.2 hd.noRepeat, hd.width, hd.prec,
      hd.conv, hd.date, fun h1 h2 => hd.notPercent h1 ⟨by
        have := h2.1
        simp only at this
        subst this
        exact hp.symm.eq_nil, h2.2⟩⟩
  have comp : (Piece.dir { d with flags := fl }).compiled = (Piece.dir d).compiled := by
    simp only [Piece.compiled]
    have : flagSet fl = flagSet d.flags := by
      apply Flags.ext_contains
      intro f
      rw [flagSet_contains, flagSet_contains, Bool.eq_iff_iff]
      simp only [List.contains_iff_mem]
      exact hp.mem_iff
    rw [this]
  rw [compile_iff]
  refine ⟨_, ⟨rfl, ?_, separated_reflag qs d fl ps (fun p hp => text_ne_nil (h.ok p (by simp [hp]))) h.separated⟩, ?_⟩
  · intro p hp'
    simp only [List.mem_append, List.mem_cons] at hp'
    rcases hp' with h1 | rfl | h1
    · exact h.ok p (by simp [h1])
    · exact ok
    · exact h.ok p (by simp [h1])
  · simp [comp]

example : compile sampleDates (js! "at %0-5.3d%% %t{yyyy}!") = compile sampleDates sampleFormat :=
  C08_flag_order_irrelevant sampleDates sampleFormat [.lit (js! "at ")]
    (sampleReading.drop 2) ⟨js! "-0", .digits (js! "5"), .digits (js! "3"), ch! 'd', none⟩
    sampleFormat_reading (js! "0-") (List.Perm.swap _ _ _)

/-- **C08 (repetition).** After any well-formed beginning, a directive that repeats a flag is rejected
with the index of the repeated flag, whatever follows. -/
theorem C08_repeated_flag_rejected (env : DateSyntax) (pre : JStr) (ps : List Piece)
    (h : Reading env pre ps) (fl : JStr) (hfl : ∀ x ∈ fl, x ∈ flagChars) (hn : fl.Nodup) (c : JChar)
    (hc : c ∈ fl) (rest : JStr) :
    compile env (pre ++ js! "%" ++ fl ++ [c] ++ rest) =
      .error (.syntaxErr (.duplicateFlag c) (pre ++ js! "%" ++ fl).length) := by
  have := compile_error_after h (t := fl ++ c :: rest) (forPattern_duplicate (pre.length + 1) hfl hn hc)
  simp only [List.append_assoc, List.cons_append, List.nil_append, List.length_append,
    List.length_cons] at this ⊢
  rw [this]
  congr 2
  omega

example : compile sampleDates (js! "at %-0-d") = .error (.syntaxErr (.duplicateFlag (ch! '-')) 6) :=
  C08_repeated_flag_rejected sampleDates (js! "at ") [.lit (js! "at ")]
    (reading_lit.2 ⟨[], rfl, by decide, by decide, by simp, reading_nil.2 rfl⟩) (js! "-0")
    (by decide) (by decide) (ch! '-') (by decide) (js! "d")

/-! ### C11 -/

/-- **C11.** The string form of a compiled directive compiles to exactly that directive, without its
date pattern. -/
theorem C11_pattern_round_trip (env env' : DateSyntax) (s : JStr) (apps : List Appender)
    (h : compile env s = .ok apps) (sp : Specifier) (ctx : FormatContext)
    (hm : Appender.dflt sp ctx ∈ apps) :
    compile env' (ctx.toPatternString sp) = .ok [.dflt sp { ctx with dateTimeFormatter := none }] := by
  obtain ⟨ps, h1, rfl⟩ := (compile_iff env s apps).1 h
  obtain ⟨p, hp, he⟩ := List.mem_map.1 hm
  cases p with
  | lit l => cases he
  | percent => cases he
  | dir d =>
    have hd : d.Ok env := h1.ok _ hp
    simp only [Piece.compiled, Appender.dflt.injEq] at he
    obtain ⟨rfl, rfl⟩ := he
    rw [compile_iff]
    refine ⟨[.dir (respell d)], ?_, by rw [List.map_singleton, respell_compiled hd]⟩
    rw [reading_cons (by simp)]
    refine ⟨[], ?_, respell_ok hd, ?_, reading_nil.2 rfl⟩
    · rw [List.append_nil, Piece.text, respell_text]
    · intro d' _ _ _; simp

-- the directive of `sampleFormat` (its date directive becomes a bare `%t`)
example : compile sampleDates (js! "%-05.3d") = .ok [.dflt .d
    ⟨{ leftJustify := true, zeroPad := true }, 5, 3, none⟩] :=
  C11_pattern_round_trip sampleDates sampleDates sampleFormat _
    ((compile_iff _ _ _).2 ⟨_, sampleFormat_reading, rfl⟩) .d
    ⟨{ leftJustify := true, zeroPad := true }, 5, 3, none⟩ (by decide)

/-- A context made through the API with width 0 has no faithful string form: `0` is read as a flag.
So the restriction of C11 to compiled directives is needed. -/
theorem C11_width_zero_not_faithful :
    compile sampleDates (FormatContext.toPatternString ⟨{}, 0, UNSET, none⟩ .d) =
      .ok [.dflt .d ⟨{ zeroPad := true }, UNSET, UNSET, none⟩] := rfl

/-! ### C39 -/

/-- The text `p` runs up to a closing brace: its quotes are balanced and every `}` in it is inside
quotes. -/
def UpToClosingBrace (p : JStr) : Prop :=
  p.count (ch! '\'') % 2 = 0 ∧
  ∀ a b, p = a ++ ch! '}' :: b → a.count (ch! '\'') % 2 = 1

/-- **C39.** Let a well-formed beginning `pre` be followed by a date directive `d` (with any flags,
width and precision), `{` and any text `t`.  If `t = p}r` where `}` is the first one outside quotes,
then `p` must be non-empty and valid, and it is then the pattern of the directive; otherwise, or when
there is no such brace, compilation fails with a syntax error inside the directive. -/
theorem C39_date_pattern_brace (env : DateSyntax) (pre : JStr) (ps : List Piece)
    (h : Reading env pre ps) (d : Directive) (hd : d.Ok env) (hc : IsDateConv d.conv)
    (hn : d.date = none) (t : JStr) :
    (∀ p r, t = p ++ js! "}" ++ r → UpToClosingBrace p → p ≠ [] → env.valid p = true →
      ∀ qs, Reading env r qs →
      compile env (pre ++ d.text ++ js! "{" ++ t) = .ok (ps.map Piece.compiled ++
        .dflt (convOf d.conv) ⟨flagSet d.flags, d.width.value, d.prec.value, some p⟩ ::
        qs.map Piece.compiled)) ∧
    (∀ p r, t = p ++ js! "}" ++ r → UpToClosingBrace p → p ≠ [] → env.valid p = false →
      compile env (pre ++ d.text ++ js! "{" ++ t) =
        .error (.syntaxErr (.invalidDatePattern p) (pre ++ d.text ++ js! "{").length)) ∧
    (t.head? = some (ch! '}') →
      compile env (pre ++ d.text ++ js! "{" ++ t) =
        .error (.syntaxErr .emptyDatePattern (pre ++ d.text ++ js! "{").length)) ∧
    ((∀ p r, t = p ++ js! "}" ++ r → ¬ UpToClosingBrace p) →
      compile env (pre ++ d.text ++ js! "{" ++ t) =
        .error (.syntaxErr .unclosedDatePattern (pre ++ d.text).length)) := by
  have hx : ∃ y, d.text = 37 :: y := ⟨_, rfl⟩
  obtain ⟨y, hy⟩ := hx
  have hyl := congrArg List.length hy
  simp only [List.length_cons] at hyl
  have fail : ∀ e, Compiler.dateTimeFormatter env (123 :: t) (pre.length + d.text.length) = .error e →
      compile env (pre ++ d.text ++ js! "{" ++ t) = .error e := by
    intro e he
    have hs := forPattern_steps hd hn (rest := y ++ 123 :: t) (r4 := 123 :: t)
      (by rw [hy]; rfl) (pre.length + 1)
    have hpos : pre.length + 1 + d.text.length - 1 = pre.length + d.text.length := by omega
    rw [hpos] at hs
    unfold Compiler.datePart at hs
    rw [if_pos ((isDateTime_iff hd.conv).2 hc), he, bind_error] at hs
    have := compile_error_after h hs
    rw [← this, hy]
    simp
  have close : ∀ p r, t = p ++ js! "}" ++ r → UpToClosingBrace p →
      Compiler.scanBrace t false 0 = some p.length := by
    rintro p r rfl hcl
    refine (scanBrace_iff _ _ _ _).2 ⟨p.length, by omega, ?_⟩
    have := (firstClose_dateOk p r).2 hcl
    simpa using this
  refine ⟨?_, ?_, ?_, ?_⟩
  · rintro p r rfl hcl hp hv qs hq
    rw [compile_iff]
    have hd' : Directive.Ok env { d with date := some p } :=
      ⟨hd.flagsOk, hd.noRepeat, hd.width, hd.prec, hd.conv,
        (by intro q hq; cases hq; exact ⟨hc, hp, hcl.1, hcl.2, hv⟩), hd.notPercent⟩
    refine ⟨ps ++ .dir { d with date := some p } :: qs, ?_, by simp [Piece.compiled]⟩
    have r2 : Reading env ((Piece.dir { d with date := some p }).text ++ r)
        (.dir { d with date := some p } :: qs) := by
      rw [reading_cons (by simp)]
      refine ⟨r, rfl, hd', ?_, hq⟩
      intro d' he _ hnone
      cases he
      cases hnone
    have hg := reading_glue h r2 (by intro _; rw [text_head (by simp)]; simp)
    have hglue : ∀ ps : List Piece, glue ps (.dir { d with date := some p } :: qs) =
        ps ++ .dir { d with date := some p } :: qs := by
      intro ps
      induction ps with
      | nil => rfl
      | cons a ps ih => cases a <;> cases ps <;> simp_all [glue]
    rw [hglue] at hg
    have ht : pre ++ d.text ++ [123] ++ (p ++ [125] ++ r) =
        pre ++ ((Piece.dir { d with date := some p }).text ++ r) := by
      simp [Piece.text, Directive.text, hn, dateText]
    rw [ht]
    exact hg
  · intro p r ht hcl hp hv
    apply fail
    have := close p r ht hcl
    simp only [Compiler.dateTimeFormatter, ne_eq, not_true_eq_false, if_false, this]
    have hp' : t.take p.length = p := by rw [ht]; simp
    simp only [hp', if_neg hp, hv, Bool.false_eq_true, if_false]
    simp [Nat.add_assoc]
  · intro ht
    apply fail
    cases t with
    | nil => simp at ht
    | cons c t =>
      simp only [List.head?_cons, Option.some.injEq] at ht
      subst ht
      have := close [] t rfl ⟨rfl, by simp⟩
      simp [Compiler.dateTimeFormatter, this, Nat.add_assoc]
  · intro hno
    apply fail
    have : Compiler.scanBrace t false 0 = none := by
      cases hs : Compiler.scanBrace t false 0 with
      | none => rfl
      | some n =>
        exfalso
        obtain ⟨m, _, hfc⟩ := (scanBrace_iff _ _ _ _).1 hs
        simp only [Bool.false_eq_true, if_false] at hfc
        have hfc' := hfc
        obtain ⟨p, r, h1, h2, _⟩ := hfc
        subst h1
        subst h2
        exact hno p r (by simp) ((firstClose_dateOk p r).1 hfc')
    simp [Compiler.dateTimeFormatter, this]

/-- The directive `%5t`, used as an example for C39. -/
def sampleDateDirective : Directive := ⟨[], .digits (js! "5"), .absent, ch! 't', none⟩

theorem sampleDateDirective_ok (env : DateSyntax) : sampleDateDirective.Ok env :=
  ⟨by decide, by decide, ⟨by decide, by decide, by simp [IsDigit], by decide⟩, trivial, by decide,
    by simp [sampleDateDirective], by simp [sampleDateDirective]⟩

/-- A date syntax that accepts everything. -/
def anyDates : DateSyntax := ⟨fun _ => true⟩

-- a quoted brace is part of the pattern; an unclosed quote leaves the brace open
example : compile anyDates (js! "%5t{yy'}'MM}.") =
    .ok [.dflt .t ⟨{}, 5, UNSET, some (js! "yy'}'MM")⟩, .fixed (js! ".")] := by
  refine (C39_date_pattern_brace anyDates [] [] (reading_nil.2 rfl) sampleDateDirective
    (sampleDateDirective_ok _) (Or.inl rfl) rfl (js! "yy'}'MM}.")).1 (js! "yy'}'MM") (js! ".") rfl
    ⟨by decide, ?_⟩ (by decide) rfl [.lit (js! ".")]
    (reading_lit.2 ⟨[], rfl, by decide, by decide, by simp, reading_nil.2 rfl⟩)
  intro a b hab
  have key : ∀ n < 7, (js! "yy'}'MM")[n]? = some 125 →
      ((js! "yy'}'MM").take n).count 39 % 2 = 1 := by decide
  have hl := congrArg List.length hab
  simp only [List.length_append, List.length_cons, List.length_nil] at hl
  have := key a.length (by omega) (by rw [hab]; simp)
  rwa [hab, List.take_left] at this
example : compile anyDates (js! "%5t{yy'}") = .error (.syntaxErr .unclosedDatePattern 3) := rfl
example : compile anyDates (js! "%5t{}") = .error (.syntaxErr .emptyDatePattern 4) := rfl
example : compile sampleDates (js! "%5t{q}") = .error (.syntaxErr (.invalidDatePattern (js! "q")) 4) := rfl

end FastPrintf
