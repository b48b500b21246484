/-
C105: causes and stack traces of the library's exceptions.
-/
import Verif.Model.Causes
import Verif.Props.Complaints
import Verif.Props.Faults

namespace FastPrintf
open Spec Causes

/-- The conversions that print a number. -/
def Spec.numberConvs : List JChar := js! "diuoxXaAeEfFgG"

/-- The exception has this cause, and a stack trace. -/
def Spec.CausedBy (err : Err) (c : Cause) : Prop := ∃ x, carried err = some x ∧ x.cause = some c ∧ x.stackTrace = true

/-- The exception has neither a cause nor a stack trace, and takes no suppressed exceptions. -/
def Spec.Bald (err : Err) : Prop := carried err = some ⟨none, false, false⟩

/-- Every `PrintfException` is of one of two kinds. -/
theorem caused_or_bald (why : PrintfWhy) :
    (CausedBy (.printf why) .numberFormat ∧ (why = .wrongType .textToInt ∨ why = .wrongType .textToFloat)) ∨
    (Bald (.printf why) ∧ why ≠ .wrongType .textToInt ∧ why ≠ .wrongType .textToFloat) := by
  cases why with
  | wrongType r =>
    cases r with
    | textToInt => exact .inl ⟨⟨_, rfl, rfl, rfl⟩, .inl rfl⟩
    | textToFloat => exact .inl ⟨⟨_, rfl, rfl, rfl⟩, .inr rfl⟩
    | _ => exact .inr ⟨rfl, by simp, by simp⟩
  | _ => exact .inr ⟨rfl, by simp, by simp⟩

theorem bald_not_caused {err : Err} (h : Bald err) (c : Cause) : ¬ CausedBy err c := by
  rintro ⟨x, h1, h2, _⟩
  rw [Bald] at h
  rw [h] at h1
  cases h1
  cases h2

/-- The refusal says that a text is no number. -/
def TextRefusal (why : PrintfWhy) : Prop := why = .wrongType .textToInt ∨ why = .wrongType .textToFloat

theorem caused_iff (why : PrintfWhy) : CausedBy (.printf why) .numberFormat ↔ TextRefusal why := by
  rcases caused_or_bald why with ⟨h1, h2⟩ | ⟨h1, h2, h3⟩
  · exact ⟨fun _ => h2, fun _ => h1⟩
  · refine ⟨fun h => absurd h (bald_not_caused h1 _), ?_⟩
    rintro (h | h)
    · exact absurd h h2
    · exact absurd h h3

theorem bald_iff (why : PrintfWhy) : Bald (.printf why) ↔ ¬ TextRefusal why := by
  rcases caused_or_bald why with ⟨h1, h2⟩ | ⟨h1, h2, h3⟩
  · exact ⟨fun h => absurd h1 (bald_not_caused h _), fun h => absurd h2 h⟩
  · exact ⟨fun _ h => h.elim h2 h3, fun _ => h1⟩

section
variable {jdk : JdkEnv} {e : Entry} {why : PrintfWhy}

theorem star_text (h : StarReading jdk e (.error (.printf why))) : TextRefusal why ↔ ∃ s, HoldsText e s := by
  generalize hr : (Except.error (.printf why) : Res Int) = r at h
  cases h with
  | noNumber h => cases hr; exact ⟨fun _ => ⟨_, h⟩, fun _ => .inl rfl⟩
  | noInstant | null | other =>
    cases hr
    constructor
    · rintro (h | h) <;> cases h
    · rintro ⟨_, h⟩; cases h
  | _ => cases hr

theorem int_text {r : Res Integral} (h : IntReading jdk e r) (hr : r = .error (.printf why)) :
    TextRefusal why ↔ ∃ s, HoldsText e s := by
  cases h with
  | noNumber h => cases hr; exact ⟨fun _ => ⟨_, h⟩, fun _ => .inl rfl⟩
  | noInstant | null | other =>
    cases hr
    constructor
    · rintro (h | h) <;> cases h
    · rintro ⟨_, h⟩; cases h
  | tooFar => cases hr
  | _ => cases hr

theorem float_text {r : Res Floating} (h : FloatReading jdk e r) (hr : r = .error (.printf why)) :
    TextRefusal why ↔ ∃ s, HoldsText e s := by
  cases h with
  | noNumber h => cases hr; exact ⟨fun _ => ⟨_, h⟩, fun _ => .inr rfl⟩
  | noInstant | null | other =>
    cases hr
    constructor
    · rintro (h | h) <;> cases h
    · rintro ⟨_, h⟩; cases h
  | _ => cases hr

theorem no_text {P : Prop} (h1 : ¬ TextRefusal why) (h2 : ¬ P) : TextRefusal why ↔ P :=
  ⟨fun h => absurd h h1, fun h => absurd h h2⟩

theorem negative_no_text {x : Integral} (h : WholeReading jdk e (.ok x)) (hn : x.unsigned = none) (s : JStr) :
    ¬ HoldsText e s := by
  intro hs
  obtain ⟨v, rfl⟩ : ∃ v, x = .big v := by
    cases x with
    | big v => exact ⟨v, rfl⟩
    | _ => simp [Integral.unsigned] at hn
  generalize hr : (Except.ok (Integral.big v) : Res Integral) = r at h
  cases h with
  | given h =>
    cases hr
    cases h with
    | big => cases hs
    | prim h => cases h
    | boxed h => cases h
  | other h =>
    cases h with
    | bigDecimal => cases hs
    | _ => cases hr

theorem big_no_text {u s : Int} (h : RealReading jdk e (.ok (.big u s))) (t : JStr) : ¬ HoldsText e t := by
  intro hs
  generalize hr : (Except.ok (Floating.big u s) : Res Floating) = r at h
  cases h with
  | double => cases hr
  | big => cases hs
  | other h =>
    cases h with
    | bigInteger => cases hs
    | _ => cases hr

theorem prints_text {env : DateEnv} {d : Directive} {r : Res JStr} (h : Prints jdk env d e r)
    (hc : d.conv ∉ js! "sStT") (hr : r = .error (.printf why)) :
    TextRefusal why ↔ d.conv ∈ numberConvs ∧ ∃ s, HoldsText e s := by
  have plain : ∀ {c : JChar} {l : List JChar}, c ∈ l → (∀ x ∈ l, x ∈ numberConvs) →
      (TextRefusal why ↔ ∃ s, HoldsText e s) → (TextRefusal why ↔ c ∈ numberConvs ∧ ∃ s, HoldsText e s) := by
    intro c l h1 h2 h3
    rw [h3]
    exact ⟨fun h => ⟨h2 c h1, h⟩, fun h => h.2⟩
  induction h with
  | signed => cases hr
  | unsigned => cases hr
  | negative _ h hn =>
    cases hr
    refine no_text (by rintro (h | h) <;> cases h) ?_
    rintro ⟨_, s, hs⟩
    exact negative_no_text h hn s hs
  | noInteger hd h =>
    cases hr
    generalize hr : (Except.error (.printf why) : Res Integral) = r at h
    cases h with
    | given => cases hr
    | other h => exact plain hd (by decide) (int_text h hr.symm)
  | floating _ h ht =>
    cases ht with
    | bigHex =>
      cases hr
      refine no_text (by rintro (h | h) <;> cases h) ?_
      rintro ⟨_, s, hs⟩
      exact big_no_text h s hs
    | _ => cases hr
  | noFloat hd h =>
    cases hr
    generalize hr : (Except.error (.printf why) : Res Floating) = r at h
    cases h with
    | other h => exact plain hd (by decide) (float_text h hr.symm)
    | _ => cases hr
  | text h => rw [h] at hc; exact absurd hc (by decide)
  | rope h => cases hr
  | @char _ _ hd r h =>
    refine no_text ?_ (by rintro ⟨h, _⟩; rw [hd] at h; revert h; decide)
    cases h with
    | char => cases hr
    | text => cases hr
    | emptyText => cases hr; rintro (h | h) <;> cases h
    | point => cases hr; rintro (h | h) <;> cases h
    | @number _ r' h hs =>
      cases r' with
      | ok n => cases hr
      | error err =>
        cases hr
        intro ht
        obtain ⟨s, hx⟩ := (star_text h).1 ht
        exact hs s hx
  | @pointer _ _ hd r h =>
    refine no_text ?_ (by rintro ⟨h, _⟩; rw [hd] at h; revert h; decide)
    cases h with
    | prim => cases hr; rintro (h | h) <;> cases h
    | _ => cases hr
  | time h => rw [h] at hc; exact absurd hc (by decide)
  | noFormat h => rw [h] at hc; exact absurd hc (by decide)
  | noTime h => rw [h] at hc; exact absurd hc (by decide)
  | nothing => cases hr
  | percent => cases hr
  | @upper d e lo hl r h ih =>
    cases r with
    | ok => cases hr
    | error err =>
      cases hr
      have h1 : ∀ p ∈ casePairs, p.2 ∉ js! "sStT" → p.1 ∉ js! "sStT" := by decide
      have h2 : ∀ p ∈ casePairs, p.1 ∈ numberConvs ↔ p.2 ∈ numberConvs ∨ p.2 ∈ js! "sStT" ∧ p.1 ∈ numberConvs := by
        decide
      have h3 := h2 _ hl
      have h4 : lo ∈ numberConvs ↔ d.conv ∈ numberConvs := by
        rw [h3]
        exact ⟨fun h => h.elim id fun h => absurd h.1 hc, .inl⟩
      exact Iff.trans (ih (h1 _ hl hc) rfl plain) (and_congr_left' h4)

end

/-- **C105.**  When a conversion other than `%s` and `%t` refuses an argument with a `PrintfException`, the exception
has a cause, the `NumberFormatException`, and a stack trace if a number was asked of a text; otherwise it has neither. -/
theorem C105_refusals (dates : DateSyntax) (env : DateEnv) (jdk : JdkEnv) (hj : InstantsFit jdk) (d : Directive)
    (h : d.Ok dates) (hp : d.Plain) (hc : d.conv ∉ js! "sStT") (e : Entry) (he : Covered e) (why : PrintfWhy)
    (hr : printf dates env d.text [e.toTraits jdk] = .error (.printf why)) :
    (CausedBy (.printf why) .numberFormat ↔ d.conv ∈ numberConvs ∧ ∃ s, HoldsText e s) ∧
    (Bald (.printf why) ↔ ¬ (d.conv ∈ numberConvs ∧ ∃ s, HoldsText e s)) := by
  rw [caused_iff, bald_iff, prints_text (C55_directive dates env jdk hj d h hp e he) hc hr]
  exact ⟨Iff.rfl, Iff.rfl⟩

/-- **C105.**  The same for an argument that is to be a width or precision. -/
theorem C105_star (jdk : JdkEnv) (e : Entry) (why : PrintfWhy) (h : StarReading jdk e (.error (.printf why))) :
    (CausedBy (.printf why) .numberFormat ↔ ∃ s, HoldsText e s) ∧ (Bald (.printf why) ↔ ¬ ∃ s, HoldsText e s) := by
  rw [caused_iff, bald_iff, star_text h]
  exact ⟨Iff.rfl, Iff.rfl⟩

/-- **C105.**  What `%t` refuses, a missing argument and a number out of range never have a cause or a stack trace. -/
theorem C105_bald (e : Entry) (why : Refusal) (h : NoTime e why) (name : NumName) (v : Int) (c : JChar) :
    Bald (refused why) ∧ Bald (.printf .noDefaultFormatter) ∧ Bald (.printf (.missingArgument c)) ∧
    Bald (.printf (.exceedsMaximum name v)) ∧ Bald (.printf (.negativeValue name v)) ∧
    Bald (.printf .primitivePointer) := by
  refine ⟨?_, rfl, rfl, rfl, rfl, rfl⟩
  cases h <;> rfl

/-- **C105.**  Every rejection of a format by a `PrintfSyntaxException` has a stack trace.  It has a cause, the
exception of `DateTimeFormatter.ofPattern`, exactly if it stands at a closed pattern that this method does not take. -/
theorem C105_syntax (dates : DateSyntax) (format : JStr) (why : SyntaxWhy) (i : Nat)
    (h : Compiler.compile dates format = .error (.syntaxErr why i)) :
    (∃ x, carried (.syntaxErr why i) = some x ∧ x.stackTrace = true ∧ (x.cause = none ∨ x.cause = some .badPattern)) ∧
    (CausedBy (.syntaxErr why i) .badPattern ↔
      ∃ pattern rest, format.drop i = pattern ++ ch! '}' :: rest ∧ pattern ≠ [] ∧ ClosedBy pattern ∧
        dates.valid pattern = false ∧ why = .invalidDatePattern pattern) := by
  obtain ⟨pre, ps, part, after, h1, h2, h3, h4⟩ := (C75_syntax_errors dates format why i).1 h
  have hdrop : format.drop i = after := by
    rw [h2, h4, List.drop_left]
  refine ⟨?_, ?_⟩
  · cases why <;> exact ⟨_, rfl, rfl, by simp [ofSyntax, caused]⟩
  · constructor
    · rintro ⟨x, hx, hcause, _⟩
      cases why with
      | invalidDatePattern pattern =>
        cases h3 with
        | _ => exact ⟨_, _, hdrop, by assumption, by assumption, by assumption, rfl⟩
      | _ => cases hx; cases hcause
    · rintro ⟨pattern, _, _, _, _, _, rfl⟩
      exact ⟨_, rfl, rfl, rfl⟩

-- a text that is no number
example : printf sampleDates sampleDateEnv (js! "%d") [(Entry.ref (.string (js! "x1") someId)).toTraits sampleJdk]
    = .error (.printf (.wrongType .textToInt)) ∧ CausedBy (.printf (.wrongType .textToInt)) .numberFormat :=
  ⟨by decide +kernel, _, rfl, rfl, rfl⟩
-- `null`
example : printf sampleDates sampleDateEnv (js! "%d") [(Entry.ref .null).toTraits sampleJdk]
    = .error (.printf (.wrongType .nullToInt)) ∧ Bald (.printf (.wrongType .nullToInt)) := ⟨by decide +kernel, rfl⟩
-- a width that is no `int`: the `NumberFormatException` is dropped
example : Compiler.compile sampleDates (js! "%99999999999d") = .error (.syntaxErr (.invalidWidth (js! "99999999999")) 1) ∧
    carried (.syntaxErr (.invalidWidth (js! "99999999999")) 1) = some ⟨none, true, true⟩ := ⟨by decide +kernel, rfl⟩

end FastPrintf
