/-
C69, C70: contexts made by hand, and the texts that describe contexts and argument lists.
-/
import Verif.Model.Describe
import Verif.Proofs.HexText
import Verif.Props.Compile
import Verif.Props.Semantics
import Verif.Spec.Arrays

namespace FastPrintf
open Spec Compiler

/-! ### C69 -/

/-- A width or precision that a context can hold. -/
def Spec.Holdable (v : Int) : Prop := v = UNSET ∨ v = PRECEDING ∨ (0 ≤ v ∧ v ≤ 65536)

theorem checkValue_iff (name : NumName) (v : Int) :
    (FormatContext.checkValue name v = .ok () ↔ Holdable v) ∧
    (∀ e, FormatContext.checkValue name v = .error e ↔ ¬ Holdable v ∧
      e = .printf (if v < 0 then .negativeValue name v else .exceedsMaximum name v)) := by
  have e1 : UNSET = -1 := rfl
  have e2 : PRECEDING = -2147483648 := rfl
  have e3 : MAX_WIDTH_OR_PRECISION = 65536 := rfl
  unfold FormatContext.checkValue Holdable
  by_cases h1 : v < 0 ∧ v ≠ UNSET ∧ v ≠ PRECEDING
  · rw [if_pos h1, if_pos h1.1]
    refine ⟨⟨by rintro ⟨⟩, by omega⟩, fun e => ⟨?_, ?_⟩⟩
    · rintro ⟨⟩; exact ⟨by omega, rfl⟩
    · rintro ⟨_, rfl⟩; rfl
  · rw [if_neg h1]
    by_cases h2 : v > MAX_WIDTH_OR_PRECISION
    · rw [if_pos h2, if_neg (by omega)]
      refine ⟨⟨by rintro ⟨⟩, by omega⟩, fun e => ⟨?_, ?_⟩⟩
      · rintro ⟨⟩; exact ⟨by omega, rfl⟩
      · rintro ⟨_, rfl⟩; rfl
    · rw [if_neg h2]
      exact ⟨⟨fun _ => by omega, fun _ => rfl⟩, fun e => ⟨by rintro ⟨⟩, fun h => absurd h.1 (by omega)⟩⟩

theorem valueOf_mem {c : JChar} : (∃ f, Flag.valueOf c = some f) ↔ c ∈ flagChars := by
  constructor
  · rintro ⟨f, h⟩
    unfold Flag.valueOf at h
    split_ifs at h <;> simp_all [flagChars]
  · intro h
    have := (by decide : ∀ c ∈ flagChars, (Flag.valueOf c).isSome = true) c h
    exact Option.isSome_iff_exists.1 this

theorem valueOf_flagChar {c : JChar} {f : Flag} (h : Flag.valueOf c = some f) : c = FormatContext.flagChar f := by
  unfold Flag.valueOf at h
  split_ifs at h with h1 h2 h3 h4 h5 <;> cases h <;> assumption

theorem addFlags_eq (s : Flags) (cs : JStr) :
    (FormatContext.addFlags s cs = .error .nullPointer ∧ ∃ c ∈ cs, c ∉ flagChars) ∨
    ∃ s', FormatContext.addFlags s cs = .ok s' ∧ (∀ c ∈ cs, c ∈ flagChars) ∧
      ∀ f, s'.contains f = (s.contains f || cs.contains (FormatContext.flagChar f)) := by
  induction cs generalizing s with
  | nil => exact .inr ⟨s, rfl, by simp, by simp⟩
  | cons c cs ih =>
    unfold FormatContext.addFlags
    cases hv : Flag.valueOf c with
    | none =>
      refine .inl ⟨rfl, c, by simp, fun hm => ?_⟩
      obtain ⟨f, hf⟩ := valueOf_mem.2 hm
      rw [hv] at hf; cases hf
    | some f =>
      dsimp only
      rcases ih (s.add f) with ⟨h1, x, h2, h3⟩ | ⟨s', h1, h2, h3⟩
      · exact .inl ⟨h1, x, by simp [h2], h3⟩
      · refine .inr ⟨s', h1, ?_, fun g => ?_⟩
        · intro x hx
          rcases List.mem_cons.1 hx with rfl | hx
          · exact valueOf_mem.1 ⟨f, hv⟩
          · exact h2 x hx
        · rw [h3, Flags.contains_add, valueOf_flagChar hv, List.contains_cons, Bool.or_assoc]
          congr 2
          cases f <;> cases g <;> rfl

/-- **C69.**  `FormatContext.create(flags, w, p)` succeeds exactly for flag characters (none for a null
reference) and for a width and a precision that are unset, `*`, or from 0 to 65536, and gives the context that
holds them; repeated flags do not matter.  Any other character is a `NullPointerException`; a number out of range
is a `PrintfException`. -/
theorem C69_create (fl : Option JStr) (w p : Int) :
    ((∃ c ∈ fl.getD [], c ∉ flagChars) ∧ FormatContext.createFrom fl w p = .error .nullPointer) ∨
    ((∀ c ∈ fl.getD [], c ∈ flagChars) ∧ ¬ (Holdable w ∧ Holdable p) ∧
      ∃ why, FormatContext.createFrom fl w p = .error (.printf why)) ∨
    ((∀ c ∈ fl.getD [], c ∈ flagChars) ∧ Holdable w ∧ Holdable p ∧
      FormatContext.createFrom fl w p = .ok ⟨flagSet (fl.getD []), w, p, none⟩) := by
  have key : ∀ cs : JStr, (∃ c ∈ cs, c ∉ flagChars) ∧
      (do FormatContext.create (← FormatContext.addFlags {} cs) w p none) = .error .nullPointer ∨
    ((∀ c ∈ cs, c ∈ flagChars) ∧ ¬ (Holdable w ∧ Holdable p) ∧ ∃ why,
      (do FormatContext.create (← FormatContext.addFlags {} cs) w p none) = .error (.printf why)) ∨
    ((∀ c ∈ cs, c ∈ flagChars) ∧ Holdable w ∧ Holdable p ∧
      (do FormatContext.create (← FormatContext.addFlags {} cs) w p none) = .ok ⟨flagSet cs, w, p, none⟩) := by
    intro cs
    rcases addFlags_eq {} cs with ⟨h1, h2⟩ | ⟨s, h1, h2, h3⟩
    · exact .inl ⟨h2, by rw [h1]; rfl⟩
    · have hs : s = flagSet cs := by
        apply Flags.ext_contains
        intro f
        rw [flagSet_contains, h3]
        cases f <;> simp [Flags.contains]
      rw [h1, bind_ok, hs]
      unfold FormatContext.create
      by_cases hw : Holdable w
      · rw [(checkValue_iff .width w).1.2 hw, bind_ok]
        by_cases hp : Holdable p
        · rw [(checkValue_iff .precision p).1.2 hp, bind_ok]
          exact .inr (.inr ⟨h2, hw, hp, rfl⟩)
        · rw [((checkValue_iff .precision p).2 _).2 ⟨hp, rfl⟩]
          exact .inr (.inl ⟨h2, fun h => hp h.2, _, rfl⟩)
      · rw [((checkValue_iff .width w).2 _).2 ⟨hw, rfl⟩]
        exact .inr (.inl ⟨h2, fun h => hw h.1, _, rfl⟩)
  cases fl with
  | none => exact key []
  | some cs =>
    cases cs with
    | nil => exact key []
    | cons c cs => exact key (c :: cs)

/-- The directive that `toPatternString` writes. -/
def patternDirective (c : FormatContext) (sp : Specifier) : Directive :=
  ⟨flagText c.flags, numOf c.width, numOf c.precision, sp.char, none⟩

theorem patternDirective_text (c : FormatContext) (sp : Specifier) :
    (patternDirective c sp).text = c.toPatternString sp := by
  unfold Directive.text patternDirective FormatContext.toPatternString
  simp only [numOf_text, precText_numOf, dateText, List.append_nil]
  rfl

theorem numOf_holdable {v : Int} (h : Holdable v) : (numOf v).value = v ∧ (numOf v).Ok ∧
    (v ≠ 0 → WidthOk (numOf v)) := by
  have e1 : UNSET = -1 := rfl
  have e2 : PRECEDING = -2147483648 := rfl
  rcases h with rfl | rfl | ⟨h1, h2⟩
  · exact ⟨rfl, trivial, fun _ => trivial⟩
  · exact ⟨rfl, trivial, fun _ => trivial⟩
  · obtain ⟨n, rfl⟩ := Int.eq_ofNat_of_zero_le h1
    have hs : intToString (n : Int) = natToString n := by
      unfold intToString; rw [if_neg (by omega)]; simp
    unfold numOf
    rw [if_neg (by omega), if_neg (by omega), hs]
    have hok : (Num.digits (natToString n)).Ok :=
      ⟨natToString_digits _, by rw [decimalValue_natToString]; unfold numberCap; omega⟩
    exact ⟨by simp [Num.value, decimalValue_natToString], hok,
      fun h0 => ⟨toRadix_ne_nil _ _, toRadix_head_ne (by omega) (by omega), hok⟩⟩

/-- A context with nothing in it. -/
def Spec.Bare (c : FormatContext) : Prop := c.flags = {} ∧ c.width = UNSET ∧ c.precision = UNSET

theorem flagText_nil {fs : Flags} (h : flagText fs = []) : fs = {} := by
  have := (flagText_facts fs).2.2
  rw [h] at this
  rw [← this]; rfl

/-- **C69.**  The string form of any context a caller can make compiles to exactly the directive with that
context, unless the width is 0 or the string form is `%%`. -/
theorem C69_pattern_round_trip (dates : DateSyntax) (c : FormatContext) (hw : Holdable c.width)
    (hp : Holdable c.precision) (sp : Specifier) (h0 : c.width ≠ 0) (hb : ¬ (sp = .percent ∧ Bare c)) :
    compile dates (c.toPatternString sp) = .ok [.dflt sp { c with dateTimeFormatter := none }] := by
  rw [compile_iff]
  refine ⟨[.dir (patternDirective c sp)], ?_, ?_⟩
  · refine ⟨by simp [Piece.text, patternDirective_text], ?_, ?_⟩
    · intro p hm
      rw [List.mem_singleton] at hm
      subst hm
      refine ⟨(flagText_facts _).1, (flagText_facts _).2.1, (numOf_holdable hw).2.2 h0, (numOf_holdable hp).2.1,
        (spec_char _).1, by rintro p ⟨⟩, ?_⟩
      rintro h1 ⟨h2, h3, h4⟩
      have absent : ∀ v, numOf v = .absent → v = UNSET := by
        intro v hv
        unfold numOf at hv
        split_ifs at hv with a b
        exact b
      refine hb ⟨?_, flagText_nil h2, absent _ h3, absent _ h4⟩
      have : sp.char = 37 := h1
      cases sp <;> first | rfl | exact absurd this (by decide)
    · exact ⟨fun _ _ => by simp, trivial⟩
  · simp only [List.map_singleton, Piece.compiled, patternDirective]
    rw [(flagText_facts _).2.2, (numOf_holdable hw).1, (numOf_holdable hp).1, (spec_char _).2]

/-- **C69, the exceptions.**  With width 0 and no `0` flag the string form compiles to the directive with that
flag and no width, unless it is `%0%`-like; with the `0` flag it is rejected as a repeated flag. -/
theorem C69_width_zero (dates : DateSyntax) (c : FormatContext) (hw : c.width = 0)
    (hp : Holdable c.precision) (sp : Specifier) :
    (c.flags.zeroPad = false → compile dates (c.toPatternString sp) =
      .ok [.dflt sp ⟨{ c.flags with zeroPad := true }, UNSET, c.precision, none⟩]) ∧
    (c.flags.zeroPad = true → compile dates (c.toPatternString sp) =
      .error (.syntaxErr (.duplicateFlag (ch! '0')) (1 + c.flags.toList.length))) := by
  have htext : c.toPatternString sp = js! "%" ++ flagText c.flags ++ [ch! '0'] ++
      (precText (numOf c.precision) ++ [sp.char]) := by
    rw [← patternDirective_text]
    unfold Directive.text patternDirective
    have : (numOf c.width).text = [ch! '0'] := by rw [hw]; decide
    simp only [this, dateText, List.append_nil, List.append_assoc]
  constructor
  · intro hz
    have hfl : flagText { c.flags with zeroPad := true } = flagText c.flags ++ [ch! '0'] := by
      obtain ⟨⟨a, b, d, e, z⟩, _, _, _⟩ := c
      simp only at hz ⊢
      subst hz
      cases a <;> cases b <;> cases d <;> cases e <;> rfl
    have := C69_pattern_round_trip dates ⟨{ c.flags with zeroPad := true }, UNSET, c.precision, none⟩
      (.inl rfl) hp sp (show UNSET ≠ 0 by decide) (by
        rintro ⟨_, h, _⟩
        have := congrArg Flags.zeroPad h
        cases this)
    rw [← this]
    congr 1
    rw [htext, ← patternDirective_text]
    unfold Directive.text patternDirective
    simp only [hfl, dateText, List.append_nil, List.append_assoc]
    rfl
  · intro hz
    have hm : ch! '0' ∈ flagText c.flags := by
      obtain ⟨⟨a, b, d, e, z⟩, _, _, _⟩ := c
      simp only at hz ⊢
      subst hz
      cases a <;> cases b <;> cases d <;> cases e <;> decide
    have := C08_repeated_flag_rejected dates [] [] (reading_nil.2 rfl) (flagText c.flags)
      (flagText_facts _).1 (flagText_facts _).2.1 (ch! '0') hm (precText (numOf c.precision) ++ [sp.char])
    rw [htext]
    rw [List.nil_append] at this
    rw [this]
    congr 2
    rw [List.length_append, flagText, List.length_map]
    rfl

/-- **C69, the other exception.**  The bare percent specifier is written `%%`, which is an escape. -/
theorem C69_percent (dates : DateSyntax) (c : FormatContext) (h : Bare c) :
    compile dates (c.toPatternString .percent) = .ok [.fixed (js! "%")] := by
  obtain ⟨fl, w, p, t⟩ := c
  obtain ⟨h1, h2, h3⟩ := h
  simp only at h1 h2 h3
  subst h1 h2 h3
  rfl

/-- `List.append` splits at the first occurrence of a character. -/
theorem split_first {c : JChar} {a a' b b' : JStr} (ha : c ∉ a) (ha' : c ∉ a')
    (h : a ++ c :: b = a' ++ c :: b') : a = a' ∧ b = b' := by
  induction a generalizing a' with
  | nil =>
    cases a' with
    | nil => exact ⟨rfl, by simpa using h⟩
    | cons x a' =>
      rw [List.nil_append, List.cons_append] at h
      injection h with h1 h2
      exact absurd (by simp [h1]) ha'
  | cons x a ih =>
    cases a' with
    | nil =>
      rw [List.nil_append, List.cons_append] at h
      injection h with h1 h2
      exact absurd (by simp [h1]) ha
    | cons y a' =>
      rw [List.cons_append, List.cons_append] at h
      injection h with h1 h2
      obtain ⟨h3, h4⟩ := ih (fun hm => ha (by simp [hm])) (fun hm => ha' (by simp [hm])) h2
      exact ⟨by rw [h1, h3], h4⟩

theorem intToString_plain (v : Int) : ∀ c ∈ intToString v, c ≠ ch! ',' ∧ c ≠ ch! '}' := by
  intro c hc
  have hd : ∀ n : Nat, ∀ c ∈ natToString n, c ≠ ch! ',' ∧ c ≠ ch! '}' := by
    intro n c hc
    have := natToString_digits n c hc
    unfold IsDigit at this
    constructor <;> omega
  unfold intToString at hc
  split_ifs at hc
  · rcases List.mem_cons.1 hc with rfl | hc
    · decide
    · exact hd _ c hc
  · exact hd _ c hc

theorem intToString_inj {v w : Int} (h : intToString v = intToString w) : v = w := by
  rw [← parseExponent_intToString v, h, parseExponent_intToString]

/-- The names of the flags, up to the closing bracket. -/
def flagNames (fs : Flags) : JStr := (FormatContext.collection (fs.toList.map FormatContext.flagName)).dropLast

theorem flagNames_facts (fs : Flags) :
    FormatContext.collection (fs.toList.map FormatContext.flagName) = flagNames fs ++ [ch! ']'] ∧
      ch! ']' ∉ flagNames fs := by
  obtain ⟨a, b, c, d, e⟩ := fs
  cases a <;> cases b <;> cases c <;> cases d <;> cases e <;> decide +kernel

theorem flagNames_inj : ∀ fs gs : Flags, flagNames fs = flagNames gs → fs = gs := by
  have : ∀ a b c d e a' b' c' d' e' : Bool, flagNames ⟨a, b, c, d, e⟩ = flagNames ⟨a', b', c', d', e'⟩ →
      (⟨a, b, c, d, e⟩ : Flags) = ⟨a', b', c', d', e'⟩ := by decide +kernel
  rintro ⟨a, b, c, d, e⟩ ⟨a', b', c', d', e'⟩ h
  exact this a b c d e a' b' c' d' e' h

/-- The flags a context holds, by the names of the `Flag` constants, in the order of their declaration. -/
def Spec.flagWords (fs : Flags) : List JStr :=
  [(fs.leftJustify, js! "LEFT_JUSTIFY"), (fs.alternate, js! "ALTERNATE"), (fs.plus, js! "PLUS"),
    (fs.leadingSpace, js! "LEADING_SPACE"), (fs.zeroPad, js! "ZERO_PAD")].filterMap
      fun p => if p.1 then some p.2 else none

/-- **C69.**  `FormatContext.toString()` names the flags that are set and writes width and precision in
decimal. -/
theorem C69_describe (c : FormatContext) (w p : JStr) (hw : DecimalText c.width w)
    (hp : DecimalText c.precision p) :
    c.toStr = js! "{flags=" ++ bracketed (flagWords c.flags) ++ js! ", width=" ++ w ++ js! ", precision=" ++ p ++
      js! "}" := by
  have : ∀ a b c d e : Bool, FormatContext.collection ((⟨a, b, c, d, e⟩ : Flags).toList.map
      FormatContext.flagName) = bracketed (flagWords ⟨a, b, c, d, e⟩) := by decide +kernel
  rw [decimalText_eq hw, decimalText_eq hp, ← this]
  rfl

/-- **C69.**  The string that describes a context determines its flags, width and precision. -/
theorem C69_describe_injective (c c' : FormatContext) (h : c.toStr = c'.toStr) :
    c.flags = c'.flags ∧ c.width = c'.width ∧ c.precision = c'.precision := by
  unfold FormatContext.toStr at h
  rw [(flagNames_facts _).1, (flagNames_facts _).1] at h
  simp only [List.append_assoc, List.cons_append, List.nil_append, List.cons.injEq, true_and] at h
  obtain ⟨h1, h2⟩ := split_first (flagNames_facts _).2 (flagNames_facts _).2 h
  simp only [List.cons.injEq, true_and] at h2
  obtain ⟨h3, h4⟩ := split_first (fun hm => (intToString_plain _ _ hm).1 rfl)
    (fun hm => (intToString_plain _ _ hm).1 rfl) h2
  simp only [List.cons.injEq, true_and] at h4
  obtain ⟨h5, _⟩ := split_first (fun hm => (intToString_plain _ _ hm).2 rfl)
    (fun hm => (intToString_plain _ _ hm).2 rfl) h4
  exact ⟨flagNames_inj _ _ h1, intToString_inj h3, intToString_inj h5⟩

example : FormatContext.createFrom (some (js! "-0-")) 5 PRECEDING =
    .ok ⟨{ leftJustify := true, zeroPad := true }, 5, PRECEDING, none⟩ := rfl
example : FormatContext.createFrom (some (js! "-q")) 5 3 = .error .nullPointer := rfl
example : FormatContext.createFrom none (-2) 3 = .error (.printf (.negativeValue .width (-2))) := rfl
example : FormatContext.createFrom none 3 65537 = .error (.printf (.exceedsMaximum .precision 65537)) := rfl
example : FormatContext.toStr ⟨{ leftJustify := true, zeroPad := true }, 5, -1, none⟩ =
    js! "{flags=[LEFT_JUSTIFY, ZERO_PAD], width=5, precision=-1}" := by decide +kernel
example : FormatContext.toStr ⟨{}, -1, -1, none⟩ = js! "{flags=[], width=-1, precision=-1}" := by decide +kernel
example : compile sampleDates (FormatContext.toPatternString ⟨{ plus := true }, 0, 2, none⟩ .d) =
    .ok [.dflt .d ⟨{ plus := true, zeroPad := true }, UNSET, 2, none⟩] :=
  (C69_width_zero sampleDates _ rfl (.inr (.inr (by decide))) .d).1 rfl
example : compile sampleDates (FormatContext.toPatternString ⟨{ zeroPad := true }, 0, 2, none⟩ .d) =
    .error (.syntaxErr (.duplicateFlag (ch! '0')) 2) :=
  (C69_width_zero sampleDates _ rfl (.inr (.inr (by decide))) .d).2 rfl

/-! ### C70 -/

/-- The format that lists `n` arguments in square brackets. -/
def Spec.listFormat (n : Nat) : JStr := js! "[" ++ joinWith (js! ", ") (List.replicate n (js! "%s")) ++ js! "]"

/-- The bare `%s`. -/
def bareS : Directive := ⟨[], .absent, .absent, ch! 's', none⟩

theorem bareS_ok (dates : DateSyntax) : bareS.Ok dates :=
  ⟨by decide, by decide, trivial, trivial, by decide, by simp [bareS], by decide⟩

/-- The pieces of the list format after the first directive. -/
def moreItems : Nat → List Piece
  | 0 => [.lit (js! "]")]
  | n + 1 => .lit (js! ", ") :: .dir bareS :: moreItems n

theorem moreItems_text (n : Nat) :
    (moreItems n).flatMap Piece.text =
      (match n with
        | 0 => []
        | n + 1 => js! ", " ++ joinWith (js! ", ") (List.replicate (n + 1) (js! "%s"))) ++ js! "]" := by
  induction n with
  | zero => rfl
  | succ n ih =>
    simp only [moreItems, List.flatMap_cons, ih]
    cases n with
    | zero => decide
    | succ n =>
      simp only [List.replicate_succ, joinWith, Piece.text, List.append_assoc]
      rfl

theorem listFormat_reading (dates : DateSyntax) (n : Nat) :
    Reading dates (listFormat (n + 1)) (.lit (js! "[") :: .dir bareS :: moreItems n) := by
  refine ⟨?_, ?_, ?_⟩
  · simp only [List.flatMap_cons, moreItems_text]
    unfold listFormat
    cases n with
    | zero => decide
    | succ n =>
      simp only [List.replicate_succ, joinWith, Piece.text, List.append_assoc]
      rfl
  · intro p hp
    have hl : ∀ n, ∀ p ∈ moreItems n, p.Ok dates := by
      intro n
      induction n with
      | zero =>
        intro p hp
        simp only [moreItems, List.mem_singleton] at hp
        subst hp
        exact ⟨by decide, by decide⟩
      | succ n ih =>
        intro p hp
        simp only [moreItems, List.mem_cons] at hp
        rcases hp with rfl | rfl | hp
        · exact ⟨by decide, by decide⟩
        · exact bareS_ok dates
        · exact ih p hp
    rcases List.mem_cons.1 hp with rfl | hp
    · exact ⟨by decide, by decide⟩
    · rcases List.mem_cons.1 hp with rfl | hp
      · exact bareS_ok dates
      · exact hl n p hp
  · have hl : ∀ n, Separated (moreItems n) := by
      intro n
      induction n with
      | zero => exact ⟨by intro s; simp, trivial⟩
      | succ n ih =>
        exact ⟨by intro s; simp, fun h => absurd h (by unfold IsDateConv; decide), ih⟩
    exact ⟨by intro s; simp, fun h => absurd h (by unfold IsDateConv; decide), hl n⟩

/-- What an argument is listed as: its text under `%s`. -/
theorem bareS_append (env : DateEnv) (jdk : JdkEnv) (custom : Traits → Res JStr) (e : Entry) (he : Listed e)
    (hs : ∀ q id, e = .ref (.seq q id) → q.Sane) (rest : List Traits) (sb : JStr) :
    (∃ err, e.asString jdk custom = .error err ∧
      (Piece.dir bareS).compiled.append env (e.toTraits jdk :: rest) = .error err) ∨
    ∃ s q, e.asString jdk custom = .ok s ∧
      (Piece.dir bareS).compiled.append env (e.toTraits jdk :: rest) = .ok (q, rest) ∧
      q.appendToSB sb = .ok (sb ++ s) := by
  have step : ∀ x : Res Seq, (e.toTraits jdk).asSeq = x → (∀ q, x = .ok q → q.Sane) →
      (Piece.dir bareS).compiled.append env (e.toTraits jdk :: rest) = x.map fun q => (q, rest) := by
    intro x hx hx'
    have : SeqFormatter.s ⟨{}, UNSET, UNSET, none⟩ (e.toTraits jdk) = x := by
      unfold SeqFormatter.s
      rw [hx]
      cases x with
      | error err => rfl
      | ok q =>
        simp only [bind_ok, FormatContext.isPrecisionSet, UNSET, bne_self_eq_false, Bool.false_and]
        rw [if_neg (by decide)]
        unfold SeqFormatter.spaceJustify
        rw [if_neg]
        simp only [SeqFormatter.width, FormatContext.isWidthSet, UNSET, bne_self_eq_false]
        rw [if_neg (by decide)]
        have := (hx' q rfl).length_nonneg
        omega
    simp only [Piece.compiled, Appender.append, DefaultAppender.append_eq]
    show (DefaultAppender.valueStep env .s ⟨{}, UNSET, UNSET, none⟩ (e.toTraits jdk :: rest)) = _
    simp only [DefaultAppender.valueStep, DefaultAppender.formatterFor, this]
  rcases C54_complete jdk e he with ⟨r, hr⟩ | ⟨q, id, rfl⟩
  · have hsame : e.asString jdk custom = r := by
      cases hr with
      | shows h =>
        cases h with
        | null => rfl
        | string s id => rfl
        | charSeq s id => rfl
        | @number x e hx hb hc s hs =>
          rw [decimalText_eq hs]
          have hp : ∀ p, x.prim? = some p → p.asString jdk = intToString x.value := by
            intro p hp
            cases x <;> cases hp
            case bool => exact absurd rfl (hb _)
            case char => exact absurd rfl (hc _)
            all_goals rfl
          cases hx with
          | prim h => simp only [Entry.asString, hp _ h]
          | boxed h id => simp only [Entry.asString, hp _ h]
          | big v id => rfl
        | bool hx => cases hx with
          | prim h => cases h; rfl
          | boxed h id => cases h; rfl
        | char hx => cases hx with
          | prim h => cases h; rfl
          | boxed h id => cases h; rfl
      | float h => cases h <;> rfl
      | double h => cases h <;> rfl
      | bigDecimal u s id => rfl
      | temporal t s id => rfl
      | object k s id => rfl
    cases r with
    | error err => exact .inl ⟨err, hsame, by rw [step _ (hr.asSeq.2 err rfl) (by rintro q ⟨⟩)]; rfl⟩
    | ok s =>
      obtain ⟨q, h1, h2, _, h4⟩ := hr.asSeq.1 s rfl
      refine .inr ⟨s, q, hsame, by rw [step _ h1 (by rintro q ⟨⟩; exact h2.sane)]; rfl, ?_⟩
      rw [Seq.appendToSB_ok h2.sane, h4]
  · have hq := hs q id rfl
    refine .inr ⟨q.text, q, ?_, by rw [step (.ok q) rfl (by rintro q ⟨⟩; exact hq)]; rfl,
      Seq.appendToSB_ok hq sb⟩
    exact Seq.toStr_ok hq

/-- A run on a builder that already holds something: the text at the end, or the exception. -/
def formatFrom (env : DateEnv) (apps : List Appender) (args : List Traits) (sb : JStr) : Res JStr :=
  (runSB env apps args sb).result.map fun _ => (runSB env apps args sb).target

theorem joining_eq (env : DateEnv) (jdk : JdkEnv) (custom : Traits → Res JStr) (es : List Entry)
    (hl : ∀ e ∈ es, Listed e) (hs : ∀ q id, Entry.ref (.seq q id) ∈ es → q.Sane) (v : JStr) :
    joining jdk custom (some v) es =
      formatFrom env ((moreItems es.length).map Piece.compiled) (es.map (Entry.toTraits jdk)) (js! "[" ++ v) := by
  induction es generalizing v with
  | nil =>
    simp only [joining, formatFrom, moreItems, List.length_nil, List.map_cons, List.map_nil, Piece.compiled,
      runSB, Appender.append, wrap_appendToSB, Except.map, Option.getD_some]
  | cons e es ih =>
    have ih := ih (fun x hx => hl x (by simp [hx])) (fun q id hx => hs q id (by simp [hx]))
    simp only [List.length_cons, moreItems, List.map_cons, formatFrom]
    rw [show Piece.compiled (.lit (js! ", ")) = .fixed (js! ", ") from rfl, runSB_fixed]
    simp only [joining]
    rcases bareS_append env jdk custom e (hl e (by simp)) (fun q id h => hs q id (by simp [h]))
      (es.map (Entry.toTraits jdk)) (js! "[" ++ v ++ js! ", ") with ⟨err, h1, h2⟩ | ⟨s, q, h1, h2, h3⟩
    · rw [h1]
      unfold runSB
      rw [h2]
      rfl
    · rw [h1, bind_ok, ih]
      conv_rhs => unfold runSB
      rw [h2]
      dsimp only
      rw [h3]
      simp only [formatFrom, List.append_assoc]

/-- **C70.**  `Args.toString()` is what the format `[%s, %s, …]` makes of the same arguments, including the
exception if a `toString()` throws. -/
theorem C70_list (dates : DateSyntax) (env : DateEnv) (jdk : JdkEnv) (custom : Traits → Res JStr)
    (es : List Entry) (hl : ∀ e ∈ es, Listed e) (hs : ∀ q id, Entry.ref (.seq q id) ∈ es → q.Sane) :
    argsToString jdk custom es = printf dates env (listFormat es.length) (es.map (Entry.toTraits jdk)) := by
  cases es with
  | nil =>
    have hr : Reading dates (listFormat 0) [.lit (js! "[]")] := ⟨rfl, by
        intro p hp
        rw [List.mem_singleton] at hp; subst hp
        exact ⟨by decide, by decide⟩, ⟨by intro s; simp, trivial⟩⟩
    rw [List.length_nil, printf_eq hr env, formatWith_eq]
    rfl
  | cons e es =>
    rw [List.length_cons, printf_eq (listFormat_reading dates es.length) env, formatWith_eq]
    show joining jdk custom none (e :: es) = _
    simp only [List.map_cons]
    rw [show Piece.compiled (.lit (js! "[")) = .fixed (js! "[") from rfl, runSB_fixed, List.nil_append]
    simp only [joining]
    rcases bareS_append env jdk custom e (hl e (by simp)) (fun q id h => hs q id (by simp [h]))
      (es.map (Entry.toTraits jdk)) (js! "[") with ⟨err, h1, h2⟩ | ⟨s, q, h1, h2, h3⟩
    · rw [h1]
      unfold runSB
      rw [h2]
      rfl
    · rw [h1, bind_ok, joining_eq env jdk custom es (fun x hx => hl x (by simp [hx]))
        (fun q id hx => hs q id (by simp [hx]))]
      conv_rhs => unfold runSB
      rw [h2]
      dsimp only
      rw [h3]
      rfl

/-- **C70.**  If every argument has a text, the description lists those texts. -/
theorem C70_texts (jdk : JdkEnv) (custom : Traits → Res JStr) (es : List Entry) (ts : List JStr)
    (h : List.Forall₂ (fun e t => e.asString jdk custom = .ok t) es ts) :
    argsToString jdk custom es = .ok (bracketed ts) := by
  have more : ∀ (es : List Entry) (ts : List JStr) (v : JStr),
      List.Forall₂ (fun e t => e.asString jdk custom = .ok t) es ts →
      joining jdk custom (some v) es = .ok (bracketed (v :: ts)) := by
    intro es ts v h
    induction h generalizing v with
    | nil => simp [joining, bracketed, joinWith]
    | @cons e t es ts h1 h2 ih =>
      simp only [joining, h1, bind_ok, ih]
      congr 1
      cases ts <;> simp [bracketed, joinWith]
  cases h with
  | nil => rfl
  | cons h1 h2 =>
    show joining jdk custom none _ = _
    simp only [joining, h1, bind_ok]
    exact more _ _ _ h2

-- a list, the empty list, and a list with an argument whose `toString()` throws
example : argsToString sampleJdk (fun _ => .error .external)
    [.prim (.int 7#32), .ref .null, .ref (.string (js! "a, b") ⟨js! "java.lang.String", 1#32⟩)] =
      .ok (js! "[7, null, a, b]") := by decide +kernel
example : argsToString sampleJdk (fun _ => .error .external) [] = .ok (js! "[]") := rfl
example : argsToString sampleJdk (fun _ => .error .external)
    [.prim (.int 7#32), .ref (.object .other (.error .external) ⟨js! "example.Bad", 1#32⟩)] = .error .external := by
  decide +kernel
example : listFormat 3 = js! "[%s, %s, %s]" := rfl

end FastPrintf
