/-
What the `PrintfException`s say: C76.
-/
import Verif.Spec.Complaints
import Verif.Model.Descriptions
import Verif.Props.Messages
import Verif.Props.Determined
import Verif.Props.BigDecimal
import Verif.Props.Foreign

namespace FastPrintf
open Spec Messages

/-! ### Templates -/

theorem template_none (t : JStr) : lenientFormat (some t) (some []) = t := by
  rw [C43_message]; exact weave_nil t

theorem template_one {t p q : JStr} (h : Spec.pieces t = [p, q]) (a : Shown) :
    lenientFormat (some t) (some [a]) = p ++ Spec.shown a ++ q := by
  rw [C43_message, h]
  simp [Spec.weave, Spec.brackets]

theorem template_two {t p q : JStr} (h : Spec.pieces t = [p, q]) (a b : Shown) :
    lenientFormat (some t) (some [a, b]) = p ++ Spec.shown a ++ q ++ js! " [" ++ Spec.shown b ++ js! "]" := by
  rw [C43_message, h]
  simp [Spec.weave, Spec.brackets, Spec.joinWith]

/-! ### What is quoted -/

theorem shown_own (exc : JStr) (text : Res JStr) (id : Identity) :
    OwnText exc id text (Spec.shown (ownText exc text id)) := by
  have hx := shortest_toRadix (b := 16) (by norm_num) (by norm_num) id.hash.toNat
  unfold ownText
  by_cases h : id.className.head? = some (ch! '[')
  · rw [if_pos h]
    exact .array h hx text
  · rw [if_neg h]
    cases text with
    | ok s => exact .shows h s
    | error e => exact .throws h hx e

theorem refused_text {e : Entry} {s : JStr} (h : HoldsText e s) (env : JdkEnv) (exc : JStr) (why : Refusal) :
    refusedValue env exc e why = .text s := by
  cases h with
  | string => rfl
  | charSeq => rfl
  | seq hq id => simp only [refusedValue, hq.text]

theorem error_inj {why why' : Refusal} {α : Type} (h : (Except.error (refused why) : Res α) = .error (refused why')) :
    why = why' := by
  cases h; rfl

section
variable {jdk : JdkEnv} {exc cause slot : JStr} {e : Entry} {why : Refusal}

theorem says_textToInt {s : JStr} (h : HoldsText e s) :
    Says jdk exc cause slot e .textToInt (complaint jdk exc cause slot e .textToInt) := by
  simp only [complaint, refusalText, refused_text h]
  exact .textToInt h

theorem says_textToFloat {s : JStr} (h : HoldsText e s) :
    Says jdk exc cause slot e .textToFloat (complaint jdk exc cause slot e .textToFloat) := by
  simp only [complaint, refusalText, refused_text h]
  exact .textToFloat h

theorem says_seconds (t : Temporal) (s : Res JStr) (id : Identity) :
    Says jdk exc cause slot (.ref (.temporal t s id)) .noEpochSeconds
      (complaint jdk exc cause slot (.ref (.temporal t s id)) .noEpochSeconds) := by
  have := Says.noEpochSeconds (jdk := jdk) (cause := cause) (slot := slot) t (shown_own exc s id)
  simp only [complaint, refusalText, refusedValue]
  rw [template_two (p := js! "Can't get epoch seconds from: ") (q := []) (by decide)]
  simpa [Spec.shown] using this

theorem says_millis (t : Temporal) (s : Res JStr) (id : Identity) :
    Says jdk exc cause slot (.ref (.temporal t s id)) .noEpochMillis
      (complaint jdk exc cause slot (.ref (.temporal t s id)) .noEpochMillis) := by
  have := Says.noEpochMillis (jdk := jdk) (cause := cause) (slot := slot) t (shown_own exc s id)
  simp only [complaint, refusalText, refusedValue]
  rw [template_two (p := js! "Can't get epoch milliseconds from: ") (q := []) (by decide)]
  simpa [Spec.shown] using this

theorem says_notANumber (s : Res JStr) (id : Identity) :
    Says jdk exc cause slot (.ref (.object .other s id)) .notANumber
      (complaint jdk exc cause slot (.ref (.object .other s id)) .notANumber) := by
  have := Says.notANumber (jdk := jdk) (cause := cause) (slot := slot) (shown_own exc s id)
  simp only [complaint, refusalText, refusedValue]
  rw [template_one (p := []) (q := js! " is not a number") (by decide)]
  exact this

theorem says_objectToInt (s : Res JStr) (id : Identity) :
    Says jdk exc cause slot (.ref (.object .other s id)) .objectToInt
      (complaint jdk exc cause slot (.ref (.object .other s id)) .objectToInt) := by
  have := Says.objectToInt (jdk := jdk) (cause := cause) (slot := slot) (shown_own exc s id)
  simp only [complaint, refusalText, refusedValue]
  rw [template_one (p := []) (q := js! " cannot be converted to int") (by decide)]
  exact this

theorem says_int {r : Res Integral} (h : IntReading jdk e r) (hr : r = .error (refused why)) :
    Says jdk exc cause slot e why (complaint jdk exc cause slot e why) := by
  cases h with
  | noNumber h => cases error_inj hr; exact says_textToInt h
  | noInstant _ s id => cases error_inj hr; exact says_millis _ s id
  | null =>
    cases error_inj hr
    rw [complaint, refusalText, template_none]; exact .nullToInt
  | other t id => cases error_inj hr; exact says_notANumber t id
  | tooFar => cases hr
  | _ => cases hr

theorem says_float {r : Res Floating} (h : FloatReading jdk e r) (hr : r = .error (refused why)) :
    Says jdk exc cause slot e why (complaint jdk exc cause slot e why) := by
  cases h with
  | noNumber h => cases error_inj hr; exact says_textToFloat h
  | noInstant _ s id => cases error_inj hr; exact says_seconds _ s id
  | null =>
    cases error_inj hr
    rw [complaint, refusalText, template_none]; exact .nullToFloat
  | other t id => cases error_inj hr; exact says_notANumber t id
  | _ => cases hr

/-- **C76 (`*`).** What is said about an argument that is not read as a width or precision. -/
theorem C76_star (h : StarReading jdk e (.error (refused why))) :
    Says jdk exc cause slot e why (complaint jdk exc cause slot e why) := by
  generalize hr : (Except.error (refused why) : Res Int) = r at h
  cases h with
  | noNumber h => cases error_inj hr; exact says_textToInt h
  | noInstant _ s id => cases error_inj hr; exact says_seconds _ s id
  | null =>
    cases error_inj hr
    rw [complaint, refusalText, template_none]; exact .nullToInt
  | other t id => cases error_inj hr; exact says_objectToInt t id
  | _ => cases hr

theorem says_char {r : Res JChar} (h : CharReading jdk e r) (hr : r = .error (refused why)) :
    Says jdk exc cause slot e why (complaint jdk exc cause slot e why) := by
  cases h with
  | char => cases hr
  | text => cases hr
  | emptyText h =>
    cases error_inj hr
    rw [complaint, refusalText, template_none]; exact .emptyToChar h
  | point t s id =>
    cases error_inj hr
    rw [complaint, refusalText, template_none]; exact .temporalToChar t s id
  | @number _ r' h =>
    cases r' with
    | ok n => cases hr
    | error err => cases hr; exact C76_star h

/-- **C76 (`%t`).** What is said about an argument that is not a point in time. -/
theorem C76_time (h : NoTime e why) : Says jdk exc cause slot e why (complaint jdk exc cause slot e why) := by
  have slotted : Says jdk exc cause slot e .noTemporal (complaint jdk exc cause slot e .noTemporal) := by
    have := Says.noTemporal (jdk := jdk) (exc := exc) (cause := cause) (slot := slot) e
    simp only [complaint, refusalText]
    rw [template_one (p := js! "Cannot convert [") (q := js! "] to TemporalAccessor") (by decide)]
    exact this
  cases h with
  | char h => rw [complaint, refusalText, template_none]; exact .charToTemporal h
  | null => rw [complaint, refusalText, template_none]; exact .nullToTemporal
  | other t id =>
    have := Says.objectToTemporal (jdk := jdk) (cause := cause) (slot := slot) (shown_own exc t id)
    simp only [complaint, refusalText, refusedValue]
    rw [template_one (p := []) (q := js! " cannot be converted to TemporalAccessor") (by decide)]
    exact this
  | _ => exact slotted

theorem says_negative {x : Integral} (h : WholeReading jdk e (.ok x)) (hn : x.unsigned = none) :
    Says jdk exc cause slot e .negativeUnsigned (complaint jdk exc cause slot e .negativeUnsigned) := by
  obtain ⟨v, rfl, hv⟩ : ∃ v, x = .big v ∧ v < 0 := by
    cases x with
    | big v =>
      refine ⟨v, rfl, ?_⟩
      by_contra hc
      simp only [Integral.unsigned] at hn
      split at hn
      · omega
      · cases hn
    | _ => simp [Integral.unsigned] at hn
  have hs : DecimalText v (js! "-" ++ natToString v.natAbs) :=
    ⟨_, shortest_toRadix (by norm_num) (by norm_num) _, by rw [if_pos hv]; rfl⟩
  have hi : ∀ n : Nat, intToString (n : Int) = natToString n := fun n => by
    unfold intToString
    rw [if_neg (by omega), Int.natAbs_natCast]
  have hval : refusedValue jdk exc e .negativeUnsigned = .text (natToString v.natAbs) := by
    generalize hr : (Except.ok (Integral.big v) : Res Integral) = r at h
    cases h with
    | given h =>
      cases hr
      cases h with
      | big v id => simp only [refusedValue, if_true, hi]
      | prim h => cases h
      | boxed h => cases h
    | other h =>
      cases h with
      | bigDecimal u s id =>
        cases hr
        simp only [refusedValue, if_true, hi, bigDecimalTruncate_eq]
      | _ => cases hr
  have := Says.negativeUnsigned (exc := exc) (cause := cause) (slot := slot) h hv hs
  simp only [complaint, refusalText, hval]
  rw [template_one (p := js! "Negative BigInteger(-") (q := js! ") cannot be converted to unsigned") (by decide)]
  exact this

theorem says_hex {u s : Int} (h : RealReading jdk e (.ok (.big u s))) :
    Says jdk exc cause slot e .bigDecimalHex (complaint jdk exc cause slot e .bigDecimalHex) := by
  have hval : refusedValue jdk exc e .bigDecimalHex = .text (jdk.bigDecimalToString |u| s) := by
    generalize hr : (Except.ok (Floating.big u s) : Res Floating) = r at h
    cases h with
    | double => cases hr
    | big u s id => cases hr; simp [refusedValue]
    | other h =>
      cases h with
      | bigInteger v id => cases hr; simp [refusedValue]
      | _ => cases hr
  have := Says.bigDecimalHex (exc := exc) (cause := cause) (slot := slot) h
  simp only [complaint, refusalText, hval]
  rw [template_one (p := js! "hexLayout not supported for BigDecimal: ") (q := []) (by decide), List.append_nil]
  exact this

theorem says_prints {env : DateEnv} {d : Directive} {r : Res JStr} (h : Prints jdk env d e r)
    (hc : d.conv ∉ js! "sStT") (hr : r = .error (refused why)) :
    Says jdk exc cause slot e why (complaint jdk exc cause slot e why) := by
  induction h with
  | signed => cases hr
  | unsigned => cases hr
  | negative _ h hn => cases error_inj hr; exact says_negative h hn
  | noInteger _ h =>
    cases hr
    generalize hr : (Except.error (refused why) : Res Integral) = r at h
    cases h with
    | given => cases hr
    | other h => exact says_int h hr.symm
  | floating _ h ht =>
    cases ht with
    | bigHex => cases error_inj hr; exact says_hex h
    | _ => cases hr
  | noFloat _ h =>
    cases hr
    generalize hr : (Except.error (refused why) : Res Floating) = r at h
    cases h with
    | other h => exact says_float h hr.symm
    | _ => cases hr
  | text h => rw [h] at hc; exact absurd hc (by decide)
  | rope h => cases hr
  | @char _ _ _ r h =>
    cases r with
    | ok => cases hr
    | error err => cases hr; exact says_char h rfl
  | @pointer _ _ _ r h =>
    cases h with
    | _ => cases hr
  | time h => rw [h] at hc; exact absurd hc (by decide)
  | noFormat => cases hr
  | noTime h => rw [h] at hc; exact absurd hc (by decide)
  | nothing => cases hr
  | percent => cases hr
  | @upper d e lo hl r h ih =>
    cases r with
    | ok => cases hr
    | error err =>
      cases hr
      refine ih ?_ rfl
      have : ∀ p ∈ casePairs, p.2 ∉ js! "sStT" → p.1 ∉ js! "sStT" := by decide
      exact this _ hl hc

end

/-- **C76 (refusals).** When a conversion other than `%s` and `%t` refuses an argument, the message is the sentence
of the table `Says`.  (Under `%s` and `%t` the caller's own code can throw any exception; for the refusals of `%t` by
the library see `C76_time`.) -/
theorem C76_refusals (dates : DateSyntax) (env : DateEnv) (jdk : JdkEnv) (hj : InstantsFit jdk) (d : Directive)
    (h : d.Ok dates) (hp : d.Plain) (hc : d.conv ∉ js! "sStT") (e : Entry) (he : Covered e) (why : Refusal)
    (hr : printf dates env d.text [e.toTraits jdk] = .error (.printf (.wrongType why))) (exc cause slot : JStr) :
    Says jdk exc cause slot e why (complaint jdk exc cause slot e why) :=
  says_prints (C55_directive dates env jdk hj d h hp e he) hc hr

-- `%u` of -12 as a `BigInteger`
example : printf sampleDates sampleDateEnv (js! "%u") [(Entry.ref (.bigInteger (-12) someId)).toTraits sampleJdk]
      = .error (.printf (.wrongType .negativeUnsigned)) ∧
    complaint sampleJdk [] [] [] (.ref (.bigInteger (-12) someId)) .negativeUnsigned
      = js! "Negative BigInteger(-12) cannot be converted to unsigned" := ⟨by decide +kernel, by decide +kernel⟩

-- `%d` of a text
example : printf sampleDates sampleDateEnv (js! "%d") [(Entry.ref (.string (js! "x1") someId)).toTraits sampleJdk]
      = .error (.printf (.wrongType .textToInt)) ∧
    complaint sampleJdk [] [] [] (.ref (.string (js! "x1") someId)) .textToInt
      = js! "Cannot convert \"x1\" to int" := ⟨by decide +kernel, by decide +kernel⟩

-- a text that contains a placeholder is quoted as it is
example : complaint sampleJdk [] [] [] (.ref (.object .other (.ok (js! "100%s")) someId)) .notANumber
    = js! "100%s is not a number" := by decide +kernel

-- `%a` of a `BigDecimal` loses its sign: -5 and 5 are reported alike
example (s : Int) (id : Identity) :
    complaint sampleJdk [] [] [] (.ref (.bigDecimal (-5) s id)) .bigDecimalHex
      = complaint sampleJdk [] [] [] (.ref (.bigDecimal 5 s id)) .bigDecimalHex := rfl

-- `%t` of 1.5 and of a text are reported by the slot alone
example (x : BitVec 64) (s : JStr) (id : Identity) (slot : JStr) :
    complaint sampleJdk [] [] slot (.prim (.double x)) .noTemporal
      = complaint sampleJdk [] [] slot (.ref (.string s id)) .noTemporal := rfl

-- under `*`, null and an object that prints `null` are reported alike
example : complaint sampleJdk [] [] [] (.ref .null) .nullToInt
    = complaint sampleJdk [] [] [] (.ref (.object .other (.ok (js! "null")) someId)) .objectToInt := by
  decide +kernel

/-- **C76 (numbers).** What is said about a number that is too large or negative. -/
theorem C76_numbers (q : Quoted) (v : Int) (s : JStr) (hs : DecimalText v s) :
    printfText q (.exceedsMaximum .width v) =
      js! "Width " ++ s ++ js! " exceeds the maximum allowed value of 65536" ∧
    printfText q (.exceedsMaximum .precision v) =
      js! "Precision " ++ s ++ js! " exceeds the maximum allowed value of 65536" ∧
    printfText q (.negativeValue .width v) = js! "Width cannot be negative, but was: " ++ s ∧
    printfText q (.negativeValue .precision v) = js! "Precision cannot be negative, but was: " ++ s := by
  have hv : intToString v = s := by
    obtain ⟨ds, h1, rfl⟩ := hs
    rw [h1.eq (by norm_num) (by norm_num)]
    unfold intToString natToString
    split <;> rfl
  have h1 : Spec.pieces (js! "%s %s exceeds the maximum allowed value of %s")
      = [[], js! " ", js! " exceeds the maximum allowed value of ", []] := by decide
  have h2 : Spec.pieces (js! "%s cannot be negative, but was: %s")
      = [[], js! " cannot be negative, but was: ", []] := by decide
  have h3 : intToString MAX_WIDTH_OR_PRECISION = js! "65536" := by decide
  refine ⟨?_, ?_, ?_, ?_⟩
  · rw [printfText, C43_message, h1, h3]
    simp [Spec.weave, Spec.brackets, Spec.shown, hv, numName]
  · rw [printfText, C43_message, h1, h3]
    simp [Spec.weave, Spec.brackets, Spec.shown, hv, numName]
  · rw [printfText, C43_message, h2]
    simp [Spec.weave, Spec.brackets, Spec.shown, hv, numName]
  · rw [printfText, C43_message, h2]
    simp [Spec.weave, Spec.brackets, Spec.shown, hv, numName]

/-- **C76 (the other sentences).** A missing argument, at a star or at the value; a primitive under `%p`; a temporal
type without format of its own. -/
theorem C76_others (q : Quoted) (c : JChar) :
    printfText q (.missingArgument c) = js! "Missing argument for specifier: " ++ [c] ∧
    missingStarText c = js! "Missing argument for specifier: " ++ [c] ∧
    printfText q .primitivePointer = js! "The '%p' specifier cannot be used with primitive types." ∧
    printfText q .noDefaultFormatter = js! "No default DateTimeFormatter for type: " ++ q.className := by
  refine ⟨template_none _, ?_, template_none _, ?_⟩
  · rw [missingStarText, template_one (p := js! "Missing argument for specifier: ") (q := []) (by decide)]
    simp [Spec.shown]
  · rw [printfText, template_one (p := js! "No default DateTimeFormatter for type: ") (q := []) (by decide)]
    simp [Spec.shown]

example : printfText ⟨.null, .null, .null, []⟩ (.exceedsMaximum .width 70000)
    = js! "Width 70000 exceeds the maximum allowed value of 65536" := by decide +kernel

/-- **C76 (which directive).** If the arguments run out in a directive, and those there are would do, then the
exception names the conversion of that directive; `%i` is called `d`. -/
theorem C76_missing (dates : DateSyntax) (env : DateEnv) (s : JStr) (before after : List Piece) (d : Directive)
    (h : Reading dates s (before ++ .dir d :: after)) (args more : List Traits) (t : JStr)
    (h1 : arity before ≤ args.length) (h2 : args.length < arity (before ++ [.dir d]))
    (ht : printf dates env s (args ++ more) = .ok t) :
    printf dates env s args = .error (.printf (.missingArgument (shownConv d.conv))) := by
  have hd : d.conv ∈ convChars := (h.ok (.dir d) (by simp)).conv
  have ha : arity (before ++ [.dir d]) = arity before + (Piece.dir d).arity := by simp [arity]
  rw [printf_eq h, formatWith_eq] at ht ⊢
  rw [List.map_append, List.map_cons, runSB_append] at ht ⊢
  obtain ⟨b1, _⟩ := runSB_reads env (before.map Piece.compiled) []
  rw [cost_arity] at b1
  obtain ⟨tb, rb, hb⟩ := b1 (args.take (arity before)) (by rw [List.length_take]; omega)
  have e1 := hb (args.drop (arity before))
  have e2 := hb (args.drop (arity before) ++ more)
  rw [← List.append_assoc, List.take_append_drop] at e2
  rw [List.take_append_drop] at e1
  rw [e1]
  rw [e2] at ht
  cases rb with
  | error err => cases ht
  | ok u =>
    simp only [Except.map, Outcome.andThen] at ht ⊢
    obtain ⟨err, h3, h4⟩ := ((Piece.dir d).compiled.reads env).short (args.drop (arity before))
      (by rw [cost_compiled, List.length_drop]; omega)
    rw [runSB, h3]
    rcases h4 with rfl | h4
    · show _ = _
      rw [← convOf_char hd]; rfl
    · rw [runSB, h4 more] at ht
      cases ht

-- `%i` without argument is called `d`; in `%*x` the star is charged to `x`
example : printf sampleDates sampleDateEnv (js! "%s %i") [strArg (js! "a")]
      = .error (.printf (.missingArgument (ch! 'd'))) ∧
    printf sampleDates sampleDateEnv (js! "%*x") [] = .error (.printf (.missingArgument (ch! 'x'))) :=
  ⟨by decide +kernel, by decide +kernel⟩

end FastPrintf
