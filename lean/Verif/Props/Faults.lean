/-
C75: which format strings are rejected, where, and what the exception says.
-/
import Verif.Model.Descriptions
import Verif.Proofs.Faults
import Verif.Proofs.Integers
import Verif.Props.Messages
import Verif.Props.Compile

namespace FastPrintf
open Spec Messages

/-- **C75.** A format is rejected with a `PrintfSyntaxException` with index `i` exactly if a well-formed beginning is
followed by `%` and the beginning `part` of a directive that cannot go on at `i`; the kind of exception says why. -/
theorem C75_syntax_errors (dates : DateSyntax) (format : JStr) (why : SyntaxWhy) (i : Nat) :
    Compiler.compile dates format = .error (.syntaxErr why i) ↔
      ∃ pre ps part after, Reading dates pre ps ∧ format = pre ++ js! "%" ++ part ++ after ∧
        Fault dates part after why ∧ i = (pre ++ js! "%" ++ part).length := by
  rw [compile_error_iff]
  constructor
  · rintro ⟨pre, ps, h1, ⟨part, after, why', h2, h3, h4⟩ | ⟨name, v, d, after, h, -⟩⟩
    · cases h4
      exact ⟨pre, ps, part, after, h1, h2, h3, rfl⟩
    · cases h
  · rintro ⟨pre, ps, part, after, h1, h2, h3, rfl⟩
    exact ⟨pre, ps, h1, .inl ⟨part, after, why, h2, h3, rfl⟩⟩

/-- **C75.** A format is rejected with a `PrintfException` exactly if a well-formed beginning is followed by a
directive that is well formed but for a number above the cap. -/
theorem C75_cap (dates : DateSyntax) (format : JStr) (why : PrintfWhy) :
    Compiler.compile dates format = .error (.printf why) ↔
      ∃ name v pre ps d after, why = .exceedsMaximum name v ∧ Reading dates pre ps ∧
        format = pre ++ d.text ++ after ∧ TooLarge dates d after name v := by
  rw [compile_error_iff]
  constructor
  · rintro ⟨pre, ps, h1, ⟨part, after, why', h2, h3, h4⟩ | ⟨name, v, d, after, h, h2, h3⟩⟩
    · cases h4
    · cases h
      exact ⟨name, v, pre, ps, d, after, rfl, h1, h2, h3⟩
  · rintro ⟨name, v, pre, ps, d, after, rfl, h1, h2, h3⟩
    exact ⟨pre, ps, h1, .inr ⟨name, v, d, after, rfl, h2, h3⟩⟩

/-- **C75.** Every format is well formed, or has a fault, or has a number above the cap, and only one of these; the
fault and its place are unique. -/
theorem C75_one_of_three (dates : DateSyntax) (format : JStr) :
    let reads := ∃ ps, Reading dates format ps
    let faulty (why : SyntaxWhy) (i : Nat) := ∃ pre ps part after, Reading dates pre ps ∧
      format = pre ++ js! "%" ++ part ++ after ∧ Fault dates part after why ∧ i = (pre ++ js! "%" ++ part).length
    let tooLarge := ∃ name v pre ps d after, Reading dates pre ps ∧ format = pre ++ d.text ++ after ∧
      TooLarge dates d after name v
    (reads ∨ (∃ why i, faulty why i) ∨ tooLarge) ∧
    ¬ (reads ∧ ∃ why i, faulty why i) ∧ ¬ (reads ∧ tooLarge) ∧ ¬ ((∃ why i, faulty why i) ∧ tooLarge) ∧
    ∀ why i why' i', faulty why i → faulty why' i' → why = why' ∧ i = i' := by
  intro reads faulty tooLarge
  have hr : ∀ ps, Reading dates format ps → ∃ apps, Compiler.compile dates format = .ok apps :=
    fun ps h => ⟨_, (compile_iff dates format _).2 ⟨ps, h, rfl⟩⟩
  have hf : ∀ why i, faulty why i → Compiler.compile dates format = .error (.syntaxErr why i) :=
    fun why i => (C75_syntax_errors dates format why i).2
  have ht : tooLarge → ∃ why, Compiler.compile dates format = .error (.printf why) :=
    fun ⟨name, v, pre, ps, d, after, h⟩ => ⟨_, (C75_cap dates format _).2 ⟨name, v, pre, ps, d, after, rfl, h⟩⟩
  refine ⟨?_, ?_, ?_, ?_, ?_⟩
  · cases hc : Compiler.compile dates format with
    | ok apps =>
      obtain ⟨ps, h, -⟩ := (compile_iff dates format apps).1 hc
      exact .inl ⟨ps, h⟩
    | error e =>
      obtain ⟨pre, ps, h1, ⟨part, after, why, h2, h3, h4⟩ | ⟨name, v, d, after, -, h2, h3⟩⟩ := compile_error_iff.1 hc
      · exact .inr (.inl ⟨why, _, pre, ps, part, after, h1, h2, h3, rfl⟩)
      · exact .inr (.inr ⟨name, v, pre, ps, d, after, h1, h2, h3⟩)
  · rintro ⟨⟨ps, h⟩, why, i, h'⟩
    obtain ⟨apps, h⟩ := hr ps h
    rw [hf why i h'] at h
    cases h
  · rintro ⟨⟨ps, h⟩, h'⟩
    obtain ⟨apps, h⟩ := hr ps h
    obtain ⟨why, ht⟩ := ht h'
    rw [ht] at h
    cases h
  · rintro ⟨⟨why, i, h⟩, h'⟩
    have := hf why i h
    obtain ⟨w, ht⟩ := ht h'
    rw [ht] at this
    cases this
  · intro why i why' i' h h'
    have := hf why i h
    rw [hf why' i' h'] at this
    cases this
    exact ⟨rfl, rfl⟩

/-! Formats with each of the faults. -/

example : Compiler.compile sampleDates (js! "100%") = .error (.syntaxErr (.unexpectedEnd .afterPercent) 4) := by decide
example : Compiler.compile sampleDates (js! "%-0-d") = .error (.syntaxErr (.duplicateFlag (ch! '-')) 3) := by decide
example : Compiler.compile sampleDates (js! "%+") = .error (.syntaxErr (.unexpectedEnd .atWidth) 2) := by decide
example : Compiler.compile sampleDates (js! "%2147483648d")
    = .error (.syntaxErr (.invalidWidth (js! "2147483648")) 1) := by decide +kernel
example : Compiler.compile sampleDates (js! "%5.") = .error (.syntaxErr (.unexpectedEnd .afterDot) 3) := by decide
example : Compiler.compile sampleDates (js! "%.2147483648d")
    = .error (.syntaxErr (.invalidPrecision (js! "2147483648")) 2) := by decide +kernel
example : Compiler.compile sampleDates (js! "%5.2") = .error (.syntaxErr (.unexpectedEnd .atSpecifier) 4) := by decide
example : Compiler.compile sampleDates (js! "%5.2y") = .error (.syntaxErr (.unknownSpecifier (ch! 'y')) 4) := by decide
example : Compiler.compile sampleDates (js! "%t{'}'") = .error (.syntaxErr .unclosedDatePattern 2) := by decide
example : Compiler.compile sampleDates (js! "%t{}") = .error (.syntaxErr .emptyDatePattern 3) := by decide
example : Compiler.compile sampleDates (js! "%t{b}") = .error (.syntaxErr (.invalidDatePattern (js! "b")) 3) := by decide
example : Compiler.compile sampleDates (js! "%65537d") = .error (.printf (.exceedsMaximum .width 65537)) := by decide +kernel

/-- The number above the cap is found only after the rest of the directive. -/
example : Compiler.compile sampleDates (js! "%65537y") = .error (.syntaxErr (.unknownSpecifier (ch! 'y')) 6) := by
  decide +kernel

example : ∃ name v pre ps d after, PrintfWhy.exceedsMaximum .precision 65537 = .exceedsMaximum name v ∧
    Reading sampleDates pre ps ∧ js! "a%5.65537d" = pre ++ d.text ++ after ∧ TooLarge sampleDates d after name v :=
  (C75_cap sampleDates (js! "a%5.65537d") (.exceedsMaximum .precision 65537)).1 (by decide +kernel)

/-! ### What stands at the index -/

/-- What a fault says about the text from its index on. -/
def Spec.FoundAt : SyntaxWhy → JStr → Prop
  | .duplicateFlag c, r => r.head? = some c ∧ c ∈ flagChars
  | .unexpectedEnd _, r => r = []
  | .invalidWidth w, r => (∃ t, r = w ++ t ∧ DigitsRead w t) ∧ javaIntMax < decimalValue w
  | .invalidPrecision p, r => (∃ t, r = p ++ t ∧ DigitsRead p t) ∧ javaIntMax < decimalValue p
  | .unclosedDatePattern, r => r.head? = some (ch! '{')
  | .emptyDatePattern, r => r.head? = some (ch! '}')
  | .invalidDatePattern p, r => ∃ t, r = p ++ js! "}" ++ t ∧ ClosedBy p
  | .unknownSpecifier c, r => r.head? = some c ∧ c ∉ convChars

/-- **C75.** The text at the index of the exception is what the exception is about. -/
theorem C75_index (dates : DateSyntax) (format : JStr) (why : SyntaxWhy) (i : Nat)
    (h : Compiler.compile dates format = .error (.syntaxErr why i)) : FoundAt why (format.drop i) := by
  obtain ⟨pre, ps, part, after, -, rfl, hf, rfl⟩ := (C75_syntax_errors dates format why i).1 h
  rw [List.drop_left]
  cases hf with
  | afterPercent => rfl
  | duplicateFlag h1 h2 h3 => exact ⟨rfl, h1 _ h3⟩
  | atWidth h1 h2 => rfl
  | width h1 h2 h3 h4 => exact ⟨⟨_, rfl, h3⟩, h4⟩
  | afterDot h1 h2 => rfl
  | precision h1 h2 h3 h4 h5 => exact ⟨⟨_, rfl, h4⟩, h5⟩
  | atSpecifier h1 => rfl
  | specifier h1 h2 => exact ⟨rfl, h2⟩
  | unclosedDate h1 h2 h3 => rfl
  | emptyDate h1 h2 => rfl
  | invalidDate h1 h2 h3 h4 h5 => exact ⟨_, by rw [List.append_assoc]; rfl, h4⟩

/-! ### What the exception says -/

/-- **C75.** The description of a rejection is the sentence laid down for the fault. -/
theorem C75_description (dates : DateSyntax) (format : JStr) (why : SyntaxWhy) (i : Nat)
    (h : Compiler.compile dates format = .error (.syntaxErr why i)) : Describes why i (description why i) := by
  have k := C75_index dates format why i h
  have flags : ∀ c ∈ flagChars, c = 45 ∨ c = 35 ∨ c = 43 ∨ c = 32 ∨ c = 48 := by decide
  cases why with
  | duplicateFlag c =>
    rcases flags c k.2 with rfl | rfl | rfl | rfl | rfl
    · exact .leftJustify i
    · exact .alternate i
    · exact .plus i
    · exact .leadingSpace i
    · exact .zeroPad i
  | unexpectedEnd p =>
    cases p
    · exact .afterPercent i
    · exact .atWidth i
    · exact .afterDot i
    · exact .atSpecifier i
  | invalidWidth w => exact .width w i
  | invalidPrecision w => exact .precision w i
  | unclosedDatePattern =>
    refine .unclosedDate i _ ?_
    have : intToString (i : Int) = toRadix 10 i := by simp [intToString, natToString]
    rw [this]
    exact shortest_toRadix (by norm_num) (by norm_num) i
  | emptyDatePattern => exact .emptyDate i
  | invalidDatePattern p => exact .invalidDate p i
  | unknownSpecifier c => exact .specifier c i

/-- **C75.** The description names the fault: two rejections with the same description are for the same reason. -/
theorem C75_description_names_the_fault (dates : DateSyntax) (format format' : JStr) (why why' : SyntaxWhy) (i i' : Nat)
    (h : Compiler.compile dates format = .error (.syntaxErr why i))
    (h' : Compiler.compile dates format' = .error (.syntaxErr why' i'))
    (hd : description why i = description why' i') : why = why' := by
  have k := C75_index dates format why i h
  have k' := C75_index dates format' why' i' h'
  have flags : ∀ c ∈ flagChars, ∃ f, Flag.valueOf c = some f ∧ FormatContext.flagChar f = c := by decide
  cases why <;> cases why'
  case unexpectedEnd.unexpectedEnd p p' =>
    cases p <;> cases p' <;> first | rfl | (simp [description, endText] at hd; done)
  case duplicateFlag.duplicateFlag c c' =>
    obtain ⟨f, hf, rfl⟩ := flags c k.2
    obtain ⟨f', hf', rfl⟩ := flags c' k'.2
    simp only [description, hf, hf'] at hd
    revert hd
    cases f <;> cases f' <;> first | (intro _; rfl) | (intro hd; exact absurd hd (by decide))
  case invalidWidth.invalidWidth w w' => simp [description] at hd; rw [hd]
  case invalidPrecision.invalidPrecision w w' => simp [description] at hd; rw [hd]
  case invalidDatePattern.invalidDatePattern w w' => simp [description] at hd; rw [hd]
  case unknownSpecifier.unknownSpecifier w w' => simp [description] at hd; rw [hd]
  all_goals try (rename EndPlace => p; cases p)
  all_goals first
    | rfl
    | (simp [description, endText] at hd; done)

/-- **C75.** The message of a rejection is the description, the index and the format (and a caret, C47). -/
theorem C75_message (dates : DateSyntax) (format : JStr) (why : SyntaxWhy) (i : Nat)
    (h : Compiler.compile dates format = .error (.syntaxErr why i)) (nl : JStr) :
    ∃ caret, rejection nl format (.syntaxErr why i) =
        some (description why i ++ js! " near index " ++ natToString i ++ nl ++ format ++ caret) ∧
      (caret = [] ↔ ∃ place, why = .unexpectedEnd place) := by
  have k := C75_index dates format why i h
  rcases C47_message_points_at_error dates format why i h nl (description why i) with ⟨h1, c, h2, h3, -⟩ | ⟨h1, h2⟩
  · refine ⟨nl ++ c, by simp only [rejection]; rw [h2]; simp, ?_⟩
    constructor
    · intro h0
      have : c = [] := by simp_all
      rw [this] at h3
      simp at h3
    · rintro ⟨place, rfl⟩
      have : format.length ≤ i := by simpa [FoundAt] using k
      omega
  · refine ⟨[], by simp only [rejection]; rw [h2]; simp, fun _ => ?_, fun _ => rfl⟩
    rw [h1, List.drop_length] at k
    cases why with
    | unexpectedEnd place => exact ⟨place, rfl⟩
    | duplicateFlag c => simp [FoundAt] at k
    | unclosedDatePattern => simp [FoundAt] at k
    | emptyDatePattern => simp [FoundAt] at k
    | invalidDatePattern p => simp [FoundAt] at k
    | unknownSpecifier c => simp [FoundAt] at k
    | invalidWidth w =>
      obtain ⟨⟨t, h3, -⟩, h4⟩ := k
      have : w = [] := by simp_all
      rw [this] at h4
      exact absurd h4 (by decide)
    | invalidPrecision w =>
      obtain ⟨⟨t, h3, -⟩, h4⟩ := k
      have : w = [] := by simp_all
      rw [this] at h4
      exact absurd h4 (by decide)

example : rejection (js! "\n") (js! "%-0-d") (.syntaxErr (.duplicateFlag (ch! '-')) 3)
    = some (js! "Duplicate flag 'LEFT_JUSTIFY' near index 3\n%-0-d\n   ^") := by decide

example : rejection (js! "\n") (js! "%5.") (.syntaxErr (.unexpectedEnd .afterDot) 3)
    = some (js! "Format string terminates after '.' near index 3\n%5.") := by decide

example : rejection (js! "\n") (js! "%t{'}'") (.syntaxErr .unclosedDatePattern 2)
    = some (js! "Unclosed date/time pattern starting at index 2 near index 2\n%t{'}'\n  ^") := by decide

end FastPrintf
