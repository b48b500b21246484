/-
The pattern text of a compiled directive is again a directive with the same meaning.
-/
import Verif.Proofs.Reading
import Verif.Proofs.Digits

namespace FastPrintf
open Spec

theorem decimalValue_eq_valueIn (ds : JStr) (h : ∀ c ∈ ds, IsDigit c) :
    decimalValue ds = valueIn 10 ds := by
  induction ds with
  | nil => rfl
  | cons c ds ih =>
    have hc := h c (by simp)
    unfold IsDigit at hc
    rw [decimalValue, valueIn, ih (fun x hx => h x (by simp [hx]))]
    simp [digitVal, hc.2]

theorem isDigit_of_isDigitIn {c : JChar} (h : IsDigitIn 10 c) : IsDigit c := by
  unfold IsDigitIn digitVal at h
  unfold IsDigit
  split_ifs at h <;> omega

theorem isDigitIn_of_isDigit {c : JChar} (h : IsDigit c) : IsDigitIn 10 c := by
  unfold IsDigit at h
  unfold IsDigitIn digitVal
  split_ifs <;> omega

theorem natToString_digits (n : Nat) : ∀ c ∈ natToString n, IsDigit c :=
  fun c hc => isDigit_of_isDigitIn ((toRadix_isNumeral (by omega) (by omega) n).2 c hc)

theorem decimalValue_natToString (n : Nat) : decimalValue (natToString n) = n := by
  rw [decimalValue_eq_valueIn _ (natToString_digits n)]
  exact valueIn_toRadix (by omega) (by omega) n

theorem width_value_pos {ds : JStr} (h : WidthOk (.digits ds)) : 0 < decimalValue ds := by
  cases ds with
  | nil => exact absurd rfl h.1
  | cons c ds =>
    have h1 := h.2.1
    have h2 := h.2.2.1 c (by simp)
    simp only [List.head?_cons, ne_eq, Option.some.injEq] at h1
    unfold IsDigit at h2
    unfold decimalValue
    have : 1 ≤ c - 48 := by omega
    have : 0 < 10 ^ ds.length := Nat.pow_pos (by omega)
    nlinarith

/-- The number part that `toPatternString` writes for a stored value. -/
def numOf (v : Int) : Num :=
  if v = PRECEDING then .star else if v = UNSET then .absent else .digits (intToString v)

theorem numOf_value {n : Num} (_h : n.Ok) : (numOf n.value).value = n.value ∧ (numOf n.value).Ok := by
  unfold numOf
  cases n with
  | absent => simp [Num.value, UNSET, PRECEDING, intMin, Num.Ok]
  | star => simp [Num.value, Num.Ok]
  | digits ds =>
    have e1 : UNSET = -1 := rfl
    have e2 : PRECEDING = -2147483648 := rfl
    have hv : (Num.digits ds).value = (decimalValue ds : Int) := rfl
    rw [hv, if_neg (by omega), if_neg (by omega)]
    have : intToString (decimalValue ds : Int) = natToString (decimalValue ds) := by
      unfold intToString; rw [if_neg (by omega)]; simp
    rw [this]
    refine ⟨by simp [Num.value, decimalValue_natToString], natToString_digits _, ?_⟩
    rw [decimalValue_natToString]
    exact _h.2

theorem numOf_width {n : Num} (h : WidthOk n) : WidthOk (numOf n.value) := by
  cases n with
  | absent => simp [numOf, Num.value, UNSET, PRECEDING, intMin, WidthOk, Num.Ok]
  | star => simp [numOf, Num.value, WidthOk, Num.Ok]
  | digits ds =>
    have hp := width_value_pos h
    have hok := (numOf_value (n := .digits ds) h.2.2).2
    unfold numOf at hok ⊢
    have e1 : UNSET = -1 := rfl
    have e2 : PRECEDING = -2147483648 := rfl
    have hv : (Num.digits ds).value = (decimalValue ds : Int) := rfl
    rw [hv, if_neg (by omega), if_neg (by omega)] at hok ⊢
    have : intToString (decimalValue ds : Int) = natToString (decimalValue ds) := by
      unfold intToString; rw [if_neg (by omega)]; simp
    rw [this] at hok ⊢
    exact ⟨toRadix_ne_nil _ _, toRadix_head_ne (by omega) (by omega), hok⟩

theorem numOf_eq_absent {n : Num} (h : numOf n.value = .absent) : n = .absent := by
  have e1 : UNSET = -1 := rfl
  have e2 : PRECEDING = -2147483648 := rfl
  unfold numOf at h
  cases n with
  | absent => rfl
  | star => simp [Num.value] at h
  | digits ds =>
    have hv : (Num.digits ds).value = (decimalValue ds : Int) := rfl
    rw [hv, if_neg (by omega), if_neg (by omega)] at h
    cases h

theorem numOf_text (v : Int) : (numOf v).text =
    if v = PRECEDING then [42] else if v ≠ UNSET then intToString v else [] := by
  unfold numOf
  by_cases h1 : v = PRECEDING
  · simp [h1, Num.text]
  · by_cases h2 : v = UNSET <;> simp [h1, h2, Num.text, show ¬ UNSET = PRECEDING by decide]

theorem precText_numOf (v : Int) : precText (numOf v) =
    if v = PRECEDING then [46, 42] else if v ≠ UNSET then 46 :: intToString v else [] := by
  unfold numOf
  by_cases h1 : v = PRECEDING
  · simp [h1, Num.text, precText]
  · by_cases h2 : v = UNSET <;> simp [h1, h2, Num.text, precText, show ¬ UNSET = PRECEDING by decide]

/-- The flag characters `toPatternString` writes. -/
def flagText (fs : Flags) : JStr := fs.toList.map FormatContext.flagChar

theorem flagText_facts (fs : Flags) : (∀ c ∈ flagText fs, c ∈ flagChars) ∧ (flagText fs).Nodup ∧
    flagSet (flagText fs) = fs := by
  obtain ⟨a, b, c, d, e⟩ := fs
  cases a <;> cases b <;> cases c <;> cases d <;> cases e <;> decide

theorem flagText_eq_nil {cs : JStr} (h : ∀ c ∈ cs, c ∈ flagChars)
    (h0 : flagText (flagSet cs) = []) : cs = [] := by
  cases cs with
  | nil => rfl
  | cons c cs =>
    obtain ⟨f, rfl⟩ := mem_flagChars.1 (h c (by simp))
    have h1 := flagSet_contains (FormatContext.flagChar f :: cs) f
    rw [← (flagText_facts (flagSet (FormatContext.flagChar f :: cs))).2.2, h0] at h1
    rw [flagSet_contains] at h1
    simp at h1

theorem spec_char (sp : Specifier) : sp.char ∈ convChars ∧ convOf sp.char = sp := by
  cases sp <;> decide

theorem convOf_percent {c : JChar} (h : c ∈ convChars) (h' : (convOf c).char = 37) : c = 37 := by
  have := (by decide : ∀ c ∈ convChars, (convOf c).char = 37 → c = 37) c h
  exact this h'

/-- The directive that the pattern text of a compiled directive spells out. -/
def respell (d : Directive) : Directive where
  flags := flagText (flagSet d.flags)
  width := numOf d.width.value
  prec := numOf d.prec.value
  conv := (convOf d.conv).char
  date := none

theorem widthOk_ok {w : Num} (h : WidthOk w) : w.Ok := by
  cases w with
  | absent => trivial
  | star => trivial
  | digits ds => exact h.2.2

theorem respell_ok {env env' : DateSyntax} {d : Directive} (h : d.Ok env) : (respell d).Ok env' where
  flagsOk := (flagText_facts _).1
  noRepeat := (flagText_facts _).2.1
  width := numOf_width h.width
  prec := (numOf_value h.prec).2
  conv := (spec_char _).1
  date := by intro p hp; cases hp
  notPercent := by
    rintro h1 ⟨h2, h3, h4⟩
    exact h.notPercent (convOf_percent h.conv h1)
      ⟨flagText_eq_nil h.flagsOk h2, numOf_eq_absent h3, numOf_eq_absent h4⟩

theorem respell_text (d : Directive) :
    (respell d).text = FormatContext.toPatternString
      ⟨flagSet d.flags, d.width.value, d.prec.value, d.date⟩ (convOf d.conv) := by
  unfold Directive.text respell FormatContext.toPatternString
  simp only [numOf_text, precText_numOf, dateText, List.append_nil]
  rfl

theorem respell_compiled {env : DateSyntax} {d : Directive} (h : d.Ok env) :
    (Piece.dir (respell d)).compiled = .dflt (convOf d.conv)
      ⟨flagSet d.flags, d.width.value, d.prec.value, none⟩ := by
  simp only [Piece.compiled, respell]
  rw [(flagText_facts _).2.2, (numOf_value (widthOk_ok h.width)).1, (numOf_value h.prec).1,
    (spec_char _).2]

end FastPrintf
