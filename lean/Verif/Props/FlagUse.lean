/-
C85: which flags of a directive are heeded.
-/
import Verif.Proofs.FlagUse
import Verif.Proofs.Library
import Verif.Props.Compile
import Verif.Props.Samples
import Verif.Props.Semantics
import Mathlib.Data.List.Sublists

namespace FastPrintf

open Spec DefaultAppender

/-! ### From the flags written to the context -/

theorem conv_table : ∀ c ∈ convChars, ∀ cs ∈ [signedConvs, wholeConvs, pointConvs, js! "oxXgG", js! "fFeE"],
    (convOf c).char ∈ cs → c ∈ cs := by decide

theorem value_unset {n : Num} (h : n.value = UNSET ∨ n.value = PRECEDING) : MayBeUnset n := by
  cases n with
  | absent => trivial
  | star => trivial
  | digits ds =>
    have h1 : UNSET = -1 := rfl
    have h2 : PRECEDING = -2147483648 := rfl
    simp only [Num.value] at h
    omega

theorem value_zero {n : Num} (h : n.value = 0 ∨ n.value = PRECEDING) : MayBeZero n := by
  have h2 : PRECEDING = -2147483648 := rfl
  cases n with
  | absent => rcases h with h | h <;> cases h
  | star => trivial
  | digits ds =>
    simp only [Num.value, MayBeZero] at h ⊢
    omega

theorem same_contains {a b : JStr} {c : JChar} (h : c ∈ a ↔ c ∈ b) : b.contains c = a.contains c := by
  rw [Bool.eq_iff_iff, List.contains_iff_mem, List.contains_iff_mem]
  exact h.symm

/-- Directives that differ in ignored flags only. -/
theorem alikeFor {d : Directive} (hc : d.conv ∈ convChars) {fl : JStr}
    (hs : ∀ c, (c ∈ d.flags ∧ Heeds d c) ↔ (c ∈ fl ∧ Heeds { d with flags := fl } c)) :
    AlikeFor (convOf d.conv) d.context { d with flags := fl : Directive }.context := by
  have one : ∀ c, Heeds d c → Heeds { d with flags := fl } c → (c ∈ d.flags ↔ c ∈ fl) := by
    intro c h1 h2
    have := hs c
    tauto
  have left : d.context.width ≠ UNSET → convOf d.conv ≠ .n → convOf d.conv ≠ .percent →
      (ch! '-' ∈ d.flags ↔ ch! '-' ∈ fl) := by
    intro hw hn hp
    have h0 : d.width ≠ .absent := fun h => hw (by simp [Directive.context, h, Num.value])
    have h1 : d.conv ≠ ch! 'n' := fun h => hn (by rw [h]; rfl)
    have h2 : d.conv ≠ ch! '%' := fun h => hp (by rw [h]; rfl)
    exact one _ (.inl ⟨rfl, h0, h1, h2⟩) (.inl ⟨rfl, h0, h1, h2⟩)
  have plus : (convOf d.conv).char ∈ signedConvs → (ch! '+' ∈ d.flags ↔ ch! '+' ∈ fl) := by
    intro h
    have h := conv_table _ hc signedConvs (by simp) h
    exact one _ (.inr (.inr (.inl ⟨rfl, h⟩))) (.inr (.inr (.inl ⟨rfl, h⟩)))
  refine ⟨rfl, rfl, rfl, fun hw hn hp => same_contains (left hw hn hp), fun h => same_contains (plus h), ?_, ?_, ?_⟩
  · intro h hp
    have hp : ch! '+' ∉ d.flags := by
      intro hm
      have : d.flags.contains (ch! '+') = false := hp
      rw [List.contains_iff_mem.2 hm] at this
      cases this
    have hp' : ch! '+' ∉ fl := fun hm => hp ((plus h).2 hm)
    have h := conv_table _ hc signedConvs (by simp) h
    exact same_contains (one _ (.inr (.inr (.inr (.inl ⟨rfl, h, hp⟩)))) (.inr (.inr (.inr (.inl ⟨rfl, h, hp'⟩)))))
  · intro hw hl hz
    have hn : convOf d.conv ≠ .n ∧ convOf d.conv ≠ .percent := by
      constructor <;> (intro h; rw [h] at hz; revert hz; simp only [Specifier.char]; intro hz; rcases hz with hz | ⟨hz, _⟩ <;> (revert hz; decide))
    have hl : ch! '-' ∉ d.flags := by
      intro hm
      have : d.flags.contains (ch! '-') = false := hl
      rw [List.contains_iff_mem.2 hm] at this
      cases this
    have hl' : ch! '-' ∉ fl := fun hm => hl ((left hw hn.1 hn.2).2 hm)
    have h0 : d.width ≠ .absent := fun h => hw (by simp [Directive.context, h, Num.value])
    have hz : d.conv ∈ pointConvs ∨ d.conv ∈ wholeConvs ∧ MayBeUnset d.prec := by
      rcases hz with hz | ⟨hz, hu⟩
      · exact .inl (conv_table _ hc pointConvs (by simp) hz)
      · exact .inr ⟨conv_table _ hc wholeConvs (by simp) hz, value_unset hu⟩
    exact same_contains (one _ (.inr (.inl ⟨rfl, h0, hl, hz⟩)) (.inr (.inl ⟨rfl, h0, hl', hz⟩)))
  · intro ha
    have ha : d.conv ∈ js! "oxXgG" ∨ d.conv ∈ js! "fFeE" ∧ MayBeZero d.prec := by
      rcases ha with ha | ⟨ha, hu⟩
      · exact .inl (conv_table _ hc (js! "oxXgG") (by simp) ha)
      · exact .inr ⟨conv_table _ hc (js! "fFeE") (by simp) ha, value_zero hu⟩
    exact same_contains (one _ (.inr (.inr (.inr (.inr ⟨rfl, ha⟩)))) (.inr (.inr (.inr (.inr ⟨rfl, ha⟩)))))

/-- **C85 (ignored flags).** Wherever a directive stands in a format, adding or dropping flags that it does not heed
changes nothing: the call gives the same text or throws the same exception. -/
theorem C85_ignored (dates : DateSyntax) (env : DateEnv) (jdk : JdkEnv) (s : JStr) (ps qs : List Piece)
    (d : Directive) (h : Reading dates s (ps ++ .dir d :: qs)) (fl : JStr)
    (hok : Directive.Ok dates { d with flags := fl })
    (hs : ∀ c, (c ∈ d.flags ∧ Heeds d c) ↔ (c ∈ fl ∧ Heeds { d with flags := fl } c))
    (es : List Entry) (he : ∀ e ∈ es, WellBehaved e) :
    printf dates env ((ps ++ .dir { d with flags := fl } :: qs).flatMap Piece.text) (es.map (·.toTraits jdk)) =
      printf dates env s (es.map (·.toTraits jdk)) := by
  have hd : d.Ok dates := h.ok (.dir d) (by simp)
  have hr : Reading dates ((ps ++ .dir { d with flags := fl } :: qs).flatMap Piece.text)
      (ps ++ .dir { d with flags := fl } :: qs) := by
    refine ⟨rfl, ?_, separated_reflag qs d fl ps (fun p hp => text_ne_nil (h.ok p (by simp [hp]))) h.separated⟩
    intro p hp'
    simp only [List.mem_append, List.mem_cons] at hp'
    rcases hp' with h1 | rfl | h1
    · exact h.ok p (by simp [h1])
    · exact hok
    · exact h.ok p (by simp [h1])
  rw [printf_eq hr, printf_eq h, formatWith_eq, formatWith_eq]
  simp only [List.map_append, List.map_cons]
  have hv : ∀ v ∈ es.map (·.toTraits jdk), v.WF := by
    intro v hv
    obtain ⟨e, he', rfl⟩ := List.mem_map.1 hv
    exact (he e he').wf jdk
  rw [runSB_alike (a := (Piece.dir d).compiled) ?_ _ _ ?_ _ hv]
  · intro args hv
    exact append_alike (stored_value hd.prec) (alikeFor hd.conv hs) hv
  · intro p hp
    obtain ⟨q, hq, rfl⟩ := List.mem_map.1 hp
    exact Piece.compiled_stored (h.ok q (by simp [hq]))

instance (n : Num) : Decidable (MayBeZero n) := by cases n <;> unfold MayBeZero <;> infer_instance
instance (n : Num) : Decidable (MayBeUnset n) := by cases n <;> unfold MayBeUnset <;> infer_instance
instance (d : Directive) (c : JChar) : Decidable (Heeds d c) := by unfold Heeds; infer_instance

/-- **C85 (normal form).** In particular all the flags that a directive does not heed may be dropped together. -/
theorem C85_normal (dates : DateSyntax) (env : DateEnv) (jdk : JdkEnv) (s : JStr) (d : Directive) (ps qs : List Piece)
    (h : Reading dates s (ps ++ .dir d :: qs)) (hp : d.conv ≠ ch! '%')
    (es : List Entry) (he : ∀ e ∈ es, WellBehaved e) :
    printf dates env ((ps ++ .dir { d with flags := d.flags.filter fun c => Heeds d c } :: qs).flatMap Piece.text)
      (es.map (·.toTraits jdk)) = printf dates env s (es.map (·.toTraits jdk)) := by
  have hd : d.Ok dates := h.ok (.dir d) (by simp)
  refine C85_ignored dates env jdk s ps qs d h _ ⟨?_, hd.noRepeat.filter _, hd.width, hd.prec, hd.conv, hd.date,
    fun h => absurd h hp⟩ ?_ es he
  · intro c hc
    exact hd.flagsOk c (List.mem_filter.1 hc).1
  · intro c
    rw [List.mem_filter, decide_eq_true_eq]
    refine ⟨fun ⟨h1, h2⟩ => ⟨⟨h1, h2⟩, ?_⟩, fun ⟨h1, _⟩ => h1⟩
    rcases h2 with h2 | ⟨h2, h3, h4, h5⟩ | h2 | ⟨h2, h3, h4⟩ | h2
    · exact .inl h2
    · exact .inr (.inl ⟨h2, h3, fun hm => h4 (List.mem_filter.1 hm).1, h5⟩)
    · exact .inr (.inr (.inl h2))
    · exact .inr (.inr (.inr (.inl ⟨h2, h3, fun hm => h4 (List.mem_filter.1 hm).1⟩)))
    · exact .inr (.inr (.inr (.inr h2)))

/-! ### The rules are exact -/

/-- An argument that brings out the flags: a whole number, a decimal fraction, a double, a string or a time. -/
def showing (conv : JChar) : Entry :=
  if conv ∈ js! "diuoxXc" then .prim (.int 4095#32)
  else if conv ∈ js! "fFeEgG" then .ref (.bigDecimal 15 1 ⟨js! "java.math.BigDecimal", 1#32⟩)
  else if conv ∈ js! "aA" then .prim (.double 0#64)
  else if conv ∈ js! "tT" then .ref (.temporal (.stamp (.epochMilli 0)) (.ok (js! "1970")) ⟨js! "java.time.Instant", 1#32⟩)
  else .ref (.string (js! "x") ⟨js! "java.lang.String", 1#32⟩)

/-- A width that brings out the flag. -/
def showingWidth (c : JChar) (w : Num) : Num :=
  match w with
  | .absent => .absent
  | _ => if c ∈ js! "-0" then .digits (js! "30") else .digits (js! "1")

/-- A precision that brings out the flag. -/
def showingPrec (c : JChar) (p : Num) : Num :=
  match p with
  | .absent => .absent
  | .star => if c = ch! '#' then .digits (js! "0") else .absent
  | .digits ds => if decimalValue ds = 0 then .digits (js! "0") else .digits (js! "3")

/-- What a directive on its own prints, past the parser. -/
def shownBy (d : Directive) (e : Entry) : Res JStr :=
  append sampleDateEnv (convOf d.conv) d.context [e.toTraits sampleJdk] >>= fun r => r.1.appendToSB []

/-- Do two directives print different texts? -/
def differ (d d' : Directive) (e : Entry) : Bool :=
  match shownBy d e, shownBy d' e with
  | .ok t, .ok t' => t != t'
  | _, _ => false

/-- The rows of the table for one conversion. -/
abbrev Row (conv : JChar) : Prop := ∀ fl ∈ flagChars.sublists, ∀ c ∈ flagChars, c ∉ fl →
    ∀ w ∈ [Num.absent, .digits (js! "1")], ∀ p ∈ [Num.absent, .digits (js! "0"), .digits (js! "3")],
    ¬ (c = ch! '-' ∧ conv ∈ js! "sS" ∧ p = .digits (js! "0")) → Heeds ⟨c :: fl, w, p, conv, none⟩ c →
    differ ⟨c :: fl, showingWidth c w, p, conv, none⟩ ⟨fl, showingWidth c w, p, conv, none⟩ (showing conv) = true

theorem row_d : Row (ch! 'd') := by decide +kernel
theorem row_i : Row (ch! 'i') := by decide +kernel
theorem row_u : Row (ch! 'u') := by decide +kernel
theorem row_o : Row (ch! 'o') := by decide +kernel
theorem row_x : Row (ch! 'x') := by decide +kernel
theorem row_X_upper : Row (ch! 'X') := by decide +kernel
theorem row_f : Row (ch! 'f') := by decide +kernel
theorem row_F_upper : Row (ch! 'F') := by decide +kernel
theorem row_e : Row (ch! 'e') := by decide +kernel
theorem row_E_upper : Row (ch! 'E') := by decide +kernel
theorem row_g : Row (ch! 'g') := by decide +kernel
theorem row_G_upper : Row (ch! 'G') := by decide +kernel
theorem row_a : Row (ch! 'a') := by decide +kernel
theorem row_A_upper : Row (ch! 'A') := by decide +kernel
theorem row_c : Row (ch! 'c') := by decide +kernel
theorem row_s : Row (ch! 's') := by decide +kernel
theorem row_S_upper : Row (ch! 'S') := by decide +kernel
theorem row_t : Row (ch! 't') := by decide +kernel
theorem row_T_upper : Row (ch! 'T') := by decide +kernel
theorem row_n : Row (ch! 'n') := by decide +kernel
theorem row_p : Row (ch! 'p') := by decide +kernel
theorem row_percent : Row (ch! '%') := by decide +kernel

theorem differ_table : ∀ conv ∈ convChars, Row conv := by
  intro conv h
  simp only [convChars, List.mem_cons, List.not_mem_nil, or_false] at h
  rcases h with rfl | rfl | rfl | rfl | rfl | rfl | rfl | rfl | rfl | rfl | rfl | rfl |
    rfl | rfl | rfl | rfl | rfl | rfl | rfl | rfl | rfl | rfl
  exacts [row_d, row_i, row_u, row_o, row_x, row_X_upper, row_f, row_F_upper, row_e, row_E_upper, row_g,
    row_G_upper, row_a, row_A_upper, row_c, row_s, row_S_upper, row_t, row_T_upper, row_n, row_p, row_percent]

theorem prec_kind (c : JChar) (p : Num) : SameKind p (showingPrec c p) := by
  cases p with
  | absent => trivial
  | star => trivial
  | digits ds =>
    by_cases h : decimalValue ds = 0
    · rw [show showingPrec c (.digits ds) = .digits (js! "0") from if_pos h]; exact ⟨fun _ => rfl, fun _ => h⟩
    · rw [show showingPrec c (.digits ds) = .digits (js! "3") from if_neg h]
      exact ⟨fun h' => absurd h' h, fun h' => by cases h'⟩

theorem prec_mem (c : JChar) (p : Num) : showingPrec c p ∈ [Num.absent, .digits (js! "0"), .digits (js! "3")] := by
  cases p with
  | absent => simp [showingPrec]
  | star => unfold showingPrec; dsimp only; split <;> simp
  | digits ds => unfold showingPrec; dsimp only; split <;> simp

theorem width_pos {ds : JStr} (h : WidthOk (.digits ds)) : decimalValue ds ≠ 0 := by
  obtain ⟨h1, h2, h3, _⟩ := h
  cases ds with
  | nil => exact absurd rfl h1
  | cons c cs =>
    have hc := h3 c (by simp)
    have hne : c ≠ 48 := fun h => h2 (by simp [h])
    unfold IsDigit at hc
    unfold decimalValue
    have h1 : 0 < c - 48 := by omega
    have h2 : 0 < (c - 48) * 10 ^ cs.length := Nat.mul_pos h1 (by positivity)
    omega

/-- The width of a table row. -/
theorem width_row (c : JChar) {w : Num} (hw : WidthOk w) : ∃ w0 ∈ [Num.absent, .digits (js! "1")],
    SameKind w (showingWidth c w0) ∧ WidthOk (showingWidth c w0) ∧ (w0 = .absent ↔ w = .absent) := by
  have ok : ∀ ds ∈ [js! "30", js! "1"], WidthOk (.digits ds) := by
    intro ds hds
    simp only [List.mem_cons, List.not_mem_nil, or_false] at hds
    rcases hds with rfl | rfl <;> exact ⟨by decide, by decide, by simp [IsDigit], by decide⟩
  cases w with
  | absent => exact ⟨.absent, by simp, trivial, trivial, by simp⟩
  | star =>
    refine ⟨.digits (js! "1"), by simp, trivial, ?_, by simp⟩
    unfold showingWidth
    dsimp only
    split <;> exact ok _ (by simp)
  | digits ds =>
    have hpos := width_pos hw
    refine ⟨.digits (js! "1"), by simp, ?_⟩
    unfold showingWidth
    dsimp only
    split
    · exact ⟨⟨fun h => absurd h hpos, fun h => by cases h⟩, ok _ (by simp), by simp⟩
    · exact ⟨⟨fun h => absurd h hpos, fun h => by cases h⟩, ok _ (by simp), by simp⟩

/-- Whether a flag is heeded depends on the kinds of the numbers only. -/
theorem heeds_row {fl fl0 : JStr} (hmem : ∀ x, x ∈ fl0 ↔ x ∈ fl) {w w0 p : Num} (hw : w0 = .absent ↔ w = .absent)
    {conv c : JChar} (h : Heeds ⟨fl, w, p, conv, none⟩ c) : Heeds ⟨fl0, w0, showingPrec c p, conv, none⟩ c := by
  have hz : c = ch! '#' → MayBeZero p → MayBeZero (showingPrec c p) := by
    rintro rfl
    cases p with
    | absent => exact id
    | star => intro _; rfl
    | digits ds => intro h; rw [show showingPrec _ (.digits ds) = .digits (js! "0") from if_pos h]; rfl
  have hu : c = ch! '0' → MayBeUnset p → MayBeUnset (showingPrec c p) := by
    rintro rfl
    cases p with
    | absent => exact id
    | star => intro _; trivial
    | digits ds => exact False.elim
  rcases h with ⟨h1, h2, h3⟩ | ⟨h1, h2, h3, h4⟩ | ⟨h1, h2⟩ | ⟨h1, h2, h3⟩ | ⟨h1, h2⟩
  · exact .inl ⟨h1, fun h => h2 (hw.1 h), h3⟩
  · exact .inr (.inl ⟨h1, fun h => h2 (hw.1 h), fun h => h3 ((hmem _).1 h), h4.imp_right (And.imp_right (hu h1))⟩)
  · exact .inr (.inr (.inl ⟨h1, h2⟩))
  · exact .inr (.inr (.inr (.inl ⟨h1, h2, fun h => h3 ((hmem _).1 h)⟩)))
  · exact .inr (.inr (.inr (.inr ⟨h1, h2.imp_right (And.imp_right (hz h1))⟩)))

theorem heeds_percent {fl : JStr} {w p : Num} {c : JChar} : ¬ Heeds ⟨fl, w, p, ch! '%', none⟩ c := by
  rintro (⟨_, _, _, h⟩ | ⟨_, _, _, h | ⟨h, _⟩⟩ | ⟨_, h⟩ | ⟨_, h, _⟩ | ⟨_, h | ⟨h, _⟩⟩)
  · exact h rfl
  all_goals (dsimp only at h; revert h; decide)

/-- The table speaks of the calls. -/
theorem shownBy_perm {d : Directive} (h : d.Ok sampleDates) {fl : JStr} (hp : fl.Perm d.flags) (e : Entry) :
    shownBy { d with flags := fl } e = printf sampleDates sampleDateEnv d.text [e.toTraits sampleJdk] := by
  rw [printf_dir h]
  have : flagSet fl = flagSet d.flags := by
    apply Flags.ext_contains
    intro f
    rw [flagSet_contains, flagSet_contains]
    exact (same_contains hp.mem_iff).symm
  unfold shownBy Directive.context
  simp only [this]

/-- **C85 (heeded flags).** The rules are exact: a flag that they say is heeded makes a difference.  For every
directive without a date pattern, whatever its other flags, there are a width and a precision of the same kinds and
an argument for which the text with the flag is another one than without.  The one exception is `-` before a string
that is cut to nothing. -/
theorem C85_heeded (d : Directive) (hd : d.Ok sampleDates) (hdate : d.date = none) (c : JChar)
    (hc : c ∈ flagChars) (hn : c ∉ d.flags) (h : Heeds { d with flags := c :: d.flags } c)
    (hx : ¬ (c = ch! '-' ∧ CutAway d)) :
    ∃ (w p : Num) (e : Entry) (t t' : JStr), SameKind d.width w ∧ SameKind d.prec p ∧ WellBehaved e ∧
      printf sampleDates sampleDateEnv (Directive.text { d with flags := c :: d.flags, width := w, prec := p })
        [e.toTraits sampleJdk] = .ok t ∧
      printf sampleDates sampleDateEnv (Directive.text { d with width := w, prec := p }) [e.toTraits sampleJdk] =
        .ok t' ∧ t ≠ t' := by
  obtain ⟨fl0, hperm, hsub⟩ := hd.noRepeat.subperm (fun x hx => hd.flagsOk x hx)
  obtain ⟨fl, w, p, conv, date⟩ := d
  simp only at hdate hn hperm
  subst hdate
  have hmem : ∀ x, x ∈ fl0 ↔ x ∈ fl := fun x => hperm.mem_iff
  obtain ⟨w0, hw0, hwk, hwo, hwa⟩ := width_row c hd.width
  have hheeds : Heeds ⟨c :: fl0, w0, showingPrec c p, conv, none⟩ c :=
    heeds_row (fun x => by simp only [List.mem_cons, hmem]) hwa h
  have hx' : ¬ (c = ch! '-' ∧ conv ∈ js! "sS" ∧ showingPrec c p = .digits (js! "0")) := by
    rintro ⟨rfl, h2, h3⟩
    refine hx ⟨rfl, h2, ?_⟩
    cases p with
    | absent => cases h3
    | star => cases h3
    | digits ds =>
      refine ⟨ds, rfl, ?_⟩
      by_contra hne
      rw [show showingPrec _ (.digits ds) = .digits (js! "3") from if_neg hne] at h3
      cases h3
  have key := differ_table conv hd.conv fl0 (List.mem_sublists.2 hsub) c hc (fun h => hn ((hmem c).1 h)) w0 hw0
    (showingPrec c p) (prec_mem c p) hx' hheeds
  have hb : WellBehaved (showing conv) := by
    unfold showing
    split_ifs <;> trivial
  have hpok : (showingPrec c p).Ok := by
    have := prec_mem c p
    simp only [List.mem_cons, List.not_mem_nil, or_false] at this
    rcases this with h | h | h <;> rw [h]
    · trivial
    · exact ⟨by simp [IsDigit], by decide⟩
    · exact ⟨by simp [IsDigit], by decide⟩
  have hnp : conv ≠ ch! '%' := by
    rintro rfl
    exact heeds_percent h
  have ok1 : Directive.Ok sampleDates ⟨c :: fl, showingWidth c w0, showingPrec c p, conv, none⟩ :=
    ⟨by
      intro x hx
      rcases List.mem_cons.1 hx with rfl | hx
      · exact hc
      · exact hd.flagsOk x hx, List.nodup_cons.2 ⟨hn, hd.noRepeat⟩, hwo, hpok, hd.conv, (by rintro _ ⟨⟩),
      fun h => absurd h hnp⟩
  have ok2 : Directive.Ok sampleDates ⟨fl, showingWidth c w0, showingPrec c p, conv, none⟩ :=
    ⟨hd.flagsOk, hd.noRepeat, hwo, hpok, hd.conv, (by rintro _ ⟨⟩), fun h => absurd h hnp⟩
  have e1 := shownBy_perm ok1 (fl := c :: fl0) (List.Perm.cons c hperm)
  have e2 := shownBy_perm ok2 (fl := fl0) hperm
  dsimp only at e1 e2
  unfold differ at key
  rw [e1, e2] at key
  split at key
  · rename_i t t' h1 h2
    exact ⟨showingWidth c w0, showingPrec c p, _, t, t', hwk, prec_kind c p, hb, h1, h2, by simpa using key⟩
  · cases key

/-- The exception: `-` before a string that is cut to nothing is not heeded, and neither is any other flag. -/
theorem C85_cut_away (dates : DateSyntax) (env : DateEnv) (jdk : JdkEnv) (d : Directive) (h : d.Ok dates)
    (hp : d.Plain) (hc : d.conv = ch! 's') (ds : JStr) (h0 : d.prec = .digits ds) (hz : decimalValue ds = 0)
    (fl : JStr) (h' : Directive.Ok dates { d with flags := fl }) (e : Entry) (r : Res JStr)
    (hr : TextReading jdk e r) (rest : List Traits) :
    printf dates env (Directive.text { d with flags := fl }) (e.toTraits jdk :: rest) =
      printf dates env d.text (e.toTraits jdk :: rest) := by
  rw [C54_s dates env jdk _ h' ⟨hp.1, hp.2⟩ hc e r hr rest, C54_s dates env jdk d h hp hc e r hr rest]
  have hcut : ∀ s, cut d.prec.precision s = [] := by
    intro s
    simp [h0, Num.precision, cut, hz]
  congr 1
  funext s
  dsimp only
  rw [hcut]
  unfold Directive.padded padded
  split <;> split <;> simp

-- `+` beats the space, `-` beats `0`: `%+ -09d` is `%+-9d`, for every argument
example (v : BitVec 32) : printf sampleDates sampleDateEnv (js! "%+ -09d") [intArg v] =
    printf sampleDates sampleDateEnv (js! "%+-9d") [intArg v] := by
  have hok : Directive.Ok sampleDates ⟨js! "+ -0", .digits (js! "9"), .absent, ch! 'd', none⟩ :=
    ⟨by decide, by decide, ⟨by decide, by decide, by
      intro x hx
      simp only [List.mem_singleton] at hx
      subst hx
      unfold IsDigit; omega, by decide⟩, trivial, by decide, by rintro _ ⟨⟩, by decide⟩
  exact (C85_normal sampleDates sampleDateEnv sampleJdk _ _ [] [] (reading_dir hok) (by decide)
    [.prim (.int v)] (by intro e he; simp only [List.mem_singleton] at he; subst he; trivial)).symm

-- no flag is heeded by `%n` and `%%`, and `#` is not heeded by `%a`, `%u` and `%d`
example : (∀ c ∈ flagChars, ¬ Heeds ⟨flagChars, .star, .star, ch! 'n', none⟩ c) ∧
    ∀ conv ∈ js! "aAudi", ∀ w p, ¬ Heeds ⟨flagChars, w, p, conv, none⟩ (ch! '#') := by
  refine ⟨by decide, ?_⟩
  intro conv hc w p h
  simp only [List.mem_cons, List.not_mem_nil, or_false] at hc
  rcases hc with rfl | rfl | rfl | rfl | rfl <;> revert h <;> simp [Heeds]
-- the exception is one: without it `-` would be heeded by `%-9.0s`
example : Heeds ⟨js! "-", .digits (js! "9"), .digits (js! "0"), ch! 's', none⟩ (ch! '-') ∧
    CutAway ⟨js! "-", .digits (js! "9"), .digits (js! "0"), ch! 's', none⟩ :=
  ⟨by decide, by decide, _, rfl, rfl⟩
-- a flag that is heeded, with the arguments that show it
example : Heeds ⟨js! "#", .absent, .digits (js! "0"), ch! 'f', none⟩ (ch! '#') ∧
    differ ⟨js! "#", .absent, .digits (js! "0"), ch! 'f', none⟩ ⟨[], .absent, .digits (js! "0"), ch! 'f', none⟩
      (showing (ch! 'f')) = true := ⟨by decide, by decide +kernel⟩

end FastPrintf
