/-
The semantics of whole format strings: C54 (every argument under `%s` and `%p`) and C55 (what a call
prints, or throws, for any format string and any arguments).
-/
import Verif.Spec.Semantics
import Verif.Props.Readings
import Verif.Props.Star
import Verif.Props.Text
import Verif.Props.Hex
import Verif.Props.Floating
import Verif.Props.BigDecimal

namespace FastPrintf
open Spec DefaultAppender

/-! ### `%s` -/

theorem Spec.TextReading.asSeq {jdk : JdkEnv} {e : Entry} {r : Res JStr} (h : TextReading jdk e r) :
    (∀ s, r = .ok s → ∃ q, (e.toTraits jdk).asSeq = .ok q ∧ q.WF ∧ q.flat.length = 1 ∧ q.text = s) ∧
    (∀ err, r = .error err → (e.toTraits jdk).asSeq = .error err) := by
  have known : ∀ s, r = .ok s → (e.toTraits jdk).asSeq = .ok (Seq.wrap s) →
      (∀ s, r = .ok s → ∃ q, (e.toTraits jdk).asSeq = .ok q ∧ q.WF ∧ q.flat.length = 1 ∧ q.text = s) ∧
      (∀ err, r = .error err → (e.toTraits jdk).asSeq = .error err) := by
    intro s hs hq
    subst hs
    exact ⟨by rintro s' ⟨⟩; exact ⟨_, hq, Seq.wrap_wf _, rfl, Seq.wrap_text _⟩, by rintro err ⟨⟩⟩
  cases h with
  | shows h => exact ⟨by rintro s ⟨⟩; exact h.asSeq jdk, by rintro err ⟨⟩⟩
  | float h => cases h <;> exact known _ rfl rfl
  | double h => cases h <;> exact known _ rfl rfl
  | bigDecimal u s id => exact known _ rfl rfl
  | temporal t s id =>
    cases r with
    | ok s => exact known _ rfl rfl
    | error err => exact ⟨by rintro s ⟨⟩, by rintro err ⟨⟩; rfl⟩
  | object k s id =>
    cases r with
    | ok s => exact known _ rfl rfl
    | error err => exact ⟨by rintro s ⟨⟩, by rintro err ⟨⟩; rfl⟩

/-- **C54.** `%s` prints the text of the argument, whatever its type, cut to the precision and padded
with spaces to the width; if `toString` throws, so does the call, with the same exception. -/
theorem C54_s (dates : DateSyntax) (env : DateEnv) (jdk : JdkEnv) (d : Directive) (h : d.Ok dates)
    (hp : d.Plain) (hc : d.conv = ch! 's') (e : Entry) (r : Res JStr) (hr : TextReading jdk e r)
    (rest : List Traits) :
    printf dates env d.text (e.toTraits jdk :: rest) =
      r.map fun s => d.padded (cut d.prec.precision s) := by
  cases r with
  | error err =>
    rw [printf_plain h hp, hc, show convOf (ch! 's') = .s from rfl]
    simp only [formatterFor, SeqFormatter.s, hr.asSeq.2 err rfl]
    rfl
  | ok s =>
    obtain ⟨q, h1, h2, h3, h4⟩ := hr.asSeq.1 s rfl
    obtain ⟨r, n, r1, r2, _, r4, r5⟩ := SeqFormatter.s_sane hp.precOK h1 h2
    obtain ⟨r6, _⟩ := r5 (.inl h3)
    have hf : formatterFor env (convOf d.conv) d.context (e.toTraits jdk) = .ok r := by
      rw [hc]; exact r1
    rw [printf_plain_ok h hp hf r2, r4, r6, SeqFormatter.fieldBy_eq, field_padded, hp.width_eq, left_eq,
      hp.prec_eq, h4]
    simp only [Except.map, Directive.padded, cut]
    congr 2
    cases d.prec.precision with
    | none => simp
    | some p => rfl

theorem cut_eq_take (p : Option Nat) (s : JStr) : s.take (p.getD s.length) = cut p s := by
  cases p <;> simp [cut]

/-- **C54 (ropes).** The text is right; the padding is that of the length the cut rope reports. -/
theorem C54_rope (dates : DateSyntax) (env : DateEnv) (jdk : JdkEnv) (d : Directive) (h : d.Ok dates)
    (hp : d.Plain) (hc : d.conv = ch! 's') (q : Seq) (hq : q.WF) (id : Identity) (rest : List Traits) :
    printf dates env d.text ((Entry.ref (.seq q id)).toTraits jdk :: rest) =
      .ok (padWith (ch! '-' ∈ d.flags) false (d.width.width - reportedLength q d.prec.precision) []
        (cut d.prec.precision q.text)) := by
  have h1 : ((Entry.ref (.seq q id)).toTraits jdk).asSeq = .ok q := rfl
  obtain ⟨r, r1, r2, r3⟩ := SeqFormatter.s_exact hp.precOK h1 hq
  have hf : formatterFor env (convOf d.conv) d.context ((Entry.ref (.seq q id)).toTraits jdk) = .ok r := by
    rw [hc]; exact r1
  rw [hp.prec_eq, cut_eq_take] at r3
  rw [printf_plain_ok h hp hf r2, r3, hp.width_eq]
  unfold SeqFormatter.fieldBy padWith
  by_cases hm : ch! '-' ∈ d.flags <;> simp [Directive.context, flagSet, hm]

/-- The padding is what the width asks for unless the precision cuts a rope of several pieces. -/
theorem C54_rope_exact (q : Seq) (p : Option Nat) (h : cut p q.text = q.text ∨ ∃ a, q = .atom a) :
    reportedLength q p = (cut p q.text).length := by
  cases p with
  | none => rfl
  | some p =>
    simp only [reportedLength, cut]
    by_cases hp : p < q.text.length
    · rw [if_pos hp, List.length_take]
      rcases h with h | ⟨a, rfl⟩
      · have := congrArg List.length h
        simp only [cut, List.length_take] at this; omega
      · have ht : (Seq.atom a).text = a.text := rfl
        rw [ht] at hp ⊢
        simp only [leafTexts, cutLength]
        rw [if_pos (by omega)]; omega
    · rw [if_neg hp, List.length_take]; omega

/-- **C54 (completeness).** Every argument is a rope or in the table. -/
theorem C54_complete (jdk : JdkEnv) (e : Entry) (h : Listed e) :
    (∃ r, TextReading jdk e r) ∨ ∃ q id, e = .ref (.seq q id) := by
  refine h.cases ?_ ?_ ?_ ?_ ?_ ?_ ?_ ?_
  · intro x hx
    by_cases hb : ∃ b, x = .bool b
    · obtain ⟨b, rfl⟩ := hb; exact .inl ⟨_, .shows (.bool hx)⟩
    · by_cases hc : ∃ c, x = .char c
      · obtain ⟨c, rfl⟩ := hc; exact .inl ⟨_, .shows (.char hx)⟩
      · exact .inl ⟨_, .shows (.number hx (fun b hb' => hb ⟨b, hb'⟩) (fun c hc' => hc ⟨c, hc'⟩)
          (decimalText_intToString _))⟩
  · intro b hb; exact .inl ⟨_, .float hb⟩
  · intro b hb; exact .inl ⟨_, .double hb⟩
  · intro s hs
    cases hs with
    | string s id => exact .inl ⟨_, .shows (.string s id)⟩
    | charSeq s id => exact .inl ⟨_, .shows (.charSeq s id)⟩
    | seq hq id => exact .inr ⟨_, id, rfl⟩
  · rintro u s id rfl; exact .inl ⟨_, .bigDecimal u s id⟩
  · rintro t s id rfl; exact .inl ⟨_, .temporal t s id⟩
  · rintro k s id rfl; exact .inl ⟨_, .object k s id⟩
  · rintro rfl; exact .inl ⟨_, .shows .null⟩

/-- **C54 (`%p`).** Every argument has its text, or is refused, under `%p`. -/
theorem C54_p (dates : DateSyntax) (env : DateEnv) (jdk : JdkEnv) (d : Directive) (h : d.Ok dates)
    (hp : d.Plain) (hc : d.conv = ch! 'p') (e : Entry) (hl : Listed e) (rest : List Traits) :
    ∃ r, PointerText e r ∧ printf dates env d.text (e.toTraits jdk :: rest) = r.map d.padded := by
  cases e with
  | prim p => exact ⟨_, .prim p, (C37_p dates env jdk d h hp hc rest).1 p⟩
  | ref o =>
    have known : ∀ id, identity? o = some id → ∃ r, PointerText (.ref o) r ∧
        printf dates env d.text ((Entry.ref o).toTraits jdk :: rest) = r.map d.padded := by
      intro id hid
      obtain ⟨hex, h1, h2⟩ := (C37_p dates env jdk d h hp hc rest).2 o id hid
      exact ⟨_, .object hid h1, h2⟩
    cases o with
    | null => exact ⟨_, .null, (C37_null_shown dates env jdk d h hp rest).2 hc⟩
    | traits t => exact absurd hl (by simp [Listed])
    | boxed p id => exact known id rfl
    | string s id => exact known id rfl
    | seq q id => exact known id rfl
    | charSeq s id => exact known id rfl
    | bigInteger v id => exact known id rfl
    | bigDecimal u s id => exact known id rfl
    | temporal t s id => exact known id rfl
    | object k s id => exact known id rfl

-- the exception of a `toString` comes out
example : printf sampleDates sampleDateEnv (js! "%s")
    [(Entry.ref (.object .other (.error .illegalState) someId)).toTraits sampleJdk] = .error .illegalState := rfl
-- a rope of two pieces: cut in the second, only the part taken from it is counted
example : printf sampleDates sampleDateEnv (js! "[%6.3s|%6.2s|%6s]")
    (List.replicate 3 ((Entry.ref (.seq (.concat (.atom (.strView (js! "ab") 0 2 false)) (.atom (.strView (js! "cde") 0 3 false)) 5 2)
      someId)).toTraits sampleJdk)) = .ok (js! "[     abc|    ab| abcde]") := rfl
-- a date is shown by its own text, cut and padded
example : printf sampleDates sampleDateEnv (js! "[%-6.4s]")
    [(Entry.ref (.object (.utilDate 5#64) (.ok (js! "Thu Jan 1")) someId)).toTraits sampleJdk] =
      .ok (js! "[Thu   ]") := rfl
example : (ch! 's') ∈ convChars ∧ (bare (ch! 's')).Ok sampleDates ∧ (bare (ch! 's')).Plain :=
  ⟨by decide, bare_ok (by decide) (by decide), by simp [bare], by simp [bare]⟩

/-! ### The texts of integers -/

theorem dText_signed (fl : Flags) (w : Nat) (p : Option Nat) (v : Int) :
    SignedNumberText fl w p v (dText fl w p v) := by
  have hC := dText_C fl w p v
  unfold SignedNumberText
  by_cases h : v = 0 ∧ p = some 0 ∧ fl.leadingSpace = true ∧ fl.plus = false ∧ w = 0
  · rw [if_pos h]
    obtain ⟨rfl, rfl, _, h4, rfl⟩ := h
    simp [dText, h4, field]
  · rw [if_neg h]
    exact hC.2 h

theorem uText_unsigned (c : UConv) (fl : Flags) (w : Nat) (p : Option Nat) (n : Nat) :
    UnsignedNumberText c fl w p n (uText c fl w p n) := by
  by_cases h : n = 0 ∧ OddZero c fl w p
  · refine .inl ⟨h.1, h.2, ?_⟩
    obtain ⟨rfl, ha, hz⟩ := h
    have hz0 : ∀ b, toRadix b 0 = [48] := fun b => rfl
    have rep : ∀ k, List.replicate k (48 : Nat) ++ [48] = List.replicate (k + 1) 48 :=
      fun k => (List.replicate_succ' ..).symm
    unfold oddZeroText uText
    rcases hz with ⟨rfl, hp⟩ | ⟨hc, rfl, hzp, hl, hw⟩
    · rcases hp with rfl | ⟨k, rfl, hk⟩
      · simp [padded]
      · rw [if_neg (by simp; omega), hz0]
        simp only [ha, ne_eq, not_true_eq_false, false_and, if_false, List.nil_append, and_self, if_true,
          List.length_singleton, rep, field_padded]
        congr 2; omega
    · rw [if_neg (by simp), hz0]
      simp only [ha, hzp, hl, ne_eq, not_true_eq_false, false_and, if_false, List.nil_append, and_self,
        if_true, List.length_singleton, rep, field_padded, Bool.false_eq_true, not_false_eq_true]
      cases c with
      | u => exact absurd rfl hc
      | o =>
        have : (UConv.o.pre).length = 1 := rfl
        simp only [this]
        rw [if_neg (by simp)]
        congr 2; omega
      | x =>
        have : (UConv.x.pre).length = 2 := rfl
        simp only [this, if_true]
        congr 2; omega
  · exact .inr ⟨h, (uText_C c fl w p n).2 h⟩

/-! ### One directive -/

/-- The arguments that C55 is about: in the tables, ropes being well built, and the scales of big numbers
not at the edge of the `int` range. -/
structure Spec.Covered (e : Entry) : Prop where
  listed : Listed e
  behaved : WellBehaved e
  scale : ∀ u s n, IsBig e u s → DigitCount u.natAbs n → ScaleOk n s

theorem Spec.Integral.given_exists (x : Integral) : ∃ e : Entry, x.Given e := by
  cases x with
  | big v => exact ⟨_, .big v someId⟩
  | _ => exact ⟨_, .prim rfl⟩

theorem prints_whole {dates : DateSyntax} (env : DateEnv) {jdk : JdkEnv} {d : Directive} (h : d.Ok dates)
    (hp : d.Plain) (hc : d.conv ∈ js! "diuox") {e : Entry} (he : Covered e) :
    Prints jdk env d e (printf dates env d.text [e.toTraits jdk]) := by
  have hci : d.conv ∈ intConvs := by
    revert hc; generalize d.conv = c; revert c
    intro c hc
    simp only [intConvs, List.mem_cons, List.not_mem_nil, or_false] at hc ⊢
    omega
  have given : ∀ x, WholeReading jdk e (.ok x) → ∀ e' : Entry, x.Given e' →
      printf dates env d.text [e.toTraits jdk] = printf dates env d.text [e'.toTraits jdk] →
      Prints jdk env d e (printf dates env d.text [e.toTraits jdk]) := by
    intro x hr e' hx heq
    rw [heq]
    have hu : ∀ c : UConv, d.conv = c.char → Prints jdk env d e (printf dates env d.text [e'.toTraits jdk]) := by
      intro c hcc
      cases hn : x.unsigned with
      | some n =>
        rw [printf_u env jdk h hp hcc hx hn]
        exact .unsigned hcc hr hn (uText_unsigned ..)
      | none =>
        cases x with
        | big v =>
          have hv : v < 0 := by
            by_contra hv
            simp [Integral.unsigned, hv] at hn
          cases hx with
          | prim hq => cases hq
          | boxed hq id => cases hq
          | big v id =>
            rw [C14_negative_big_rejected dates env jdk d h hp c hcc v hv id]
            exact .negative hcc hr hn
        | _ => simp [Integral.unsigned] at hn
    simp only [List.mem_cons, List.not_mem_nil, or_false] at hc
    rcases hc with hc | hc | hc | hc | hc
    · rw [printf_d env jdk h hp (.inl hc) hx]
      exact .signed (.inl hc) hr (dText_signed ..)
    · rw [printf_d env jdk h hp (.inr hc) hx]
      exact .signed (.inr hc) hr (dText_signed ..)
    · exact hu .u hc
    · exact hu .o hc
    · exact hu .x hc
  rcases C48_complete jdk e he.listed with ⟨x, hx⟩ | ⟨r, hr⟩
  · exact given x (.given hx) e hx rfl
  · cases r with
    | error err =>
      rw [C48_no_integer dates env jdk d h hp hci e err hr]
      exact .noInteger hc (.other hr)
    | ok x =>
      obtain ⟨e', hx⟩ := x.given_exists
      exact given x (.other hr) e' hx (C48_read_as_integer dates env jdk d h hp hci e x hr e' hx [])

theorem field_pad {d : Directive} (body : JStr) :
    field (flagSet d.flags).leftJustify false d.width.width [] body = d.padded body := by
  rw [field_padded]
  have : (flagSet d.flags).leftJustify = decide (ch! '-' ∈ d.flags) := by simp [flagSet]
  rw [this]; rfl

theorem floatText_double {dates : DateSyntax} (env : DateEnv) {jdk : JdkEnv} {d : Directive} (h : d.Ok dates)
    (hp : d.Plain) (hc : d.conv ∈ floatConvs) (b : BitVec 64) :
    FloatText d (.double b) (printf dates env d.text [(Entry.prim (.double b)).toTraits jdk]) := by
  by_cases hf : finite b
  · simp only [floatConvs, List.mem_cons, List.not_mem_nil, or_false] at hc
    rcases hc with hc | hc | hc | hc
    · cases hpr : d.prec.precision with
      | none =>
        obtain ⟨fp, x, body, h1, h2, h3, h4, h5⟩ :=
          C27_exact dates env jdk d h hp hc hpr b hf _ (.prim b) []
        rw [h1]
        exact .hexExact hc hf (by simp [hpr]) h2 h3 h4 (fun _ => h5) (by simp [hpr])
      | some p =>
        by_cases hz : magnitude b = 0 ∨ 13 ≤ p
        · obtain ⟨fp, x, body, h1, h2, h3, h4, h5⟩ :=
            C27_exact_padded dates env jdk d h hp hc p hpr b hf hz _ (.prim b) []
          rw [h1]
          exact .hexExact hc hf (by rintro p' hp'; rw [hpr] at hp'; cases hp'; exact hz) h2 h3 h4
            (by simp [hpr]) (by rintro p' hp'; rw [hpr] at hp'; cases hp'; exact h5)
        · push Not at hz
          obtain ⟨fp, x, body, h1, h2, h3, h4⟩ :=
            C27_rounded dates env jdk d h hp hc p hpr (by omega) b hf hz.1 _ (.prim b) []
          rw [h1]
          exact .hexRounded hc hf hz.1 hpr (by omega) h2 h3 h4
    · obtain ⟨m, ex, h1, ⟨hz, h2, rfl⟩ | ⟨q, M, x, hz, h2, h3, h4, h5⟩⟩ :=
        C24_e dates env jdk d h hp hc b hf _ (.prim b) []
      · rw [h1]; exact .scientificZero hc hf hz h2
      · rw [h1]; exact .scientific hc hf hz h2 h3 h4 h5
    · obtain ⟨q, body, h1, h2, h3⟩ := C23_f dates env jdk d h hp hc b hf _ (.prim b) []
      rw [h1]; exact .fixed hc hf h2 h3
    · obtain ⟨body, h1, ⟨hz, h2⟩ | ⟨q, M, x, hz, h2, h3, l, n, h4, h5, h6⟩⟩ :=
        C25_g dates env jdk d h hp hc b hf _ (.prim b) []
      · rw [h1]; exact .generalZero hc hf hz h2
      · rw [h1]; exact .general hc hf hz h2 h3 h4 h5 h6
  · rw [C30_nonfinite dates env jdk d h hp hc b hf _ (.prim b), field_pad]
    have : (flagSet d.flags).plus = decide (ch! '+' ∈ d.flags) := by simp [flagSet]
    rw [this]
    exact .nonFinite hf

theorem floatText_big {dates : DateSyntax} (env : DateEnv) {jdk : JdkEnv} {d : Directive} (h : d.Ok dates)
    (hp : d.Plain) (hc : d.conv ∈ floatConvs) {u s : Int} (id : Identity)
    (hs : ∀ n, DigitCount u.natAbs n → ScaleOk n s) :
    FloatText d (.big u s) (printf dates env d.text [(Entry.ref (.bigDecimal u s id)).toTraits jdk]) := by
  obtain ⟨n, hn⟩ := DigitCount.exists u.natAbs
  have hone : u = 0 → ScaleOk 1 s := by
    rintro rfl
    refine hs 1 ⟨js! "0", ?_, rfl⟩
    unfold Shortest IsNumeral NoExtraZero; decide
  simp only [floatConvs, List.mem_cons, List.not_mem_nil, or_false] at hc
  rcases hc with hc | hc | hc | hc
  · rw [C27_big dates env jdk d h hp hc _ (.inl ⟨u, s, id, rfl⟩)]
    exact .bigHex hc u s
  · by_cases hz : u = 0
    · subst hz
      obtain ⟨m, ex, h1, h2, h3⟩ := C29_e_zero dates env jdk d h hp hc s _ (.decimal 0 s id) (hone rfl) []
      rw [h1]; exact .bigScientificZero hc h2 h3
    · obtain ⟨m, ex, M, x, h1, h2, h3, h4⟩ :=
        C29_e dates env jdk d h hp hc u s _ (.decimal u s id) n hn (hs n hn) hz []
      rw [h1]; exact .bigScientific hc hz hn h2 h3 h4
  · by_cases hz : u ≠ 0 ∨ 0 ≤ s
    · obtain ⟨body, h1, h2⟩ := C28_f dates env jdk d h hp hc u s _ (.decimal u s id) n hn (hs n hn) hz []
      rw [h1]; exact .bigFixed hc hz h2
    · push Not at hz
      obtain ⟨rfl, hneg⟩ := hz
      rw [C28_zero_negative_scale dates env jdk d h hp hc s _ (.decimal 0 s id) (hone rfl) hneg]
      exact .bigFixedZero hc hneg
  · by_cases hz : u = 0
    · subst hz
      obtain ⟨body, h1, h4, h5⟩ :=
        C29_g_zero dates env jdk d h hp hc s _ (.decimal 0 s id) (hone rfl) []
      rw [h1]; exact .bigGeneralZero hc h4 h5
    · obtain ⟨body, x0, M, x, h1, h5, h6, h7, h8⟩ :=
        C29_g dates env jdk d h hp hc u s _ (.decimal u s id) n hn (hs n hn) hz []
      rw [h1]; exact .bigGeneral hc hz hn h5 h6 h7 h8

theorem prints_floating {dates : DateSyntax} (env : DateEnv) {jdk : JdkEnv} (hj : InstantsFit jdk)
    {d : Directive} (h : d.Ok dates) (hp : d.Plain) (hc : d.conv ∈ floatConvs) {e : Entry} (he : Covered e) :
    Prints jdk env d e (printf dates env d.text [e.toTraits jdk]) := by
  have hca : d.conv ∈ allFloatConvs := by
    simp only [floatConvs, allFloatConvs, List.mem_cons, List.not_mem_nil, or_false] at hc ⊢
    omega
  rcases C49_complete jdk hj e he.listed with ⟨b, hb⟩ | ⟨u, s, id, rfl⟩ | ⟨r, hr⟩
  · refine .floating hc (.double hb) ?_
    cases hb with
    | prim b => exact floatText_double env h hp hc b
    | boxed b id =>
      have := floatText_double env (jdk := jdk) h hp hc b
      rw [printf_plain h hp] at this ⊢
      have heq : formatterFor env (convOf d.conv) d.context ((Entry.ref (.boxed (.double b) id)).toTraits jdk) =
          formatterFor env (convOf d.conv) d.context ((Entry.prim (.double b)).toTraits jdk) := by
        obtain ⟨k, hk, _⟩ := formatterFor_float (env := env) hca d.context
        rw [hk, hk]; rfl
      rw [heq]; exact this
  · exact .floating hc (.big u s id) (floatText_big env h hp hc id
      (fun n hn => he.scale u s n (.decimal u s id) hn))
  · cases r with
    | error err =>
      rw [C49_no_double dates env jdk d h hp hca e err hr]
      exact .noFloat hc (.other hr)
    | ok x =>
      refine .floating hc (.other hr) ?_
      cases x with
      | double b =>
        rw [C49_read_as_double dates env jdk d h hp hca e b hr _ (.prim b)]
        exact floatText_double env h hp hc b
      | big u s =>
        rw [C49_read_as_bigDecimal dates env jdk d h hp hca e u s hr someId]
        refine floatText_big env h hp hc someId (fun n hn => ?_)
        cases hr with
        | bigInteger v id => exact he.scale u 0 n (.integer u id) hn

theorem prints_lower {dates : DateSyntax} (env : DateEnv) {jdk : JdkEnv} (hj : InstantsFit jdk)
    {d : Directive} (h : d.Ok dates) (hp : d.Plain) (hc : d.conv ∈ js! "diuoxaefgscptn%") {e : Entry}
    (he : Covered e) : Prints jdk env d e (printf dates env d.text [e.toTraits jdk]) := by
  by_cases h1 : d.conv ∈ js! "diuox"
  · exact prints_whole env h hp h1 he
  by_cases h2 : d.conv ∈ floatConvs
  · exact prints_floating env hj h hp h2 he
  simp only [floatConvs, List.mem_cons, List.not_mem_nil, or_false, not_or] at hc h1 h2
  have hc : d.conv = ch! 's' ∨ d.conv = ch! 'c' ∨ d.conv = ch! 'p' ∨ d.conv = ch! 't' ∨ d.conv = ch! 'n' ∨
      d.conv = ch! '%' := by omega
  rcases hc with hc | hc | hc | hc | hc | hc
  · rcases C54_complete jdk e he.listed with ⟨r, hr⟩ | ⟨q, id, rfl⟩
    · rw [C54_s dates env jdk d h hp hc e r hr]
      exact .text hc hr
    · have h1 := C54_rope dates env jdk d h hp hc q he.behaved id []
      rw [h1]
      exact .rope hc id
  · obtain ⟨r, hr⟩ := C51_complete jdk e he.listed
    rw [C51_c dates env jdk d h hp hc e r hr]
    exact .char hc hr
  · obtain ⟨r, hr, h1⟩ := C54_p dates env jdk d h hp hc e he.listed []
    rw [h1]
    exact .pointer hc hr
  · obtain ⟨⟨r, hr⟩, hfm⟩ := C52_complete e he.listed
    cases r with
    | error err =>
      rw [C52_no_time dates env jdk d h hp hc e err hr]
      exact .noTime hc hr
    | ok t =>
      obtain ⟨r', hr'⟩ := hfm d.date t
      cases r' with
      | none =>
        rw [C52_no_formatter dates env jdk d h hp hc e t hr hr']
        exact .noFormat hc hr hr'
      | some ft =>
        obtain ⟨f, t'⟩ := ft
        rw [C52_t dates env jdk d h hp hc e t hr f t' hr']
        exact .time hc hr hr'
  · have : printf dates env d.text [e.toTraits jdk] = .ok [] := by
      rw [printf_plain h hp, hc]; rfl
    rw [this]; exact .nothing hc
  · have : printf dates env d.text [e.toTraits jdk] = .ok (js! "%") := by
      rw [printf_plain h hp, hc]; rfl
    rw [this]; exact .percent hc

/-- **C55 (one directive).** What a directive without `*` prints for an argument, or throws, is what the
tables say. -/
theorem C55_directive (dates : DateSyntax) (env : DateEnv) (jdk : JdkEnv) (hj : InstantsFit jdk)
    (d : Directive) (h : d.Ok dates) (hp : d.Plain) (e : Entry) (he : Covered e) :
    Prints jdk env d e (printf dates env d.text [e.toTraits jdk]) := by
  by_cases hc : d.conv ∈ js! "diuoxaefgscptn%"
  · exact prints_lower env hj h hp hc he
  have key : ∀ c ∈ convChars, c ∉ js! "diuoxaefgscptn%" → ∃ lo, (lo, c) ∈ casePairs ∧
      lo ∈ js! "diuoxaefgscptn%" ∧ lo ∈ convChars ∧ lo ≠ ch! '%' ∧ (IsDateConv c → IsDateConv lo) := by
    have : ∀ c ∈ convChars, c ∉ js! "diuoxaefgscptn%" → ∃ p ∈ casePairs, p.2 = c ∧
        p.1 ∈ js! "diuoxaefgscptn%" ∧ p.1 ∈ convChars ∧ p.1 ≠ ch! '%' ∧
        ((c = ch! 't' ∨ c = ch! 'T') → (p.1 = ch! 't' ∨ p.1 = ch! 'T')) := by decide
    intro c h1 h2
    obtain ⟨p, h3, rfl, h4⟩ := this c h1 h2
    exact ⟨p.1, h3, h4⟩
  obtain ⟨lo, k1, k2, k3, k4, k5⟩ := key d.conv h.conv hc
  have hok : ({ d with conv := lo } : Directive).Ok dates :=
    ⟨h.flagsOk, h.noRepeat, h.width, h.prec, k3,
      fun p hp => ⟨k5 (h.date p hp).1, (h.date p hp).2⟩, fun hc => absurd hc k4⟩
  have hup := upper_case_enough dates env jdk { d with conv := lo } hok d.conv k1 [e]
    (by simpa using he.behaved) (by simp [Piece.arity, hp.width, hp.prec])
  have hd : ({ ({ d with conv := lo } : Directive) with conv := d.conv } : Directive) = d := rfl
  rw [hd] at hup
  simp only [List.map_cons, List.map_nil] at hup
  rw [hup]
  exact .upper k1 (prints_lower env hj hok ⟨hp.width, hp.prec⟩ k2 he)

/-! ### Stars -/

/-- The letter in the messages. -/
theorem convOf_char {c : JChar} (h : c ∈ convChars) : (convOf c).char = shownConv c :=
  (by decide : ∀ c ∈ convChars, (convOf c).char = shownConv c) c h

/-- A directive as written or with its stars replaced: well formed, but it may be a lone `%`. -/
structure Spec.Directive.Formed (dates : DateSyntax) (d : Directive) : Prop where
  flagsOk : ∀ c ∈ d.flags, c ∈ flagChars
  noRepeat : d.flags.Nodup
  width : WidthOk d.width
  prec : d.prec.Ok
  conv : d.conv ∈ convChars
  date : ∀ p, d.date = some p → IsDateConv d.conv ∧ DateOk dates p

theorem Spec.Directive.Ok.formed {dates : DateSyntax} {d : Directive} (h : d.Ok dates) : d.Formed dates :=
  ⟨h.flagsOk, h.noRepeat, h.width, h.prec, h.conv, h.date⟩

theorem Spec.Directive.Formed.newWidth {dates : DateSyntax} {d : Directive} (h : d.Formed dates) {w : Num}
    (hw : WidthOk w) : { d with width := w }.Formed dates :=
  ⟨h.flagsOk, h.noRepeat, hw, h.prec, h.conv, h.date⟩

theorem Spec.Directive.Formed.newFlags {dates : DateSyntax} {d : Directive} (h : d.Formed dates) {w : Num}
    (hw : WidthOk w) : { d with flags := withMinus d.flags, width := w }.Formed dates := by
  have hf : ({ d with conv := ch! 's', date := none } : Directive).Ok dates :=
    ⟨h.flagsOk, h.noRepeat, h.width, h.prec, by dsimp only; decide, by simp,
      fun hc => absurd hc (by dsimp only; decide)⟩
  have := Directive.Ok.newFlags hf hw
  exact ⟨this.flagsOk, this.noRepeat, hw, h.prec, h.conv, h.date⟩

theorem Spec.Directive.Formed.newPrec {dates : DateSyntax} {d : Directive} (h : d.Formed dates) {p : Num}
    (hp : p.Ok) : { d with prec := p }.Formed dates :=
  ⟨h.flagsOk, h.noRepeat, h.width, hp, h.conv, h.date⟩

/-- What `Settles` says, in terms of the appender. -/
def Settled (dates : DateSyntax) (env : DateEnv) (jdk : JdkEnv) (d : Directive) (es : List Entry)
    (x : Res (Seq × List Traits)) : Prop :=
  (∃ err, Settles jdk d es (.error err) ∧ x = .error err) ∨
  ∃ d' es', Settles jdk d es (.ok (d', es')) ∧ d'.Formed dates ∧ d'.Plain ∧ d'.conv = d.conv ∧
    (∀ e ∈ es', e ∈ es) ∧ x = valueStep env (convOf d.conv) d'.context (es'.map (·.toTraits jdk))

theorem settles_prec {dates : DateSyntax} (env : DateEnv) (jdk : JdkEnv) {d : Directive}
    (h : d.Formed dates) (hw : d.width ≠ .star) {es : List Entry} (he : ∀ e ∈ es, Covered e) :
    Settled dates env jdk d es (afterWidth env (convOf d.conv) d.context (es.map (·.toTraits jdk))) := by
  by_cases hp : d.prec = .star
  · have hnp : ¬ d.Plain := fun h => h.prec hp
    cases es with
    | nil =>
      refine .inl ⟨_, .missing hnp, ?_⟩
      unfold afterWidth starPrecision FormatContext.isPrecedingPrecision
      rw [if_pos (by simp [Directive.context, hp, Num.value]), ← convOf_char h.conv]
      rfl
    | cons e es =>
      rw [List.map_cons, afterWidth_star (by simp [Directive.context, hp, Num.value])]
      obtain ⟨r, hr⟩ := C50_complete jdk e (he e (by simp)).listed
      rw [hr.int]
      cases r with
      | error err => exact .inl ⟨err, .unreadable hnp hr es, rfl⟩
      | ok n =>
        rw [bind_ok]
        by_cases hn : 0 ≤ n
        · rw [if_pos hn]
          by_cases hcap : n ≤ 65536
          · obtain ⟨ds, hd, hv⟩ := (C09_every_number_can_be_written n.toNat (by omega)).1
            refine .inr ⟨_, es, .precision hw hp hr hd (by omega) es, h.newPrec hd, ⟨hw, by simp⟩, rfl,
              fun e h => List.mem_cons_of_mem _ h, ?_⟩
            rw [setPrecision_eq (.inr (.inr (by omega))), bind_ok]
            have : n = (Num.digits ds).value := by simp only [Num.value]; omega
            rw [this]
            rfl
          · refine .inl ⟨_, .hugePrecision hw hp hr (by simp only [numberCap]; omega) es, ?_⟩
            simp only [FormatContext.setPrecision, checkValue_over (show 65536 < n by omega), bind_error]
        · rw [if_neg hn]
          refine .inr ⟨_, es, .negativePrecision hw hp hr (by omega) es, h.newPrec (p := .absent) trivial,
            ⟨hw, by simp⟩, rfl, fun e h => List.mem_cons_of_mem _ h, ?_⟩
          rw [setPrecision_eq (.inl rfl), bind_ok]
          rfl
  · exact .inr ⟨d, es, .plain ⟨hw, hp⟩ es, h, ⟨hw, hp⟩, rfl, fun e h => h,
      afterWidth_noStar (context_noStarPrec hp) _⟩

theorem settles {dates : DateSyntax} (env : DateEnv) (jdk : JdkEnv) {d : Directive}
    (h : d.Formed dates) {es : List Entry} (he : ∀ e ∈ es, Covered e) :
    Settled dates env jdk d es (append env (convOf d.conv) d.context (es.map (·.toTraits jdk))) := by
  by_cases hw : d.width = .star
  · have hnp : ¬ d.Plain := fun h => h.width hw
    cases es with
    | nil =>
      refine .inl ⟨_, .missing hnp, ?_⟩
      rw [append_eq]
      unfold starWidth FormatContext.isPrecedingWidth
      rw [if_pos (by simp [Directive.context, hw, Num.value]), ← convOf_char h.conv]
      rfl
    | cons e es =>
      have ha : ∀ v ∈ es.map (·.toTraits jdk), v.WF ∧ v.HasDigits := by
        intro v hv
        obtain ⟨a, h1, rfl⟩ := List.mem_map.1 hv
        have := (he a (List.mem_cons_of_mem _ h1)).behaved
        exact ⟨this.wf jdk, this.hasDigits jdk⟩
      have he' : ∀ a ∈ es, Covered a := fun a h1 => he a (List.mem_cons_of_mem _ h1)
      rw [List.map_cons, append_star (by simp [Directive.context, hw, Num.value])]
      obtain ⟨r, hr⟩ := C50_complete jdk e (he e (by simp)).listed
      rw [hr.int]
      cases r with
      | error err => exact .inl ⟨err, .unreadable hnp hr es, rfl⟩
      | ok n =>
        rw [bind_ok]
        obtain ⟨hlo, hhi⟩ := StarReading.range hr
        simp only [minInt, maxInt] at hlo hhi
        -- once the width is in place, the precision follows
        have go : ∀ (d1 : Directive) (c : FormatContext), d1.Formed dates → d1.width ≠ .star →
            d1.conv = d.conv → (∀ r, Settles jdk d1 es r → Settles jdk d (e :: es) r) →
            afterWidth env (convOf d.conv) c (es.map (·.toTraits jdk)) =
              afterWidth env (convOf d.conv) d1.context (es.map (·.toTraits jdk)) →
            Settled dates env jdk d (e :: es) (afterWidth env (convOf d.conv) c (es.map (·.toTraits jdk))) := by
          intro d1 c hf hne hcv hset heq
          rw [heq, ← hcv]
          rcases settles_prec env jdk hf hne he' with ⟨err, h1, h2⟩ | ⟨d', es', h1, h2, h3, h4, h5, h6⟩
          · exact .inl ⟨err, hset _ h1, h2⟩
          · exact .inr ⟨d', es', hset _ h1, h2, h3, h4.trans hcv, fun a h => List.mem_cons_of_mem _ (h5 a h),
              by rw [h6, hcv]⟩
        by_cases hn : 0 ≤ n
        · rw [if_pos hn]
          by_cases hcap : n ≤ 65536
          · rw [setWidth_eq (.inr (.inr (by omega))), bind_ok]
            by_cases h0 : n = 0
            · subst h0
              refine go { d with width := .absent } _ (h.newWidth trivial) (by simp) rfl
                (fun r hs => .width hw hr (.inl ⟨rfl, rfl⟩) hs) ?_
              refine afterWidth_padsNothing (c1 := { d.context with width := 0 })
                (c2 := { d with width := .absent }.context)
                ⟨rfl, rfl, rfl, le_refl (0 : Int), ?_, .inr ⟨.inl rfl, .inr rfl⟩⟩ (stored_value h.prec) ha
              simp only [Directive.context, Num.value, UNSET]; omega
            · obtain ⟨ds, hd, hv⟩ := (C09_every_number_can_be_written n.toNat (by omega)).2 (by omega)
              refine go { d with width := .digits ds } _ (h.newWidth hd) (by simp) rfl
                (fun r hs => .width hw hr (.inr ⟨ds, rfl, hd, by omega⟩) hs) ?_
              have : n = (Num.digits ds).value := by simp only [Num.value]; omega
              rw [this]; rfl
          · refine .inl ⟨_, .hugeWidth hw hr ?_ (by simp only [minInt]; omega) es, ?_⟩
            · rw [abs_of_nonneg hn]; simp only [numberCap]; omega
            · simp only [FormatContext.setWidth, checkValue_over (show 65536 < n by omega), bind_error,
                abs_of_nonneg hn]
        · rw [if_neg hn]
          by_cases hmin : n = -2147483648
          · subst hmin
            have hwr : wrap32 (-(-2147483648)) = PRECEDING := by decide
            rw [hwr, setWidth_eq (.inr (.inl rfl)), bind_ok, addFlag_eq]
            refine go { d with flags := withMinus d.flags, width := .absent } _ (h.newFlags trivial) (by simp) rfl
              (fun r hs => .negativeWidth hw hr (by omega) (.inr ⟨rfl, rfl⟩) hs) ?_
            refine afterWidth_padsNothing (c1 := { d.context with
                flags := { d.context.flags with leftJustify := true }, width := PRECEDING })
              (c2 := { d with flags := withMinus d.flags, width := .absent }.context)
              ⟨?_, rfl, rfl, ?_, ?_, .inl rfl⟩ (stored_value h.prec) ha
            · simp only [Directive.context, flagSet_withMinus]
            · show PRECEDING ≤ 0; decide
            · simp only [Directive.context, Num.value, UNSET]; omega
          · have hwr : wrap32 (-n) = -n := wrap32_small (by omega)
            rw [hwr]
            by_cases hcap : -n ≤ 65536
            · rw [setWidth_eq (.inr (.inr (by omega))), bind_ok, addFlag_eq]
              obtain ⟨ds, hd, hv⟩ := (C09_every_number_can_be_written (-n).toNat (by omega)).2 (by omega)
              refine go { d with flags := withMinus d.flags, width := .digits ds } _ (h.newFlags hd) (by simp) rfl
                (fun r hs => .negativeWidth hw hr (by omega) (.inl (.inr ⟨ds, rfl, hd, by omega⟩)) hs) ?_
              have : -n = (Num.digits ds).value := by simp only [Num.value]; omega
              rw [this]
              simp only [Directive.context, flagSet_withMinus]
            · refine .inl ⟨_, .hugeWidth hw hr ?_ (by simp only [minInt]; omega) es, ?_⟩
              · rw [abs_of_neg (by omega)]; simp only [numberCap]; omega
              · simp only [FormatContext.setWidth, checkValue_over (show 65536 < -n by omega), bind_error,
                  abs_of_neg (show n < 0 by omega)]
  · rw [append_noStar (context_noStar hw)]
    exact settles_prec env jdk h hw he

/-! ### The whole format string -/

/-- A directive without `*`, on its own or after its stars have been replaced. -/
theorem prints_formed {dates : DateSyntax} (env : DateEnv) {jdk : JdkEnv} (hj : InstantsFit jdk)
    {d : Directive} (h : d.Formed dates) (hp : d.Plain) {e : Entry} (he : Covered e) :
    Prints jdk env d e
      (formatterFor env (convOf d.conv) d.context (e.toTraits jdk) >>= fun s => s.appendToSB []) := by
  by_cases hc : d.conv = ch! '%'
  · rw [hc]; exact .percent hc
  · have hok : d.Ok dates := ⟨h.flagsOk, h.noRepeat, h.width, h.prec, h.conv, h.date, fun h => absurd h hc⟩
    rw [← printf_plain hok hp env _ []]
    exact C55_directive dates env jdk hj d hok hp e he

theorem output_run {dates : DateSyntax} (env : DateEnv) {jdk : JdkEnv} (hj : InstantsFit jdk)
    (ps : List Piece) (hps : ∀ p ∈ ps, p.Ok dates) (es : List Entry) (he : ∀ e ∈ es, Covered e) :
    Output jdk env ps es (formatWith env (ps.map Piece.compiled) (es.map (·.toTraits jdk))) := by
  induction ps generalizing es with
  | nil => exact .done es
  | cons p ps ih =>
    have ih' := fun es he => ih (fun q hq => hps q (List.mem_cons_of_mem _ hq)) es he
    -- what follows a text
    have follow : ∀ (t : JStr) (args : List Traits),
        (match runSB env (ps.map Piece.compiled) args t with
          | ⟨_, .error e⟩ => .error e
          | ⟨sb, .ok _⟩ => .ok sb) = (formatWith env (ps.map Piece.compiled) args).map (t ++ ·) := by
      intro t args
      unfold formatWith
      rw [runSB_prefix env _ args t]
      cases hr : runSB env (ps.map Piece.compiled) args [] with
      | mk target result => cases result <;> rfl
    have fixed : ∀ t : JStr, formatWith env (.fixed t :: ps.map Piece.compiled) (es.map (·.toTraits jdk)) =
        (formatWith env (ps.map Piece.compiled) (es.map (·.toTraits jdk))).map (t ++ ·) := by
      intro t
      rw [← follow]
      conv_lhs => unfold formatWith
      rw [runSB_fixed]
      rfl
    cases p with
    | lit s =>
      rw [List.map_cons, show (Piece.lit s).compiled = .fixed s from rfl, fixed]
      exact .lit s (ih' es he)
    | percent =>
      rw [List.map_cons, show (Piece.percent).compiled = .fixed (js! "%") from rfl, fixed]
      exact .percent (ih' es he)
    | dir d =>
      have hd : d.Ok dates := hps (.dir d) (by simp)
      have hcomp : (Piece.dir d).compiled = .dflt (convOf d.conv) d.context := rfl
      rw [List.map_cons, hcomp]
      rcases settles env jdk hd.formed he with ⟨err, h1, h2⟩ | ⟨d', es', h1, h2, h3, h4, h5, h6⟩
      · have : formatWith env (.dflt (convOf d.conv) d.context :: ps.map Piece.compiled)
            (es.map (·.toTraits jdk)) = .error err := by
          unfold formatWith runSB
          simp only [Appender.append, h2]
        rw [this]
        exact .badStar h1 ps
      · cases es' with
        | nil =>
          have : formatWith env (.dflt (convOf d.conv) d.context :: ps.map Piece.compiled)
              (es.map (·.toTraits jdk)) = .error (.printf (.missingArgument (shownConv d.conv))) := by
            unfold formatWith runSB
            simp only [Appender.append, h6, List.map_nil, valueStep, convOf_char hd.conv]
          rw [this]
          exact .noArgument h1 ps
        | cons e es' =>
          have hp := prints_formed env hj h2 h3 (he e (h5 e (by simp)))
          rw [h4] at hp
          have he' : ∀ a ∈ es', Covered a := fun a h => he a (h5 a (List.mem_cons_of_mem _ h))
          cases hf : formatterFor env (convOf d.conv) d'.context (e.toTraits jdk) with
          | error err =>
            rw [hf] at hp
            have : formatWith env (.dflt (convOf d.conv) d.context :: ps.map Piece.compiled)
                (es.map (·.toTraits jdk)) = .error err := by
              unfold formatWith runSB
              simp only [Appender.append, h6, List.map_cons, valueStep, hf, Except.map]
            rw [this]
            exact .fails h1 hp ps
          | ok q =>
            have hap : Appender.append env (.dflt (convOf d.conv) d'.context)
                ((e :: es').map (·.toTraits jdk)) = .ok (q, es'.map (·.toTraits jdk)) := by
              simp only [Appender.append, append_noStar h3.width_ne, afterWidth_noStar h3.prec_ne,
                List.map_cons, valueStep, hf, Except.map]
            have hs : q.Sane := by
              refine (Appender.append_sane (a := .dflt (convOf d.conv) d'.context) ?_ ?_ hap).1
              · exact ⟨stored_value (WidthOk.ok h2.width), stored_value h2.prec⟩
              · intro v hv
                obtain ⟨a, k1, rfl⟩ := List.mem_map.1 hv
                exact (he a (h5 a k1)).behaved.wf jdk
            rw [hf, bind_ok, Seq.appendToSB_ok hs] at hp
            have : formatWith env (.dflt (convOf d.conv) d.context :: ps.map Piece.compiled)
                (es.map (·.toTraits jdk)) =
                (formatWith env (ps.map Piece.compiled) (es'.map (·.toTraits jdk))).map (q.text ++ ·) := by
              rw [← follow]
              conv_lhs => unfold formatWith
              conv_lhs => unfold runSB
              simp only [Appender.append, h6, List.map_cons, valueStep, hf, Except.map, Seq.appendToSB_ok hs,
                List.nil_append]
              rfl
            rw [this]
            exact .prints h1 hp (ih' es' he')

/-- **C55.** The result of a call — the text, or the exception — is the one the semantics gives for the
pieces of the format string and the arguments, whatever they are. -/
theorem C55_semantics (dates : DateSyntax) (env : DateEnv) (jdk : JdkEnv) (hj : InstantsFit jdk)
    (f : JStr) (ps : List Piece) (h : Reading dates f ps) (es : List Entry) (he : ∀ e ∈ es, Covered e) :
    Output jdk env ps es (printf dates env f (es.map (·.toTraits jdk))) := by
  rw [printf_eq h]
  exact output_run env hj ps h.ok es he

-- the sample format has a reading, the arguments are covered, and the conclusion is about a call that
-- ends with a text
theorem Spec.Covered.prim {p : Prim} (h : ∀ c, p ≠ .char c) : Covered (.prim p) := by
  refine ⟨?_, trivial, ?_⟩
  · cases p with
    | char c => exact absurd rfl (h c)
    | _ => trivial
  · intro u s n hb; cases hb

theorem Spec.Covered.string (s : JStr) (id : Identity) : Covered (.ref (.string s id)) := by
  refine ⟨trivial, trivial, ?_⟩
  intro u s n hb; cases hb

example : Covered (.ref (.bigDecimal 150 2 someId)) := by
  refine ⟨trivial, trivial, ?_⟩
  rintro u s n ⟨⟩ hn
  obtain ⟨h1, h2, h3⟩ := hn.digits
  have : n ≤ 3 := by
    by_contra h
    have h3 : 10 ^ 3 ≤ 10 ^ (n - 1) := Nat.pow_le_pow_right (by omega) (by omega)
    have : (150 : Int).natAbs = 150 := rfl
    omega
  unfold ScaleOk; omega

example : Output clockJdk sampleDateEnv sampleReading
    [.prim (.int (-42)), .ref (.temporal (.obj .instant 0) (.ok []) someId)]
    (printf sampleDates sampleDateEnv sampleFormat
      [(Entry.prim (.int (-42))).toTraits clockJdk,
        (Entry.ref (.temporal (.obj .instant 0) (.ok []) someId)).toTraits clockJdk]) := by
  refine C55_semantics _ _ _ ?_ _ _ sampleFormat_reading
    [.prim (.int (-42)), .ref (.temporal (.obj .instant 0) (.ok []) someId)] ?_
  · intro t sec nano h
    simp only [clockJdk, Option.some.injEq, Prod.mk.injEq] at h
    obtain ⟨rfl, rfl⟩ := h
    decide
  · intro e he
    simp only [List.mem_cons, List.not_mem_nil, or_false] at he
    rcases he with rfl | rfl
    · exact .prim (by simp)
    · exact ⟨trivial, trivial, by intro u s n hb; cases hb⟩

-- what the relation says of `%*s` with the arguments -4 and "ab"
example (env : DateEnv) : Output sampleJdk env [.dir ⟨[], .star, .absent, ch! 's', none⟩, .percent]
    [.prim (.int (-4)), .ref (.string (js! "ab") someId)] (.ok (js! "ab  %")) := by
  have hs : Settles sampleJdk ⟨[], .star, .absent, ch! 's', none⟩
      [.prim (.int (-4)), .ref (.string (js! "ab") someId)]
      (.ok (⟨js! "-", .digits (js! "4"), .absent, ch! 's', none⟩, [.ref (.string (js! "ab") someId)])) := by
    refine .negativeWidth rfl (n := -4) ?_ (by decide) (w := .digits (js! "4"))
      (.inl (.inr ⟨_, rfl, ?_, by decide⟩)) (.plain ⟨by simp, by simp⟩ _)
    · exact .integral (x := .int (-4)) (.prim rfl) ⟨by decide, by decide, 0, by decide⟩
    · exact ⟨by decide, by decide, by simp [IsDigit], by decide⟩
  exact .prints hs (.text rfl (.shows (.string _ _))) (.percent (.done []))
-- ... and of `%i` without an argument
example (env : DateEnv) : Output sampleJdk env [.dir (bare (ch! 'i'))] []
    (.error (.printf (.missingArgument (ch! 'd')))) :=
  .noArgument (.plain ⟨by simp [bare], by simp [bare]⟩ []) []

end FastPrintf
