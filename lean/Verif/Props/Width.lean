/-
Properties C16 and C17: what a width does.
-/
import Verif.Proofs.Width
import Verif.Props.Text

namespace FastPrintf
open Spec SeqFormatter DefaultAppender

/-- The same directive without its width. -/
def Spec.Directive.unpadded (d : Directive) : Directive := { d with width := .absent }

/-- The cases in which the library measures its own text correctly: a `%s` with a precision must not be
given a rope or a user-written `FormatTraits`, and a `%g` without `#` must not be given a `BigInteger`,
a `BigDecimal` or a user-written `FormatTraits`. -/
structure Spec.Exact (d : Directive) (e : Entry) : Prop where
  text : d.conv = ch! 's' ∨ d.conv = ch! 'S' → d.prec = .absent ∨
    ((∀ q id, e ≠ .ref (.seq q id)) ∧ ∀ t, e ≠ .ref (.traits t))
  general : d.conv = ch! 'g' ∨ d.conv = ch! 'G' → ch! '#' ∈ d.flags ∨
    ((∀ v id, e ≠ .ref (.bigInteger v id)) ∧ (∀ u s id, e ≠ .ref (.bigDecimal u s id)) ∧
      ∀ t, e ≠ .ref (.traits t))

theorem conv_cases {c : JChar} (h : c ∈ convChars) : c = ch! 'd' ∨ c = ch! 'i' ∨ c = ch! 'u' ∨
    c = ch! 'o' ∨ c = ch! 'x' ∨ c = ch! 'X' ∨ c = ch! 'f' ∨ c = ch! 'F' ∨ c = ch! 'e' ∨ c = ch! 'E' ∨
    c = ch! 'g' ∨ c = ch! 'G' ∨ c = ch! 'a' ∨ c = ch! 'A' ∨ c = ch! 'c' ∨ c = ch! 's' ∨ c = ch! 'S' ∨
    c = ch! 't' ∨ c = ch! 'T' ∨ c = ch! 'n' ∨ c = ch! 'p' ∨ c = ch! '%' := by
  revert c
  decide

theorem prim_onePiece (jdk : JdkEnv) (ref : RefSlot) (p : Prim) :
    (∀ q, (p.traits jdk ref).asSeq = .ok q → q.flat.length = 1) ∧
    (∀ f, (p.traits jdk ref).asFloatForm = .ok f → f.OnePiece) := by
  refine ⟨?_, ?_⟩
  · intro q hq
    cases p <;> try (cases hq; rfl)
    all_goals
      obtain ⟨a, _, hq⟩ := bind_eq_ok.1 hq
      cases hq; rfl
  · intro f hf
    cases p <;> (cases hf; exact FloatForm.ofDouble_onePiece _)

theorem charSequence_onePiece (jdk : JdkEnv) (s : JStr) (q : Res Seq) (ref : RefSlot) :
    ∀ f, (charSequenceTraits jdk s q ref).asFloatForm = .ok f → f.OnePiece := by
  intro f hf
  simp only [charSequenceTraits] at hf
  split at hf <;> cases hf
  exact FloatForm.ofDouble_onePiece _

theorem entry_oneSeq (jdk : JdkEnv) {e : Entry} (h1 : ∀ q id, e ≠ .ref (.seq q id))
    (h2 : ∀ t, e ≠ .ref (.traits t)) : ∀ q, (e.toTraits jdk).asSeq = .ok q → q.flat.length = 1 := by
  intro q hq
  cases e with
  | prim p => exact (prim_onePiece jdk _ p).1 q hq
  | ref o =>
    cases o with
    | null => cases hq; rfl
    | boxed p id => exact (prim_onePiece jdk _ p).1 q hq
    | string s id => cases hq; rfl
    | seq q id => exact absurd rfl (h1 q id)
    | charSeq s id => obtain ⟨a, _, hq⟩ := bind_eq_ok.1 hq; cases hq; rfl
    | bigInteger v id => cases hq; rfl
    | bigDecimal u s id => cases hq; rfl
    | temporal t text id => obtain ⟨a, _, hq⟩ := bind_eq_ok.1 hq; cases hq; rfl
    | traits t => exact absurd rfl (h2 t)
    | object kind text id => obtain ⟨a, _, hq⟩ := bind_eq_ok.1 hq; cases hq; rfl

theorem entry_oneFloat (jdk : JdkEnv) {e : Entry} (h1 : ∀ v id, e ≠ .ref (.bigInteger v id))
    (h2 : ∀ u s id, e ≠ .ref (.bigDecimal u s id)) (h3 : ∀ t, e ≠ .ref (.traits t)) :
    ∀ f, (e.toTraits jdk).asFloatForm = .ok f → f.OnePiece := by
  intro f hf
  cases e with
  | prim p => exact (prim_onePiece jdk _ p).2 f hf
  | ref o =>
    cases o with
    | null => cases hf
    | boxed p id => exact (prim_onePiece jdk _ p).2 f hf
    | string s id => exact charSequence_onePiece _ _ _ _ f hf
    | seq q id =>
      obtain ⟨s, _, hf⟩ := bind_eq_ok.1 hf
      exact charSequence_onePiece jdk s (.ok q) id.ref f hf
    | charSeq s id => exact charSequence_onePiece _ _ _ _ f hf
    | bigInteger v id => exact absurd rfl (h1 v id)
    | bigDecimal u s id => exact absurd rfl (h2 u s id)
    | temporal t text id =>
      simp only [Entry.toTraits, Obj.toTraits, temporalTraits] at hf
      split at hf <;> cases hf
      exact FloatForm.ofDouble_onePiece _
    | traits t => exact absurd rfl (h3 t)
    | object kind text id =>
      simp only [Entry.toTraits, Obj.toTraits, objectTraits] at hf
      split at hf <;> cases hf <;> exact FloatForm.ofDouble_onePiece _

theorem convOf_eq_s {c : JChar} (h : c ∈ convChars) :
    (convOf c = .s ∨ convOf c = .upperS → c = ch! 's' ∨ c = ch! 'S') ∧
    (convOf c = .g ∨ convOf c = .upperG → c = ch! 'g' ∨ c = ch! 'G') ∧
    (convOf c = .n → c = ch! 'n') ∧ (convOf c = .percent → c = ch! '%') ∧
    (convOf c = .x ∨ convOf c = .upperX ∨ convOf c = .o → c = ch! 'x' ∨ c = ch! 'X' ∨ c = ch! 'o') ∧
    (family (convOf c) = .integer ↔ c ∈ js! "diuoxX") ∧
    (family (convOf c) = .float ↔ c ∈ js! "fFeEgGaA") := by
  revert c
  decide

theorem Spec.Exact.measured {dates : DateSyntax} {d : Directive} {e : Entry} (h : Exact d e)
    (hd : d.Ok dates) (jdk : JdkEnv) : (e.toTraits jdk).Measured (convOf d.conv) d.context := by
  obtain ⟨c1, c2, _⟩ := convOf_eq_s hd.conv
  refine ⟨fun hs => ?_, fun hg => ?_⟩
  · rcases h.text (c1 hs) with h | ⟨h1, h2⟩
    · left; simp only [Directive.context, h]; rfl
    · exact .inr (entry_oneSeq jdk h1 h2)
  · rcases h.general (c2 hg) with h | ⟨h1, h2, h3⟩
    · left; simp [Directive.context, flagSet, h]
    · exact .inr (entry_oneFloat jdk h1 h2 h3)

theorem Spec.Directive.Ok.unpadded {dates : DateSyntax} {d : Directive} (h : d.Ok dates)
    (hc : d.conv ≠ ch! '%') : d.unpadded.Ok dates :=
  ⟨h.flagsOk, h.noRepeat, trivial, h.prec, h.conv, h.date, fun h' => absurd h' hc⟩

theorem Spec.Directive.Plain.unpadded {d : Directive} (h : d.Plain) : d.unpadded.Plain :=
  ⟨by simp [Directive.unpadded], h.prec⟩

theorem field_unset (left z : Bool) (pre body : JStr) : field left z 0 pre body = pre ++ body := by
  unfold field
  cases left <;> cases z <;> simp

/-- The outcomes of a directive with and without its width. -/
theorem width_cases {dates : DateSyntax} (env : DateEnv) (jdk : JdkEnv) {d : Directive}
    (h : d.Ok dates) (hp : d.Plain) (hn : d.conv ≠ ch! 'n') (hpc : d.conv ≠ ch! '%') {e : Entry}
    (he : WellBehaved e) (hx : Exact d e) (rest : List Traits) :
    (∃ er, printf dates env d.unpadded.text (e.toTraits jdk :: rest) = .error er ∧
      printf dates env d.text (e.toTraits jdk :: rest) = .error er) ∨
    (∃ pre body, SignAndBase pre ∧
      printf dates env d.unpadded.text (e.toTraits jdk :: rest) = .ok (pre ++ body) ∧
      printf dates env d.text (e.toTraits jdk :: rest) =
        .ok (field (ch! '-' ∈ d.flags) (zeroIn (convOf d.conv) d.context (e.toTraits jdk))
          d.width.width pre body)) ∨
    (OddCase (convOf d.conv) d.context (e.toTraits jdk) ∧ ∃ ds : JStr,
      printf dates env d.unpadded.text (e.toTraits jdk :: rest) = .ok ds ∧
      printf dates env d.text (e.toTraits jdk :: rest) =
        .ok (field false false d.width.width []
          (List.replicate (d.width.width - (if convOf d.conv = .o then 1 else 2) - ds.length) 48 ++ ds))) := by
  obtain ⟨_, _, c3, c4, _⟩ := convOf_eq_s h.conv
  have h0 := h.unpadded hpc
  have hp0 := hp.unpadded
  have hu : UNSET.toNat = 0 := rfl
  rcases formatterFor_shaped env (convOf d.conv) (ctx := d.context) hp.precOK (he.wf jdk)
    (he.hasDigits jdk) (hx.measured h jdk) (fun h' => hn (c3 h')) (fun h' => hpc (c4 h')) with
    hs | ⟨ho, ds, hs⟩
  · cases hs with
    | fails er hs =>
      refine .inl ⟨er, ?_, ?_⟩
      · rw [printf_plain h0 hp0]
        have := hs UNSET
        exact (congrArg (· >>= fun s : Seq => s.appendToSB []) this)
      · rw [printf_plain h hp]
        have := hs d.context.width
        exact (congrArg (· >>= fun s : Seq => s.appendToSB []) this)
    | field pre body hpre hs =>
      refine .inr (.inl ⟨pre, body, hpre, ?_, ?_⟩)
      · obtain ⟨r, r1, r2, r3⟩ := hs UNSET
        rw [printf_plain_ok h0 hp0 (s := r) r1 r2.sane, r3, hu, field_unset]
      · obtain ⟨r, r1, r2, r3⟩ := hs d.context.width
        rw [printf_plain_ok h hp (s := r) r1 r2.sane, r3, hp.width_eq, left_eq]
  · refine .inr (.inr ⟨ho, ds, ?_, ?_⟩)
    · obtain ⟨r, r1, r2, r3⟩ := hs UNSET
      rw [printf_plain_ok h0 hp0 (s := r) r1 r2.sane, r3, hu, field_unset]
      simp
    · obtain ⟨r, r1, r2, r3⟩ := hs d.context.width
      rw [printf_plain_ok h hp (s := r) r1 r2.sane, r3, hp.width_eq]

/-- **C16.** With a width `w` a directive prints as many characters as it does without, or `w` if that
is more; and it fails exactly when it fails without a width. -/
theorem C16_width_is_minimum (dates : DateSyntax) (env : DateEnv) (jdk : JdkEnv) (d : Directive)
    (h : d.Ok dates) (hp : d.Plain) (hn : d.conv ≠ ch! 'n') (hpc : d.conv ≠ ch! '%') (e : Entry)
    (he : WellBehaved e) (hx : Exact d e) (rest : List Traits) :
    (printf dates env d.text (e.toTraits jdk :: rest)).map List.length =
      (printf dates env d.unpadded.text (e.toTraits jdk :: rest)).map
        (fun t => max d.width.width t.length) := by
  rcases width_cases env jdk h hp hn hpc he hx rest with ⟨er, h1, h2⟩ | ⟨pre, body, _, h1, h2⟩ |
    ⟨_, ds, h1, h2⟩
  · rw [h1, h2]; rfl
  · rw [h1, h2]
    simp only [Except.map, field_length, List.length_append]
  · rw [h1, h2]
    simp only [Except.map, field_length, List.length_append, List.length_replicate, List.length_nil]
    congr 1
    omega

/-- **C17 (spaces).** Unless the `0` flag is in force, a width adds spaces and nothing else: after the
text with `-`, before it otherwise. -/
theorem C17_spaces (dates : DateSyntax) (env : DateEnv) (jdk : JdkEnv) (d : Directive)
    (h : d.Ok dates) (hp : d.Plain) (hn : d.conv ≠ ch! 'n') (hpc : d.conv ≠ ch! '%') (e : Entry)
    (he : WellBehaved e) (hx : Exact d e) (rest : List Traits)
    (hz : ch! '-' ∈ d.flags ∨ ch! '0' ∉ d.flags ∨ d.conv ∈ js! "cspStT" ∨
      (d.conv ∈ js! "diuoxX" ∧ d.prec ≠ .absent)) :
    printf dates env d.text (e.toTraits jdk :: rest) =
      (printf dates env d.unpadded.text (e.toTraits jdk :: rest)).map
        (padded (ch! '-' ∈ d.flags) d.width.width) := by
  have hpad : ∀ (z : Bool) (w : Nat) (pre body : JStr), ch! '-' ∈ d.flags ∨ z = false →
      field (ch! '-' ∈ d.flags) z w pre body = padded (ch! '-' ∈ d.flags) w (pre ++ body) := by
    intro z w pre body hor
    unfold field padded
    by_cases hm : ch! '-' ∈ d.flags
    · simp [hm]
    · have : z = false := by tauto
      subst this
      simp [hm]
  have hprec : d.prec ≠ .absent → (precOf d.context).isNone = false := by
    intro hne
    rw [hp.prec_eq]
    cases hq : d.prec with
    | absent => exact absurd hq hne
    | star => exact absurd hq hp.prec
    | digits ds => rfl
  have hzp : d.context.flags.zeroPad = decide (ch! '0' ∈ d.flags) := by
    simp [Directive.context, flagSet]
  obtain ⟨_, _, _, _, c5, c6, c7⟩ := convOf_eq_s h.conv
  rcases width_cases env jdk h hp hn hpc he hx rest with ⟨er, h1, h2⟩ | ⟨pre, body, _, h1, h2⟩ |
    ⟨ho, ds, h1, h2⟩
  · rw [h1, h2]; rfl
  · rw [h1, h2]
    simp only [Except.map]
    rw [hpad]
    rcases hz with hz | hz | hz | ⟨hz, hq⟩
    · exact .inl hz
    · right
      exact zeroIn_noZero _ (by rw [hzp]; simp [hz]) _
    · right
      have : family (convOf d.conv) = .text := by
        have hh : ∀ c ∈ js! "cspStT", family (convOf c) = .text := by decide
        exact hh _ hz
      unfold zeroIn
      rw [this]
    · right
      unfold zeroIn
      rw [c6.2 hz]
      simp [hprec hq]
  · obtain ⟨o1, _, _, o4, o5, o6⟩ := ho
    exfalso
    rw [hzp] at o4
    rw [left_eq] at o5
    rcases hz with hz | hz | hz | ⟨_, hq⟩
    · simp [hz] at o5
    · simp [hz] at o4
    · have hh : ∀ c ∈ js! "cspStT", c ≠ ch! 'x' ∧ c ≠ ch! 'X' ∧ c ≠ ch! 'o' := by decide
      obtain ⟨n1, n2, n3⟩ := hh _ hz
      rcases c5 o1 with h' | h' | h'
      · exact n1 h'
      · exact n2 h'
      · exact n3 h'
    · have := hprec hq
      simp [precOf, o6] at this

/-- The texts of the values that are not numbers. -/
def Spec.nonNumbers : List JStr :=
  [js! "NaN", js! "Infinity", js! "+Infinity", js! "-Infinity",
   js! "NAN", js! "INFINITY", js! "+INFINITY", js! "-INFINITY"]

theorem nonFinite_formatter (env : DateEnv) {sp : Specifier} (hs : family sp = .float)
    (ctx : FormatContext) {v : Traits} {f : FloatForm} (hf : v.asFloatForm = .ok f)
    (hn : (f.isNaN || f.isInfinite) = true) :
    ∃ r, formatterFor env sp ctx v = .ok r ∧ r.WF ∧ ∃ t ∈ nonNumbers,
      r.text = field ctx.flags.leftJustify false ctx.width.toNat [] t := by
  obtain ⟨r, r1, r2, r3⟩ := nonFinite_ok ctx f
  obtain ⟨u, u1, u2, u3⟩ := Seq.upperCase_ok r2
  have hm : nonFiniteText ctx f ∈ nonNumbers ∧ (nonFiniteText ctx f).map Spec.upper ∈ nonNumbers := by
    unfold nonFiniteText
    split_ifs <;> decide
  have hu : u.text = field ctx.flags.leftJustify false ctx.width.toNat []
      ((nonFiniteText ctx f).map Spec.upper) := by
    rw [u3, r3, field_upper]; rfl
  have lo : ∃ q, Except.ok r = Except.ok (ε := Err) q ∧ q.WF ∧ ∃ t ∈ nonNumbers,
      q.text = field ctx.flags.leftJustify false ctx.width.toNat [] t := ⟨r, rfl, r2, _, hm.1, r3⟩
  have up : ∃ q, Except.ok u = Except.ok (ε := Err) q ∧ q.WF ∧ ∃ t ∈ nonNumbers,
      q.text = field ctx.flags.leftJustify false ctx.width.toNat [] t := ⟨u, rfl, u2, _, hm.2, hu⟩
  have ef : SeqFormatter.f ctx f = .ok r := by unfold SeqFormatter.f; rw [if_pos hn, r1]
  have ee : SeqFormatter.e ctx f = .ok r := by unfold SeqFormatter.e; rw [if_pos hn, r1]
  have eg : SeqFormatter.g ctx f = .ok r := by unfold SeqFormatter.g; rw [if_pos hn, r1]
  have ea : SeqFormatter.a ctx f = .ok r := by unfold SeqFormatter.a; rw [if_pos hn, r1]
  cases sp <;> first | (exact absurd hs (by decide)) | skip
  all_goals simp only [formatterFor, hf, bind_ok, ef, ee, eg, ea, u1]
  all_goals first | exact lo | exact up

/-- **C17 (zeros).** When the `0` flag is in force (no `-`, a numeric conversion, no precision with an
integer conversion) a width adds zeros between the sign and base prefix and the rest — except for
values that are not numbers, which get spaces in front, and for `%#0x`, `%#0o` of zero, which get zeros up
to the width less the length of the prefix that is not printed, and spaces before them. -/
theorem C17_zeros (dates : DateSyntax) (env : DateEnv) (jdk : JdkEnv) (d : Directive)
    (h : d.Ok dates) (hp : d.Plain) (e : Entry)
    (he : WellBehaved e) (hx : Exact d e) (rest : List Traits)
    (hm : ch! '-' ∉ d.flags) (hz : ch! '0' ∈ d.flags)
    (hc : (d.conv ∈ js! "diuoxX" ∧ d.prec = .absent) ∨ d.conv ∈ js! "fFeEgGaA") :
    (∃ er, printf dates env d.unpadded.text (e.toTraits jdk :: rest) = .error er ∧
      printf dates env d.text (e.toTraits jdk :: rest) = .error er) ∨
    (∃ t ∈ nonNumbers, printf dates env d.unpadded.text (e.toTraits jdk :: rest) = .ok t ∧
      printf dates env d.text (e.toTraits jdk :: rest) = .ok (padded false d.width.width t)) ∨
    (∃ pre body, SignAndBase pre ∧
      printf dates env d.unpadded.text (e.toTraits jdk :: rest) = .ok (pre ++ body) ∧
      printf dates env d.text (e.toTraits jdk :: rest) =
        .ok (pre ++ List.replicate (d.width.width - (pre ++ body).length) 48 ++ body)) ∨
    ((∃ i, (e.toTraits jdk).asIntForm = .ok i ∧ i.signum = 0) ∧ ch! '#' ∈ d.flags ∧
      d.conv ∈ js! "xXo" ∧ ∃ t : JStr,
      printf dates env d.unpadded.text (e.toTraits jdk :: rest) = .ok t ∧
      printf dates env d.text (e.toTraits jdk :: rest) =
        .ok (padded false d.width.width
          (List.replicate (d.width.width - (if d.conv = ch! 'o' then 1 else 2) - t.length) 48 ++ t))) := by
  have hnp : d.conv ≠ ch! 'n' ∧ d.conv ≠ ch! '%' := by
    have h1 : ∀ c ∈ js! "diuoxX", c ≠ ch! 'n' ∧ c ≠ ch! '%' := by decide
    have h2 : ∀ c ∈ js! "fFeEgGaA", c ≠ ch! 'n' ∧ c ≠ ch! '%' := by decide
    rcases hc with hc | hc
    · exact h1 _ hc.1
    · exact h2 _ hc
  have hzp : d.context.flags.zeroPad = true := by
    simp [Directive.context, flagSet, hz]
  obtain ⟨_, _, _, _, c5, c6, c7⟩ := convOf_eq_s h.conv
  by_cases hnf : family (convOf d.conv) = .float ∧ ∃ f, (e.toTraits jdk).asFloatForm = .ok f ∧
      (f.isNaN || f.isInfinite) = true
  · obtain ⟨g1, f, g2, g3⟩ := hnf
    obtain ⟨r, r1, r2, t, ht, r3⟩ := nonFinite_formatter env g1 d.context g2 g3
    have h0 := h.unpadded hnp.2
    have hp0 := hp.unpadded
    obtain ⟨r', r1', r2', t', ht', r3'⟩ := nonFinite_formatter env g1 d.unpadded.context g2 g3
    -- the text does not depend on the width
    have hxx := width_cases env jdk h hp hnp.1 hnp.2 he hx rest
    rw [printf_plain_ok h hp r1 r2.sane, printf_plain_ok h0 hp0 (s := r') r1' r2'.sane] at *
    have hw0 : d.unpadded.context.width.toNat = 0 := rfl
    rw [hw0, field_unset, List.nil_append] at r3'
    rcases hxx with ⟨er, q1, _⟩ | ⟨pre, body, _, q1, q2⟩ | ⟨⟨o1, _⟩, _⟩
    · cases q1
    · refine .inr (.inl ⟨t', ht', by rw [r3'], ?_⟩)
      have hzi : zeroIn (convOf d.conv) d.context (e.toTraits jdk) = false := by
        unfold zeroIn
        rw [g1, g2]
        simp [floatZero, g3]
      rw [hzi] at q2
      rw [q2]
      have q1' : t' = pre ++ body := by rw [← r3']; injection q1
      rw [q1']
      simp [field, padded, hm]
    · have := c5 o1
      have h1 : ∀ c, c = ch! 'x' ∨ c = ch! 'X' ∨ c = ch! 'o' → family (convOf c) ≠ .float := by
        rintro c (rfl | rfl | rfl) <;> decide
      exact absurd g1 (h1 _ this)
  · rcases width_cases env jdk h hp hnp.1 hnp.2 he hx rest with ⟨er, h1, h2⟩ |
      ⟨pre, body, hpre, h1, h2⟩ | ⟨⟨o1, o2, o3, _⟩, ds, h1, h2⟩
    · exact .inl ⟨er, h1, h2⟩
    · by_cases hzi : zeroIn (convOf d.conv) d.context (e.toTraits jdk) = true
      · refine .inr (.inr (.inl ⟨pre, body, hpre, h1, ?_⟩))
        rw [h2, hzi]
        simp [field, hm]
      · exfalso
        rcases hc with ⟨hc, hpr⟩ | hc
        · apply hzi
          unfold zeroIn
          rw [c6.2 hc, hp.prec_eq, hpr]
          simp [hzp, Num.precision]
        · have hfl := c7.2 hc
          cases hff : (e.toTraits jdk).asFloatForm with
          | error er =>
            rw [printf_plain h hp] at h2
            have : formatterFor env (convOf d.conv) d.context (e.toTraits jdk) = .error er := by
              revert hfl
              cases convOf d.conv <;> intro hfl <;> first | (exact absurd hfl (by decide)) | skip
              all_goals simp only [formatterFor, hff]; rfl
            rw [this] at h2
            cases h2
          | ok f =>
            apply hzi
            unfold zeroIn
            rw [hfl, hff]
            simp only [floatZero, hzp, Bool.true_and, Bool.not_eq_true']
            cases hcc : (f.isNaN || f.isInfinite)
            · rfl
            · exact absurd ⟨hfl, f, hff, hcc⟩ hnf
    · refine .inr (.inr (.inr ⟨o2, ?_, ?_, ?_⟩))
      · simpa [Directive.context, flagSet] using o3
      · have := c5 o1
        simp only [List.mem_cons, List.not_mem_nil, or_false]
        exact this
      · have hk : (convOf d.conv = .o) = (d.conv = ch! 'o') := by
          rcases c5 o1 with h' | h' | h' <;> rw [h'] <;> decide
        refine ⟨ds, h1, ?_⟩
        rw [h2]
        simp only [hk]
        simp [field, padded]

/-! The cases occur. -/

example : printf sampleDates sampleDateEnv (js! "%08x") [intArg (-1)] = .ok (js! "ffffffff") := rfl
example : printf sampleDates sampleDateEnv (js! "%#08x") [intArg 255] = .ok (js! "0x0000ff") := rfl
example : printf sampleDates sampleDateEnv (js! "%+06d") [intArg 42] = .ok (js! "+00042") := rfl
example : printf sampleDates sampleDateEnv (js! "%-06d|") [intArg 42] = .ok (js! "42    |") := rfl
example : printf sampleDates sampleDateEnv (js! "%06s") [intArg 42] = .ok (js! "    42") := rfl
example : printf sampleDates sampleDateEnv (js! "%#06x") [intArg 0] = .ok (js! "  0000") := rfl
example : printf sampleDates sampleDateEnv (js! "%06f")
    [(Entry.prim (.double 0x7FF8000000000000#64)).toTraits sampleJdk] = .ok (js! "   NaN") := rfl
example : Exact ⟨js! "0", .digits (js! "6"), .absent, ch! 'd', none⟩ (.prim (.int 42)) :=
  ⟨by simp, by simp⟩

/-- Outside `Exact` the width is not exact: `%10g` of `new BigDecimal("1.50")` prints 12
characters. -/
theorem C16_general_overpads :
    printf sampleDates sampleDateEnv (js! "%10g")
      [(Entry.ref (.bigDecimal 150 2 ⟨js! "java.math.BigDecimal", 1#32⟩)).toTraits sampleJdk] =
      .ok (js! "         1.5") := rfl

end FastPrintf
