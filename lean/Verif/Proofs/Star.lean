/-
Lemmas about a directive formatted on its own, and about contexts that differ only in a width that
pads nothing.
-/
import Verif.Proofs.Engine
import Verif.Proofs.Pattern

namespace FastPrintf
open Spec DefaultAppender

/-- The compiled context of a directive. -/
def Spec.Directive.context (d : Directive) : FormatContext :=
  { flags := flagSet d.flags, width := d.width.value, precision := d.prec.value,
    dateTimeFormatter := d.date }

theorem reading_dir {dates : DateSyntax} {d : Directive} (h : d.Ok dates) :
    Reading dates d.text [.dir d] := by
  rw [reading_cons (by simp)]
  exact ⟨[], by simp [Piece.text], h, by intro d' _ _ _; simp, reading_nil.2 rfl⟩

/-- A directive on its own. -/
theorem printf_dir {dates : DateSyntax} {d : Directive} (h : d.Ok dates) (env : DateEnv)
    (args : List Traits) :
    printf dates env d.text args =
      append env (convOf d.conv) d.context args >>= fun r => r.1.appendToSB [] := by
  rw [printf_eq (reading_dir h)]
  unfold formatWith
  simp only [List.map_cons, List.map_nil, Piece.compiled, runSB, Appender.append]
  change (match (match append env (convOf d.conv) d.context args with
    | .error e => ⟨[], .error e⟩
    | .ok (seq, args) => _ : Outcome JStr) with | ⟨_, .error e⟩ => _ | ⟨sb, .ok _⟩ => _) = _
  cases append env (convOf d.conv) d.context args with
  | error e => rfl
  | ok r =>
    obtain ⟨seq, rest⟩ := r
    simp only [bind_ok]
    cases seq.appendToSB [] <;> rfl

/-- What follows the width step. -/
def afterWidth (env : DateEnv) (sp : Specifier) (ctx : FormatContext) (args : List Traits) :
    Res (Seq × List Traits) :=
  starPrecision sp ctx args >>= fun q => valueStep env sp q.1 q.2

theorem append_noStar {env : DateEnv} {sp : Specifier} {ctx : FormatContext}
    (h : ctx.width ≠ PRECEDING) (args : List Traits) :
    append env sp ctx args = afterWidth env sp ctx args := by
  rw [append_eq]
  have : starWidth sp ctx args = .ok (ctx, args) := by
    unfold starWidth FormatContext.isPrecedingWidth
    rw [if_neg (by simpa using h)]
  rw [this, bind_ok]
  rfl

theorem afterWidth_noStar {env : DateEnv} {sp : Specifier} {ctx : FormatContext}
    (h : ctx.precision ≠ PRECEDING) (args : List Traits) :
    afterWidth env sp ctx args = valueStep env sp ctx args := by
  unfold afterWidth
  have : starPrecision sp ctx args = .ok (ctx, args) := by
    unfold starPrecision FormatContext.isPrecedingPrecision
    rw [if_neg (by simpa using h)]
  rw [this, bind_ok]

theorem append_star {env : DateEnv} {sp : Specifier} {ctx : FormatContext}
    (h : ctx.width = PRECEDING) (v : Traits) (args : List Traits) :
    append env sp ctx (v :: args) = v.asInt >>= fun w =>
      (if w ≥ 0 then ctx.setWidth w else (ctx.addFlag .leftJustify).setWidth (wrap32 (-w))) >>=
        fun c => afterWidth env sp c args := by
  rw [append_eq]
  unfold starWidth FormatContext.isPrecedingWidth
  rw [if_pos (by simpa using h)]
  simp only [nextInt]
  cases v.asInt with
  | error e => rfl
  | ok w =>
    simp only [bind_ok, pure_eq_ok]
    split_ifs
    · cases ctx.setWidth w <;> rfl
    · cases (ctx.addFlag .leftJustify).setWidth (wrap32 (-w)) <;> rfl

theorem afterWidth_star {env : DateEnv} {sp : Specifier} {ctx : FormatContext}
    (h : ctx.precision = PRECEDING) (v : Traits) (args : List Traits) :
    afterWidth env sp ctx (v :: args) = v.asInt >>= fun p =>
      ctx.setPrecision (if p ≥ 0 then p else UNSET) >>= fun c => valueStep env sp c args := by
  unfold afterWidth starPrecision FormatContext.isPrecedingPrecision
  rw [if_pos (by simpa using h)]
  simp only [nextInt]
  cases v.asInt with
  | error e => rfl
  | ok p =>
    simp only [bind_ok, pure_eq_ok]
    cases ctx.setPrecision (if p ≥ 0 then p else UNSET) <;> rfl

theorem setWidth_eq {ctx : FormatContext} {w : Int}
    (h : w = UNSET ∨ w = PRECEDING ∨ (0 ≤ w ∧ w ≤ 65536)) :
    ctx.setWidth w = .ok { ctx with width := w } := by
  unfold FormatContext.setWidth
  rw [checkValue_ok.2 h]; rfl

theorem setPrecision_eq {ctx : FormatContext} {w : Int}
    (h : w = UNSET ∨ w = PRECEDING ∨ (0 ≤ w ∧ w ≤ 65536)) :
    ctx.setPrecision w = .ok { ctx with precision := w } := by
  unfold FormatContext.setPrecision
  rw [checkValue_ok.2 h]; rfl

theorem checkValue_over {name : NumName} {v : Int} (h : 65536 < v) :
    FormatContext.checkValue name v = .error (.printf (.exceedsMaximum name v)) := by
  have e3 : MAX_WIDTH_OR_PRECISION = 65536 := rfl
  unfold FormatContext.checkValue
  rw [if_neg (by omega), if_pos (by omega)]

/-! ### Widths that pad nothing -/

/-- The digits of an integer argument are never the empty string (true of all library arguments). -/
def Traits.HasDigits (v : Traits) : Prop :=
  ∀ i, v.asIntForm = .ok i → ∀ ds, (i.toDecimalString = .ok ds ∨ i.toHexString = .ok ds ∨
    i.toOctalString = .ok ds ∨ i.toUnsignedDecimalString = .ok ds) → ds ≠ []

/-- Two widths that pad nothing: unset, zero, or the leftover of `*` with `Integer.MIN_VALUE` (only
together with `-`). -/
structure PadsNothing (c1 c2 : FormatContext) : Prop where
  flags : c1.flags = c2.flags
  prec : c1.precision = c2.precision
  date : c1.dateTimeFormatter = c2.dateTimeFormatter
  w1 : c1.width ≤ 0
  w2 : c2.width ≤ 0
  ok : c1.flags.leftJustify = true ∨ (c1.width = 0 ∨ c1.width = UNSET) ∧ (c2.width = 0 ∨ c2.width = UNSET)

namespace SeqFormatter

theorem spaceJustify_padsNothing {c1 c2 : FormatContext} (h : PadsNothing c1 c2) {s : Seq}
    (hs : 0 ≤ s.length) : spaceJustify c1 s = spaceJustify c2 s := by
  have a1 := h.w1
  have a2 := h.w2
  unfold spaceJustify width
  rw [if_neg, if_neg]
  · split_ifs <;> omega
  · split_ifs <;> omega

theorem hasFlag_congr {c1 c2 : FormatContext} (h : c1.flags = c2.flags) (fl : Flag) :
    c1.hasFlag fl = c2.hasFlag fl := by
  unfold FormatContext.hasFlag
  rw [h]

theorem sign_congr {c1 c2 : FormatContext} (h : c1.flags = c2.flags) (s : Seq) (n : Bool) :
    sign c1 s n = sign c2 s n := by
  unfold sign FormatContext.hasFlag
  rw [h]

theorem zeroFill_low {n : Int} (hn : n ≤ 0) {s : Seq} (hs : 0 ≤ s.length) : zeroFill n s = .ok s := by
  unfold zeroFill
  rw [if_neg (by omega)]

theorem signAndJustify_padsNothing {c1 c2 : FormatContext} (h : PadsNothing c1 c2) {s : Seq}
    (hs : s.Sane) (n : Bool) : signAndJustify c1 s n = signAndJustify c2 s n := by
  have a1 := h.w1
  have a2 := h.w2
  have e := h.flags
  have hl := hs.length_nonneg
  obtain ⟨s1, _, _⟩ := sign_sane c1 hs n
  unfold signAndJustify
  simp only [hasFlag_left, hasFlag_zero, hasFlag_plus, hasFlag_space]
  rw [← e, spaceJustify_padsNothing h s1.length_nonneg, sign_congr e]
  split_ifs
  · rfl
  all_goals
    rw [zeroFill_low (by unfold width; split_ifs <;> omega) hl,
      zeroFill_low (by unfold width; split_ifs <;> omega) hl]
    simp only [bind_ok, sign_congr e]

theorem d_padsNothing {c1 c2 : FormatContext} (h : PadsNothing c1 c2) (v : IntForm)
    (hv : ∀ ds, v.toDecimalString = .ok ds → ds ≠ []) : d c1 v = d c2 v := by
  have e := h.flags
  have eU : UNSET = -1 := rfl
  unfold d
  rw [h.prec, hasFlag_congr e]
  by_cases h0 : v.signum = 0 ∧ c2.precision = 0
  · rw [if_pos h0, if_pos h0]
    split_ifs
    · exact spaceJustify_padsNothing h (Seq.ch_wf _).sane.length_nonneg
    · exact spaceJustify_padsNothing h Seq.empty_wf.sane.length_nonneg
  · rw [if_neg h0, if_neg h0]
    cases hds : v.toDecimalString with
    | error e => rfl
    | ok ds =>
      simp only [bind_ok]
      have hne := hv ds hds
      have hlen : 1 ≤ ds.length := by
        cases ds with
        | nil => exact absurd rfl hne
        | cons a t => simp
      have hwl : (Seq.wrap ds).length = ds.length := by
        rw [(Seq.wrap_wf ds).length_text, Seq.wrap_text]
      have hz : zeroFill (dPrecision c1 v.signum) (Seq.wrap ds) =
          zeroFill (dPrecision c2 v.signum) (Seq.wrap ds) := by
        by_cases hp : c1.isPrecisionSet = true
        · have hp2 : c2.isPrecisionSet = true := by
            rw [isPrecisionSet_iff] at hp ⊢; rw [← h.prec]; exact hp
          unfold dPrecision
          rw [if_pos hp, if_pos hp2, h.prec]
        · have hp2 : ¬ c2.isPrecisionSet = true := by
            rw [isPrecisionSet_iff] at hp ⊢; rw [← h.prec]; exact hp
          have low : ∀ c : FormatContext, c.width ≤ 0 → ¬ c.isPrecisionSet = true →
              zeroFill (dPrecision c v.signum) (Seq.wrap ds) = .ok (Seq.wrap ds) := by
            intro c hc hpc
            unfold zeroFill
            rw [if_neg]
            unfold dPrecision
            rw [if_neg hpc, hwl]
            split_ifs <;> omega
          rw [low c1 h.w1 hp, low c2 h.w2 hp2]
      rw [hz]
      obtain ⟨q, q1, q2, _⟩ := zeroFill_ok (dPrecision c2 v.signum) (Seq.wrap_wf ds)
      rw [q1, bind_ok, bind_ok, sign_congr e]
      exact spaceJustify_padsNothing h (sign_ok c2 q2 _).1.sane.length_nonneg

theorem unsigned_padsNothing {c1 c2 : FormatContext} (h : PadsNothing c1 c2) (sg : Int)
    (x : Res JStr) (hv : ∀ ds, x = .ok ds → ds ≠ []) (pre : JStr) :
    formatUnsignedInteger c1 sg x pre = formatUnsignedInteger c2 sg x pre := by
  have e := h.flags
  have eU : UNSET = -1 := rfl
  unfold formatUnsignedInteger
  rw [h.prec, hasFlag_congr e]
  by_cases h0 : sg = 0 ∧ c2.precision = 0
  · rw [if_pos h0, if_pos h0]
    exact spaceJustify_padsNothing h Seq.empty_wf.sane.length_nonneg
  · rw [if_neg h0, if_neg h0]
    cases hds : x with
    | error e => rfl
    | ok ds =>
      simp only [bind_ok]
      have hne := hv ds hds
      have hlen : 1 ≤ ds.length := by
        cases ds with
        | nil => exact absurd rfl hne
        | cons a t => simp
      have hwl : (Seq.wrap ds).length = ds.length := by
        rw [(Seq.wrap_wf ds).length_text, Seq.wrap_text]
      have hz : zeroFill (uPrecision c1 pre) (Seq.wrap ds) =
          zeroFill (uPrecision c2 pre) (Seq.wrap ds) := by
        by_cases hp : c1.isPrecisionSet = true
        · have hp2 : c2.isPrecisionSet = true := by
            rw [isPrecisionSet_iff] at hp ⊢; rw [← h.prec]; exact hp
          unfold uPrecision
          rw [if_pos hp, if_pos hp2, h.prec]
          simp only [hasFlag_alt, e]
        · have hp2 : ¬ c2.isPrecisionSet = true := by
            rw [isPrecisionSet_iff] at hp ⊢; rw [← h.prec]; exact hp
          have low : ∀ c : FormatContext, c.width ≤ 0 → ¬ c.isPrecisionSet = true →
              zeroFill (uPrecision c pre) (Seq.wrap ds) = .ok (Seq.wrap ds) := by
            intro c hc hpc
            unfold zeroFill
            rw [if_neg]
            unfold uPrecision
            rw [if_neg hpc, hwl]
            split_ifs <;> omega
          rw [low c1 h.w1 hp, low c2 h.w2 hp2]
      rw [hz]
      obtain ⟨q, q1, q2, _⟩ := zeroFill_ok (uPrecision c2 pre) (Seq.wrap_wf ds)
      rw [q1, bind_ok, bind_ok]
      split_ifs
      · exact spaceJustify_padsNothing h (Seq.prepend_wf q2 (Seq.wrap_wf pre)).sane.length_nonneg
      · exact spaceJustify_padsNothing h q2.sane.length_nonneg

theorem nonFinite_padsNothing {c1 c2 : FormatContext} (h : PadsNothing c1 c2) (v : FloatForm) :
    nanOrInfinity c1 v = nanOrInfinity c2 v := by
  unfold nanOrInfinity
  simp only [hasFlag_plus, h.flags]
  split_ifs <;> exact spaceJustify_padsNothing h (Seq.wrap_wf _).sane.length_nonneg

theorem precision6_congr {c1 c2 : FormatContext} (h : c1.precision = c2.precision) :
    precision6 c1 = precision6 c2 := by
  unfold precision6 FormatContext.isPrecisionSet; rw [h]

theorem gPrecision_congr {c1 c2 : FormatContext} (h : c1.precision = c2.precision) :
    gPrecision c1 = gPrecision c2 := by
  unfold gPrecision FormatContext.isPrecisionSet; rw [h]

theorem aPrecision_congr {c1 c2 : FormatContext} (h : c1.precision = c2.precision) :
    aPrecision c1 = aPrecision c2 := by
  unfold aPrecision FormatContext.isPrecisionSet; rw [h]

theorem f_padsNothing {c1 c2 : FormatContext} (h : PadsNothing c1 c2) (hp : PrecOK c2)
    {v : FloatForm} (hv : v.WF) : f c1 v = f c2 v := by
  unfold f
  rw [nonFinite_padsNothing h, precision6_congr h.prec]
  split_ifs
  · rfl
  · cases hl : v.decimalLayout (precision6 c2) with
    | error e => rfl
    | ok l =>
      have hw := hv _ l (precision6_nonneg hp) (.inr (.inr (.inl hl)))
      obtain ⟨q, q1, q2, _⟩ := formatFractionalPart_ok hw.1 (precision6_nonneg hp) c2.flags.alternate
      simp only [bind_ok, hasFlag_alt, h.flags, q1]
      exact signAndJustify_padsNothing h q2.sane _

theorem e_padsNothing {c1 c2 : FormatContext} (h : PadsNothing c1 c2) (hp : PrecOK c2)
    {v : FloatForm} (hv : v.WF) : e c1 v = e c2 v := by
  unfold e
  rw [nonFinite_padsNothing h, precision6_congr h.prec]
  split_ifs
  · rfl
  · cases hl : v.scientificLayout (precision6 c2) with
    | error e => rfl
    | ok l =>
      have hw := hv _ l (precision6_nonneg hp) (.inr (.inl hl))
      obtain ⟨q, q1, q2, _⟩ := formatFractionalPart_ok hw.1 (precision6_nonneg hp) c2.flags.alternate
      simp only [bind_ok, hasFlag_alt, h.flags, q1]
      cases hx : l.exponent with
      | none => rfl
      | some ex =>
        obtain ⟨y, y1, y2, _⟩ := appendExponent_ok (Seq.append_wf q2 (Seq.ch_wf 101)) (hw.2 ex hx)
        simp only [y1, bind_ok]
        exact signAndJustify_padsNothing h y2.sane _

theorem g_padsNothing {c1 c2 : FormatContext} (h : PadsNothing c1 c2) (hp : PrecOK c2)
    {v : FloatForm} (hv : v.WF) : g c1 v = g c2 v := by
  have hg := gPrecision_pos hp
  by_cases hf : (v.isNaN || v.isInfinite) = true
  · unfold g; rw [if_pos hf, if_pos hf, nonFinite_padsNothing h]
  · have hf' : (v.isNaN || v.isInfinite) = false := by simpa using hf
    cases hl : v.generalLayout (gPrecision c2) with
    | error e =>
      unfold g
      rw [if_neg hf, if_neg hf, gPrecision_congr h.prec, hl]; rfl
    | ok l =>
      have hw := hv _ l (by omega) (.inl hl)
      rw [g_eq c2 v hf' hl, g_eq c1 v hf' (by rw [gPrecision_congr h.prec]; exact hl)]
      have hb : gBody c1 l = gBody c2 l := by
        unfold gBody formatGDecimal formatGScientific
        simp only [hasFlag_alt, h.flags, gPrecision_congr h.prec]
      obtain ⟨q, q1, q2, _⟩ := gBody_sane hp hw
      rw [hb, q1, bind_ok, bind_ok]
      exact signAndJustify_padsNothing h q2 _

theorem aJustify_padsNothing {c1 c2 : FormatContext} (h : PadsNothing c1 c2) {s : Seq}
    (hs : s.WF) (n : Bool) : aJustify c1 s n = aJustify c2 s n := by
  have a1 := h.w1
  have a2 := h.w2
  have hl := hs.sane.length_nonneg
  unfold aJustify
  simp only [hasFlag_left, hasFlag_zero, hasFlag_plus, hasFlag_space, h.flags]
  split_ifs
  all_goals first
    | omega
    | (simp only [sign_congr h.flags]; done)
    | (rw [sign_congr h.flags]
       exact spaceJustify_padsNothing h
        (sign_ok c2 (Seq.prepend_wf hs (Seq.wrap_wf _)) n).1.sane.length_nonneg)

theorem a_padsNothing {c1 c2 : FormatContext} (h : PadsNothing c1 c2) (hp : PrecOK c2)
    {v : FloatForm} (hv : v.WF) : a c1 v = a c2 v := by
  have hap := aPrecision_pos hp
  have hps : c1.isPrecisionSet = c2.isPrecisionSet := by
    unfold FormatContext.isPrecisionSet; rw [h.prec]
  unfold a
  rw [nonFinite_padsNothing h, aPrecision_congr h.prec]
  by_cases hnan : (v.isNaN || v.isInfinite) = true
  · rw [if_pos hnan, if_pos hnan]
  · rw [if_neg hnan, if_neg hnan]
    cases hl : v.hexLayout (aPrecision c2) with
    | error e => rfl
    | ok l =>
      have hw := hv _ l (by omega) (.inr (.inr (.inr hl)))
      obtain ⟨q, q1, q2, _⟩ := formatFractionalPart_ok hw.1 (p := aPrecision c2) (by omega)
        c2.flags.alternate
      simp only [bind_ok, hasFlag_alt, h.flags, q1, hps, pure_eq_ok]
      have key : ∀ q : Seq, q.WF →
          (appendExponent (q.append (Seq.ch 112)) l.exponent >>= fun v2 =>
            aJustify c1 v2 (decide (v.signum < 0))) =
          (appendExponent (q.append (Seq.ch 112)) l.exponent >>= fun v2 =>
            aJustify c2 v2 (decide (v.signum < 0))) := by
        intro q hq
        cases hx : l.exponent with
        | none => rfl
        | some ex =>
          obtain ⟨y, y1, y2, _⟩ := appendExponent_ok (Seq.append_wf hq (Seq.ch_wf 112)) (hw.2 ex hx)
          simp only [y1, bind_ok]
          exact aJustify_padsNothing h y2 _
      split_ifs
      · exact key q q2
      · exact key l.mantissa hw.1

theorem s_padsNothing {c1 c2 : FormatContext} (h : PadsNothing c1 c2)
    {v : Traits} (hv : v.WF) : s c1 v = s c2 v := by
  unfold s
  cases hq : v.asSeq with
  | error e => rfl
  | ok q =>
    have hw := hv.seq q hq
    have hps : c1.isPrecisionSet = c2.isPrecisionSet := by
      unfold FormatContext.isPrecisionSet; rw [h.prec]
    simp only [bind_ok, hps, h.prec]
    split_ifs
    · by_cases hr : 0 ≤ (0 : Int) ∧ 0 ≤ c2.precision ∧ c2.precision ≤ q.text.length
      · obtain ⟨t, t1, t2, _⟩ := Seq.subSequence_ok hw hr
        simp only [t1, bind_ok]
        exact spaceJustify_padsNothing h t2.length_nonneg
      · obtain ⟨e, he⟩ := Seq.subSequence_err hw hr
        simp only [he, bind_error]
    · exact spaceJustify_padsNothing h hw.sane.length_nonneg

end SeqFormatter

open SeqFormatter in
/-- Contexts whose widths pad nothing are interchangeable. -/
theorem formatterFor_padsNothing {env : DateEnv} {sp : Specifier} {c1 c2 : FormatContext}
    (h : PadsNothing c1 c2) (hp : PrecOK c2) {v : Traits} (hv : v.WF) (hd : v.HasDigits) :
    formatterFor env sp c1 v = formatterFor env sp c2 v := by
  have int : ∀ {k1 k2 : IntForm → Res Seq}, (∀ i, v.asIntForm = .ok i → k1 i = k2 i) →
      (v.asIntForm >>= k1) = (v.asIntForm >>= k2) := by
    intro k1 k2 hk
    cases hi : v.asIntForm with
    | error e => rfl
    | ok i => exact hk i hi
  have flt : ∀ {k1 k2 : FloatForm → Res Seq}, (∀ i, i.WF → k1 i = k2 i) →
      (v.asFloatForm >>= k1) = (v.asFloatForm >>= k2) := by
    intro k1 k2 hk
    cases hi : v.asFloatForm with
    | error e => rfl
    | ok i => exact hk i (hv.float i hi)
  have hD : ∀ i, v.asIntForm = .ok i → SeqFormatter.d c1 i = SeqFormatter.d c2 i := fun i hi =>
    d_padsNothing h i (fun ds hds => hd i hi ds (.inl hds))
  have hU : ∀ i, v.asIntForm = .ok i → u c1 i = u c2 i := fun i hi =>
    unsigned_padsNothing h _ _ (fun ds hds => hd i hi ds (.inr (.inr (.inr hds)))) _
  have hX : ∀ i, v.asIntForm = .ok i → x c1 i = x c2 i := fun i hi =>
    unsigned_padsNothing h _ _ (fun ds hds => hd i hi ds (.inr (.inl hds))) _
  have hO : ∀ i, v.asIntForm = .ok i → o c1 i = o c2 i := fun i hi =>
    unsigned_padsNothing h _ _ (fun ds hds => hd i hi ds (.inr (.inr (.inl hds)))) _
  have hT : t env c1 v = t env c2 v := by
    rw [t_eq, t_eq]
    have : SeqFormatter.dateText env c1 v = SeqFormatter.dateText env c2 v := by
      unfold SeqFormatter.dateText chooseFormatter; rw [h.date]
    rw [this]
    cases SeqFormatter.dateText env c2 v with
    | error e => rfl
    | ok y => exact spaceJustify_padsNothing h (Seq.wrap_wf _).sane.length_nonneg
  unfold formatterFor
  cases sp with
  | d => exact int hD
  | u => exact int hU
  | o => exact int hO
  | x => exact int hX
  | upperX => exact int fun i hi => by rw [hX i hi]
  | f => exact flt fun i hi => f_padsNothing h hp hi
  | upperF => exact flt fun i hi => by rw [f_padsNothing h hp hi]
  | e => exact flt fun i hi => e_padsNothing h hp hi
  | upperE => exact flt fun i hi => by rw [e_padsNothing h hp hi]
  | g => exact flt fun i hi => g_padsNothing h hp hi
  | upperG => exact flt fun i hi => by rw [g_padsNothing h hp hi]
  | a => exact flt fun i hi => a_padsNothing h hp hi
  | upperA => exact flt fun i hi => by rw [a_padsNothing h hp hi]
  | c =>
    simp only [SeqFormatter.c]
    cases v.asChar with
    | error e => rfl
    | ok y => exact spaceJustify_padsNothing h (Seq.ch_wf _).sane.length_nonneg
  | s => exact s_padsNothing h hv
  | upperS => simp only [s_padsNothing h hv]
  | t => exact hT
  | upperT => simp only [hT]
  | n => rfl
  | p =>
    simp only [p]
    cases v.ref with
    | primitive => rfl
    | null => exact spaceJustify_padsNothing h (Seq.wrap_wf _).sane.length_nonneg
    | object nm hs =>
      exact spaceJustify_padsNothing h (Seq.prepend_wf (Seq.prepend_wf (Seq.wrap_wf _)
        (Seq.ch_wf _)) (Seq.wrap_wf _)).sane.length_nonneg
  | percent => rfl

/-- The same through the precision step. -/
theorem afterWidth_padsNothing {env : DateEnv} {sp : Specifier} {c1 c2 : FormatContext}
    (h : PadsNothing c1 c2) (hp : Stored c2.precision) {args : List Traits}
    (hv : ∀ v ∈ args, v.WF ∧ v.HasDigits) :
    afterWidth env sp c1 args = afterWidth env sp c2 args := by
  have last : ∀ {d1 d2 : FormatContext} {rest : List Traits}, PadsNothing d1 d2 →
      SeqFormatter.PrecOK d2 → (∀ v ∈ rest, v.WF ∧ v.HasDigits) →
      valueStep env sp d1 rest = valueStep env sp d2 rest := by
    intro d1 d2 rest hd hpd hr
    cases rest with
    | nil => rfl
    | cons v rest =>
      simp only [valueStep]
      rw [formatterFor_padsNothing hd hpd (hr v (by simp)).1 (hr v (by simp)).2]
  by_cases hs : c2.precision = PRECEDING
  · have hs1 : c1.precision = PRECEDING := by rw [h.prec, hs]
    cases args with
    | nil =>
      unfold afterWidth starPrecision FormatContext.isPrecedingPrecision
      rw [if_pos (by simpa using hs1), if_pos (by simpa using hs)]; rfl
    | cons v rest =>
      rw [afterWidth_star hs1, afterWidth_star hs]
      cases v.asInt with
      | error e => rfl
      | ok p =>
        simp only [bind_ok, FormatContext.setPrecision]
        cases hc : FormatContext.checkValue .precision (if p ≥ 0 then p else UNSET) with
        | error e => rfl
        | ok u =>
          simp only [bind_ok, pure_eq_ok]
          refine last ⟨h.flags, rfl, h.date, h.w1, h.w2, h.ok⟩ ?_ (fun v hv' => hv v (by simp [hv']))
          by_cases hge : p ≥ 0
          · right; simp [hge]
          · left; simp [hge]
  · rw [afterWidth_noStar hs, afterWidth_noStar (by rw [h.prec]; exact hs)]
    refine last h ?_ hv
    rcases hp with hp | hp | hp
    · exact .inl hp
    · exact absurd hp hs
    · exact .inr hp.1

end FastPrintf
