/-
A flag that a conversion does not heed makes no difference to it.
-/
import Verif.Proofs.Width
import Verif.Proofs.Star
import Verif.Spec.FlagUse

namespace FastPrintf

open Spec DefaultAppender

/-- Two contexts that differ at most in flags that the conversion ignores. -/
structure AlikeFor (sp : Specifier) (c c' : FormatContext) : Prop where
  width : c'.width = c.width
  precision : c'.precision = c.precision
  date : c'.dateTimeFormatter = c.dateTimeFormatter
  left : c.width ≠ UNSET → sp ≠ .n → sp ≠ .percent → c'.flags.leftJustify = c.flags.leftJustify
  plus : sp.char ∈ signedConvs → c'.flags.plus = c.flags.plus
  space : sp.char ∈ signedConvs → c.flags.plus = false → c'.flags.leadingSpace = c.flags.leadingSpace
  zero : c.width ≠ UNSET → c.flags.leftJustify = false →
    (sp.char ∈ pointConvs ∨ sp.char ∈ wholeConvs ∧ (c.precision = UNSET ∨ c.precision = PRECEDING)) →
    c'.flags.zeroPad = c.flags.zeroPad
  alt : (sp.char ∈ js! "oxXgG" ∨ sp.char ∈ js! "fFeE" ∧ (c.precision = 0 ∨ c.precision = PRECEDING)) →
    c'.flags.alternate = c.flags.alternate

namespace SeqFormatter

variable {c c' : FormatContext}

theorem width_unset (h : c.width = UNSET) : width c = 0 := by
  unfold width FormatContext.isWidthSet
  rw [if_neg (by simp [h])]

theorem width_same (h : c'.width = c.width) : width c' = width c := by
  unfold width FormatContext.isWidthSet
  rw [h]

/-- Without a width nothing is padded. -/
theorem spaceJustify_unset (h : c.width = UNSET) {v : Seq} (hv : 0 ≤ v.length) : spaceJustify c v = .ok v := by
  unfold spaceJustify
  rw [width_unset h, if_neg (by omega)]

theorem spaceJustify_alike (hw : c'.width = c.width)
    (hl : c.width ≠ UNSET → c'.flags.leftJustify = c.flags.leftJustify) {v : Seq} (hv : 0 ≤ v.length) :
    spaceJustify c' v = spaceJustify c v := by
  by_cases h : c.width = UNSET
  · rw [spaceJustify_unset h hv, spaceJustify_unset (hw.trans h) hv]
  · unfold spaceJustify FormatContext.hasFlag
    rw [width_same hw]
    have e : c'.flags.contains .leftJustify = c.flags.contains .leftJustify := hl h
    rw [e]

theorem sign_alike (hp : c'.flags.plus = c.flags.plus)
    (hs : c.flags.plus = false → c'.flags.leadingSpace = c.flags.leadingSpace) (v : Seq) (neg : Bool) :
    sign c' v neg = sign c v neg := by
  unfold sign
  have h1 : c'.hasFlag .plus = c.hasFlag .plus := hp
  rw [h1]
  by_cases h : c.flags.plus = true
  · have h2 : c.hasFlag .plus = true := h
    rw [h2]; rfl
  · have h2 : c'.hasFlag .leadingSpace = c.hasFlag .leadingSpace := hs (by simpa using h)
    rw [h2]

theorem some_sign (hp : c'.flags.plus = c.flags.plus)
    (hs : c.flags.plus = false → c'.flags.leadingSpace = c.flags.leadingSpace) :
    (c'.flags.plus || c'.flags.leadingSpace) = (c.flags.plus || c.flags.leadingSpace) := by
  rw [hp]
  cases h : c.flags.plus
  · simp [hs h]
  · simp

theorem d_alike (h : AlikeFor .d c c') (v : IntForm) : d c' v = d c v := by
  have hs : Specifier.d.char ∈ signedConvs := by decide
  have hsg := some_sign (h.plus hs) (h.space hs)
  have hj := fun {v : Seq} => spaceJustify_alike (v := v) h.width (fun hw => h.left hw (by decide) (by decide))
  unfold d
  rw [h.precision]
  by_cases h0 : v.signum = 0 ∧ c.precision = 0
  · rw [if_pos h0, if_pos h0]
    have : c'.hasFlag .plus = c.hasFlag .plus := h.plus hs
    rw [this, hj]
    split
    · exact (Seq.ch_wf 43).sane.length_nonneg
    · exact Seq.empty_wf.sane.length_nonneg
  · rw [if_neg h0, if_neg h0]
    have hd : dPrecision c' v.signum = dPrecision c v.signum := by
      unfold dPrecision FormatContext.isPrecisionSet FormatContext.isWidthSet FormatContext.hasFlag
      simp only [Flags.contains, h.precision, h.width, Bool.or_assoc, hsg]
      by_cases hp : c.precision = UNSET
      · by_cases hw : c.width = UNSET
        · simp [hw]
        · rw [h.left hw (by decide) (by decide)]
          cases hl : c.flags.leftJustify
          · rw [h.zero hw hl (.inr ⟨by decide, .inl hp⟩)]
          · simp
      · simp [hp]
    rw [hd]
    cases v.toDecimalString with
    | error e => rfl
    | ok ds =>
      obtain ⟨q, q1, q2, _⟩ := zeroFill_ok (dPrecision c v.signum) (Seq.wrap_wf ds)
      simp only [bind_ok, q1, sign_alike (h.plus hs) (h.space hs)]
      exact hj (sign_ok c q2 _).1.sane.length_nonneg

theorem unsigned_alike {sp : Specifier} (h : AlikeFor sp c c') (hn : sp ≠ .n) (hp : sp ≠ .percent)
    (hw : sp.char ∈ wholeConvs) {pre : JStr} (hpre : sp.char ∈ js! "oxXgG" ∨ pre = [])
    (sg : Int) (x : Res JStr) :
    formatUnsignedInteger c' sg x pre = formatUnsignedInteger c sg x pre := by
  have hj := fun {v : Seq} => spaceJustify_alike (v := v) h.width (fun hw => h.left hw hn hp)
  unfold formatUnsignedInteger
  rw [h.precision]
  by_cases h0 : sg = 0 ∧ c.precision = 0
  · rw [if_pos h0, if_pos h0, hj Seq.empty_wf.sane.length_nonneg]
  · rw [if_neg h0, if_neg h0]
    have halt : pre ≠ [] → c'.flags.alternate = c.flags.alternate := by
      rintro hne
      rcases hpre with hpre | hpre
      · exact h.alt (.inl hpre)
      · exact absurd hpre hne
    have hu : uPrecision c' pre = uPrecision c pre := by
      unfold uPrecision FormatContext.isPrecisionSet FormatContext.isWidthSet FormatContext.hasFlag
      simp only [Flags.contains, h.precision, h.width]
      by_cases hne : pre = []
      · subst hne
        have : (js! "0" == ([] : JStr)) = false := rfl
        simp only [this, Bool.and_false, List.length_nil, Nat.cast_zero, Int.sub_zero, ite_self]
        by_cases hpr : c.precision = UNSET
        · by_cases hw' : c.width = UNSET
          · simp [hw']
          · rw [h.left hw' hn hp]
            by_cases hl : c.flags.leftJustify = true
            · simp [hl]
            · rw [h.zero hw' (by simpa using hl) (.inr ⟨hw, .inl hpr⟩)]
        · simp [hpr]
      · rw [halt hne]
        by_cases hpr : c.precision = UNSET
        · by_cases hw' : c.width = UNSET
          · simp [hw', hpr]
          · rw [h.left hw' hn hp]
            by_cases hl : c.flags.leftJustify = true
            · simp [hl]
            · rw [h.zero hw' (by simpa using hl) (.inr ⟨hw, .inl hpr⟩)]
              rfl
        · simp [hpr]
    rw [hu]
    cases x with
    | error e => rfl
    | ok ds =>
      obtain ⟨q, q1, q2, _⟩ := zeroFill_ok (uPrecision c pre) (Seq.wrap_wf ds)
      simp only [bind_ok, q1]
      have he : (if sg ≠ 0 ∧ c'.hasFlag .alternate = true then q.prepend (Seq.wrap pre) else q) =
          (if sg ≠ 0 ∧ c.hasFlag .alternate = true then q.prepend (Seq.wrap pre) else q) := by
        by_cases hne : pre = []
        · subst hne
          have : q.prepend (Seq.wrap []) = q := by
            unfold Seq.prepend
            split <;> rfl
          rw [this, ite_self, ite_self]
        · have : c'.hasFlag .alternate = c.hasFlag .alternate := halt hne
          rw [this]
      rw [he, hj]
      split
      · exact (Seq.prepend_wf q2 (Seq.wrap_wf pre)).sane.length_nonneg
      · exact q2.sane.length_nonneg

theorem nonFinite_alike (hp : c'.flags.plus = c.flags.plus) (hw : c'.width = c.width)
    (hl : c.width ≠ UNSET → c'.flags.leftJustify = c.flags.leftJustify) (v : FloatForm) :
    nanOrInfinity c' v = nanOrInfinity c v := by
  unfold nanOrInfinity
  have : c'.hasFlag .plus = c.hasFlag .plus := hp
  rw [this, spaceJustify_alike hw hl]
  split
  · exact (Seq.wrap_wf _).sane.length_nonneg
  · split
    · exact (Seq.wrap_wf _).sane.length_nonneg
    · split
      · exact (Seq.wrap_wf _).sane.length_nonneg
      · exact (Seq.wrap_wf _).sane.length_nonneg

/-- Without a width the sign is all that is added. -/
theorem signAndJustify_unset (h : c.width = UNSET) {v : Seq} (hv : v.Sane) (neg : Bool) :
    signAndJustify c v neg = .ok (sign c v neg) := by
  unfold signAndJustify
  have hs := (sign_sane c hv neg).1.length_nonneg
  have hl := hv.length_nonneg
  split
  · exact spaceJustify_unset h hs
  · have hz : ∀ n : Int, n ≤ 0 → zeroFill n v = .ok v := by
      intro n hn
      unfold zeroFill
      rw [if_neg (by omega)]
    dsimp only
    rw [width_unset h, hz _ (by split <;> omega), bind_ok]
    rfl

theorem signAndJustify_alike (hp : c'.flags.plus = c.flags.plus)
    (hs : c.flags.plus = false → c'.flags.leadingSpace = c.flags.leadingSpace)
    (hw : c'.width = c.width) (hl : c.width ≠ UNSET → c'.flags.leftJustify = c.flags.leftJustify)
    (hz : c.width ≠ UNSET → c.flags.leftJustify = false → c'.flags.zeroPad = c.flags.zeroPad)
    {v : Seq} (hv : v.Sane) (neg : Bool) : signAndJustify c' v neg = signAndJustify c v neg := by
  by_cases h : c.width = UNSET
  · rw [signAndJustify_unset h hv, signAndJustify_unset (hw.trans h) hv, sign_alike hp hs]
  · unfold signAndJustify
    simp only [FormatContext.hasFlag, Flags.contains, sign_alike hp hs, hl h, Bool.or_assoc, some_sign hp hs,
      width_same hw, spaceJustify_alike hw hl (sign_sane c hv neg).1.length_nonneg]
    cases hlj : c.flags.leftJustify
    · simp only [hz h hlj]
    · simp

theorem frac_alike {p : Int} (hp : p ≠ 0) (m : Seq) (b b' : Bool) :
    formatFractionalPart m p b' = formatFractionalPart m p b := by
  unfold formatFractionalPart
  cases m.indexOf 46 with
  | error e => rfl
  | ok dot =>
    simp only [bind_ok, hp, false_and, if_false]

theorem frac_alike' (hpr : c'.precision = c.precision)
    (ha : c.precision = 0 → c'.flags.alternate = c.flags.alternate) (m : Seq) :
    formatFractionalPart m (precision6 c') (c'.hasFlag .alternate) =
      formatFractionalPart m (precision6 c) (c.hasFlag .alternate) := by
  have h6 : precision6 c' = precision6 c := by
    unfold precision6 FormatContext.isPrecisionSet
    rw [hpr]
  rw [h6]
  by_cases h0 : c.precision = 0
  · have : c'.hasFlag .alternate = c.hasFlag .alternate := ha h0
    rw [this]
  · apply frac_alike
    unfold precision6
    split
    · exact h0
    · decide

theorem f_alike (hpo : PrecOK c) (h : AlikeFor .f c c') {v : FloatForm} (hv : v.WF) : f c' v = f c v := by
  have hs : Specifier.f.char ∈ signedConvs := by decide
  have hl := fun hw => h.left hw (by decide) (by decide)
  unfold f
  rw [nonFinite_alike (h.plus hs) h.width hl]
  have h6 : precision6 c' = precision6 c := by
    unfold precision6 FormatContext.isPrecisionSet
    rw [h.precision]
  by_cases hf : (v.isNaN || v.isInfinite) = true
  · rw [if_pos hf, if_pos hf]
  · rw [if_neg hf, if_neg hf]
    simp only [frac_alike' h.precision (fun h0 => h.alt (.inr ⟨by decide, .inl h0⟩))]
    rw [h6]
    cases hd : v.decimalLayout (precision6 c) with
    | error e => rfl
    | ok l =>
      obtain ⟨r, r1, r2, _⟩ := formatFractionalPart_ok (hv _ l (precision6_nonneg hpo) (.inr (.inr (.inl hd)))).1
        (precision6_nonneg hpo) (c.hasFlag .alternate)
      simp only [bind_ok, r1]
      exact signAndJustify_alike (h.plus hs) (h.space hs) h.width hl
        (fun hw hlj => h.zero hw hlj (.inl (by decide))) r2.sane _

theorem e_alike (hpo : PrecOK c) (h : AlikeFor .e c c') {v : FloatForm} (hv : v.WF) : e c' v = e c v := by
  have hs : Specifier.e.char ∈ signedConvs := by decide
  have hl := fun hw => h.left hw (by decide) (by decide)
  unfold e
  rw [nonFinite_alike (h.plus hs) h.width hl]
  have h6 : precision6 c' = precision6 c := by
    unfold precision6 FormatContext.isPrecisionSet
    rw [h.precision]
  by_cases hf : (v.isNaN || v.isInfinite) = true
  · rw [if_pos hf, if_pos hf]
  · rw [if_neg hf, if_neg hf]
    simp only [frac_alike' h.precision (fun h0 => h.alt (.inr ⟨by decide, .inl h0⟩))]
    rw [h6]
    cases hd : v.scientificLayout (precision6 c) with
    | error e => rfl
    | ok l =>
      have hw := hv _ l (precision6_nonneg hpo) (.inr (.inl hd))
      obtain ⟨r, r1, r2, _⟩ := formatFractionalPart_ok hw.1 (precision6_nonneg hpo) (c.hasFlag .alternate)
      simp only [bind_ok, r1]
      cases hx : appendExponent (r.append (Seq.ch 101)) l.exponent with
      | error e => rfl
      | ok v2 =>
        simp only [bind_ok]
        exact signAndJustify_alike (h.plus hs) (h.space hs) h.width hl
          (fun hw hlj => h.zero hw hlj (.inl (by decide)))
          (appendExponent_wf (Seq.append_wf r2 (Seq.ch_wf 101)) hw.2 v2 hx).sane _

theorem g_alike (hpo : PrecOK c) (h : AlikeFor .g c c') {v : FloatForm} (hv : v.WF) : g c' v = g c v := by
  have hs : Specifier.g.char ∈ signedConvs := by decide
  have hl := fun hw => h.left hw (by decide) (by decide)
  have h6 : gPrecision c' = gPrecision c := by
    unfold gPrecision FormatContext.isPrecisionSet
    rw [h.precision]
  by_cases hf : (v.isNaN || v.isInfinite) = true
  · unfold g
    rw [if_pos hf, if_pos hf, nonFinite_alike (h.plus hs) h.width hl]
  · have hf' : (v.isNaN || v.isInfinite) = false := by simpa using hf
    cases hd : v.generalLayout (gPrecision c) with
    | error e =>
      unfold g
      rw [if_neg hf, if_neg hf, h6, hd]
      rfl
    | ok l =>
      have hw := hv _ l (by have := gPrecision_pos hpo; omega) (.inl hd)
      obtain ⟨q, q1, q2, _⟩ := gBody_sane hpo hw
      have hb : gBody c' l = gBody c l := by
        have : c'.hasFlag .alternate = c.hasFlag .alternate := h.alt (.inl (by decide))
        unfold gBody formatGDecimal formatGScientific
        rw [this, h6]
      rw [g_eq c' v hf' (by rw [h6]; exact hd), g_eq c v hf' hd, hb, q1, bind_ok, bind_ok]
      exact signAndJustify_alike (h.plus hs) (h.space hs) h.width hl
          (fun hw hlj => h.zero hw hlj (.inl (by decide))) q2 _

/-- Without a width `%a` adds prefix and sign only. -/
theorem aJustify_unset (h : c.width = UNSET) {v : Seq} (hv : v.WF) (neg : Bool) :
    aJustify c v neg = .ok (sign c (v.prepend (Seq.wrap (js! "0x"))) neg) := by
  have hx := Seq.prepend_wf hv (Seq.wrap_wf (js! "0x"))
  have hs := (sign_ok c hx neg).1.sane.length_nonneg
  have hl := hv.sane.length_nonneg
  have hu : c.width = -1 := h
  unfold aJustify
  split
  · dsimp only
    rw [hu, if_neg (by split <;> omega)]
    rfl
  · exact spaceJustify_unset h hs

theorem aJustify_alike (hp : c'.flags.plus = c.flags.plus)
    (hs : c.flags.plus = false → c'.flags.leadingSpace = c.flags.leadingSpace)
    (hw : c'.width = c.width) (hl : c.width ≠ UNSET → c'.flags.leftJustify = c.flags.leftJustify)
    (hz : c.width ≠ UNSET → c.flags.leftJustify = false → c'.flags.zeroPad = c.flags.zeroPad)
    {v : Seq} (hv : v.WF) (neg : Bool) : aJustify c' v neg = aJustify c v neg := by
  by_cases h : c.width = UNSET
  · rw [aJustify_unset h hv, aJustify_unset (hw.trans h) hv, sign_alike hp hs]
  · have hx := Seq.prepend_wf hv (Seq.wrap_wf (js! "0x"))
    have e1 : c'.hasFlag .leftJustify = c.hasFlag .leftJustify := hl h
    have e2 : (c'.hasFlag .plus || c'.hasFlag .leadingSpace) = (c.hasFlag .plus || c.hasFlag .leadingSpace) :=
      some_sign hp hs
    unfold aJustify
    simp only [sign_alike hp hs]
    rw [Bool.or_assoc, Bool.or_assoc, e1, e2, hw,
      spaceJustify_alike hw hl (sign_ok c hx neg).1.sane.length_nonneg]
    by_cases hlj : c.flags.leftJustify = true
    · have : c.hasFlag .leftJustify = true := hlj
      simp [this]
    · have : c'.hasFlag .zeroPad = c.hasFlag .zeroPad := hz h (by simpa using hlj)
      rw [this]

theorem a_alike (hpo : PrecOK c) (h : AlikeFor .a c c') {v : FloatForm} (hv : v.WF) : a c' v = a c v := by
  have hs : Specifier.a.char ∈ signedConvs := by decide
  have hl := fun hw => h.left hw (by decide) (by decide)
  have hpos := aPrecision_pos hpo
  unfold a
  rw [nonFinite_alike (h.plus hs) h.width hl]
  have h6 : aPrecision c' = aPrecision c := by
    unfold aPrecision FormatContext.isPrecisionSet
    rw [h.precision]
  have hset : c'.isPrecisionSet = c.isPrecisionSet := by
    unfold FormatContext.isPrecisionSet
    rw [h.precision]
  by_cases hf : (v.isNaN || v.isInfinite) = true
  · rw [if_pos hf, if_pos hf]
  · rw [if_neg hf, if_neg hf, h6, hset]
    simp only [frac_alike (show aPrecision c ≠ 0 by omega) _ (c.hasFlag .alternate) (c'.hasFlag .alternate)]
    cases hd : v.hexLayout (aPrecision c) with
    | error e => rfl
    | ok l =>
      have hw := hv _ l (by omega) (.inr (.inr (.inr hd)))
      simp only [bind_ok]
      have key : ∀ v0 : Seq, v0.WF → (appendExponent (v0.append (Seq.ch 112)) l.exponent >>= fun v2 =>
          aJustify c' v2 (v.signum < 0)) = (appendExponent (v0.append (Seq.ch 112)) l.exponent >>= fun v2 =>
          aJustify c v2 (v.signum < 0)) := by
        intro v0 h0
        cases hx : appendExponent (v0.append (Seq.ch 112)) l.exponent with
        | error e => rfl
        | ok v2 =>
          simp only [bind_ok]
          exact aJustify_alike (h.plus hs) (h.space hs) h.width hl
            (fun hw hlj => h.zero hw hlj (.inl (by decide)))
            (appendExponent_wf (Seq.append_wf h0 (Seq.ch_wf 112)) hw.2 v2 hx) _
      split
      · obtain ⟨r, r1, r2, _⟩ := formatFractionalPart_ok hw.1 (show 0 ≤ aPrecision c by omega) (c.hasFlag .alternate)
        simp only [bind_ok, r1]
        exact key r r2
      · exact key l.mantissa hw.1

theorem c_alike (h : AlikeFor .c c c') (v : Traits) : SeqFormatter.c c' v = SeqFormatter.c c v := by
  unfold SeqFormatter.c
  cases v.asChar with
  | error e => rfl
  | ok x =>
    simp only [bind_ok]
    exact spaceJustify_alike h.width (fun hw => h.left hw (by decide) (by decide))
      (Seq.ch_wf x).sane.length_nonneg

theorem s_alike (hpo : PrecOK c) (h : AlikeFor .s c c') {v : Traits} (hv : v.WF) : s c' v = s c v := by
  have hj := fun {v : Seq} => spaceJustify_alike (v := v) h.width (fun hw => h.left hw (by decide) (by decide))
  unfold s FormatContext.isPrecisionSet
  rw [h.precision]
  cases hq : v.asSeq with
  | error e => rfl
  | ok q =>
    simp only [bind_ok]
    have hw := hv.seq q hq
    split
    · rename_i hc
      cases hsub : q.subSequence 0 c.precision with
      | error e => rfl
      | ok r =>
        simp only [bind_ok]
        have h0 : 0 ≤ c.precision := by
          rcases hpo with hp | hp
          · simp [hp] at hc
          · exact hp
        have hlen := hw.length_text
        obtain ⟨r', r1, r2, _⟩ := Seq.subSequence_ok hw (i := 0) (j := c.precision) ⟨le_refl 0, h0, by
          simp only [Bool.and_eq_true, decide_eq_true_eq] at hc; omega⟩
        rw [hsub] at r1; cases r1
        exact hj r2.length_nonneg
    · exact hj hw.sane.length_nonneg

theorem t_alike (h : AlikeFor .t c c') (env : DateEnv) (v : Traits) : t env c' v = t env c v := by
  have hj := fun {v : Seq} => spaceJustify_alike (v := v) h.width (fun hw => h.left hw (by decide) (by decide))
  unfold t
  cases v.asTemporal with
  | error e => rfl
  | ok ta =>
    simp only [bind_ok]
    have : chooseFormatter c' ta = chooseFormatter c ta := by
      unfold chooseFormatter
      rw [h.date]
    rw [this]
    cases chooseFormatter c ta with
    | error e => rfl
    | ok r =>
      simp only [bind_ok]
      cases env.format r.1 r.2 with
      | error e => rfl
      | ok x =>
        simp only [bind_ok]
        exact hj (Seq.wrap_wf x).sane.length_nonneg

theorem p_alike (h : AlikeFor .p c c') (v : Traits) : p c' v = p c v := by
  have hj := fun {v : Seq} => spaceJustify_alike (v := v) h.width (fun hw => h.left hw (by decide) (by decide))
  unfold p
  cases v.ref with
  | primitive => rfl
  | null => exact hj (Seq.wrap_wf _).sane.length_nonneg
  | object name hash =>
    exact hj (Seq.prepend_wf (Seq.prepend_wf (Seq.wrap_wf _) (Seq.ch_wf _)) (Seq.wrap_wf _)).sane.length_nonneg

end SeqFormatter

/-- The upper-case conversions heed what the lower-case ones heed. -/
theorem AlikeFor.lower {sp : Specifier} {c c' : FormatContext} (h : AlikeFor sp c c') {lo : Specifier}
    (hp : (sp, lo) ∈ [(Specifier.upperX, Specifier.x), (.upperF, .f), (.upperE, .e), (.upperG, .g), (.upperA, .a),
      (.upperS, .s), (.upperT, .t)]) : AlikeFor lo c c' := by
  obtain ⟨h1, h2, h3, h4, h5, h6, h7, h8⟩ := h
  simp only [List.mem_cons, Prod.mk.injEq, List.not_mem_nil, or_false] at hp
  rcases hp with ⟨rfl, rfl⟩ | ⟨rfl, rfl⟩ | ⟨rfl, rfl⟩ | ⟨rfl, rfl⟩ | ⟨rfl, rfl⟩ | ⟨rfl, rfl⟩ | ⟨rfl, rfl⟩
  all_goals
    refine ⟨h1, h2, h3, fun hw _ _ => h4 hw (by decide) (by decide), fun hs => h5 ?_, fun hs => h6 ?_,
      fun hw hl hz => h7 hw hl ?_, fun ha => h8 ?_⟩
    all_goals first
      | (revert hs; decide)
      | (rcases hz with hz | ⟨hz, hu⟩
         · exact .inl (by revert hz; decide)
         · exact .inr ⟨by revert hz; decide, hu⟩)
      | (rcases ha with ha | ⟨ha, hu⟩
         · exact .inl (by revert ha; decide)
         · exact .inr ⟨by revert ha; decide, hu⟩)

/-- Flags that a conversion ignores make no difference to it. -/
theorem formatterFor_alike {env : DateEnv} {sp : Specifier} {c c' : FormatContext} (hpo : SeqFormatter.PrecOK c)
    (h : AlikeFor sp c c') {v : Traits} (hv : v.WF) : formatterFor env sp c' v = formatterFor env sp c v := by
  have int : ∀ k k' : IntForm → Res Seq, (∀ i, k' i = k i) → (v.asIntForm >>= k') = (v.asIntForm >>= k) := by
    intro k k' hk
    cases v.asIntForm with
    | error e => rfl
    | ok i => exact hk i
  have flt : ∀ k k' : FloatForm → Res Seq, (∀ i, i.WF → k' i = k i) →
      (v.asFloatForm >>= k') = (v.asFloatForm >>= k) := by
    intro k k' hk
    cases hf : v.asFloatForm with
    | error e => rfl
    | ok i => exact hk i (hv.float i hf)
  cases sp with
  | d => exact int _ _ (SeqFormatter.d_alike h)
  | u => exact int _ _ fun i => SeqFormatter.unsigned_alike h (by decide) (by decide) (by decide) (.inr rfl) _ _
  | o => exact int _ _ fun i => SeqFormatter.unsigned_alike h (by decide) (by decide) (by decide) (.inl (by decide)) _ _
  | x => exact int _ _ fun i => SeqFormatter.unsigned_alike h (by decide) (by decide) (by decide) (.inl (by decide)) _ _
  | upperX =>
    have h := h.lower (lo := .x) (by decide)
    exact int _ _ fun i => by
      rw [show SeqFormatter.x c' i = SeqFormatter.x c i from
        SeqFormatter.unsigned_alike h (by decide) (by decide) (by decide) (.inl (by decide)) _ _]
  | f => exact flt _ _ fun i hi => SeqFormatter.f_alike hpo h hi
  | upperF => exact flt _ _ fun i hi => by rw [SeqFormatter.f_alike hpo (h.lower (by decide)) hi]
  | e => exact flt _ _ fun i hi => SeqFormatter.e_alike hpo h hi
  | upperE => exact flt _ _ fun i hi => by rw [SeqFormatter.e_alike hpo (h.lower (by decide)) hi]
  | g => exact flt _ _ fun i hi => SeqFormatter.g_alike hpo h hi
  | upperG => exact flt _ _ fun i hi => by rw [SeqFormatter.g_alike hpo (h.lower (by decide)) hi]
  | a => exact flt _ _ fun i hi => SeqFormatter.a_alike hpo h hi
  | upperA => exact flt _ _ fun i hi => by rw [SeqFormatter.a_alike hpo (h.lower (by decide)) hi]
  | c => exact SeqFormatter.c_alike h v
  | s => exact SeqFormatter.s_alike hpo h hv
  | upperS =>
    simp only [formatterFor]
    rw [SeqFormatter.s_alike hpo (h.lower (by decide)) hv]
  | t => exact SeqFormatter.t_alike h env v
  | upperT =>
    simp only [formatterFor]
    rw [SeqFormatter.t_alike (h.lower (by decide)) env v]
  | n => rfl
  | p => exact SeqFormatter.p_alike h v
  | percent => rfl

theorem AlikeFor.setWidth {sp : Specifier} {c c' : FormatContext} (h : AlikeFor sp c c') (hc : c.width = PRECEDING)
    (w : Int) : AlikeFor sp { c with width := w } { c' with width := w } :=
  have hu : c.width ≠ UNSET := by rw [hc]; decide
  ⟨rfl, h.precision, h.date, fun _ => h.left hu, h.plus, h.space, fun _ => h.zero hu, h.alt⟩

theorem AlikeFor.addMinus {sp : Specifier} {c c' : FormatContext} (h : AlikeFor sp c c') :
    AlikeFor sp (c.addFlag .leftJustify) (c'.addFlag .leftJustify) := by
  have e : ∀ c : FormatContext, c.addFlag .leftJustify = { c with flags := { c.flags with leftJustify := true } } := by
    intro c
    unfold FormatContext.addFlag
    split
    · rename_i hl
      have hl : c.flags.leftJustify = true := hl
      obtain ⟨⟨a, b, c1, d, e⟩, w, p, dt⟩ := c
      dsimp only at hl
      subst hl
      rfl
    · rfl
  rw [e, e]
  exact ⟨h.width, h.precision, h.date, fun _ _ _ => rfl, h.plus, h.space, fun _ hl => absurd hl (by simp), h.alt⟩

theorem AlikeFor.setPrecision {sp : Specifier} {c c' : FormatContext} (h : AlikeFor sp c c')
    (hc : c.precision = PRECEDING) (p : Int) : AlikeFor sp { c with precision := p } { c' with precision := p } :=
  ⟨h.width, rfl, h.date, h.left, h.plus, h.space, fun hw hl hz => h.zero hw hl (hz.imp id fun k => ⟨k.1, .inr hc⟩),
    fun ha => h.alt (ha.imp id fun k => ⟨k.1, .inr hc⟩)⟩

theorem valueStep_alike {env : DateEnv} {sp : Specifier} {c c' : FormatContext} (hpo : SeqFormatter.PrecOK c)
    (h : AlikeFor sp c c') {args : List Traits} (hv : ∀ v ∈ args, v.WF) :
    valueStep env sp c' args = valueStep env sp c args := by
  cases args with
  | nil => rfl
  | cons v rest =>
    simp only [valueStep]
    rw [formatterFor_alike hpo h (hv v (by simp))]

theorem afterWidth_alike {env : DateEnv} {sp : Specifier} {c c' : FormatContext} (hst : Stored c.precision)
    (h : AlikeFor sp c c') {args : List Traits} (hv : ∀ v ∈ args, v.WF) :
    afterWidth env sp c' args = afterWidth env sp c args := by
  by_cases hp : c.precision = PRECEDING
  · cases args with
    | nil =>
      unfold afterWidth starPrecision FormatContext.isPrecedingPrecision
      rw [h.precision]
      simp only [hp, beq_self_eq_true, if_true]
      rfl
    | cons v rest =>
      rw [afterWidth_star hp, afterWidth_star (h.precision.trans hp)]
      cases v.asInt with
      | error e => rfl
      | ok p =>
        simp only [bind_ok]
        unfold FormatContext.setPrecision
        cases hck : FormatContext.checkValue .precision (if p ≥ 0 then p else UNSET) with
        | error e => rfl
        | ok u =>
          simp only [bind_ok, pure_eq_ok]
          refine valueStep_alike ?_ (h.setPrecision hp _) (fun v hv' => hv v (by simp [hv']))
          unfold SeqFormatter.PrecOK
          dsimp only
          split
          · exact .inr (by omega)
          · exact .inl rfl
  · rw [afterWidth_noStar hp, afterWidth_noStar (by rw [h.precision]; exact hp)]
    refine valueStep_alike ?_ h hv
    rcases hst with h1 | h1 | h1
    · exact .inl h1
    · exact absurd h1 hp
    · exact .inr h1.1

/-- Flags that a directive ignores make no difference to it, also if width or precision is an argument. -/
theorem append_alike {env : DateEnv} {sp : Specifier} {c c' : FormatContext} (hst : Stored c.precision)
    (h : AlikeFor sp c c') {args : List Traits} (hv : ∀ v ∈ args, v.WF) :
    append env sp c' args = append env sp c args := by
  by_cases hw : c.width = PRECEDING
  · cases args with
    | nil =>
      rw [append_eq, append_eq]
      unfold starWidth FormatContext.isPrecedingWidth
      rw [h.width]
      simp only [hw, beq_self_eq_true, if_true]
      rfl
    | cons v rest =>
      have hv' : ∀ x ∈ rest, x.WF := fun x hx => hv x (by simp [hx])
      rw [append_star hw, append_star (h.width.trans hw)]
      cases v.asInt with
      | error e => rfl
      | ok w =>
        simp only [bind_ok]
        have hm : (c.addFlag .leftJustify).width = PRECEDING := by
          unfold FormatContext.addFlag; split <;> exact hw
        have hms : Stored (c.addFlag .leftJustify).precision := by
          unfold FormatContext.addFlag; split <;> exact hst
        unfold FormatContext.setWidth
        by_cases h0 : w ≥ 0
        · rw [if_pos h0, if_pos h0]
          cases hck : FormatContext.checkValue .width w with
          | error e => rfl
          | ok u =>
            simp only [bind_ok, pure_eq_ok]
            exact afterWidth_alike (c := { c with width := w }) hst (h.setWidth hw w) hv'
        · rw [if_neg h0, if_neg h0]
          cases hck : FormatContext.checkValue .width (wrap32 (-w)) with
          | error e => rfl
          | ok u =>
            simp only [bind_ok, pure_eq_ok]
            exact afterWidth_alike (c := { c.addFlag .leftJustify with width := wrap32 (-w) }) hms
              (h.addMinus.setWidth hm _) hv'
  · rw [append_noStar hw, append_noStar (by rw [h.width]; exact hw)]
    exact afterWidth_alike hst h hv

/-- The loop over the pieces, with one piece replaced by one that behaves alike. -/
theorem runSB_alike {env : DateEnv} {a a' : Appender} (h : ∀ args : List Traits, (∀ v ∈ args, v.WF) →
    a'.append env args = a.append env args) (qs : List Appender) :
    ∀ (ps : List Appender), (∀ p ∈ ps, p.Stored) → ∀ (args : List Traits), (∀ v ∈ args, v.WF) → ∀ sb,
      runSB env (ps ++ a' :: qs) args sb = runSB env (ps ++ a :: qs) args sb
  | [], _, args, hv, sb => by
    simp only [List.nil_append, runSB, h args hv]
  | p :: ps, hs, args, hv, sb => by
    simp only [List.cons_append, runSB]
    cases hp : p.append env args with
    | error e => rfl
    | ok r =>
      obtain ⟨q, rest⟩ := r
      dsimp only
      cases q.appendToSB sb with
      | error e => rfl
      | ok sb' =>
        dsimp only
        exact runSB_alike h qs ps (fun x hx => hs x (by simp [hx])) rest
          (Appender.append_sane (hs p (by simp)) hv hp).2 sb'

end FastPrintf
