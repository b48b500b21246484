/-
The text each method of `SeqFormatter` produces, as a plain string expression.
-/
import Verif.Proofs.SeqFormatter

namespace FastPrintf.SeqFormatter

open Spec

/-- The precision of a context, absent when unset. -/
def precOf (ctx : FormatContext) : Option Nat :=
  if ctx.precision = UNSET then none else some ctx.precision.toNat

/-- A precision that can reach the formatting stage. -/
def PrecOK (ctx : FormatContext) : Prop := ctx.precision = UNSET ∨ 0 ≤ ctx.precision

theorem isPrecisionSet_iff (ctx : FormatContext) :
    ctx.isPrecisionSet = true ↔ ctx.precision ≠ UNSET := by
  simp [FormatContext.isPrecisionSet]

theorem isWidthSet_iff (ctx : FormatContext) : ctx.isWidthSet = true ↔ ctx.width ≠ UNSET := by
  simp [FormatContext.isWidthSet]

/-- `field` when the body is believed to have `len` characters. -/
def fieldBy (left zero : Bool) (w : Nat) (len : Nat) (pre body : JStr) : JStr :=
  let n := w - (pre.length + len)
  if left then pre ++ body ++ List.replicate n 32
  else if zero then pre ++ List.replicate n 48 ++ body
  else List.replicate n 32 ++ pre ++ body

theorem fieldBy_eq (left zero : Bool) (w : Nat) (pre body : JStr) :
    fieldBy left zero w body.length pre body = field left zero w pre body := rfl

theorem signText_length (fl : Flags) (neg : Bool) :
    (signText fl neg).length = if neg || fl.plus || fl.leadingSpace then 1 else 0 := by
  unfold signText
  cases neg <;> cases fl.plus <;> cases fl.leadingSpace <;> rfl

theorem signAndJustify_sane (ctx : FormatContext) {v0 : Seq} (h : v0.Sane) (neg : Bool) :
    ∃ r, signAndJustify ctx v0 neg = .ok r ∧ r.Sane ∧
      r.text = fieldBy ctx.flags.leftJustify ctx.flags.zeroPad ctx.width.toNat v0.length.toNat
        (signText ctx.flags neg) v0.text := by
  have hl := h.length_nonneg
  have hw := width_toNat ctx
  have hs := signText_length ctx.flags neg
  obtain ⟨s1, s2, s3⟩ := sign_sane ctx h neg
  unfold signAndJustify
  simp only [hasFlag_left, hasFlag_zero, hasFlag_plus, hasFlag_space]
  by_cases hz : (!ctx.flags.zeroPad || ctx.flags.leftJustify) = true
  · rw [if_pos hz]
    obtain ⟨r, h1, h2, h3, _⟩ := spaceJustify_sane ctx s1
    refine ⟨r, h1, h2, ?_⟩
    have e : ctx.width.toNat - (sign ctx v0 neg).length.toNat =
        ctx.width.toNat - ((signText ctx.flags neg).length + v0.length.toNat) := by omega
    rw [h3, s2, e]
    unfold fieldBy
    cases hlf : ctx.flags.leftJustify <;> simp_all
  · rw [if_neg hz]
    generalize hn : (if (neg || ctx.flags.plus || ctx.flags.leadingSpace) = true then width ctx - 1
      else width ctx) = n
    obtain ⟨r, h1, h2, h3, _⟩ := zeroFill_sane n h
    obtain ⟨g1, g2, _⟩ := sign_sane ctx h2 neg
    simp only [h1, bind_ok, pure_eq_ok]
    refine ⟨_, rfl, g1, ?_⟩
    rw [g2, h3]
    have hlf : ctx.flags.leftJustify = false := by simp at hz; exact hz.2
    have hzp : ctx.flags.zeroPad = true := by simp at hz; exact hz.1
    have e : n.toNat - v0.length.toNat =
        ctx.width.toNat - ((signText ctx.flags neg).length + v0.length.toNat) := by
      rw [hs]; subst hn
      split_ifs <;> omega
    simp only [fieldBy, hlf, hzp, e, List.append_assoc]
    simp

/-! ### Integers -/

theorem d_ok {ctx : FormatContext} (hp : PrecOK ctx) {v : IntForm} {ds : JStr}
    (hv : v.toDecimalString = .ok ds) (hd : ds ≠ []) :
    ∃ r, d ctx v = .ok r ∧ r.WF ∧
      r.text = if v.signum = 0 ∧ ctx.precision = 0 then
          field ctx.flags.leftJustify false ctx.width.toNat [] (if ctx.flags.plus then js! "+" else [])
        else field ctx.flags.leftJustify (ctx.flags.zeroPad && (precOf ctx).isNone) ctx.width.toNat
          (signText ctx.flags (v.signum < 0)) (withPrecision (precOf ctx) (v.signum = 0) ds) := by
  have hlen : 1 ≤ ds.length := by
    cases ds with
    | nil => exact absurd rfl hd
    | cons a t => simp
  have eU : UNSET = -1 := rfl
  unfold d
  by_cases h0 : v.signum = 0 ∧ ctx.precision = 0
  · rw [if_pos h0]
    simp only [if_pos h0, hasFlag_plus]
    cases ctx.flags.plus
    · obtain ⟨r, h1, h2, h3⟩ := spaceJustify_ok ctx Seq.empty_wf
      exact ⟨r, h1, h2, by rw [h3]; rfl⟩
    · obtain ⟨r, h1, h2, h3⟩ := spaceJustify_ok ctx (Seq.ch_wf 43)
      exact ⟨r, h1, h2, by rw [h3]; rfl⟩
  · rw [if_neg h0]
    simp only [if_neg h0, hv, bind_ok]
    have wfw := Seq.wrap_wf ds
    obtain ⟨q, q1, q2, q3⟩ := zeroFill_ok (dPrecision ctx v.signum) wfw
    rw [Seq.wrap_text] at q3
    obtain ⟨s1, s2⟩ := sign_ok ctx q2 (v.signum < 0)
    obtain ⟨r, h1, h2, h3⟩ := spaceJustify_ok ctx s1
    simp only [q1, bind_ok]
    refine ⟨r, h1, h2, ?_⟩
    rw [h3, s2, q3]
    have hs := signText_length ctx.flags (decide (v.signum < 0))
    generalize signText ctx.flags (decide (v.signum < 0)) = sg at *
    rw [field_nil_append]
    by_cases hset : ctx.precision = UNSET
    · have hnone : precOf ctx = none := by simp [precOf, hset]
      have hps : ctx.isPrecisionSet = false := by simp [FormatContext.isPrecisionSet, hset]
      have hwp : withPrecision none (decide (v.signum = 0)) ds = ds := by
        unfold withPrecision
        rw [if_neg (by simp)]
        have : (none : Option Nat).getD 1 - ds.length = 0 := by simp only [Option.getD_none]; omega
        rw [this]; rfl
      rw [hnone, hwp]
      simp only [Option.isNone_none, Bool.and_true]
      by_cases hz : ctx.flags.zeroPad = true ∧ ctx.flags.leftJustify = false ∧ ctx.width ≠ UNSET
      · obtain ⟨z1, z2, z3⟩ := hz
        have hdp : (dPrecision ctx v.signum).toNat - ds.length =
            ctx.width.toNat - (sg.length + ds.length) := by
          rw [hs]
          unfold dPrecision
          rw [if_neg (by simp [hps]), if_pos (by simp [z1, z2, isWidthSet_iff, z3])]
          simp only [hasFlag_plus, hasFlag_space]
          split_ifs <;> omega
        rw [hdp]
        unfold field
        simp only [z1, z2, Bool.false_eq_true, if_false, if_true]
        have : ctx.width.toNat - (sg.length + (List.replicate
            (ctx.width.toNat - (sg.length + ds.length)) 48 ++ ds).length) = 0 := by
          simp only [List.length_append, List.length_replicate]; omega
        rw [this]; simp
      · have hdp : (dPrecision ctx v.signum).toNat - ds.length = 0 := by
          unfold dPrecision
          rw [if_neg (by simp [hps]), if_neg]
          · simp only [Int.toNat_one]; omega
          · simp only [hasFlag_zero, hasFlag_left]
            simp only [Bool.and_eq_true, Bool.not_eq_true', isWidthSet_iff]
            tauto
        rw [hdp]
        simp only [List.replicate_zero, List.nil_append]
        by_cases hl : ctx.flags.leftJustify = true
        · simp [field, hl]
        · by_cases hzp : ctx.flags.zeroPad = true
          · have : ctx.width = UNSET := by
              by_contra hc; exact hz ⟨hzp, by simpa using hl, hc⟩
            have hw0 : ctx.width.toNat = 0 := by rw [this]; rfl
            simp [field, hl, hw0]
          · simp [hzp]
    · have hpge : 0 ≤ ctx.precision := by
        rcases hp with h | h
        · exact absurd h hset
        · exact h
      have hsome : precOf ctx = some ctx.precision.toNat := by simp [precOf, hset]
      have hps : ctx.isPrecisionSet = true := by simp [FormatContext.isPrecisionSet, hset]
      have hdp : dPrecision ctx v.signum = ctx.precision := by
        unfold dPrecision; rw [if_pos hps]
      rw [hsome, hdp]
      simp only [Option.isNone_some, Bool.and_false]
      have hwp : withPrecision (some ctx.precision.toNat) (decide (v.signum = 0)) ds =
          List.replicate (ctx.precision.toNat - ds.length) 48 ++ ds := by
        unfold withPrecision
        rw [if_neg]
        · rfl
        · simp only [decide_eq_true_eq, Option.some.injEq]
          intro hc
          exact h0 ⟨hc.1, by omega⟩
      rw [hwp]

theorem d_err {ctx : FormatContext} {v : IntForm} {e : Err} (hv : v.toDecimalString = .error e)
    (h0 : ¬ (v.signum = 0 ∧ ctx.precision = 0)) : d ctx v = .error e := by
  unfold d; rw [if_neg h0, hv]; rfl

theorem unsigned_ok (ctx : FormatContext) (signum : Int) {toStr : Res JStr} {ds : JStr}
    (hv : toStr = .ok ds) (pre : JStr) :
    ∃ r, formatUnsignedInteger ctx signum toStr pre = .ok r ∧ r.WF ∧
      r.text = field ctx.flags.leftJustify false ctx.width.toNat []
        (if signum = 0 ∧ ctx.precision = 0 then [] else
          (if signum ≠ 0 ∧ ctx.flags.alternate = true then pre else []) ++
          (List.replicate ((uPrecision ctx pre).toNat - ds.length) 48 ++ ds)) := by
  unfold formatUnsignedInteger
  by_cases h0 : signum = 0 ∧ ctx.precision = 0
  · simp only [if_pos h0]
    obtain ⟨r, h1, h2, h3⟩ := spaceJustify_ok ctx Seq.empty_wf
    exact ⟨r, h1, h2, by rw [h3]; rfl⟩
  · simp only [if_neg h0, hv, bind_ok]
    obtain ⟨q, q1, q2, q3⟩ := zeroFill_ok (uPrecision ctx pre) (Seq.wrap_wf ds)
    rw [Seq.wrap_text] at q3
    simp only [q1, bind_ok, hasFlag_alt]
    by_cases ha : signum ≠ 0 ∧ ctx.flags.alternate = true
    · rw [if_pos ha, if_pos ha]
      obtain ⟨r, h1, h2, h3⟩ := spaceJustify_ok ctx (Seq.prepend_wf q2 (Seq.wrap_wf pre))
      exact ⟨r, h1, h2, by rw [h3, Seq.prepend_text (Seq.wrap_wf pre).sane, Seq.wrap_text, q3]⟩
    · rw [if_neg ha, if_neg ha]
      obtain ⟨r, h1, h2, h3⟩ := spaceJustify_ok ctx q2
      exact ⟨r, h1, h2, by rw [h3, q3]; rfl⟩

theorem unsigned_err {ctx : FormatContext} {signum : Int} {toStr : Res JStr} {e : Err}
    (hv : toStr = .error e) (pre : JStr) (h0 : ¬ (signum = 0 ∧ ctx.precision = 0)) :
    formatUnsignedInteger ctx signum toStr pre = .error e := by
  unfold formatUnsignedInteger; rw [if_neg h0, hv]; rfl

/-! ### Floating point -/

/-- The result for NaN and the infinities. -/
def nonFiniteText (ctx : FormatContext) (v : FloatForm) : JStr :=
  if v.isNaN then js! "NaN" else if v.signum < 0 then js! "-Infinity"
  else if ctx.flags.plus then js! "+Infinity" else js! "Infinity"

theorem precision6_nonneg {ctx : FormatContext} (hp : PrecOK ctx) : 0 ≤ precision6 ctx := by
  unfold precision6
  by_cases h : ctx.isPrecisionSet = true
  · rw [if_pos h]; rw [isPrecisionSet_iff] at h; rcases hp with h' | h'
    · exact absurd h' h
    · exact h'
  · rw [if_neg h]; omega

theorem gPrecision_pos {ctx : FormatContext} (hp : PrecOK ctx) : 1 ≤ gPrecision ctx := by
  unfold gPrecision
  by_cases h : ctx.isPrecisionSet = true
  · rw [if_pos h]; rw [isPrecisionSet_iff] at h; rcases hp with h' | h'
    · exact absurd h' h
    · split_ifs <;> omega
  · rw [if_neg h]; omega

theorem aPrecision_pos {ctx : FormatContext} (hp : PrecOK ctx) : 1 ≤ aPrecision ctx := by
  unfold aPrecision
  by_cases h : ctx.isPrecisionSet = true
  · rw [if_pos h]; rw [isPrecisionSet_iff] at h; rcases hp with h' | h'
    · exact absurd h' h
    · split_ifs <;> omega
  · rw [if_neg h]; omega

theorem nonFinite_ok (ctx : FormatContext) (v : FloatForm) :
    ∃ r, nanOrInfinity ctx v = .ok r ∧ r.WF ∧
      r.text = field ctx.flags.leftJustify false ctx.width.toNat [] (nonFiniteText ctx v) :=
  nanOrInfinity_ok ctx v

theorem f_ok {ctx : FormatContext} (hp : PrecOK ctx) {v : FloatForm}
    (hf : (v.isNaN || v.isInfinite) = false) {l : FloatLayout}
    (hl : v.decimalLayout (precision6 ctx) = .ok l) (hm : l.mantissa.WF) :
    ∃ r, f ctx v = .ok r ∧ r.WF ∧
      r.text = field ctx.flags.leftJustify ctx.flags.zeroPad ctx.width.toNat
        (signText ctx.flags (v.signum < 0))
        (fracText l.mantissa.text (precision6 ctx).toNat ctx.flags.alternate) := by
  unfold f
  rw [if_neg (by simp [hf])]
  obtain ⟨q, q1, q2, q3⟩ := formatFractionalPart_ok hm (precision6_nonneg hp) ctx.flags.alternate
  obtain ⟨r, h1, h2, h3⟩ := signAndJustify_ok ctx q2 v.isNegative
  simp only [hl, bind_ok, hasFlag_alt, q1]
  exact ⟨r, h1, h2, by rw [h3, q3]; rfl⟩

theorem e_ok {ctx : FormatContext} (hp : PrecOK ctx) {v : FloatForm}
    (hf : (v.isNaN || v.isInfinite) = false) {m ex : Seq}
    (hl : v.scientificLayout (precision6 ctx) = .ok ⟨m, some ex⟩) (hm : m.WF) (he : ex.WF) :
    ∃ r, e ctx v = .ok r ∧ r.WF ∧
      r.text = field ctx.flags.leftJustify ctx.flags.zeroPad ctx.width.toNat
        (signText ctx.flags (v.signum < 0))
        (fracText m.text (precision6 ctx).toNat ctx.flags.alternate ++ js! "e" ++ ex.text) := by
  unfold e
  rw [if_neg (by simp [hf])]
  obtain ⟨q, q1, q2, q3⟩ := formatFractionalPart_ok hm (precision6_nonneg hp) ctx.flags.alternate
  obtain ⟨y, y1, y2, y3⟩ := appendExponent_ok (Seq.append_wf q2 (Seq.ch_wf 101)) he
  obtain ⟨r, h1, h2, h3⟩ := signAndJustify_ok ctx y2 v.isNegative
  simp only [hl, bind_ok, hasFlag_alt, q1, y1]
  refine ⟨r, h1, h2, ?_⟩
  rw [h3, y3, Seq.append_text (Seq.ch_wf 101).sane, q3, Seq.ch_text]; rfl

theorem a_ok {ctx : FormatContext} (hp : PrecOK ctx) {v : FloatForm}
    (hf : (v.isNaN || v.isInfinite) = false) {m ex : Seq}
    (hl : v.hexLayout (aPrecision ctx) = .ok ⟨m, some ex⟩) (hm : m.WF) (he : ex.WF) :
    ∃ r, a ctx v = .ok r ∧ r.WF ∧
      r.text = field ctx.flags.leftJustify ctx.flags.zeroPad ctx.width.toNat
        (signText ctx.flags (v.signum < 0) ++ js! "0x")
        ((if ctx.precision = UNSET then m.text
          else fracText m.text (aPrecision ctx).toNat ctx.flags.alternate) ++ js! "p" ++ ex.text) := by
  have hap := aPrecision_pos hp
  unfold a
  rw [if_neg (by simp [hf])]
  by_cases hs : ctx.precision = UNSET
  · have hps : ctx.isPrecisionSet = false := by simp [FormatContext.isPrecisionSet, hs]
    obtain ⟨y, y1, y2, y3⟩ := appendExponent_ok (Seq.append_wf hm (Seq.ch_wf 112)) he
    obtain ⟨r, h1, h2, h3⟩ := aJustify_ok ctx y2 (v.signum < 0)
    simp only [hl, bind_ok, hps, Bool.false_eq_true, if_false, pure_eq_ok, y1, hs, if_true]
    refine ⟨r, h1, h2, ?_⟩
    rw [h3, y3, Seq.append_text (Seq.ch_wf 112).sane, Seq.ch_text]
  · have hps : ctx.isPrecisionSet = true := by simp [FormatContext.isPrecisionSet, hs]
    obtain ⟨q, q1, q2, q3⟩ := formatFractionalPart_ok hm (p := aPrecision ctx) (by omega)
      ctx.flags.alternate
    obtain ⟨y, y1, y2, y3⟩ := appendExponent_ok (Seq.append_wf q2 (Seq.ch_wf 112)) he
    obtain ⟨r, h1, h2, h3⟩ := aJustify_ok ctx y2 (v.signum < 0)
    simp only [hl, bind_ok, hps, if_true, hasFlag_alt, q1, y1, hs, if_false]
    refine ⟨r, h1, h2, ?_⟩
    rw [h3, y3, Seq.append_text (Seq.ch_wf 112).sane, q3, Seq.ch_text]

/-! `%g` -/

/-- Without its trailing `c`s. -/
def dropTrailing (c : JChar) (t : JStr) : JStr := (t.reverse.dropWhile (· == c)).reverse

theorem dropTrailing_snoc_same (c : JChar) (t : JStr) :
    dropTrailing c (t ++ [c]) = dropTrailing c t := by
  simp [dropTrailing]

theorem dropTrailing_snoc_ne {c x : JChar} (h : x ≠ c) (t : JStr) :
    dropTrailing c (t ++ [x]) = t ++ [x] := by
  simp [dropTrailing, h]

/-- The text `stripTrailingZeros` keeps. -/
def stripText (t : JStr) : JStr :=
  if 46 ∈ t then
    if (dropTrailing 48 t).length = Spec.firstIndex t 46 + 1 then (dropTrailing 48 t).dropLast
    else dropTrailing 48 t
  else t

theorem firstIndex_get {t : JStr} {c : JChar} {k : Nat} (h : Spec.firstIndex t c = k) :
    ∃ hk : k < t.length, t[k] = c := by
  induction t generalizing k with
  | nil => simp [Spec.firstIndex] at h
  | cons a t ih =>
    unfold Spec.firstIndex at h
    split at h
    · rename_i hac
      have : k = 0 := by omega
      subst this
      exact ⟨by simp, by simpa using hac⟩
    · split at h
      · omega
      · obtain ⟨j, rfl⟩ : ∃ j, k = j + 1 := ⟨k - 1, by
          have := Atomic.firstIndex_ge t c; omega⟩
        obtain ⟨h1, h2⟩ := ih (k := j) (by omega)
        exact ⟨by simpa using h1, by simpa using h2⟩

theorem take_succ_get {t : JStr} {k : Nat} (h : k < t.length) :
    t.take (k + 1) = t.take k ++ [t[k]] := by
  rw [List.take_add_one, List.getElem?_eq_getElem h]; rfl

theorem stripLoop_ok {m : Seq} (h : m.WF) {dot : Nat} (hd : Spec.firstIndex m.text 46 = dot) :
    ∀ (n last : Nat), last = dot + n → last < m.text.length →
      ∃ l : Nat, stripLoop m dot n last = .ok (l : Int) ∧ dot ≤ l ∧ l ≤ last ∧
        dropTrailing 48 (m.text.take (last + 1)) = m.text.take (l + 1) := by
  obtain ⟨hk, hg⟩ := firstIndex_get hd
  intro n
  induction n with
  | zero =>
    intro last hl hlt
    obtain rfl : last = dot := by omega
    refine ⟨last, rfl, le_refl _, by omega, ?_⟩
    rw [take_succ_get hk, hg, dropTrailing_snoc_ne (by decide)]
  | succ n ih =>
    intro last hl hlt
    unfold stripLoop
    rw [if_pos (by omega), Seq.charAt_ok h (i := (last : Int)) (by omega)]
    simp only [bind_ok, Int.toNat_natCast, List.getElem?_eq_getElem hlt, Option.getD_some]
    rw [take_succ_get hlt]
    by_cases hc : m.text[last] = 48
    · rw [if_pos hc, hc, dropTrailing_snoc_same]
      obtain ⟨l, l1, l2, l3, l4⟩ := ih (dot + n) rfl (by omega)
      have e : (last : Int) - 1 = ((dot + n : Nat) : Int) := by omega
      rw [e]
      refine ⟨l, l1, l2, by omega, ?_⟩
      have e2 : last = dot + n + 1 := by omega
      rw [e2]; exact l4
    · rw [if_neg hc, dropTrailing_snoc_ne hc]
      exact ⟨last, rfl, by omega, le_refl _, by
        rw [take_succ_get hlt]⟩

theorem stripTrailingZeros_sane {m : Seq} (h : m.WF) :
    ∃ r, stripTrailingZeros m = .ok r ∧ r.Sane ∧ r.text = stripText m.text ∧
      r.length ≤ r.text.length ∧ (m.flat.length = 1 → r.WF) := by
  have hl := h.length_text
  have i1 := Atomic.firstIndex_ge m.text 46
  have i2 := Atomic.firstIndex_lt m.text 46
  have i3 := Atomic.firstIndex_eq_neg m.text 46
  unfold stripTrailingZeros stripText
  rw [Seq.indexOf_ok h.sane, bind_ok]
  by_cases hd : Spec.firstIndex m.text 46 = -1
  · rw [if_pos hd, if_neg (i3.1 hd)]
    exact ⟨m, rfl, h.sane, rfl, by omega, fun _ => h⟩
  · have hm : 46 ∈ m.text := by by_contra hc; exact hd (i3.2 hc)
    obtain ⟨dot, hdot⟩ : ∃ k : Nat, Spec.firstIndex m.text 46 = k := ⟨_, (Int.toNat_of_nonneg
      (by omega)).symm⟩
    rw [if_neg hd, if_pos hm, hdot]
    have hlt : dot < m.text.length := by omega
    obtain ⟨l, l1, l2, l3, l4⟩ := stripLoop_ok h hdot (m.text.length - 1 - dot) (m.text.length - 1)
      (by omega) (by omega)
    have e1 : (m.length - 1 - (dot : Int)).toNat = m.text.length - 1 - dot := by omega
    have e2 : m.length - 1 = ((m.text.length - 1 : Nat) : Int) := by omega
    rw [e1, e2, l1]
    simp only [bind_ok]
    have e3 : m.text.length - 1 + 1 = m.text.length := by omega
    rw [e3, List.take_length] at l4
    have hlen : (dropTrailing 48 m.text).length = l + 1 := by
      rw [l4, List.length_take]; omega
    have goal : ∀ (stop : Int) (s : JStr), 0 ≤ stop → stop ≤ m.text.length →
        m.text.take stop.toNat = s →
        ∃ r, m.subSequence 0 stop = .ok r ∧ r.Sane ∧ r.text = s ∧
          r.length ≤ r.text.length ∧ (m.flat.length = 1 → r.WF) := by
      intro stop s hs0 hs1 hs2
      obtain ⟨r, r1, r2, r3, _, r5, r6, r7⟩ := Seq.subSequence_ok h (i := 0) (j := stop)
        ⟨le_refl _, hs0, hs1⟩
      have rt : r.text = s := by
        rw [r3, ← hs2]; simp [Spec.sub]
      refine ⟨r, r1, r2, rt, ?_, fun hone => r7 (r6.2 (.inr (.inr ?_)))⟩
      · rw [rt, ← hs2, List.length_take]; omega
      · obtain ⟨x, hx⟩ := List.length_eq_one_iff.1 hone
        refine ⟨[], x, [], by simp [hx], by simp, ?_⟩
        have : m.text = x.text := by rw [← Seq.flat_text, hx]; simp
        simp only [List.flatMap_nil, List.length_nil]
        rw [← this]; omega
    by_cases hdl : (l : Int) = dot
    · rw [if_pos hdl, if_pos (by omega)]
      apply goal
      · omega
      · omega
      · rw [l4, take_succ_get (by omega), List.dropLast_concat]
        congr 1; omega
    · rw [if_neg hdl, if_neg (by omega)]
      apply goal
      · omega
      · omega
      · rw [l4]; congr 1

/-- How `countLoop` counts from a position on. -/
def countFrom : JStr → Bool → Nat
  | [], _ => 0
  | c :: t, seen =>
    let seen := seen || (c ≥ 49 && c ≤ 57)
    (if seen && c != 46 then 1 else 0) + countFrom t seen

/-- Whether a digit 1-9 occurs. -/
def hasNonZero (t : JStr) : Bool := t.any (fun c => c ≥ 49 && c ≤ 57)

theorem countLoop_ok {m : Seq} (h : m.WF) : ∀ (n : Nat) (i : Nat) (sig : Int) (seen : Bool),
    i + n = m.text.length →
    countLoop m n i sig seen = .ok (sig + countFrom (m.text.drop i) seen,
      seen || hasNonZero (m.text.drop i)) := by
  intro n
  induction n with
  | zero =>
    intro i sig seen hi
    rw [List.drop_eq_nil_of_le (by omega)]
    simp [countLoop, countFrom, hasNonZero]
  | succ n ih =>
    intro i sig seen hi
    have hlt : i < m.text.length := by omega
    unfold countLoop
    rw [Seq.charAt_ok h (i := (i : Int)) (by omega)]
    simp only [bind_ok, Int.toNat_natCast, List.getElem?_eq_getElem hlt, Option.getD_some]
    have e : (i : Int) + 1 = ((i + 1 : Nat) : Int) := by omega
    rw [e, ih (i + 1) _ _ (by omega)]
    have hdrop : m.text.drop i = m.text[i] :: m.text.drop (i + 1) := List.drop_eq_getElem_cons hlt
    rw [hdrop]
    simp only [countFrom, hasNonZero, List.any_cons, Bool.or_assoc]
    split_ifs <;> simp
    omega

/-- The number of digits `padToPrecision` sees. -/
def sigDigits (t : JStr) : Nat :=
  if hasNonZero t then countFrom t false else if 48 ∈ t then 1 else 0

/-- The text `padToPrecision` makes. -/
def padText (t : JStr) (p : Nat) : JStr :=
  (if 46 ∈ t then t else t ++ js! ".") ++ List.replicate (p - sigDigits t) 48

theorem countFrom_zero {t : JStr} (h : hasNonZero t = false) : countFrom t false = 0 := by
  induction t with
  | nil => rfl
  | cons c t ih =>
    simp only [hasNonZero, List.any_cons, Bool.or_eq_false_iff] at h
    simp only [countFrom, h.1, Bool.or_self, Bool.false_and, Bool.false_eq_true, if_false]
    rw [ih h.2]

theorem padToPrecision_ok {m : Seq} (h : m.WF) {p : Int} (hp : 0 ≤ p) :
    ∃ r, padToPrecision m p = .ok r ∧ r.WF ∧ r.text = padText m.text p.toNat := by
  have hl := h.length_text
  have hn : m.length.toNat = m.text.length := by omega
  unfold padToPrecision
  rw [hn]
  have hc := countLoop_ok h m.text.length 0 0 false (by omega)
  simp only [Nat.cast_zero] at hc
  rw [hc]
  simp only [bind_ok, List.drop_zero, Bool.false_or, zero_add, Seq.indexOf_ok h.sane]
  have hsig : (if (!hasNonZero m.text && Spec.firstIndex m.text 48 != -1) = true then (1 : Int)
      else (countFrom m.text false : Nat)) = (sigDigits m.text : Nat) := by
    have i3 := Atomic.firstIndex_eq_neg m.text 48
    unfold sigDigits
    cases hz : hasNonZero m.text
    · rw [countFrom_zero hz]
      by_cases h0 : 48 ∈ m.text
      · have : Spec.firstIndex m.text 48 ≠ -1 := fun hc => i3.1 hc h0
        simp [this, h0]
      · simp [i3.2 h0, h0]
    · simp
  rw [hsig]
  have i3 := Atomic.firstIndex_eq_neg m.text 46
  have key : ∃ q : Seq, (if Spec.firstIndex m.text 46 = -1 then m.append (Seq.ch 46) else m) = q ∧
      q.WF ∧ q.text = if 46 ∈ m.text then m.text else m.text ++ js! "." := by
    by_cases h46 : 46 ∈ m.text
    · rw [if_pos h46, if_neg (fun hc => i3.1 hc h46)]
      exact ⟨m, rfl, h, rfl⟩
    · rw [if_neg h46, if_pos (i3.2 h46)]
      exact ⟨_, rfl, Seq.append_wf h (Seq.ch_wf 46), by
        rw [Seq.append_text (Seq.ch_wf 46).sane, Seq.ch_text]⟩
  obtain ⟨q, q1, q2, q3⟩ := key
  rw [q1]
  unfold padText
  by_cases hz : p - (sigDigits m.text : Nat) > 0
  · rw [if_pos hz]
    obtain ⟨y, y1, y2, y3⟩ := Seq.repeated_ok (c := 48) (n := p - (sigDigits m.text : Nat)) (by omega)
    simp only [y1, bind_ok, pure_eq_ok]
    refine ⟨_, rfl, Seq.append_wf q2 y2, ?_⟩
    rw [Seq.append_text y2.sane, y3, q3]
    congr 2
    omega
  · rw [if_neg hz]
    refine ⟨q, rfl, q2, ?_⟩
    have : p.toNat - sigDigits m.text = 0 := by omega
    rw [this, q3]; simp

/-- The body of `%g` in the plain style. -/
def gDecimalText (alt : Bool) (t : JStr) (p : Nat) : JStr :=
  if alt then padText t p else stripText t

/-- The body of `%g` in the exponent style. -/
def gScientificText (alt : Bool) (t ex : JStr) : JStr :=
  (if alt then t else stripText t) ++ js! "e" ++ ex

/-- The body of `%g`. -/
def gText (alt : Bool) (l : FloatLayout) (p : Nat) : JStr :=
  match l.exponent with
  | none => gDecimalText alt l.mantissa.text p
  | some ex => gScientificText alt l.mantissa.text ex.text

/-- A layout made of consistent sequences. -/
def LayoutWF (l : FloatLayout) : Prop := l.mantissa.WF ∧ ∀ ex, l.exponent = some ex → ex.WF

/-- The part of `g` before sign and padding. -/
def gBody (ctx : FormatContext) (l : FloatLayout) : Res Seq :=
  match l.exponent with
  | none => formatGDecimal ctx l (gPrecision ctx)
  | some ex => formatGScientific ctx l.mantissa ex

theorem gBody_sane {ctx : FormatContext} (hp : PrecOK ctx) {l : FloatLayout} (hl : LayoutWF l) :
    ∃ q, gBody ctx l = .ok q ∧ q.Sane ∧
      q.text = gText ctx.flags.alternate l (gPrecision ctx).toNat ∧ q.length ≤ q.text.length ∧
      (l.mantissa.flat.length = 1 ∨ ctx.flags.alternate = true → q.WF) := by
  obtain ⟨hm, hex⟩ := hl
  have hg := gPrecision_pos hp
  obtain ⟨m, x⟩ := l
  simp only at hm hex
  cases x with
  | none =>
    simp only [gBody, gText, formatGDecimal, gDecimalText, hasFlag_alt]
    by_cases ha : ctx.flags.alternate = true
    · rw [if_pos ha, if_pos ha]
      obtain ⟨r, r1, r2, r3⟩ := padToPrecision_ok hm (p := gPrecision ctx) (by omega)
      exact ⟨r, r1, r2.sane, r3, le_of_eq r2.length_text, fun _ => r2⟩
    · rw [if_neg ha, if_neg ha]
      obtain ⟨r, r1, r2, r3, r4, r5⟩ := stripTrailingZeros_sane hm
      exact ⟨r, r1, r2, r3, r4, fun hh => r5 (by tauto)⟩
  | some ex =>
    have hx := hex ex rfl
    have he := hx.length_text
    simp only [gBody, gText, formatGScientific, gScientificText, hasFlag_alt]
    by_cases ha : ctx.flags.alternate = true
    · simp only [ha, if_true, pure_eq_ok]
      have w := Seq.append_wf (Seq.append_wf hm (Seq.ch_wf 101)) hx
      refine ⟨_, rfl, w.sane, ?_, le_of_eq w.length_text, fun _ => w⟩
      rw [Seq.append_text hx.sane, Seq.append_text (Seq.ch_wf 101).sane, Seq.ch_text]
    · simp only [if_neg ha]
      obtain ⟨r, r1, r2, r3, r4, r5⟩ := stripTrailingZeros_sane hm
      simp only [r1, bind_ok, pure_eq_ok]
      have s1 := Seq.append_sane r2 (Seq.ch_wf 101).sane
      have tx : ((r.append (Seq.ch 101)).append ex).text = stripText m.text ++ [101] ++ ex.text := by
        rw [Seq.append_text hx.sane, Seq.append_text (Seq.ch_wf 101).sane, Seq.ch_text, r3]
      refine ⟨_, rfl, Seq.append_sane s1 hx.sane, tx, ?_, fun hh => ?_⟩
      · rw [Seq.append_length s1, Seq.append_length r2, tx, ← r3]
        have : (Seq.ch 101).length = 1 := rfl
        simp only [List.length_append, List.length_singleton]; omega
      · exact Seq.append_wf (Seq.append_wf (r5 (by tauto)) (Seq.ch_wf 101)) hx

theorem g_eq (ctx : FormatContext) (v : FloatForm) (hf : (v.isNaN || v.isInfinite) = false)
    {l : FloatLayout} (hl : v.generalLayout (gPrecision ctx) = .ok l) :
    g ctx v = gBody ctx l >>= fun v0 => signAndJustify ctx v0 v.isNegative := by
  unfold g
  rw [if_neg (by simp [hf]), hl, bind_ok]
  unfold gBody
  cases l.exponent <;> rfl

/-- `%g`, in terms of the length the body reports. -/
theorem g_sane {ctx : FormatContext} (hp : PrecOK ctx) {v : FloatForm}
    (hf : (v.isNaN || v.isInfinite) = false) {l : FloatLayout}
    (hl : v.generalLayout (gPrecision ctx) = .ok l) (hw : LayoutWF l) :
    ∃ r n, g ctx v = .ok r ∧ r.Sane ∧
      n ≤ (gText ctx.flags.alternate l (gPrecision ctx).toNat).length ∧
      r.text = fieldBy ctx.flags.leftJustify ctx.flags.zeroPad ctx.width.toNat n
        (signText ctx.flags (v.signum < 0)) (gText ctx.flags.alternate l (gPrecision ctx).toNat) := by
  obtain ⟨q, q1, q2, q3, q4, q5⟩ := gBody_sane hp hw
  obtain ⟨r, r1, r2, r3⟩ := signAndJustify_sane ctx q2 v.isNegative
  refine ⟨r, q.length.toNat, ?_, r2, by rw [← q3]; omega, by rw [r3, q3]; rfl⟩
  rw [g_eq ctx v hf hl, q1, bind_ok, r1]

theorem g_ok {ctx : FormatContext} (hp : PrecOK ctx) {v : FloatForm}
    (hf : (v.isNaN || v.isInfinite) = false) {l : FloatLayout}
    (hl : v.generalLayout (gPrecision ctx) = .ok l) (hw : LayoutWF l)
    (h1 : l.mantissa.flat.length = 1 ∨ ctx.flags.alternate = true) :
    ∃ r, g ctx v = .ok r ∧ r.WF ∧
      r.text = field ctx.flags.leftJustify ctx.flags.zeroPad ctx.width.toNat
        (signText ctx.flags (v.signum < 0)) (gText ctx.flags.alternate l (gPrecision ctx).toNat) := by
  obtain ⟨q, q1, q2, q3, q4, q5⟩ := gBody_sane hp hw
  obtain ⟨r, r1, r2, r3⟩ := signAndJustify_ok ctx (q5 h1) v.isNegative
  refine ⟨r, ?_, r2, by rw [r3, q3]; rfl⟩
  rw [g_eq ctx v hf hl, q1, bind_ok, r1]

/-! ### Characters, strings, references and dates -/

theorem c_ok (ctx : FormatContext) {v : Traits} {c : JChar} (hv : v.asChar = .ok c) :
    ∃ r, SeqFormatter.c ctx v = .ok r ∧ r.WF ∧
      r.text = field ctx.flags.leftJustify false ctx.width.toNat [] [c] := by
  unfold SeqFormatter.c
  rw [hv, bind_ok]
  obtain ⟨r, h1, h2, h3⟩ := spaceJustify_ok ctx (Seq.ch_wf c)
  exact ⟨r, h1, h2, by rw [h3, Seq.ch_text]⟩

/-- `%s`, in terms of the length the truncated sequence reports. -/
theorem s_sane {ctx : FormatContext} (hp : PrecOK ctx) {v : Traits} {q : Seq}
    (hv : v.asSeq = .ok q) (hq : q.WF) :
    ∃ r n, s ctx v = .ok r ∧ r.Sane ∧
      n ≤ (q.text.take ((precOf ctx).getD q.text.length)).length ∧
      r.text = fieldBy ctx.flags.leftJustify false ctx.width.toNat n []
        (q.text.take ((precOf ctx).getD q.text.length)) ∧
      (q.flat.length = 1 ∨ q.text.length ≤ (precOf ctx).getD q.text.length →
        n = (q.text.take ((precOf ctx).getD q.text.length)).length ∧ r.WF) := by
  have hl := hq.length_text
  have eU : UNSET = -1 := rfl
  unfold s
  rw [hv, bind_ok]
  by_cases hc : (ctx.isPrecisionSet && decide (ctx.precision < q.length)) = true
  · rw [if_pos hc]
    rw [Bool.and_eq_true, isPrecisionSet_iff, decide_eq_true_eq] at hc
    have hge : 0 ≤ ctx.precision := by
      rcases hp with h | h
      · exact absurd h hc.1
      · exact h
    have hpo : (precOf ctx).getD q.text.length = ctx.precision.toNat := by
      simp [precOf, hc.1]
    rw [hpo]
    obtain ⟨t, t1, t2, t3, _, t5, t6, t7⟩ := Seq.subSequence_ok hq (i := 0) (j := ctx.precision)
      ⟨le_refl _, hge, by omega⟩
    have tt : t.text = q.text.take ctx.precision.toNat := by rw [t3]; simp [Spec.sub]
    have tl := t2.length_nonneg
    obtain ⟨r, r1, r2, r3, r4⟩ := spaceJustify_sane ctx t2
    refine ⟨r, t.length.toNat, by rw [t1, bind_ok, r1], r2, ?_, ?_, ?_⟩
    · rw [List.length_take]; omega
    · rw [r3, tt]; simp [fieldBy]
    · intro hh
      have hone : q.flat.length = 1 := by omega
      have ht : t.length = ctx.precision - 0 := by
        refine t6.2 (.inr (.inr ?_))
        obtain ⟨x, hx⟩ := List.length_eq_one_iff.1 hone
        refine ⟨[], x, [], by simp [hx], by simp, ?_⟩
        have : q.text = x.text := by rw [← Seq.flat_text, hx]; simp
        simp only [List.flatMap_nil, List.length_nil]
        rw [← this]; omega
      have twf := t7 ht
      refine ⟨by rw [List.length_take]; omega, ?_⟩
      obtain ⟨r', r1', r2', _⟩ := spaceJustify_ok ctx twf
      rw [r1] at r1'; cases r1'; exact r2'
  · rw [if_neg hc]
    rw [Bool.and_eq_true, isPrecisionSet_iff, decide_eq_true_eq] at hc
    have hpo : q.text.length ≤ (precOf ctx).getD q.text.length := by
      unfold precOf
      by_cases hu : ctx.precision = UNSET
      · simp [hu]
      · have : ¬ ctx.precision < q.length := fun h => hc ⟨hu, h⟩
        simp only [hu, if_false, Option.getD_some]; omega
    rw [List.take_of_length_le hpo]
    obtain ⟨r, r1, r2, r3⟩ := spaceJustify_ok ctx hq
    exact ⟨r, q.text.length, r1, r2.sane, le_refl _, r3, fun _ => ⟨rfl, r2⟩⟩

theorem p_ok (ctx : FormatContext) {v : Traits} (hv : v.ref ≠ .primitive) :
    ∃ r, p ctx v = .ok r ∧ r.WF ∧
      r.text = field ctx.flags.leftJustify false ctx.width.toNat []
        (match v.ref with
         | .object name hash => name ++ js! "@" ++ toRadix 16 hash.toNat
         | _ => js! "null") := by
  unfold p
  cases hr : v.ref with
  | primitive => exact absurd hr hv
  | null =>
    obtain ⟨r, r1, r2, r3⟩ := spaceJustify_ok ctx (Seq.wrap_wf (js! "null"))
    exact ⟨r, r1, r2, by rw [r3, Seq.wrap_text]⟩
  | object name hash =>
    have w1 := Seq.wrap_wf (toRadix 16 hash.toNat)
    have w2 := Seq.prepend_wf w1 (Seq.ch_wf 64)
    have w3 := Seq.prepend_wf w2 (Seq.wrap_wf name)
    obtain ⟨r, r1, r2, r3⟩ := spaceJustify_ok ctx w3
    refine ⟨r, r1, r2, ?_⟩
    rw [r3, Seq.prepend_text (Seq.wrap_wf name).sane, Seq.prepend_text (Seq.ch_wf 64).sane,
      Seq.wrap_text, Seq.wrap_text, Seq.ch_text]
    simp only [List.append_assoc]

/-- The text `t` pads. -/
def dateText (env : DateEnv) (ctx : FormatContext) (v : Traits) : Res JStr := do
  let ta ← v.asTemporal
  let (fmt, ta) ← chooseFormatter ctx ta
  env.format fmt ta

theorem t_eq (env : DateEnv) (ctx : FormatContext) (v : Traits) :
    t env ctx v = dateText env ctx v >>= fun x => spaceJustify ctx (Seq.wrap x) := by
  unfold t dateText
  cases v.asTemporal with
  | error e => rfl
  | ok ta =>
    simp only [bind_ok]
    cases chooseFormatter ctx ta with
    | error e => rfl
    | ok r => rfl

theorem t_ok {env : DateEnv} (ctx : FormatContext) {v : Traits} {x : JStr}
    (hv : dateText env ctx v = .ok x) :
    ∃ r, t env ctx v = .ok r ∧ r.WF ∧
      r.text = field ctx.flags.leftJustify false ctx.width.toNat [] x := by
  rw [t_eq, hv, bind_ok]
  obtain ⟨r, h1, h2, h3⟩ := spaceJustify_ok ctx (Seq.wrap_wf x)
  exact ⟨r, h1, h2, by rw [h3, Seq.wrap_text]⟩

end FastPrintf.SeqFormatter
