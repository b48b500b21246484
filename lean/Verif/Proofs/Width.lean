/-
How the output of a directive depends on its width: a text that does not depend on it, and padding.
-/
import Verif.Proofs.Library

namespace FastPrintf
open Spec SeqFormatter DefaultAppender

/-- A sign and a base prefix, both optional. -/
def Spec.SignAndBase (pre : JStr) : Prop :=
  ∃ sign base : JStr, pre = sign ++ base ∧ sign ∈ [[], js! "-", js! "+", js! " "] ∧
    base ∈ [[], js! "0", js! "0x", js! "0X"]

theorem Spec.SignAndBase.nil : SignAndBase [] := ⟨[], [], rfl, by simp, by simp⟩

theorem Spec.SignAndBase.sign (fl : Flags) (neg : Bool) {base : JStr}
    (h : base ∈ [[], js! "0", js! "0x", js! "0X"]) : SignAndBase (signText fl neg ++ base) := by
  refine ⟨_, base, rfl, ?_, h⟩
  unfold signText
  split_ifs <;> simp

theorem Spec.SignAndBase.upper {pre : JStr} (h : SignAndBase pre) : SignAndBase (pre.map Spec.upper) := by
  obtain ⟨s, b, rfl, h1, h2⟩ := h
  refine ⟨s.map Spec.upper, b.map Spec.upper, by simp, ?_, ?_⟩
  · simp only [List.mem_cons, List.not_mem_nil, or_false] at h1
    rcases h1 with rfl | rfl | rfl | rfl <;> decide
  · simp only [List.mem_cons, List.not_mem_nil, or_false] at h2
    rcases h2 with rfl | rfl | rfl | rfl <;> decide

/-- The shapes of a conversion as a function of the width: it always fails; or it is a fixed text with
padding; or it is a text that was filled with `0` to a smaller width and then with spaces. -/
inductive Shaped (F : Int → Res Seq) (left z : Bool) : Prop
  | fails (e : Err) (h : ∀ w, F w = .error e)
  | field (pre body : JStr) (hp : SignAndBase pre)
      (h : ∀ w, ∃ r, F w = .ok r ∧ r.WF ∧ r.text = Spec.field left z w.toNat pre body)

/-- The odd shape: zeros up to a width smaller by `k`, then spaces. -/
def Odd (k : Nat) (F : Int → Res Seq) : Prop :=
  ∃ ds : JStr, ∀ w, ∃ r, F w = .ok r ∧ r.WF ∧
    r.text = Spec.field false false w.toNat [] (List.replicate (w.toNat - k - ds.length) 48 ++ ds)

theorem Shaped.congr_left {F : Int → Res Seq} {z z' : Bool} (h : Shaped F true z) : Shaped F true z' := by
  cases h with
  | fails e h => exact .fails e h
  | field pre body hp h => exact .field pre body hp h

theorem Shaped.bind {α : Type} {x : Res α} {G : α → Int → Res Seq} {left z : Bool}
    (h : ∀ a, x = .ok a → Shaped (G a) left z) : Shaped (fun w => x >>= fun a => G a w) left z := by
  cases x with
  | error e => exact .fails e fun _ => rfl
  | ok a => exact h a rfl

theorem shaped_space (ctx : FormatContext) {x : Res Seq} (hx : ∀ q, x = .ok q → q.WF) :
    Shaped (fun w => x >>= fun q => spaceJustify { ctx with width := w } q) ctx.flags.leftJustify
      false := by
  refine .bind fun q hq => .field [] q.text .nil fun w => ?_
  exact spaceJustify_ok { ctx with width := w } (hx q hq)

theorem shaped_sign (ctx : FormatContext) {x : Res Seq} (hx : ∀ q, x = .ok q → q.WF) (neg : Bool) :
    Shaped (fun w => x >>= fun q => signAndJustify { ctx with width := w } q neg)
      ctx.flags.leftJustify ctx.flags.zeroPad := by
  refine .bind fun q hq => .field (signText ctx.flags neg) q.text ?_ fun w => ?_
  · simpa using SignAndBase.sign ctx.flags neg (base := []) (by simp)
  · exact signAndJustify_ok { ctx with width := w } (hx q hq) neg

theorem shaped_hex (ctx : FormatContext) {x : Res Seq} (hx : ∀ q, x = .ok q → q.WF) (neg : Bool) :
    Shaped (fun w => x >>= fun q => aJustify { ctx with width := w } q neg)
      ctx.flags.leftJustify ctx.flags.zeroPad := by
  refine .bind fun q hq => .field (signText ctx.flags neg ++ js! "0x") q.text ?_ fun w => ?_
  · exact SignAndBase.sign ctx.flags neg (by simp)
  · exact aJustify_ok { ctx with width := w } (hx q hq) neg

theorem field_upper (left z : Bool) (w : Nat) (pre body : JStr) :
    (Spec.field left z w pre body).map Spec.upper =
      Spec.field left z w (pre.map Spec.upper) (body.map Spec.upper) := by
  have e1 : Spec.upper 32 = 32 := by decide
  have e2 : Spec.upper 48 = 48 := by decide
  unfold Spec.field
  cases left <;> cases z <;> simp [e1, e2]

theorem Shaped.upper {F : Int → Res Seq} {left z : Bool} (h : Shaped F left z) :
    Shaped (fun w => F w >>= Seq.upperCase) left z := by
  cases h with
  | fails e h => exact .fails e fun w => by simp only [h w]; rfl
  | field pre body hp h =>
    refine .field (pre.map Spec.upper) (body.map Spec.upper) hp.upper fun w => ?_
    obtain ⟨r, h1, h2, h3⟩ := h w
    obtain ⟨u, u1, u2, u3⟩ := Seq.upperCase_ok h2
    exact ⟨u, by simp only [h1, bind_ok, u1], u2, by rw [u3, h3, field_upper]⟩

theorem Odd.upper {k : Nat} {F : Int → Res Seq} (h : Odd k F) : Odd k (fun w => F w >>= Seq.upperCase) := by
  obtain ⟨ds, h⟩ := h
  refine ⟨ds.map Spec.upper, fun w => ?_⟩
  obtain ⟨r, h1, h2, h3⟩ := h w
  obtain ⟨u, u1, u2, u3⟩ := Seq.upperCase_ok h2
  have e2 : Spec.upper 48 = 48 := by decide
  refine ⟨u, by simp only [h1, bind_ok, u1], u2, ?_⟩
  rw [u3, h3, field_upper]
  simp [e2]

/-! ### Integers -/

theorem d_shaped {ctx : FormatContext} (hp : PrecOK ctx) (i : IntForm)
    (hd : ∀ ds, i.toDecimalString = .ok ds → ds ≠ []) :
    Shaped (fun w => d { ctx with width := w } i) ctx.flags.leftJustify
      (ctx.flags.zeroPad && (precOf ctx).isNone) := by
  by_cases h0 : i.signum = 0 ∧ ctx.precision = 0
  · have hz : (precOf ctx).isNone = false := by
      have : ctx.precision ≠ UNSET := by rw [h0.2]; decide
      simp [precOf, this]
    rw [hz, Bool.and_false]
    refine .field [] (if ctx.hasFlag .plus then Seq.ch (ch! '+') else Seq.empty).text .nil fun w => ?_
    simp only [d]
    rw [if_pos h0]
    refine spaceJustify_ok { ctx with width := w } ?_
    simp only [hasFlag_plus]
    split_ifs
    · exact Seq.ch_wf _
    · exact Seq.empty_wf
  · cases hx : i.toDecimalString with
    | error e =>
      refine .fails e fun w => ?_
      simp only [d, if_neg h0, hx]; rfl
    | ok ds =>
      refine .field (signText ctx.flags (i.signum < 0)) (withPrecision (precOf ctx) (i.signum = 0) ds)
        ?_ fun w => ?_
      · simpa using SignAndBase.sign ctx.flags (i.signum < 0) (base := []) (by simp)
      · obtain ⟨r, h1, h2, h3⟩ := d_ok (ctx := { ctx with width := w }) hp hx (hd ds hx)
        refine ⟨r, h1, h2, ?_⟩
        rw [h3, if_neg h0]
        rfl

theorem unsigned_shaped {ctx : FormatContext} (sg : Int) (x : Res JStr)
    {pre : JStr} (hb : pre ∈ [[], js! "0", js! "0x", js! "0X"]) (hd : ∀ ds, x = .ok ds → ds ≠ []) :
    Shaped (fun w => formatUnsignedInteger { ctx with width := w } sg x pre) ctx.flags.leftJustify
      (ctx.flags.zeroPad && (precOf ctx).isNone) ∨
    ((sg = 0 ∧ ctx.flags.alternate = true ∧ pre ≠ [] ∧ ctx.flags.zeroPad = true ∧
      ctx.flags.leftJustify = false ∧ ctx.precision = UNSET) ∧
      Odd pre.length (fun w => formatUnsignedInteger { ctx with width := w } sg x pre)) := by
  have e1 : UNSET = -1 := rfl
  by_cases h0 : sg = 0 ∧ ctx.precision = 0
  · left
    have hz : (precOf ctx).isNone = false := by
      have : ctx.precision ≠ UNSET := by rw [h0.2]; decide
      simp [precOf, this]
    rw [hz, Bool.and_false]
    refine .field [] [] .nil fun w => ?_
    simp only [formatUnsignedInteger]
    rw [if_pos h0]
    exact spaceJustify_ok { ctx with width := w } Seq.empty_wf
  · cases hx : x with
    | error e =>
      left
      refine .fails e fun w => ?_
      simp only [formatUnsignedInteger, if_neg h0]; rfl
    | ok ds =>
      have hlen : 1 ≤ ds.length := by
        have := hd ds hx
        cases ds with
        | nil => exact absurd rfl this
        | cons a t => simp
      have key := fun w => unsigned_ok { ctx with width := w } sg (toStr := .ok ds) rfl pre
      simp only [if_neg h0] at key
      by_cases hps : ctx.precision = UNSET
      · have hnone : (precOf ctx).isNone = true := by simp [precOf, hps]
        rw [hnone, Bool.and_true]
        have hup : ∀ w, (uPrecision { ctx with width := w } pre).toNat - ds.length =
            (if ctx.flags.zeroPad = true ∧ ¬ ctx.flags.leftJustify = true then
              (if ctx.flags.alternate = true then w.toNat - pre.length else w.toNat) else 0) -
              ds.length := by
          intro w
          have h1 : ¬ ({ ctx with width := w } : FormatContext).isPrecisionSet = true := by
            rw [isPrecisionSet_iff]; simpa using hps
          unfold uPrecision
          rw [if_neg h1]
          simp only [hasFlag_zero, hasFlag_left, hasFlag_alt]
          by_cases hzp : ctx.flags.zeroPad = true ∧ ¬ ctx.flags.leftJustify = true
          · rw [if_pos hzp]
            by_cases hws : w = UNSET
            · rw [if_neg (by simp [FormatContext.isWidthSet, hws])]
              have : w.toNat = 0 := by rw [hws]; rfl
              rw [this]
              split_ifs <;> simp <;> omega
            · have hws' : ({ ctx with width := w } : FormatContext).isWidthSet = true :=
                (isWidthSet_iff _).2 hws
              rw [if_pos (by simp [hzp.1, hws', hzp.2])]
              split_ifs <;> omega
          · rw [if_neg hzp, if_neg]
            · simp; omega
            · intro hc
              simp only [Bool.and_eq_true, Bool.not_eq_true'] at hc
              exact hzp ⟨hc.1.1, by simp [hc.2]⟩
        by_cases hodd : sg = 0 ∧ ctx.flags.alternate = true ∧ pre ≠ [] ∧ ctx.flags.zeroPad = true ∧
            ctx.flags.leftJustify = false
        · right
          obtain ⟨g1, g2, g3, g4, g5⟩ := hodd
          refine ⟨⟨g1, g2, g3, g4, g5, hps⟩, ds, fun w => ?_⟩
          obtain ⟨r, r1, r2, r3⟩ := key w
          refine ⟨r, r1, r2, ?_⟩
          rw [r3, hup w, if_neg (by simp [g1]), if_pos ⟨g4, by simp [g5]⟩, if_pos g2, g5]
          rfl
        · left
          have hpre : (if sg ≠ 0 ∧ ctx.flags.alternate = true then pre else []) ∈
              [[], js! "0", js! "0x", js! "0X"] := by
            split_ifs
            · exact hb
            · simp
          generalize hpx : (if sg ≠ 0 ∧ ctx.flags.alternate = true then pre else []) = px at *
          refine .field px ds ⟨[], px, rfl, by simp, hpre⟩ fun w => ?_
          obtain ⟨r, r1, r2, r3⟩ := key w
          refine ⟨r, r1, r2, ?_⟩
          rw [r3, hup w, ← uText_fill hlen rfl]
          simp only [hpx]
          by_cases hzp : ctx.flags.zeroPad = true ∧ ¬ ctx.flags.leftJustify = true
          · rw [if_pos hzp, if_pos hzp]
            have hl : (if ctx.flags.alternate = true then w.toNat - pre.length else w.toNat) =
                w.toNat - px.length := by
              subst hpx
              by_cases ha : ctx.flags.alternate = true
              · by_cases hs : sg = 0
                · have : pre = [] := by
                    by_contra hc
                    exact hodd ⟨hs, ha, hc, hzp.1, by simpa using hzp.2⟩
                  simp [ha, hs, this]
                · simp [ha, hs]
              · simp [ha]
            rw [hl]
          · rw [if_neg hzp, if_neg hzp]
      · left
        have hnone : (precOf ctx).isNone = false := by simp [precOf, hps]
        rw [hnone, Bool.and_false]
        have hup : ∀ w, uPrecision { ctx with width := w } pre = uPrecision ctx pre := by
          intro w
          have h1 : ctx.isPrecisionSet = true := by rw [isPrecisionSet_iff]; exact hps
          have h2 : ({ ctx with width := w } : FormatContext).isPrecisionSet = true := h1
          unfold uPrecision
          rw [if_pos h1, if_pos h2]
          rfl
        refine .field [] ((if sg ≠ 0 ∧ ctx.flags.alternate = true then pre else []) ++
          (List.replicate ((uPrecision ctx pre).toNat - ds.length) 48 ++ ds)) .nil fun w => ?_
        obtain ⟨r, r1, r2, r3⟩ := key w
        refine ⟨r, r1, r2, ?_⟩
        rw [r3, hup w]

/-! ### Floating point -/

/-- The body of `f` and `e` is consistent whatever the layout. -/
theorem frac_wf {ctx : FormatContext} (hp : PrecOK ctx) {m : Seq} (hm : m.WF) (alt : Bool) :
    ∀ q, formatFractionalPart m (precision6 ctx) alt = .ok q → q.WF := by
  intro q hq
  obtain ⟨r, r1, r2, _⟩ := formatFractionalPart_ok hm (precision6_nonneg hp) alt
  rw [hq] at r1; cases r1; exact r2

theorem appendExponent_wf {v0 : Seq} (h : v0.WF) {ex : Option Seq} (he : ∀ x, ex = some x → x.WF) :
    ∀ q, appendExponent v0 ex = .ok q → q.WF := by
  intro q hq
  cases ex with
  | none => cases hq
  | some x => cases hq; exact Seq.append_wf h (he x rfl)

/-- Whether the `0` flag is in force for a floating-point conversion. -/
def floatZero (ctx : FormatContext) (v : FloatForm) : Bool :=
  ctx.flags.zeroPad && !(v.isNaN || v.isInfinite)

theorem nonFinite_shaped (ctx : FormatContext) {v : FloatForm} {F : FormatContext → Res Seq}
    (hF : (v.isNaN || v.isInfinite) = true → ∀ c, F c = nanOrInfinity c v)
    (h : (v.isNaN || v.isInfinite) = false → Shaped (fun w => F { ctx with width := w })
      ctx.flags.leftJustify ctx.flags.zeroPad) :
    Shaped (fun w => F { ctx with width := w }) ctx.flags.leftJustify (floatZero ctx v) := by
  unfold floatZero
  cases hn : (v.isNaN || v.isInfinite) with
  | false => simpa [hn] using h hn
  | true =>
    simp only [Bool.not_true, Bool.and_false]
    refine .field [] (nonFiniteText ctx v) .nil fun w => ?_
    rw [hF hn]
    exact nonFinite_ok { ctx with width := w } v

theorem f_shaped {ctx : FormatContext} (hp : PrecOK ctx) {v : FloatForm} (hv : v.WF) :
    Shaped (fun w => f { ctx with width := w } v) ctx.flags.leftJustify (floatZero ctx v) := by
  refine nonFinite_shaped ctx (F := fun c => f c v) (fun hn c => by unfold f; rw [if_pos hn]) fun hn => ?_
  have e : (fun w => f { ctx with width := w } v) = fun w => v.decimalLayout (precision6 ctx) >>=
      fun l => formatFractionalPart l.mantissa (precision6 ctx) ctx.flags.alternate >>= fun q =>
        signAndJustify { ctx with width := w } q v.isNegative := by
    funext w
    unfold f
    rw [if_neg (by simp [hn])]
    rfl
  rw [e]
  refine Shaped.bind fun l hl => ?_
  have hw := hv _ l (precision6_nonneg hp) (.inr (.inr (.inl hl)))
  exact shaped_sign ctx (frac_wf hp hw.1 _) _

theorem e_shaped {ctx : FormatContext} (hp : PrecOK ctx) {v : FloatForm} (hv : v.WF) :
    Shaped (fun w => e { ctx with width := w } v) ctx.flags.leftJustify (floatZero ctx v) := by
  refine nonFinite_shaped ctx (F := fun c => e c v) (fun hn c => by unfold e; rw [if_pos hn]) fun hn => ?_
  have e : (fun w => SeqFormatter.e { ctx with width := w } v) = fun w =>
      v.scientificLayout (precision6 ctx) >>=
      fun l => formatFractionalPart l.mantissa (precision6 ctx) ctx.flags.alternate >>= fun q =>
        appendExponent (q.append (Seq.ch 101)) l.exponent >>= fun v2 =>
        signAndJustify { ctx with width := w } v2 v.isNegative := by
    funext w
    unfold SeqFormatter.e
    rw [if_neg (by simp [hn])]
    rfl
  rw [e]
  refine Shaped.bind fun l hl => Shaped.bind fun q hq => ?_
  have hw := hv _ l (precision6_nonneg hp) (.inr (.inl hl))
  have hqw := frac_wf hp hw.1 _ q hq
  exact shaped_sign ctx (appendExponent_wf (Seq.append_wf hqw (Seq.ch_wf 101)) hw.2) _

theorem a_shaped {ctx : FormatContext} (hp : PrecOK ctx) {v : FloatForm} (hv : v.WF) :
    Shaped (fun w => a { ctx with width := w } v) ctx.flags.leftJustify (floatZero ctx v) := by
  have hap := aPrecision_pos hp
  refine nonFinite_shaped ctx (F := fun c => a c v) (fun hn c => by unfold a; rw [if_pos hn]) fun hn => ?_
  have e : (fun w => a { ctx with width := w } v) = fun w => v.hexLayout (aPrecision ctx) >>=
      fun l => (if ctx.isPrecisionSet then
          formatFractionalPart l.mantissa (aPrecision ctx) ctx.flags.alternate else .ok l.mantissa) >>=
        fun q => appendExponent (q.append (Seq.ch 112)) l.exponent >>= fun v2 =>
        aJustify { ctx with width := w } v2 (v.signum < 0) := by
    funext w
    unfold a
    rw [if_neg (by simp [hn])]
    have hs' : ({ ctx with width := w } : FormatContext).isPrecisionSet = ctx.isPrecisionSet := rfl
    simp only [hs']
    cases ctx.isPrecisionSet <;> rfl
  rw [e]
  refine Shaped.bind fun l hl => Shaped.bind fun q hq => ?_
  have hw := hv (aPrecision ctx) l (by omega) (.inr (.inr (.inr hl)))
  have hqw : q.WF := by
    by_cases hs : ctx.isPrecisionSet = true
    · rw [if_pos hs] at hq
      obtain ⟨r, r1, r2, _⟩ := formatFractionalPart_ok hw.1 (p := aPrecision ctx) (by omega)
        ctx.flags.alternate
      rw [hq] at r1; cases r1; exact r2
    · rw [if_neg hs] at hq; cases hq; exact hw.1
  exact shaped_hex ctx (appendExponent_wf (Seq.append_wf hqw (Seq.ch_wf 112)) hw.2) _

/-- The mantissa of a `%g` layout is a single piece. -/
def FloatForm.OnePiece (f : FloatForm) : Prop :=
  ∀ p l, f.generalLayout p = .ok l → l.mantissa.flat.length = 1

theorem g_shaped {ctx : FormatContext} (hp : PrecOK ctx) {v : FloatForm} (hv : v.WF)
    (h1 : v.OnePiece ∨ ctx.flags.alternate = true) :
    Shaped (fun w => g { ctx with width := w } v) ctx.flags.leftJustify (floatZero ctx v) := by
  have hgp := gPrecision_pos hp
  refine nonFinite_shaped ctx (F := fun c => g c v) (fun hn c => by unfold g; rw [if_pos hn]) fun hn => ?_
  cases hl : v.generalLayout (gPrecision ctx) with
  | error e =>
    refine .fails e fun w => ?_
    have : v.generalLayout (gPrecision { ctx with width := w }) = .error e := hl
    unfold g
    rw [if_neg (by simp [hn]), this]; rfl
  | ok l =>
    have hw := hv (gPrecision ctx) l (by omega) (.inl hl)
    have e : (fun w => g { ctx with width := w } v) =
        fun w => gBody ctx l >>= fun v0 => signAndJustify { ctx with width := w } v0 v.isNegative := by
      funext w
      exact g_eq { ctx with width := w } v hn hl
    rw [e]
    refine shaped_sign ctx ?_ _
    intro q hq
    obtain ⟨q', q1, _, _, _, q5⟩ := gBody_sane hp hw
    rw [hq] at q1; cases q1
    exact q5 (h1.imp (fun h => h _ l hl) id)

/-! ### The others -/

theorem c_shaped (ctx : FormatContext) (v : Traits) :
    Shaped (fun w => SeqFormatter.c { ctx with width := w } v) ctx.flags.leftJustify false := by
  unfold SeqFormatter.c
  refine Shaped.bind fun a ha => ?_
  exact shaped_space ctx (x := .ok (Seq.ch a)) (by rintro q ⟨⟩; exact Seq.ch_wf _)

theorem p_shaped (ctx : FormatContext) (v : Traits) :
    Shaped (fun w => p { ctx with width := w } v) ctx.flags.leftJustify false := by
  by_cases hv : v.ref = .primitive
  · exact .fails (.printf .primitivePointer) fun w => by unfold p; rw [hv]
  · exact .field [] _ .nil fun w => p_ok { ctx with width := w } hv

theorem t_shaped (env : DateEnv) (ctx : FormatContext) (v : Traits) :
    Shaped (fun w => t env { ctx with width := w } v) ctx.flags.leftJustify false := by
  cases hx : dateText env ctx v with
  | error e =>
    refine .fails e fun w => ?_
    rw [t_eq]
    have : dateText env { ctx with width := w } v = .error e := hx
    rw [this]; rfl
  | ok x => exact .field [] x .nil fun w => t_ok { ctx with width := w } hx

theorem s_shaped {ctx : FormatContext} (hp : PrecOK ctx) {v : Traits} (hv : v.WF)
    (h1 : ctx.precision = UNSET ∨ ∀ q, v.asSeq = .ok q → q.flat.length = 1) :
    Shaped (fun w => s { ctx with width := w } v) ctx.flags.leftJustify false := by
  cases hq : v.asSeq with
  | error e => exact .fails e fun w => by unfold s; rw [hq]; rfl
  | ok q =>
    refine .field [] (q.text.take ((precOf ctx).getD q.text.length)) .nil fun w => ?_
    obtain ⟨r, n, r1, r2, r3, r4, r5⟩ := s_sane (ctx := { ctx with width := w }) hp hq (hv.seq q hq)
    have hcut : q.flat.length = 1 ∨
        q.text.length ≤ (precOf { ctx with width := w }).getD q.text.length := by
      rcases h1 with h1 | h1
      · right; simp [precOf, h1]
      · exact .inl (h1 q hq)
    obtain ⟨r6, r7⟩ := r5 hcut
    exact ⟨r, r1, r7, by rw [r4, r6, fieldBy_eq]; rfl⟩

/-! ### All conversions -/

/-- The conversions grouped by the way they are padded. -/
inductive Spec.Family
  | integer | float | text
  deriving DecidableEq

/-- The family of a conversion. -/
def Spec.family : Specifier → Family
  | .d | .u | .x | .upperX | .o => .integer
  | .f | .upperF | .e | .upperE | .g | .upperG | .a | .upperA => .float
  | _ => .text

/-- Whether zeros are used for padding. -/
def zeroIn (sp : Specifier) (ctx : FormatContext) (v : Traits) : Bool :=
  match family sp with
  | .integer => ctx.flags.zeroPad && (precOf ctx).isNone
  | .float => match v.asFloatForm with
    | .ok f => floatZero ctx f
    | .error _ => false
  | .text => false

theorem zeroIn_noZero (sp : Specifier) {ctx : FormatContext} (h : ctx.flags.zeroPad = false)
    (v : Traits) : zeroIn sp ctx v = false := by
  unfold zeroIn floatZero
  rw [h]
  cases family sp with
  | integer => rfl
  | float => cases v.asFloatForm <;> rfl
  | text => rfl

/-- What the length of the output depends on: a `%s` that cuts must have one piece to cut, and so must
a `%g` that strips zeros. -/
structure Traits.Measured (v : Traits) (sp : Specifier) (ctx : FormatContext) : Prop where
  text : sp = .s ∨ sp = .upperS → ctx.precision = UNSET ∨ ∀ q, v.asSeq = .ok q → q.flat.length = 1
  general : sp = .g ∨ sp = .upperG →
    ctx.flags.alternate = true ∨ ∀ f, v.asFloatForm = .ok f → f.OnePiece

/-- The context and argument for which zero padding goes wrong: `%#0x`, `%#0o` of zero. -/
def OddCase (sp : Specifier) (ctx : FormatContext) (v : Traits) : Prop :=
  (sp = .x ∨ sp = .upperX ∨ sp = .o) ∧ (∃ i, v.asIntForm = .ok i ∧ i.signum = 0) ∧
    ctx.flags.alternate = true ∧ ctx.flags.zeroPad = true ∧ ctx.flags.leftJustify = false ∧
    ctx.precision = UNSET

theorem intConv_shaped {v : Traits} {left z : Bool} {G : IntForm → Int → Res Seq}
    {P : Prop} {k : Nat}
    (h : ∀ i, v.asIntForm = .ok i → Shaped (G i) left z ∨ (P ∧ Odd k (G i))) :
    Shaped (fun w => v.asIntForm >>= fun i => G i w) left z ∨
      (P ∧ Odd k (fun w => v.asIntForm >>= fun i => G i w)) := by
  cases hi : v.asIntForm with
  | error e => exact .inl (.fails e fun _ => rfl)
  | ok i => exact h i hi

theorem floatConv_shaped {v : Traits} (hv : v.WF) {ctx : FormatContext} {sp : Specifier}
    (hs : family sp = .float) {G : FloatForm → Int → Res Seq}
    (h : ∀ f, v.asFloatForm = .ok f → f.WF → Shaped (G f) ctx.flags.leftJustify (floatZero ctx f)) :
    Shaped (fun w => v.asFloatForm >>= fun i => G i w) ctx.flags.leftJustify (zeroIn sp ctx v) := by
  unfold zeroIn
  rw [hs]
  cases hf : v.asFloatForm with
  | error e => exact .fails e fun _ => rfl
  | ok f => exact h f hf (hv.float f hf)

theorem bind_upper {α : Type} (x : Res α) (k : α → Int → Res Seq) :
    (fun w => x >>= fun a => k a w >>= Seq.upperCase) =
      fun w => (x >>= fun a => k a w) >>= Seq.upperCase := by
  funext w
  cases x <;> rfl

theorem formatterFor_shaped (env : DateEnv) (sp : Specifier) {ctx : FormatContext} {v : Traits}
    (hp : PrecOK ctx) (hv : v.WF) (hd : v.HasDigits) (hm : v.Measured sp ctx) (hn : sp ≠ .n)
    (hpc : sp ≠ .percent) :
    Shaped (fun w => formatterFor env sp { ctx with width := w } v) ctx.flags.leftJustify
      (zeroIn sp ctx v) ∨
    (OddCase sp ctx v ∧ Odd (if sp = .o then 1 else 2) (fun w => formatterFor env sp { ctx with width := w } v)) := by
  have hex : ∀ sp', (sp' = .x ∨ sp' = .upperX ∨ sp' = .o) →
      Shaped (fun w => v.asIntForm >>= fun i => SeqFormatter.x { ctx with width := w } i)
        ctx.flags.leftJustify (ctx.flags.zeroPad && (precOf ctx).isNone) ∨ (OddCase sp' ctx v ∧
      Odd 2 (fun w => v.asIntForm >>= fun i => SeqFormatter.x { ctx with width := w } i)) := by
    intro sp' hsp
    refine intConv_shaped fun i hi => ?_
    rcases unsigned_shaped (ctx := ctx) i.signum i.toHexString (pre := js! "0x") (by simp)
      (fun ds hds => hd i hi ds (by tauto)) with h | ⟨⟨g1, g2, _, g4, g5, g6⟩, h⟩
    · exact .inl h
    · exact .inr ⟨⟨hsp, ⟨i, hi, g1⟩, g2, g4, g5, g6⟩, h⟩
  have hg : sp = .g ∨ sp = .upperG → Shaped (fun w => v.asFloatForm >>= fun i =>
      SeqFormatter.g { ctx with width := w } i) ctx.flags.leftJustify (zeroIn .g ctx v) := by
    intro hsp
    refine floatConv_shaped hv rfl fun f hf hw => g_shaped hp hw ?_
    exact (hm.general hsp).symm.imp (fun h => h f hf) id
  have hs : sp = .s ∨ sp = .upperS → Shaped (fun w => SeqFormatter.s { ctx with width := w } v)
      ctx.flags.leftJustify false := fun hsp => s_shaped hp hv (hm.text hsp)
  cases sp with
  | d =>
    refine intConv_shaped fun i hi => .inl ?_
    exact d_shaped hp i fun ds hds => hd i hi ds (by tauto)
  | u =>
    refine intConv_shaped fun i hi => .inl ?_
    rcases unsigned_shaped (ctx := ctx) i.signum i.toUnsignedDecimalString (pre := []) (by simp)
      (fun ds hds => hd i hi ds (by tauto)) with h | ⟨⟨_, _, g3, _⟩, _⟩
    · exact h
    · exact absurd rfl g3
  | o =>
    refine intConv_shaped fun i hi => ?_
    rcases unsigned_shaped (ctx := ctx) i.signum i.toOctalString (pre := js! "0") (by simp)
      (fun ds hds => hd i hi ds (by tauto)) with h | ⟨⟨g1, g2, _, g4, g5, g6⟩, h⟩
    · exact .inl h
    · exact .inr ⟨⟨by tauto, ⟨i, hi, g1⟩, g2, g4, g5, g6⟩, h⟩
  | x => exact hex .x (by tauto)
  | upperX =>
    rcases hex .upperX (by tauto) with h | ⟨g, h⟩
    · have := h.upper
      rw [← bind_upper] at this
      exact .inl this
    · have := h.upper
      rw [← bind_upper] at this
      exact .inr ⟨g, this⟩
  | f => exact .inl (floatConv_shaped hv (sp := .f) rfl fun f hf hw => f_shaped hp hw)
  | upperF =>
    have := (floatConv_shaped hv (sp := .upperF) rfl fun f hf hw => f_shaped hp hw).upper
    rw [← bind_upper] at this
    exact .inl this
  | e => exact .inl (floatConv_shaped hv (sp := .e) rfl fun f hf hw => e_shaped hp hw)
  | upperE =>
    have := (floatConv_shaped hv (sp := .upperE) rfl fun f hf hw => e_shaped hp hw).upper
    rw [← bind_upper] at this
    exact .inl this
  | g => exact .inl (hg (by tauto))
  | upperG =>
    have := (hg (by tauto)).upper
    rw [← bind_upper] at this
    exact .inl this
  | a => exact .inl (floatConv_shaped hv (sp := .a) rfl fun f hf hw => a_shaped hp hw)
  | upperA =>
    have := (floatConv_shaped hv (sp := .upperA) rfl fun f hf hw => a_shaped hp hw).upper
    rw [← bind_upper] at this
    exact .inl this
  | c => exact .inl (c_shaped ctx v)
  | s => exact .inl (hs (by tauto))
  | upperS => exact .inl (hs (by tauto)).upper
  | t => exact .inl (t_shaped env ctx v)
  | upperT => exact .inl (t_shaped env ctx v).upper
  | p => exact .inl (p_shaped ctx v)
  | n => exact absurd rfl hn
  | percent => exact absurd rfl hpc

/-! ### The arguments the library makes -/

theorem FloatForm.ofDouble_onePiece (bits : BitVec 64) : (FloatForm.ofDouble bits).OnePiece := by
  intro p l hl
  simp only [FloatForm.ofDouble, DoubleWrapper.generalLayout] at hl
  split_ifs at hl
  · cases hl; rfl
  · obtain ⟨fd, _, hl⟩ := bind_eq_ok.1 hl
    obtain ⟨⟨m, ex⟩, _, hl⟩ := bind_eq_ok.1 hl
    cases hl; rfl

end FastPrintf
