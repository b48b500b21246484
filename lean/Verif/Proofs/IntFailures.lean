/-
Calls that fail: the code with `int` lengths fails as the code with unbounded lengths does, and having written the
same, whenever what was written before is short enough to be a Java string.
-/
import Verif.Proofs.IntPrintf
import Verif.Proofs.Failures

namespace FastPrintf
namespace Narrow

open FastPrintf.Seq BigDec Spec

/-! ### Layouts that cannot be had -/

theorem insertDot_fail {s : JStr} {e : Err} (h : BigDecimalWrapper.insertDotAfterFirstChar s = .error e) :
    insertDotAfterFirstChar s = .error e := by
  unfold BigDecimalWrapper.insertDotAfterFirstChar at h
  unfold insertDotAfterFirstChar
  rcases bind_eq_error.1 h with h | ⟨c, h1, h⟩
  · rw [h]; rfl
  · rw [h1, bind_ok]
    dsimp only at h ⊢
    rcases bind_eq_error.1 h with h | ⟨a, _, h⟩
    · rw [h]; rfl
    · cases h

theorem scientific0_fail {v : BigDec} {e : Err} (h : BigDecimalWrapper.scientificLayout0 v = .error e) :
    scientificLayout0 v = .error e := by
  unfold BigDecimalWrapper.scientificLayout0 at h
  unfold scientificLayout0
  dsimp only at h ⊢
  by_cases h0 : v.scale = 0
  · rw [if_pos h0] at h ⊢
    by_cases h1 : v.digits.length > 1
    · rw [if_pos h1] at h ⊢
      rcases bind_eq_error.1 h with h | ⟨m, _, h⟩
      · rw [insertDot_fail h]; rfl
      · cases h
    · rw [if_neg h1] at h; cases h
  · rw [if_neg h0] at h ⊢
    by_cases h1 : v.digits.length > 1
    · rw [if_pos h1] at h ⊢
      rcases bind_eq_error.1 h with h | ⟨m, _, h⟩
      · rw [insertDot_fail h]; rfl
      · cases h
    · rw [if_neg h1] at h; cases h

theorem decimal0_fail {v : BigDec} {e : Err} (h : BigDecimalWrapper.decimalLayout0 v = .error e) :
    decimalLayout0 v = .error e := by
  unfold BigDecimalWrapper.decimalLayout0 at h
  unfold decimalLayout0
  dsimp only at h ⊢
  by_cases h0 : v.scale = 0
  · rw [if_pos h0] at h; cases h
  rw [if_neg h0] at h ⊢
  by_cases h1 : wrap32 (v.scale - v.digits.length) ≥ 0
  · rw [if_pos h1] at h ⊢
    by_cases h2 : wrap32 (v.scale - v.digits.length) > 0
    · rw [if_pos h2] at h ⊢
      rcases bind_eq_error.1 h with h | ⟨m, _, h⟩
      · rcases bind_eq_error.1 h with h | ⟨q, _, h⟩
        · rw [h]; rfl
        · cases h
      · cases h
    · rw [if_neg h2] at h; cases h
  rw [if_neg h1] at h ⊢
  by_cases h2 : wrap32 (-wrap32 (v.scale - v.digits.length)) < v.digits.length
  · rw [if_pos h2] at h ⊢
    rcases bind_eq_error.1 h with h | ⟨a, ha, h⟩
    · rw [h]; rfl
    · rw [ha, bind_ok]
      rcases bind_eq_error.1 h with h | ⟨b, _, h⟩
      · rw [h]; rfl
      · cases h
  · rw [if_neg h2] at h ⊢
    rcases bind_eq_error.1 h with h | ⟨a, _, h⟩
    · rw [h]; rfl
    · cases h

theorem scientific_fail {v : BigDec} {p : Int} {e : Err} (h : BigDecimalWrapper.scientificLayout v p = .error e) :
    scientificLayout v p = .error e := by
  unfold BigDecimalWrapper.scientificLayout at h
  unfold scientificLayout
  dsimp only at h ⊢
  rcases bind_eq_error.1 h with h | ⟨w, hw, h⟩
  · rw [h]; rfl
  · rw [hw, bind_ok]; exact scientific0_fail h

theorem decimal_fail {v : BigDec} {p : Int} {e : Err} (h : BigDecimalWrapper.decimalLayout v p = .error e) :
    decimalLayout v p = .error e := by
  unfold BigDecimalWrapper.decimalLayout at h
  unfold decimalLayout
  by_cases h1 : v.scale > p
  · rw [if_pos h1] at h ⊢
    by_cases h2 : (v.precision : Int) ≤ v.scale
    · rw [if_pos h2] at h ⊢; exact decimal0_fail h
    · rw [if_neg h2] at h ⊢
      rcases bind_eq_error.1 h with h | ⟨w, hw, h⟩
      · rw [h]; rfl
      · rw [hw, bind_ok]; exact decimal0_fail h
  · rw [if_neg h1] at h ⊢; exact decimal0_fail h

theorem general_fail {v : BigDec} {p : Int} {e : Err} (h : BigDecimalWrapper.generalLayout v p = .error e) :
    generalLayout v p = .error e := by
  unfold BigDecimalWrapper.generalLayout at h
  unfold generalLayout
  dsimp only at h ⊢
  by_cases h1 : (v.unscaled = 0 ∧ v.scale = 0) ∨ (v.geTenPow (-4) ∧ ¬ v.geTenPow p)
  · rw [if_pos h1] at h ⊢; exact decimal_fail h
  · rw [if_neg h1] at h ⊢; exact scientific_fail h

/-- The layout of a big number with an exponent has one. -/
theorem scientific_some {v : BigDec} {p : Int} {l : FloatLayout} (h : BigDecimalWrapper.scientificLayout v p = .ok l) :
    ∃ ex, l.exponent = some ex := by
  unfold BigDecimalWrapper.scientificLayout at h
  dsimp only at h
  obtain ⟨w, _, h⟩ := bind_eq_ok.1 h
  unfold BigDecimalWrapper.scientificLayout0 at h
  dsimp only at h
  split_ifs at h
  · obtain ⟨m, _, h⟩ := bind_eq_ok.1 h
    cases h; exact ⟨_, rfl⟩
  · obtain ⟨m, _, h⟩ := bind_eq_ok.1 h
    cases h; exact ⟨_, rfl⟩
  · cases h; exact ⟨_, rfl⟩
  · obtain ⟨m, _, h⟩ := bind_eq_ok.1 h
    cases h; exact ⟨_, rfl⟩
  · cases h; exact ⟨_, rfl⟩

/-- A number and the same with `int` lengths: where the one has no layout, the other has none for the same reason. -/
structure FailsAlike (f f' : FloatForm) : Prop where
  dec : ∀ p e, f.decimalLayout p = .error e → f'.decimalLayout p = .error e
  sci : ∀ p e, f.scientificLayout p = .error e → f'.scientificLayout p = .error e
  gen : ∀ p e, f.generalLayout p = .error e → f'.generalLayout p = .error e
  hex : ∀ p e, f.hexLayout p = .error e → f'.hexLayout p = .error e
  power : (f.isNaN || f.isInfinite) = false → ∀ (p : Nat) l, p ≤ 65536 →
    f.scientificLayout p = .ok l → ∃ ex, l.exponent = some ex
  hexPower : (f.isNaN || f.isInfinite) = false → ∀ (p : Nat) l, 1 ≤ p → f.hexLayout p = .ok l → ∃ ex, l.exponent = some ex

theorem alike_double (bits : BitVec 64) : FailsAlike (FloatForm.ofDouble bits) (FloatForm.ofDouble bits) where
  dec _ _ h := h
  sci _ _ h := h
  gen _ _ h := h
  hex _ _ h := h
  power hf p l hp h := by
    have ht : (FloatForm.ofDouble bits).Total := (FloatForm.double_total bits).resolve_left (by rw [hf]; simp)
    obtain ⟨m, ex, h1⟩ := ht.sci p hp
    rw [h] at h1; cases h1; exact ⟨_, rfl⟩
  hexPower hf p l hp h := by
    have ht : (FloatForm.ofDouble bits).Total := (FloatForm.double_total bits).resolve_left (by rw [hf]; simp)
    rcases ht.hex p hp with ⟨m, ex, h1⟩ | ⟨e, h1, _⟩
    · rw [h] at h1; cases h1; exact ⟨_, rfl⟩
    · rw [h] at h1; cases h1

theorem alike_big (u s : Int) : FailsAlike (FloatForm.ofBigDecimal u s) (ofBigDecimal u s) where
  dec _ _ h := decimal_fail h
  sci _ _ h := scientific_fail h
  gen _ _ h := general_fail h
  hex _ _ h := h
  power _ _ _ _ h := scientific_some h
  hexPower _ _ _ _ h := by cases h

/-! ### Conversions -/

/-- Two arguments that differ at most in how their numbers are laid out, and that fail alike. -/
structure Firm (v v' : Traits) : Prop where
  same : TraitsMatch v v'
  digits : v.HasDigits
  alike : ∀ f f', v.asFloatForm = .ok f → v'.asFloatForm = .ok f' → FailsAlike f f'

theorem f_refused {ctx : FormatContext} (hr : Ready ctx) {f f' : FloatForm} (hw : f.WF) (hm : Matches f f')
    (ha : FailsAlike f f') {e : Err} (h : SeqFormatter.f ctx f = .error e) : Narrow.f ctx f' = .error e := by
  by_cases hn : (f.isNaN || f.isInfinite) = true
  · unfold SeqFormatter.f at h; rw [if_pos hn] at h; exact absurd h (nonFinite_total ctx f)
  · cases hl : f.decimalLayout (SeqFormatter.precision6 ctx) with
    | ok l =>
      obtain ⟨p, hp, hp'⟩ := (precisions hr).1
      have hl' := hl
      rw [hp'] at hl'
      have hlw := hw p _ (by omega) (.inr (.inr (.inl hl')))
      obtain ⟨r, h1, _⟩ := SeqFormatter.f_ok hr.precOK (by simpa using hn) hl hlw.1
      rw [h1] at h; cases h
    | error e' =>
      unfold SeqFormatter.f at h
      rw [if_neg hn, hl] at h
      unfold Narrow.f
      rw [hm.nan, hm.inf, if_neg hn, ha.dec _ _ hl]
      exact h

theorem e_refused {ctx : FormatContext} (hr : Ready ctx) {f f' : FloatForm} (hw : f.WF) (hm : Matches f f')
    (ha : FailsAlike f f') {e : Err} (h : SeqFormatter.e ctx f = .error e) : Narrow.e ctx f' = .error e := by
  by_cases hn : (f.isNaN || f.isInfinite) = true
  · unfold SeqFormatter.e at h; rw [if_pos hn] at h; exact absurd h (nonFinite_total ctx f)
  · cases hl : f.scientificLayout (SeqFormatter.precision6 ctx) with
    | ok l =>
      obtain ⟨p, hp, hp'⟩ := (precisions hr).1
      have hl' := hl
      rw [hp'] at hl'
      have hlw := hw p _ (by omega) (.inr (.inl hl'))
      obtain ⟨ex, hx⟩ := ha.power (by simpa using hn) p l hp hl'
      obtain ⟨m, x⟩ := l
      cases hx
      obtain ⟨r, h1, _⟩ := SeqFormatter.e_ok hr.precOK (by simpa using hn) hl hlw.1 (hlw.2 ex rfl)
      rw [h1] at h; cases h
    | error e' =>
      unfold SeqFormatter.e at h
      rw [if_neg hn, hl] at h
      unfold Narrow.e
      rw [hm.nan, hm.inf, if_neg hn, ha.sci _ _ hl]
      exact h

theorem g_refused {ctx : FormatContext} (hr : Ready ctx) {f f' : FloatForm} (hw : f.WF) (hm : Matches f f')
    (ha : FailsAlike f f') {e : Err} (h : SeqFormatter.g ctx f = .error e) : g ctx f' = .error e := by
  by_cases hn : (f.isNaN || f.isInfinite) = true
  · unfold SeqFormatter.g at h; rw [if_pos hn] at h; exact absurd h (nonFinite_total ctx f)
  · cases hl : f.generalLayout (SeqFormatter.gPrecision ctx) with
    | ok l =>
      obtain ⟨p, hp1, hp, hp'⟩ := (precisions hr).2.1
      have hl' := hl
      rw [hp'] at hl'
      obtain ⟨r, n, h1, _⟩ := SeqFormatter.g_sane hr.precOK (by simpa using hn) hl (hw p _ (by omega) (.inl hl'))
      rw [h1] at h; cases h
    | error e' =>
      unfold SeqFormatter.g at h
      rw [if_neg hn, hl] at h
      unfold g
      rw [hm.nan, hm.inf, if_neg hn, ha.gen _ _ hl]
      exact h

theorem a_refused {ctx : FormatContext} (hr : Ready ctx) {f f' : FloatForm} (hw : f.WF) (hm : Matches f f')
    (ha : FailsAlike f f') {e : Err} (h : SeqFormatter.a ctx f = .error e) : a ctx f' = .error e := by
  by_cases hn : (f.isNaN || f.isInfinite) = true
  · unfold SeqFormatter.a at h; rw [if_pos hn] at h; exact absurd h (nonFinite_total ctx f)
  · cases hl : f.hexLayout (SeqFormatter.aPrecision ctx) with
    | ok l =>
      obtain ⟨p, hp1, hp'⟩ := (precisions hr).2.2
      have hl' := hl
      rw [hp'] at hl'
      have hlw := hw p _ (by omega) (.inr (.inr (.inr hl')))
      obtain ⟨ex, hx⟩ := ha.hexPower (by simpa using hn) p l hp1 hl'
      obtain ⟨m, x⟩ := l
      cases hx
      obtain ⟨r, h1, _⟩ := SeqFormatter.a_ok hr.precOK (by simpa using hn) hl hlw.1 (hlw.2 ex rfl)
      rw [h1] at h; cases h
    | error e' =>
      unfold SeqFormatter.a at h
      rw [if_neg hn, hl] at h
      unfold a
      rw [hm.nan, hm.inf, if_neg hn, ha.hex _ _ hl]
      exact h

theorem d_refused {ctx : FormatContext} (hp : SeqFormatter.PrecOK ctx) {i : IntForm} {e : Err}
    (hd : ∀ ds, i.toDecimalString = .ok ds → ds ≠ []) (h : SeqFormatter.d ctx i = .error e) : d ctx i = .error e := by
  have h1 := d_quiet hp hd h
  by_cases h0 : i.signum = 0 ∧ ctx.precision = 0
  · unfold SeqFormatter.d at h
    rw [if_pos h0] at h
    refine absurd h (spaceJustify_total ctx ?_)
    split_ifs
    · exact Seq.ch_wf _
    · exact Seq.wrap_wf []
  · unfold d
    rw [if_neg h0, h1]; rfl

theorem unsigned_refused {ctx : FormatContext} {sg : Int} {x : Res JStr} {pre : JStr} {e : Err}
    (h : SeqFormatter.formatUnsignedInteger ctx sg x pre = .error e) :
    formatUnsignedInteger ctx sg x pre = .error e := by
  have h1 := unsigned_quiet h
  by_cases h0 : sg = 0 ∧ ctx.precision = 0
  · unfold SeqFormatter.formatUnsignedInteger at h
    rw [if_pos h0] at h
    exact absurd h (spaceJustify_total ctx (Seq.wrap_wf []))
  · unfold formatUnsignedInteger
    rw [if_neg h0, h1]; rfl

theorem t_refused {env : DateEnv} {ctx : FormatContext} {v v' : Traits} (hv : v'.asTemporal = v.asTemporal) {e : Err}
    (h : SeqFormatter.t env ctx v = .error e) : t env ctx v' = .error e := by
  unfold SeqFormatter.t at h
  unfold t
  rw [hv]
  rcases bind_eq_error.1 h with h | ⟨ta, h1, h⟩
  · rw [h]; rfl
  · rw [h1, bind_ok]
    rcases bind_eq_error.1 h with h | ⟨⟨fmt, ta'⟩, h2, h⟩
    · rw [h]; rfl
    · rw [h2, bind_ok]
      dsimp only at h ⊢
      rcases bind_eq_error.1 h with h | ⟨s, h3, h⟩
      · rw [h]; rfl
      · exact absurd h (spaceJustify_total ctx (Seq.wrap_wf _))

theorem lower_refused {env : DateEnv} {sp : Specifier} {ctx : FormatContext} {v v' : Traits} (hsp : lower sp = sp)
    (hr : Ready ctx) (hm : Firm v v') {e : Err} (h : DefaultAppender.formatterFor env sp ctx v = .error e) :
    formatterFor env sp ctx v' = .error e := by
  have hp := hr.precOK
  have intC : ∀ {k k' : IntForm → Res Seq}, (∀ i, v.asIntForm = .ok i → k i = .error e → k' i = .error e) →
      (v.asIntForm >>= k) = .error e → (v'.asIntForm >>= k') = .error e := by
    intro k k' hk h
    rw [hm.same.intForm]
    rcases bind_eq_error.1 h with h | ⟨i, hi, h⟩
    · rw [h]; rfl
    · rw [hi]; exact hk i hi h
  have floatC : ∀ {k k' : FloatForm → Res Seq}, (∀ f f', v.asFloatForm = .ok f → v'.asFloatForm = .ok f' → Matches f f' →
      k f = .error e → k' f' = .error e) → (v.asFloatForm >>= k) = .error e → (v'.asFloatForm >>= k') = .error e := by
    intro k k' hk h
    rcases hm.same.float with ⟨f, f', a1, a2, a3, _⟩ | ⟨e', a1, a2⟩
    · rw [a1] at h
      rw [a2]
      exact hk f f' a1 a2 a3 h
    · rw [a1] at h
      rw [a2]
      exact h
  cases sp with
  | d => exact intC (fun i hi h => d_refused hp (fun ds hds => hm.digits i hi ds (.inl hds)) h) h
  | u => exact intC (fun i hi h => unsigned_refused h) h
  | x => exact intC (fun i hi h => unsigned_refused h) h
  | o => exact intC (fun i hi h => unsigned_refused h) h
  | f => exact floatC (fun f f' hf hf' hm' h =>
      f_refused hr (hm.same.wf.float f hf) hm' (hm.alike f f' hf hf') h) h
  | e => exact floatC (fun f f' hf hf' hm' h =>
      e_refused hr (hm.same.wf.float f hf) hm' (hm.alike f f' hf hf') h) h
  | g => exact floatC (fun f f' hf hf' hm' h =>
      g_refused hr (hm.same.wf.float f hf) hm' (hm.alike f f' hf hf') h) h
  | a => exact floatC (fun f f' hf hf' hm' h =>
      a_refused hr (hm.same.wf.float f hf) hm' (hm.alike f f' hf hf') h) h
  | s =>
    show s ctx v' = .error e
    replace h : SeqFormatter.s ctx v = .error e := h
    cases hq : v.asSeq with
    | error e' =>
      unfold SeqFormatter.s at h
      rw [hq] at h
      unfold s
      rw [hm.same.seq, hq]
      exact h
    | ok q =>
      obtain ⟨r, _, h1, _⟩ := SeqFormatter.s_sane hp hq (hm.same.wf.seq q hq)
      rw [h] at h1; cases h1
  | t => exact t_refused hm.same.temporal h
  | c =>
    show c ctx v' = .error e
    replace h : SeqFormatter.c ctx v = .error e := h
    unfold SeqFormatter.c at h
    unfold c
    rw [hm.same.char]
    rcases bind_eq_error.1 h with h | ⟨x, _, h⟩
    · rw [h]; rfl
    · exact absurd h (spaceJustify_total ctx (Seq.ch_wf _))
  | p =>
    show p ctx v' = .error e
    replace h : SeqFormatter.p ctx v = .error e := h
    by_cases hv : v.ref = .primitive
    · unfold SeqFormatter.p at h
      rw [hv] at h
      unfold p
      rw [hm.same.ref, hv]
      exact h
    · obtain ⟨r, h1, _⟩ := SeqFormatter.p_ok ctx hv
      rw [h] at h1; cases h1
  | percent => cases h
  | n => cases h
  | _ => cases hsp

/-- One conversion that fails fails in the same way. -/
theorem formatterFor_refused {env : DateEnv} {sp : Specifier} {ctx : FormatContext} {v v' : Traits}
    (hr : Ready ctx) (hm : Firm v v') {e : Err} (h : DefaultAppender.formatterFor env sp ctx v = .error e) :
    formatterFor env sp ctx v' = .error e := by
  by_cases hsp : lower sp = sp
  · exact lower_refused hsp hr hm h
  · rw [(upper_split hsp ctx v).1] at h
    have h1 := upper_quiet (fun s hs => FastPrintf.formatterFor_sane hr.precOK hm.same.wf hs) h
    have hll : lower (lower sp) = lower sp := by cases sp <;> rfl
    rw [(upper_split hsp ctx v').2, lower_refused hll hr hm h1]
    rfl

theorem nextInt_rel {sp : Specifier} {args args' : List Traits} (hm : List.Forall₂ Firm args args') :
    (∃ e, DefaultAppender.nextInt sp args = .error e ∧ DefaultAppender.nextInt sp args' = .error e) ∨
    ∃ i r r', DefaultAppender.nextInt sp args = .ok (i, r) ∧ DefaultAppender.nextInt sp args' = .ok (i, r') ∧
      List.Forall₂ Firm r r' := by
  cases hm with
  | nil => exact .inl ⟨_, rfl, rfl⟩
  | @cons v v' tl tl' h1 h2 =>
    unfold DefaultAppender.nextInt
    simp only [h1.same.int]
    cases v.asInt with
    | error e => exact .inl ⟨e, rfl, rfl⟩
    | ok i => exact .inr ⟨i, tl, tl', rfl, rfl, h2⟩

theorem starWidth_rel {sp : Specifier} {ctx : FormatContext} {args args' : List Traits}
    (hm : List.Forall₂ Firm args args') :
    (∃ e, DefaultAppender.starWidth sp ctx args = .error e ∧ DefaultAppender.starWidth sp ctx args' = .error e) ∨
    ∃ c r r', DefaultAppender.starWidth sp ctx args = .ok (c, r) ∧ DefaultAppender.starWidth sp ctx args' = .ok (c, r') ∧
      List.Forall₂ Firm r r' := by
  unfold DefaultAppender.starWidth
  by_cases hc : ctx.isPrecedingWidth
  · rw [if_pos hc, if_pos hc]
    rcases nextInt_rel (sp := sp) hm with ⟨e, h1, h2⟩ | ⟨w, r, r', h1, h2, h3⟩
    · exact .inl ⟨e, by rw [h1]; rfl, by rw [h2]; rfl⟩
    · rw [h1, h2]
      simp only [bind_ok]
      by_cases hw : w ≥ 0
      · simp only [if_pos hw]
        cases ctx.setWidth w with
        | error e => exact .inl ⟨e, rfl, rfl⟩
        | ok c => exact .inr ⟨c, r, r', rfl, rfl, h3⟩
      · simp only [if_neg hw]
        cases (ctx.addFlag .leftJustify).setWidth (wrap32 (-w)) with
        | error e => exact .inl ⟨e, rfl, rfl⟩
        | ok c => exact .inr ⟨c, r, r', rfl, rfl, h3⟩
  · rw [if_neg hc, if_neg hc]
    exact .inr ⟨ctx, args, args', rfl, rfl, hm⟩

theorem starPrecision_rel {sp : Specifier} {ctx : FormatContext} {args args' : List Traits}
    (hm : List.Forall₂ Firm args args') :
    (∃ e, DefaultAppender.starPrecision sp ctx args = .error e ∧
      DefaultAppender.starPrecision sp ctx args' = .error e) ∨
    ∃ c r r', DefaultAppender.starPrecision sp ctx args = .ok (c, r) ∧
      DefaultAppender.starPrecision sp ctx args' = .ok (c, r') ∧ List.Forall₂ Firm r r' := by
  unfold DefaultAppender.starPrecision
  by_cases hc : ctx.isPrecedingPrecision
  · rw [if_pos hc, if_pos hc]
    rcases nextInt_rel (sp := sp) hm with ⟨e, h1, h2⟩ | ⟨w, r, r', h1, h2, h3⟩
    · exact .inl ⟨e, by rw [h1]; rfl, by rw [h2]; rfl⟩
    · rw [h1, h2]
      simp only [bind_ok]
      cases ctx.setPrecision (if w ≥ 0 then w else UNSET) with
      | error e => exact .inl ⟨e, rfl, rfl⟩
      | ok c => exact .inr ⟨c, r, r', rfl, rfl, h3⟩
  · rw [if_neg hc, if_neg hc]
    exact .inr ⟨ctx, args, args', rfl, rfl, hm⟩

/-- One appender: both fail alike, or both give the same sequence if it is short enough. -/
theorem appendOne_rel {env : DateEnv} {a : Appender} (ha : a.Stored) {args args' : List Traits}
    (hm : List.Forall₂ Firm args args') :
    (∃ e, a.append env args = .error e ∧ appendOne env a args' = .error e) ∨
    ∃ q r r', a.append env args = .ok (q, r) ∧ q.Sane ∧ List.Forall₂ Firm r r' ∧
      (q.text.length ≤ 2147483647 → appendOne env a args' = .ok (q, r')) := by
  cases a with
  | fixed value => exact .inr ⟨_, _, _, rfl, (Seq.wrap_wf _).sane, hm, fun _ => rfl⟩
  | dflt sp ctx =>
    simp only [Appender.append, DefaultAppender.append, appendOne, appendDefault]
    rcases starWidth_rel (sp := sp) (ctx := ctx) hm with ⟨e, h1, h2⟩ | ⟨c1, r1, r1', h1, h2, h3⟩
    · exact .inl ⟨e, by rw [h1]; rfl, by rw [h2]; rfl⟩
    rcases starPrecision_rel (sp := sp) (ctx := c1) h3 with ⟨e, k1, k2⟩ | ⟨c2, r2, r2', k1, k2, k3⟩
    · exact .inl ⟨e, by rw [h1, bind_ok]; dsimp only; rw [k1]; rfl, by rw [h2, bind_ok]; dsimp only; rw [k2]; rfl⟩
    have hr := ready_of_stars ha.1 ha.2 h1 k1
    rw [h1, h2]; simp only [bind_ok]
    rw [k1, k2]; simp only [bind_ok]
    cases k3 with
    | nil => exact .inl ⟨_, rfl, rfl⟩
    | @cons v v' tl tl' x y =>
      simp only
      cases hf : DefaultAppender.formatterFor env sp c2 v with
      | error e => exact .inl ⟨e, rfl, by rw [formatterFor_refused hr x hf]; rfl⟩
      | ok q =>
        exact .inr ⟨q, tl, tl', rfl, FastPrintf.formatterFor_sane hr.precOK x.same.wf hf, y,
          fun hq => by rw [formatterFor_eq hr x.same hf hq]; rfl⟩

/-- A run that fails, having written no more than a string can hold. -/
theorem runSB_refused {env : DateEnv} {apps : List Appender} (ha : ∀ a ∈ apps, a.Stored) {args args' : List Traits}
    (hm : List.Forall₂ Firm args args') {sb t : JStr} {e : Err}
    (h : FastPrintf.runSB env apps args sb = ⟨t, .error e⟩) (ht : t.length ≤ 2147483647) :
    runSB env apps args' sb = ⟨t, .error e⟩ := by
  induction apps generalizing args args' sb with
  | nil => cases h
  | cons a apps ih =>
    unfold FastPrintf.runSB at h
    unfold runSB
    rcases appendOne_rel (env := env) (ha a (by simp)) hm with ⟨e', h1, h2⟩ | ⟨q, r, r', h1, hs, h3, h4⟩
    · rw [h1] at h
      rw [h2]
      exact h
    · rw [h1] at h
      simp only [Seq.appendToSB_ok hs] at h
      have hl : q.text.length ≤ t.length := by
        have h' := h
        rw [runSB_prefix] at h'
        have h'' := congrArg Outcome.target h'
        simp only at h''
        rw [← h'']
        simp only [List.length_append]; omega
      rw [h4 (by omega)]
      simp only [Seq.appendToSB_ok hs]
      exact ih (fun b hb => ha b (List.mem_cons_of_mem _ hb)) h3 h

end Narrow

namespace Narrow

open Spec

theorem firm_same {v : Traits} (hs : TraitsMatch v v) (hd : v.HasDigits)
    (hf : ∀ f, v.asFloatForm = .ok f → ∃ bits, f = FloatForm.ofDouble bits) : Firm v v where
  same := hs
  digits := hd
  alike := by
    intro f f' h h'
    rw [h] at h'; cases h'
    obtain ⟨bits, rfl⟩ := hf f h
    exact alike_double bits

theorem modest_firm (jdk : JdkEnv) {e : Entry} (h : Modest e) :
    Firm (e.toTraits jdk) (toTraits jdk e) := by
  have hm := modest_match jdk h
  have hd := h.wellBehaved.hasDigits jdk
  cases e with
  | prim p => exact firm_same hm hd (by intro f hf; cases p <;> cases hf <;> exact ⟨_, rfl⟩)
  | ref o =>
    cases o with
    | null => exact firm_same hm hd (by rintro f ⟨⟩)
    | boxed p id => exact firm_same hm hd (by intro f hf; cases p <;> cases hf <;> exact ⟨_, rfl⟩)
    | string s id =>
      refine firm_same hm hd ?_
      intro f hf
      simp only [Entry.toTraits, Obj.toTraits, charSequenceTraits] at hf
      split at hf <;> cases hf
      exact ⟨_, rfl⟩
    | seq q id =>
      refine firm_same hm hd ?_
      intro f hf
      obtain ⟨s, _, hf⟩ := bind_eq_ok.1 hf
      simp only [charSequenceTraits] at hf
      split at hf <;> cases hf
      exact ⟨_, rfl⟩
    | charSeq s id =>
      refine firm_same hm hd ?_
      intro f hf
      simp only [Entry.toTraits, Obj.toTraits, charSequenceTraits] at hf
      split at hf <;> cases hf
      exact ⟨_, rfl⟩
    | bigInteger v id => exact ⟨hm, hd, by rintro f f' ⟨⟩ ⟨⟩; exact alike_big _ _⟩
    | bigDecimal u s id => exact ⟨hm, hd, by rintro f f' ⟨⟩ ⟨⟩; exact alike_big _ _⟩
    | temporal t text id =>
      refine firm_same hm hd ?_
      intro f hf
      simp only [Entry.toTraits, Obj.toTraits, temporalTraits] at hf
      split at hf <;> cases hf
      exact ⟨_, rfl⟩
    | traits t => exact h.elim
    | object kind text id =>
      refine firm_same hm hd ?_
      intro f hf
      simp only [Entry.toTraits, Obj.toTraits, objectTraits] at hf
      split at hf <;> cases hf <;> exact ⟨_, rfl⟩

theorem modest_firm_all (jdk : JdkEnv) {es : List Entry} (h : ∀ e ∈ es, Modest e) :
    List.Forall₂ Firm (es.map (Entry.toTraits jdk)) (es.map (toTraits jdk)) := by
  induction es with
  | nil => exact .nil
  | cons e es ih =>
    exact .cons (modest_firm jdk (h e (by simp))) (ih fun e he => h e (List.mem_cons_of_mem _ he))

end Narrow
end FastPrintf
