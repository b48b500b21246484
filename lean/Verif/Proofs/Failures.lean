/-
Which exceptions formatting can end with.
-/
import Verif.Proofs.BigDecimalFormat
import Verif.Proofs.HexFormat

namespace FastPrintf
open Spec SeqFormatter DefaultAppender

/-- The exceptions the library declares: a `PrintfSyntaxException` or a `PrintfException`. -/
def Spec.Documented (e : Err) : Prop := (∃ why i, e = .syntaxErr why i) ∨ ∃ why, e = .printf why

/-- Is `e` a plain `PrintfException`? -/
def IsPrintf (e : Err) : Prop := ∃ why, e = .printf why

theorem IsPrintf.documented {e : Err} (h : IsPrintf e) : Documented e := .inr h

/-! ### Arguments that fail in the documented way only -/

/-- A floating-point reading whose layouts exist up to the largest precision; `%a` may be refused. -/
structure FloatForm.Total (f : FloatForm) : Prop where
  dec : ∀ p : Nat, p ≤ 65536 → ∃ l, f.decimalLayout p = .ok l
  sci : ∀ p : Nat, p ≤ 65536 → ∃ m ex, f.scientificLayout p = .ok ⟨m, some ex⟩
  gen : ∀ p : Nat, 1 ≤ p → p ≤ 65536 → ∃ l, f.generalLayout p = .ok l
  hex : ∀ p : Nat, 1 ≤ p → (∃ m ex, f.hexLayout p = .ok ⟨m, some ex⟩) ∨
    ∃ e, f.hexLayout p = .error e ∧ IsPrintf e

/-- Every reading but the one as a date fails only with a `PrintfException`. -/
structure Traits.Quiet (v : Traits) : Prop where
  wf : v.WF
  digits : v.HasDigits
  int : ∀ e, v.asIntForm = .error e → IsPrintf e
  ints : ∀ i e, v.asIntForm = .ok i → (i.toDecimalString = .error e ∨ i.toHexString = .error e ∨
    i.toOctalString = .error e ∨ i.toUnsignedDecimalString = .error e) → IsPrintf e
  float : ∀ e, v.asFloatForm = .error e → IsPrintf e
  floats : ∀ f, v.asFloatForm = .ok f → (f.isNaN || f.isInfinite) = true ∨ f.Total
  seq : ∀ e, v.asSeq = .error e → IsPrintf e
  number : ∀ e, v.asInt = .error e → IsPrintf e
  char : ∀ e, v.asChar = .error e → IsPrintf e

theorem IntForm.Means.quiet {f : IntForm} {v : Int} {u : Option Nat} (h : f.Means v u) :
    ∀ e, (f.toDecimalString = .error e ∨ f.toHexString = .error e ∨ f.toOctalString = .error e ∨
      f.toUnsignedDecimalString = .error e) → IsPrintf e := by
  intro e he
  rw [h.dec, h.hex, h.oct, h.uns] at he
  cases u with
  | none => simp only [reduceCtorEq, false_or] at he; rcases he with he | he | he <;> cases he <;> exact ⟨_, rfl⟩
  | some n => rcases he with he | he | he | he <;> cases he

theorem FloatForm.total_double {bits : BitVec 64} (hf : finite bits) : (FloatForm.ofDouble bits).Total where
  dec p _ := by
    obtain ⟨l, _, h, _⟩ := DoubleWrapper.decimal_text hf p false
    exact ⟨l, h⟩
  sci p _ := by
    obtain ⟨m, ex, h, _⟩ := DoubleWrapper.scientific_text hf p false
    exact ⟨m, ex, h⟩
  gen p h1 _ := by
    obtain ⟨l, h, _⟩ := DoubleWrapper.general_text hf h1 false
    exact ⟨l, h⟩
  hex p h1 := by
    left
    by_cases hz : magnitude bits = 0 ∨ 13 ≤ (p : Int)
    · obtain ⟨m, ex, h, _⟩ := simpleHexLayout_ok bits
      exact ⟨m, ex, by show DoubleWrapper.hexLayout _ _ = _; rw [hexLayout_simple hz, h]⟩
    · push Not at hz
      obtain ⟨m, ex, _, _, h, _⟩ := DoubleWrapper.hexLayout_rounded hf hz.1 (q := p) h1 (by omega)
      exact ⟨m, ex, h⟩

theorem FloatForm.double_total (bits : BitVec 64) :
    ((FloatForm.ofDouble bits).isNaN || (FloatForm.ofDouble bits).isInfinite) = true ∨
      (FloatForm.ofDouble bits).Total := by
  by_cases hf : finite bits
  · exact .inr (total_double hf)
  · left
    exact (Bool.not_eq_false _).mp (mt (finite_iff bits).2 hf)

theorem FloatForm.total_big {u scale : Int} {n : Nat} (hn : DigitCount u.natAbs n) (hs : ScaleOk n scale) :
    (FloatForm.ofBigDecimal u scale).Total where
  dec p _ := by
    obtain ⟨m, h, _⟩ := BigDecimalWrapper.decimal_text hn.digits hs.1 hs.2 p false
    exact ⟨_, h⟩
  sci p _ := by
    by_cases h0 : u.natAbs = 0
    · obtain ⟨m, ex, h, _⟩ := BigDecimalWrapper.scientific_zero scale p
      rw [← h0] at h
      exact ⟨m, ex, h⟩
    · obtain ⟨m, ex, _, _, h, _⟩ := BigDecimalWrapper.scientific_text hn.digits h0 hs.1 hs.2 p false
      exact ⟨m, ex, h⟩
  gen p h1 h2 := by
    by_cases h0 : u.natAbs = 0
    · obtain ⟨l, h, _⟩ := BigDecimalWrapper.general_zero h1 (by omega) scale false
      rw [← h0] at h
      exact ⟨l, h⟩
    · obtain ⟨l, _, _, h, _⟩ := BigDecimalWrapper.general_text hn.digits h0 hs.1 hs.2 h1 (by omega) false
      exact ⟨l, h⟩
  hex p _ := .inr ⟨_, rfl, _, rfl⟩

/-! ### Conversions -/

theorem spaceJustify_total (ctx : FormatContext) {q : Seq} (h : q.WF) {e : Err} :
    spaceJustify ctx q ≠ .error e := by
  obtain ⟨r, h1, _⟩ := spaceJustify_ok ctx h
  rw [h1]; simp

theorem d_quiet {ctx : FormatContext} (hp : PrecOK ctx) {i : IntForm} {e : Err}
    (hd : ∀ ds, i.toDecimalString = .ok ds → ds ≠ []) (h : d ctx i = .error e) :
    i.toDecimalString = .error e := by
  cases hx : i.toDecimalString with
  | error e' =>
    by_cases h0 : i.signum = 0 ∧ ctx.precision = 0
    · unfold d at h
      rw [if_pos h0] at h
      split_ifs at h
      · exact absurd h (spaceJustify_total ctx (Seq.ch_wf _))
      · exact absurd h (spaceJustify_total ctx Seq.empty_wf)
    · rw [d_err hx h0] at h
      cases h; rfl
  | ok ds =>
    obtain ⟨r, h1, _⟩ := d_ok hp hx (hd ds hx)
    rw [h] at h1; cases h1

theorem unsigned_quiet {ctx : FormatContext} {sg : Int} {x : Res JStr} {pre : JStr} {e : Err}
    (h : formatUnsignedInteger ctx sg x pre = .error e) : x = .error e := by
  cases x with
  | error e' =>
    by_cases h0 : sg = 0 ∧ ctx.precision = 0
    · unfold formatUnsignedInteger at h
      rw [if_pos h0] at h
      exact absurd h (spaceJustify_total ctx Seq.empty_wf)
    · rw [unsigned_err rfl pre h0] at h
      cases h; rfl
  | ok ds =>
    obtain ⟨r, h1, _⟩ := unsigned_ok ctx sg (toStr := .ok ds) rfl pre
    rw [h] at h1; cases h1

theorem nonFinite_total (ctx : FormatContext) (v : FloatForm) {e : Err} : nanOrInfinity ctx v ≠ .error e := by
  obtain ⟨r, h1, _⟩ := nonFinite_ok ctx v
  rw [h1]; simp

/-- The precisions that the floating-point conversions ask for. -/
theorem precisions {ctx : FormatContext} (hr : Ready ctx) :
    (∃ p : Nat, p ≤ 65536 ∧ precision6 ctx = p) ∧ (∃ p : Nat, 1 ≤ p ∧ p ≤ 65536 ∧ gPrecision ctx = p) ∧
      ∃ p : Nat, 1 ≤ p ∧ aPrecision ctx = p := by
  have e1 : UNSET = -1 := rfl
  unfold precision6 gPrecision aPrecision FormatContext.isPrecisionSet
  rcases hr.prec with h | h
  · simp only [h, bne_self_eq_false, Bool.false_eq_true, if_false]
    exact ⟨⟨6, by omega, rfl⟩, ⟨6, by omega, by omega, rfl⟩, ⟨13, by omega, rfl⟩⟩
  · have hb : (ctx.precision != UNSET) = true := by
      rw [bne_iff_ne]; omega
    simp only [hb, if_true]
    refine ⟨⟨ctx.precision.toNat, by omega, by omega⟩, ?_, ?_⟩
    · by_cases h0 : ctx.precision = 0
      · exact ⟨1, by omega, by omega, by rw [if_pos h0]; rfl⟩
      · exact ⟨ctx.precision.toNat, by omega, by omega, by rw [if_neg h0]; omega⟩
    · by_cases h0 : ctx.precision = 0
      · exact ⟨1, by omega, by rw [if_pos h0]; rfl⟩
      · exact ⟨ctx.precision.toNat, by omega, by rw [if_neg h0]; omega⟩

section
variable {ctx : FormatContext} (hr : Ready ctx) {v : FloatForm} (hw : v.WF)
  (ht : (v.isNaN || v.isInfinite) = true ∨ v.Total) {e : Err}
include hr hw ht

theorem f_total : f ctx v ≠ .error e := by
  by_cases hn : (v.isNaN || v.isInfinite) = true
  · unfold f; rw [if_pos hn]; exact nonFinite_total ctx v
  · have ht := ht.resolve_left hn
    obtain ⟨p, hp, hp'⟩ := (precisions hr).1
    obtain ⟨l, hl⟩ := ht.dec p hp
    obtain ⟨r, h1, _⟩ := f_ok hr.precOK (by simpa using hn) (by rw [hp']; exact hl)
      (hw p l (by omega) (.inr (.inr (.inl hl)))).1
    rw [h1]; simp

theorem e_total : SeqFormatter.e ctx v ≠ .error e := by
  by_cases hn : (v.isNaN || v.isInfinite) = true
  · unfold SeqFormatter.e; rw [if_pos hn]; exact nonFinite_total ctx v
  · have ht := ht.resolve_left hn
    obtain ⟨p, hp, hp'⟩ := (precisions hr).1
    obtain ⟨m, ex, hl⟩ := ht.sci p hp
    have hlw := hw p _ (by omega) (.inr (.inl hl))
    obtain ⟨r, h1, _⟩ := e_ok hr.precOK (by simpa using hn) (by rw [hp']; exact hl) hlw.1 (hlw.2 ex rfl)
    rw [h1]; simp

theorem g_total : g ctx v ≠ .error e := by
  by_cases hn : (v.isNaN || v.isInfinite) = true
  · unfold g; rw [if_pos hn]; exact nonFinite_total ctx v
  · have ht := ht.resolve_left hn
    obtain ⟨p, hp1, hp, hp'⟩ := (precisions hr).2.1
    obtain ⟨l, hl⟩ := ht.gen p hp1 hp
    obtain ⟨r, n, h1, _⟩ := g_sane hr.precOK (by simpa using hn) (by rw [hp']; exact hl)
      (hw p l (by omega) (.inl hl))
    rw [h1]; simp

theorem a_quiet (h : a ctx v = .error e) : IsPrintf e := by
  by_cases hn : (v.isNaN || v.isInfinite) = true
  · unfold a at h; rw [if_pos hn] at h; exact absurd h (nonFinite_total ctx v)
  · have ht := ht.resolve_left hn
    obtain ⟨p, hp1, hp'⟩ := (precisions hr).2.2
    rcases ht.hex p hp1 with ⟨m, ex, hl⟩ | ⟨e', hl, he⟩
    · have hlw := hw p _ (by omega) (.inr (.inr (.inr hl)))
      obtain ⟨r, h1, _⟩ := a_ok hr.precOK (by simpa using hn) (by rw [hp']; exact hl) hlw.1 (hlw.2 ex rfl)
      rw [h1] at h; cases h
    · unfold a at h
      rw [if_neg hn, hp', hl] at h
      cases h; exact he

end

theorem upper_quiet {x : Res Seq} (hs : ∀ s, x = .ok s → s.Sane) {e : Err}
    (h : (x >>= fun s => s.upperCase) = .error e) : x = .error e := by
  cases x with
  | error e' => exact h
  | ok s =>
    obtain ⟨u, h1, _⟩ := Seq.upperCase_sane (hs s rfl)
    rw [bind_ok, h1] at h; cases h

theorem p_quiet {ctx : FormatContext} {v : Traits} {e : Err} (h : p ctx v = .error e) : IsPrintf e := by
  by_cases hv : v.ref = .primitive
  · unfold p at h; rw [hv] at h; cases h; exact ⟨_, rfl⟩
  · obtain ⟨r, h1, _⟩ := p_ok ctx hv
    rw [h] at h1; cases h1

theorem bestDefault_quiet {k : TemporalKind} {e : Err} (h : bestDefaultFormatter k = .error e) : IsPrintf e := by
  cases k <;> cases h <;> exact ⟨_, rfl⟩

theorem t_quiet {env : DateEnv} {ctx : FormatContext} {v : Traits} {e : Err} (h : t env ctx v = .error e) :
    IsPrintf e ∨ v.asTemporal = .error e ∨ ∃ fmt ta, env.format fmt ta = .error e := by
  rw [t_eq] at h
  rcases bind_eq_error.1 h with h | ⟨x, _, h⟩
  · unfold SeqFormatter.dateText at h
    rcases bind_eq_error.1 h with h | ⟨ta, _, h⟩
    · exact .inr (.inl h)
    · rcases bind_eq_error.1 h with h | ⟨⟨fmt, ta'⟩, _, h⟩
      · left
        unfold chooseFormatter at h
        split at h
        · cases h
        · split_ifs at h
          rcases bind_eq_error.1 h with h | ⟨_, _, h⟩
          · exact bestDefault_quiet h
          · cases h
      · exact .inr (.inr ⟨fmt, ta', h⟩)
  · exact absurd h (spaceJustify_total ctx (Seq.wrap_wf _))

/-- The ways in which a conversion of a quiet argument fails. -/
theorem formatterFor_quiet {env : DateEnv} {sp : Specifier} {ctx : FormatContext} {v : Traits}
    (hr : Ready ctx) (hv : v.Quiet) {e : Err} (h : formatterFor env sp ctx v = .error e) :
    IsPrintf e ∨ ((sp = .t ∨ sp = .upperT) ∧
      (v.asTemporal = .error e ∨ ∃ fmt ta, env.format fmt ta = .error e)) := by
  have hp := hr.precOK
  have intC : ∀ {k : IntForm → Res Seq} {e}, (∀ i e, v.asIntForm = .ok i → k i = .error e → IsPrintf e) →
      (v.asIntForm >>= k) = .error e → IsPrintf e := by
    intro k e hk h
    rcases bind_eq_error.1 h with h | ⟨i, hi, h⟩
    · exact hv.int e h
    · exact hk i e hi h
  have floatC : ∀ {k : FloatForm → Res Seq} {e}, (∀ f e, v.asFloatForm = .ok f → k f = .error e → IsPrintf e) →
      (v.asFloatForm >>= k) = .error e → IsPrintf e := by
    intro k e hk h
    rcases bind_eq_error.1 h with h | ⟨i, hi, h⟩
    · exact hv.float e h
    · exact hk i e hi h
  have up : ∀ {sp' : Specifier}, formatterFor env sp ctx v = (formatterFor env sp' ctx v >>= fun s => s.upperCase) →
      formatterFor env sp' ctx v = .error e := by
    intro sp' hsp
    rw [hsp] at h
    exact upper_quiet (fun s hs => formatterFor_sane hp hv.wf hs) h
  have hd : ∀ e, formatterFor env .d ctx v = .error e → IsPrintf e := fun e h => intC (fun i e hi h =>
    hv.ints i e hi (.inl (d_quiet hp (fun ds hds => hv.digits i hi ds (.inl hds)) h))) h
  have hx : ∀ e, formatterFor env .x ctx v = .error e → IsPrintf e := fun e h => intC (fun i e hi h =>
    hv.ints i e hi (.inr (.inl (unsigned_quiet h)))) h
  have hf : ∀ e, formatterFor env .f ctx v = .error e → IsPrintf e := fun e h => floatC (fun i e hi h =>
    absurd h (f_total hr (hv.wf.float i hi) (hv.floats i hi))) h
  have he : ∀ e, formatterFor env .e ctx v = .error e → IsPrintf e := fun e h => floatC (fun i e hi h =>
    absurd h (e_total hr (hv.wf.float i hi) (hv.floats i hi))) h
  have hg : ∀ e, formatterFor env .g ctx v = .error e → IsPrintf e := fun e h => floatC (fun i e hi h =>
    absurd h (g_total hr (hv.wf.float i hi) (hv.floats i hi))) h
  have ha : ∀ e, formatterFor env .a ctx v = .error e → IsPrintf e := fun e h => floatC (fun i e hi h =>
    a_quiet hr (hv.wf.float i hi) (hv.floats i hi) h) h
  have hs : ∀ e, formatterFor env .s ctx v = .error e → IsPrintf e := by
    intro e h
    cases hq : v.asSeq with
    | error e' =>
      simp only [formatterFor, SeqFormatter.s, hq, bind_error] at h
      cases h; exact hv.seq _ hq
    | ok q =>
      obtain ⟨r, _, h1, _⟩ := s_sane hp hq (hv.wf.seq q hq)
      simp only [formatterFor] at h
      rw [h] at h1; cases h1
  have assoc : ∀ {α : Type} (x : Res α) (k : α → Res Seq),
      (x >>= fun a => k a >>= fun s => s.upperCase) = ((x >>= k) >>= fun s => s.upperCase) := by
    intro α x k; cases x <;> rfl
  cases sp with
  | d => exact .inl (hd e h)
  | u => exact .inl (intC (fun i e hi h => hv.ints i e hi (.inr (.inr (.inr (unsigned_quiet h))))) h)
  | o => exact .inl (intC (fun i e hi h => hv.ints i e hi (.inr (.inr (.inl (unsigned_quiet h))))) h)
  | x => exact .inl (hx e h)
  | upperX => exact .inl (hx e (up (assoc _ _)))
  | f => exact .inl (hf e h)
  | upperF => exact .inl (hf e (up (assoc _ _)))
  | e => exact .inl (he e h)
  | upperE => exact .inl (he e (up (assoc _ _)))
  | g => exact .inl (hg e h)
  | upperG => exact .inl (hg e (up (assoc _ _)))
  | a => exact .inl (ha e h)
  | upperA => exact .inl (ha e (up (assoc _ _)))
  | s => exact .inl (hs e h)
  | upperS => exact .inl (hs e (up (sp' := .s) rfl))
  | t => exact (t_quiet h).imp_right fun h => ⟨.inl rfl, h⟩
  | upperT => exact (t_quiet (up (sp' := .t) rfl)).imp_right fun h => ⟨.inr rfl, h⟩
  | c =>
    left
    simp only [formatterFor, SeqFormatter.c] at h
    rcases bind_eq_error.1 h with h | ⟨x, _, h⟩
    · exact hv.char e h
    · exact absurd h (spaceJustify_total ctx (Seq.ch_wf _))
  | p => exact .inl (p_quiet h)
  | percent => cases h
  | n => cases h

/-! ### Whole runs -/

theorem checkValue_quiet {name : NumName} {v : Int} {e : Err} (h : FormatContext.checkValue name v = .error e) : IsPrintf e := by
  unfold FormatContext.checkValue at h
  split_ifs at h
  all_goals cases h; exact ⟨_, rfl⟩

theorem setWidth_quiet {ctx : FormatContext} {w : Int} {e : Err} (h : ctx.setWidth w = .error e) :
    IsPrintf e := by
  unfold FormatContext.setWidth at h
  rcases bind_eq_error.1 h with h | ⟨_, _, h⟩
  · exact checkValue_quiet h
  · cases h

theorem setPrecision_quiet {ctx : FormatContext} {w : Int} {e : Err} (h : ctx.setPrecision w = .error e) :
    IsPrintf e := by
  unfold FormatContext.setPrecision at h
  rcases bind_eq_error.1 h with h | ⟨_, _, h⟩
  · exact checkValue_quiet h
  · cases h

theorem nextInt_quiet {args : List Traits} (hv : ∀ v ∈ args, v.Quiet) :
    (∀ e, nextInt sp args = .error e → IsPrintf e) ∧
    ∀ i rest, nextInt sp args = .ok (i, rest) → ∀ v ∈ rest, v ∈ args := by
  cases args with
  | nil => exact ⟨by rintro e ⟨⟩; exact ⟨_, rfl⟩, by rintro i rest ⟨⟩⟩
  | cons a args =>
    simp only [nextInt]
    cases ha : a.asInt with
    | error e' => exact ⟨by rintro e ⟨⟩; exact (hv a (by simp)).number _ ha, by rintro i rest ⟨⟩⟩
    | ok i => exact ⟨by rintro e ⟨⟩, by rintro i rest ⟨⟩ v hm; exact List.mem_cons_of_mem _ hm⟩

theorem starWidth_quiet (ctx : FormatContext) {args : List Traits} (hv : ∀ v ∈ args, v.Quiet) :
    (∀ e, starWidth sp ctx args = .error e → IsPrintf e) ∧
    ∀ c rest, starWidth sp ctx args = .ok (c, rest) → ∀ v ∈ rest, v ∈ args := by
  obtain ⟨n1, n2⟩ := nextInt_quiet hv
  unfold starWidth
  by_cases hp : ctx.isPrecedingWidth = true
  · rw [if_pos hp]
    constructor
    · intro e h
      rcases bind_eq_error.1 h with h | ⟨⟨w, r⟩, _, h⟩
      · exact n1 e h
      · simp only at h
        split_ifs at h
        all_goals
          rcases bind_eq_error.1 h with h | ⟨_, _, h⟩
          · exact setWidth_quiet h
          · cases h
    · intro c rest h
      obtain ⟨⟨w, r⟩, h1, h⟩ := bind_eq_ok.1 h
      simp only at h
      split_ifs at h
      all_goals
        obtain ⟨c', _, h⟩ := bind_eq_ok.1 h
        cases h
        exact n2 _ _ h1
  · rw [if_neg hp]
    exact ⟨by rintro e ⟨⟩, by rintro c rest ⟨⟩ v hm; exact hm⟩

theorem starPrecision_quiet (ctx : FormatContext) {args : List Traits} (hv : ∀ v ∈ args, v.Quiet) :
    (∀ e, starPrecision sp ctx args = .error e → IsPrintf e) ∧
    ∀ c rest, starPrecision sp ctx args = .ok (c, rest) → ∀ v ∈ rest, v ∈ args := by
  obtain ⟨n1, n2⟩ := nextInt_quiet hv
  unfold starPrecision
  by_cases hp : ctx.isPrecedingPrecision = true
  · rw [if_pos hp]
    constructor
    · intro e h
      rcases bind_eq_error.1 h with h | ⟨⟨w, r⟩, _, h⟩
      · exact n1 e h
      · simp only at h
        rcases bind_eq_error.1 h with h | ⟨_, _, h⟩
        · exact setPrecision_quiet h
        · cases h
    · intro c rest h
      obtain ⟨⟨w, r⟩, h1, h⟩ := bind_eq_ok.1 h
      obtain ⟨c', _, h⟩ := bind_eq_ok.1 h
      cases h
      exact n2 _ _ h1
  · rw [if_neg hp]
    exact ⟨by rintro e ⟨⟩, by rintro c rest ⟨⟩ v hm; exact hm⟩

/-- Is it a piece compiled from `%t` or `%T`? -/
def Appender.IsDate : Appender → Prop
  | .dflt sp _ => sp = .t ∨ sp = .upperT
  | .fixed _ => False

theorem Appender.append_quiet {env : DateEnv} {a : Appender} (ha : a.Stored) {args : List Traits}
    (hv : ∀ v ∈ args, v.Quiet) :
    (∀ e, a.append env args = .error e → IsPrintf e ∨ (a.IsDate ∧
      ((∃ v ∈ args, v.asTemporal = .error e) ∨ ∃ fmt ta, env.format fmt ta = .error e))) ∧
    ∀ s rest, a.append env args = .ok (s, rest) → s.Sane ∧ ∀ v ∈ rest, v ∈ args := by
  cases a with
  | fixed t =>
    exact ⟨by rintro e ⟨⟩, by rintro s rest ⟨⟩; exact ⟨(Seq.wrap_wf t).sane, fun v hm => hm⟩⟩
  | dflt sp ctx =>
    obtain ⟨w1, w2⟩ := starWidth_quiet ctx hv
    simp only [Appender.append, append_eq]
    cases h1 : starWidth sp ctx args with
    | error e' => exact ⟨by rintro e ⟨⟩; exact .inl (w1 _ h1), by rintro s rest ⟨⟩⟩
    | ok r =>
      obtain ⟨c, r⟩ := r
      have hv1 := w2 _ _ h1
      obtain ⟨p1, p2⟩ := starPrecision_quiet c (fun v hm => hv v (hv1 v hm))
      simp only [bind_ok]
      cases h2 : starPrecision sp c r with
      | error e' => exact ⟨by rintro e ⟨⟩; exact .inl (p1 _ h2), by rintro s rest ⟨⟩⟩
      | ok r' =>
        obtain ⟨c', r'⟩ := r'
        have hv2 := p2 _ _ h2
        have hready := ready_of_stars ha.1 ha.2 h1 h2
        simp only [bind_ok]
        cases r' with
        | nil => exact ⟨by rintro e ⟨⟩; exact .inl ⟨_, rfl⟩, by rintro s rest ⟨⟩⟩
        | cons v r' =>
          simp only [valueStep]
          have hm := hv1 v (hv2 v (by simp))
          cases h3 : formatterFor env sp c' v with
          | error e' =>
            refine ⟨?_, by rintro s rest ⟨⟩⟩
            rintro e ⟨⟩
            refine (formatterFor_quiet hready (hv v hm) h3).imp_right ?_
            rintro ⟨g1, g2⟩
            exact ⟨g1, g2.imp_left fun g => ⟨v, hm, g⟩⟩
          | ok s =>
            refine ⟨by rintro e ⟨⟩, ?_⟩
            rintro s rest ⟨⟩
            exact ⟨formatterFor_sane hready.precOK (hv v hm).wf h3,
              fun x hx => hv1 x (hv2 x (List.mem_cons_of_mem _ hx))⟩

/-- The ways in which a run with quiet arguments fails. -/
theorem runSB_quiet {env : DateEnv} {apps : List Appender} (hs : ∀ a ∈ apps, a.Stored) {args : List Traits}
    (hv : ∀ v ∈ args, v.Quiet) {sb : JStr} {e : Err} (h : (runSB env apps args sb).result = .error e) :
    IsPrintf e ∨ ((∃ a ∈ apps, a.IsDate) ∧
      ((∃ v ∈ args, v.asTemporal = .error e) ∨ ∃ fmt ta, env.format fmt ta = .error e)) := by
  induction apps generalizing args sb with
  | nil => cases h
  | cons a apps ih =>
    obtain ⟨q1, q2⟩ := Appender.append_quiet (env := env) (hs a (by simp)) hv
    unfold runSB at h
    cases ha : a.append env args with
    | error e' =>
      rw [ha] at h
      cases h
      exact (q1 _ ha).imp_right fun g => ⟨⟨a, by simp, g.1⟩, g.2⟩
    | ok r =>
      obtain ⟨s, rest⟩ := r
      obtain ⟨s1, s2⟩ := q2 _ _ ha
      rw [ha] at h
      simp only [Seq.appendToSB_ok s1] at h
      refine (ih (fun a ha => hs a (List.mem_cons_of_mem _ ha)) (fun v hm => hv v (s2 v hm)) h).imp_right ?_
      rintro ⟨⟨b, hb, hd⟩, g⟩
      exact ⟨⟨b, List.mem_cons_of_mem _ hb, hd⟩, g.imp_left fun ⟨v, hm, g⟩ => ⟨v, s2 v hm, g⟩⟩

end FastPrintf
