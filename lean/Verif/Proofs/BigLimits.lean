/-
`BigDecimal` arguments when `BigInteger` has a largest number: how this differs from unbounded integers.
-/
import Verif.Spec.BigLimits
import Verif.Proofs.BigDecimalFormat
import Verif.Proofs.Questions

namespace FastPrintf
open Spec SeqFormatter DefaultAppender

namespace Limited
open BigDec BigDecimalWrapper

variable {lim : BigLimits}

theorem tenPow_ok {n : Nat} (h : 10 ^ n < lim.limit) : tenPow lim n = .ok (10 ^ n) := if_pos h

theorem tenPow_error {n : Nat} (h : lim.limit ≤ 10 ^ n) : tenPow lim n = .error .arithmetic :=
  if_neg (by omega)

theorem divHalfUp_ok {u n : Nat} (h : 10 ^ n < lim.limit) : divHalfUp lim u n = .ok (BigDec.divHalfUp u n) := by
  unfold divHalfUp
  rw [tenPow_ok h]
  rfl

theorem digits_pow_le {u n : Nat} (hd : Digits u n) {k : Nat} (hk : k < n) (hn : 1 < n ∨ 0 < k) :
    10 ^ k ≤ u := by
  rcases hd.lead with h | ⟨h, h'⟩
  · exact le_trans (Nat.pow_le_pow_right (by omega) (by omega)) h
  · omega

theorem roundTo_same {p : Nat} (hp : 1 ≤ p) (fuel : Nat) (v : BigDec) (hu : v.unscaled < lim.limit) :
    roundTo lim p fuel v = BigDec.roundTo p fuel v := by
  induction fuel generalizing v with
  | zero => rfl
  | succ fuel ih =>
    simp only [roundTo, BigDec.roundTo]
    split_ifs with h
    · have hd : Digits v.unscaled v.precision := Digits.toRadix v.unscaled
      have hle : 10 ^ (v.precision - p) ≤ v.unscaled := digits_pow_le hd (by omega) (by omega)
      cases checkScale (v.scale - ((v.precision - p : Nat) : Int)) with
      | error e => rfl
      | ok s =>
        simp only [bind_ok, divHalfUp_ok (lt_of_le_of_lt hle hu)]
        exact ih _ (lt_of_le_of_lt (divHalfUp_le _ (by omega)) hu)
    · rfl

theorem withMathContext_same (p : Int) (v : BigDec) (hu : v.unscaled < lim.limit) :
    withMathContext lim p v = BigDec.withMathContext p v := by
  unfold withMathContext BigDec.withMathContext
  split_ifs
  · rfl
  · rfl
  · exact roundTo_same (by omega) 2 v hu

theorem scientificLayout_same (p : Int) (v : BigDec) (hu : v.unscaled < lim.limit) :
    scientificLayout lim v p = BigDecimalWrapper.scientificLayout v p := by
  unfold scientificLayout BigDecimalWrapper.scientificLayout
  simp only [withMathContext_same _ _ hu]

theorem decimalLayout_same {v : BigDec} (hu : v.unscaled < lim.limit) {p : Int}
    (h : ¬ (v.scale > p ∧ (v.precision : Int) ≤ v.scale ∧ lim.limit ≤ 10 ^ (v.scale - p).toNat)) :
    decimalLayout lim v p = BigDecimalWrapper.decimalLayout v p := by
  unfold decimalLayout BigDecimalWrapper.decimalLayout
  by_cases h1 : v.scale > p
  · rw [if_pos h1, if_pos h1]
    by_cases h2 : (v.precision : Int) ≤ v.scale
    · rw [if_pos h2, if_pos h2]
      have h3 : 10 ^ (v.scale - p).toNat < lim.limit := by
        by_contra hc
        exact h ⟨h1, h2, by omega⟩
      unfold setScaleDown BigDec.setScaleDown
      rw [divHalfUp_ok h3]
      rfl
    · rw [if_neg h2, if_neg h2, withMathContext_same _ _ hu]
  · rw [if_neg h1, if_neg h1]

theorem decimalLayout_fails {v : BigDec} {p : Int} (h1 : v.scale > p) (h2 : (v.precision : Int) ≤ v.scale)
    (h3 : lim.limit ≤ 10 ^ (v.scale - p).toNat) : decimalLayout lim v p = .error .arithmetic := by
  unfold decimalLayout
  rw [if_pos h1, if_pos h2]
  unfold setScaleDown divHalfUp
  rw [tenPow_error h3]
  rfl

/-- A number of at least `10^-4` has at most three zeros between the point and its first digit. -/
theorem scale_le_of_ge {u n : Nat} (hd : Digits u n) {σ : Int} (h : geTenPow ⟨u, σ⟩ (-4) = true) :
    σ ≤ n + 3 := by
  unfold geTenPow at h
  by_contra hc
  rw [if_pos (show (-4 : Int) + σ ≥ 0 by omega)] at h
  simp only [decide_eq_true_eq] at h
  have h1 : u < 10 ^ n := hd.lt
  have h2 : 10 ^ n ≤ 10 ^ (-4 + σ).toNat := Nat.pow_le_pow_right (by omega) (by omega)
  omega

/-- A number below `10^p` has at most `p` digits before the point. -/
theorem scale_ge_of_lt {u n : Nat} (hd : Digits u n) {σ p : Int} (hu : 0 < u) (h : ¬ geTenPow ⟨u, σ⟩ p = true) :
    n - σ ≤ p := by
  unfold geTenPow at h
  by_contra hc
  by_cases h0 : p + σ ≥ 0
  · rw [if_pos h0] at h
    simp only [decide_eq_true_eq] at h
    have h1 : 10 ^ (n - 1) ≤ u := by
      rcases hd.lead with h | h
      · exact h
      · omega
    have h2 : 10 ^ (p + σ).toNat ≤ 10 ^ (n - 1) := Nat.pow_le_pow_right (by omega) (by omega)
    omega
  · rw [if_neg h0] at h
    simp only [decide_eq_true_eq] at h
    omega

theorem geTenPow_pos {u : Nat} {σ k : Int} (h : geTenPow ⟨u, σ⟩ k = true) : 0 < u := by
  unfold geTenPow at h
  split_ifs at h
  · simp only [decide_eq_true_eq] at h
    exact lt_of_lt_of_le (by positivity) h
  · simp only [decide_eq_true_eq] at h
    omega

theorem wrap32_neg_add (a b : Int) : wrap32 (wrap32 (-a) + b) = wrap32 (b - a) := by
  unfold wrap32
  rw [Int.bmod_add_bmod, show -a + b = b - a by ring]

theorem generalLayout_same {v : BigDec} (hu : v.unscaled < lim.limit) {p : Int} (hp : 1 ≤ p) (hp' : p ≤ 65536) :
    generalLayout lim v p = BigDecimalWrapper.generalLayout v p := by
  unfold generalLayout BigDecimalWrapper.generalLayout
  obtain ⟨u, σ⟩ := v
  split_ifs with h
  · refine decimalLayout_same hu ?_
    have hd : Digits u (precision ⟨u, σ⟩) := Digits.toRadix u
    have hn : (digits ⟨u, σ⟩).length = precision ⟨u, σ⟩ := rfl
    rintro ⟨h1, h2, h3⟩
    rw [hn, wrap32_neg_add] at h1 h3
    generalize precision ⟨u, σ⟩ = n at *
    dsimp only at h h1 h2 h3
    rcases h with ⟨h4, h5⟩ | ⟨h4, h5⟩
    · subst h4 h5
      have := hd.pos
      rcases hd.lead with h | h
      · have : 0 < 10 ^ (n - 1) := by positivity
        omega
      · omega
    · have a1 := scale_le_of_ge hd h4
      have a2 := scale_ge_of_lt hd (geTenPow_pos h4) h5
      have e : wrap32 (p - wrap32 ((n : Int) - 1 - σ) - 1) = p - n + σ := by
        rw [wrap32_id (x := (n : Int) - 1 - σ) (by omega) (by omega), wrap32_id (by omega) (by omega)]
        omega
      rw [e] at h1 h3
      have hk : 10 ^ (σ - (p - n + σ)).toNat ≤ u := digits_pow_le hd (by omega) (by omega)
      have hu' : u < lim.limit := hu
      omega
  · exact scientificLayout_same _ _ hu

/-! ### The forms under the conversions -/

theorem f_same {ctx : FormatContext} {u σ : Int}
    (h : decimalLayout lim ⟨u.natAbs, σ⟩ (precision6 ctx) =
      BigDecimalWrapper.decimalLayout ⟨u.natAbs, σ⟩ (precision6 ctx)) :
    SeqFormatter.f ctx (floatForm lim u σ) = SeqFormatter.f ctx (FloatForm.ofBigDecimal u σ) := by
  unfold SeqFormatter.f
  simp only [floatForm, FloatForm.ofBigDecimal, Bool.or_self, Bool.false_eq_true, if_false, h]
  rfl

theorem f_fails {ctx : FormatContext} {u σ : Int}
    (h : decimalLayout lim ⟨u.natAbs, σ⟩ (precision6 ctx) = .error .arithmetic) :
    SeqFormatter.f ctx (floatForm lim u σ) = .error .arithmetic := by
  unfold SeqFormatter.f
  simp only [floatForm, Bool.or_self, Bool.false_eq_true, if_false, h]
  rfl

theorem e_same {ctx : FormatContext} {u σ : Int} (hu : u.natAbs < lim.limit) :
    SeqFormatter.e ctx (floatForm lim u σ) = SeqFormatter.e ctx (FloatForm.ofBigDecimal u σ) := by
  unfold SeqFormatter.e
  simp only [floatForm, FloatForm.ofBigDecimal, Bool.or_self, Bool.false_eq_true, if_false,
    scientificLayout_same _ ⟨u.natAbs, σ⟩ hu]
  rfl

theorem gPrecision_range {ctx : FormatContext} (hr : Ready ctx) : 1 ≤ gPrecision ctx ∧ gPrecision ctx ≤ 65536 := by
  have e : UNSET = -1 := rfl
  unfold gPrecision FormatContext.isPrecisionSet
  rcases hr.prec with h | h
  · rw [h]; exact ⟨by decide, by decide⟩
  · have : (ctx.precision != UNSET) = true := by simp [bne_iff_ne]; omega
    rw [if_pos this]
    split_ifs <;> omega

theorem precision6_nonneg {ctx : FormatContext} (hr : Ready ctx) : 0 ≤ precision6 ctx := by
  have e : UNSET = -1 := rfl
  unfold precision6 FormatContext.isPrecisionSet
  rcases hr.prec with h | h
  · rw [h]; decide
  · split_ifs <;> omega

theorem g_same {ctx : FormatContext} (hr : Ready ctx) {u σ : Int} (hu : u.natAbs < lim.limit) :
    SeqFormatter.g ctx (floatForm lim u σ) = SeqFormatter.g ctx (FloatForm.ofBigDecimal u σ) := by
  unfold SeqFormatter.g
  simp only [floatForm, FloatForm.ofBigDecimal, Bool.or_self, Bool.false_eq_true, if_false,
    generalLayout_same (v := ⟨u.natAbs, σ⟩) hu (gPrecision_range hr).1 (gPrecision_range hr).2]
  rfl

theorem a_same {ctx : FormatContext} {u σ : Int} :
    SeqFormatter.a ctx (floatForm lim u σ) = SeqFormatter.a ctx (FloatForm.ofBigDecimal u σ) := by
  unfold SeqFormatter.a
  simp only [floatForm, FloatForm.ofBigDecimal, Bool.or_self, Bool.false_eq_true, if_false]
  rfl

/-! ### The integer part -/

theorem truncate_ok {u σ : Int} (h : ¬ NoInteger lim.limit u σ) (hσ : -2147483648 ≤ σ) :
    truncate lim u σ = .ok (bigDecimalTruncate u σ) := by
  unfold NoInteger at h
  have e : intMax = 2147483647 := rfl
  unfold truncate bigDecimalTruncate
  by_cases h1 : σ > 0
  · rw [if_pos h1, if_neg (by omega), tenPow_ok]
    · show Except.ok _ = _
      push_cast
      rfl
    · by_contra hc
      exact h (.inl ⟨h1, by omega⟩)
  · rw [if_neg h1, if_pos (show σ ≤ 0 by omega)]
    by_cases h2 : u = 0
    · rw [if_pos h2, h2, zero_mul]
    · have h3 : σ ≠ -2147483648 := fun h' => h (.inr ⟨by omega, h2, .inl h'⟩)
      rw [if_neg h2, if_neg (by omega), if_pos]
      by_contra hc
      exact h (.inr ⟨by omega, h2, .inr (by omega)⟩)

theorem truncate_fails {u σ : Int} (h : NoInteger lim.limit u σ) :
    truncate lim u σ = .error .arithmetic := by
  have e : intMax = 2147483647 := rfl
  unfold truncate
  rcases h with ⟨h1, h2⟩ | ⟨h1, h2, h3⟩
  · rw [if_pos h1, tenPow_error h2]
    rfl
  · rw [if_neg (by omega), if_neg h2]
    rcases h3 with h3 | h3
    · rw [if_pos (by omega)]
    · split_ifs <;> first | rfl | omega

theorem intValue_ok {u σ : Int} (h : ¬ NoInteger lim.limit u σ) (hσ : -2147483648 ≤ σ) :
    intValue lim u σ = .ok (wrap32 (bigDecimalTruncate u σ)) := by
  unfold intValue
  rw [truncate_ok h hσ]
  split_ifs <;> rfl

end Limited

/-! ### Arguments that every conversion sees alike -/

/-- Two arguments are formatted alike by every directive that is ready to run, and count alike for a `*`. -/
def AlikeWhenReady (env : DateEnv) (t t' : Traits) : Prop :=
  t.asInt = t'.asInt ∧ ∀ sp ctx, Ready ctx → formatterFor env sp ctx t = formatterFor env sp ctx t'

inductive AllAlike (env : DateEnv) : List Traits → List Traits → Prop
  | nil : AllAlike env [] []
  | cons {t t' : Traits} {as bs : List Traits} (h : AlikeWhenReady env t t') (rest : AllAlike env as bs) :
      AllAlike env (t :: as) (t' :: bs)

/-- The same outcome, but for the arguments left, which are formatted alike. -/
def ReadyStep (env : DateEnv) {α : Type} (x y : Res (α × List Traits)) : Prop :=
  (∃ e, x = .error e ∧ y = .error e) ∨
    ∃ a as bs, x = .ok (a, as) ∧ y = .ok (a, bs) ∧ AllAlike env as bs

theorem ReadyStep.bind {env : DateEnv} {α β : Type} {x y : Res (α × List Traits)}
    {f g : α × List Traits → Res (β × List Traits)} (h : ReadyStep env x y)
    (hf : ∀ a as bs, x = .ok (a, as) → AllAlike env as bs → ReadyStep env (f (a, as)) (g (a, bs))) :
    ReadyStep env (x >>= f) (y >>= g) := by
  rcases h with ⟨e, h1, h2⟩ | ⟨a, as, bs, h1, h2, h3⟩
  · rw [h1, h2]; exact .inl ⟨e, rfl, rfl⟩
  · have := hf a as bs h1 h3
    rw [h1, h2]; exact this

theorem nextInt_ready {env : DateEnv} {sp : Specifier} {as bs : List Traits} (h : AllAlike env as bs) :
    ReadyStep env (nextInt sp as) (nextInt sp bs) := by
  cases h with
  | nil => exact .inl ⟨_, rfl, rfl⟩
  | @cons t t' as bs h rest =>
    simp only [nextInt, h.1]
    cases t'.asInt with
    | error e => exact .inl ⟨e, rfl, rfl⟩
    | ok n => exact .inr ⟨n, as, bs, rfl, rfl, rest⟩

theorem starWidth_readyStep {env : DateEnv} {sp : Specifier} {ctx : FormatContext} {as bs : List Traits}
    (h : AllAlike env as bs) : ReadyStep env (starWidth sp ctx as) (starWidth sp ctx bs) := by
  unfold starWidth
  split_ifs
  · refine (nextInt_ready h).bind fun w as bs _ h => ?_
    dsimp only
    split_ifs
    · cases ctx.setWidth w with
      | error e => exact .inl ⟨e, rfl, rfl⟩
      | ok c => exact .inr ⟨c, as, bs, rfl, rfl, h⟩
    · cases (ctx.addFlag .leftJustify).setWidth (wrap32 (-w)) with
      | error e => exact .inl ⟨e, rfl, rfl⟩
      | ok c => exact .inr ⟨c, as, bs, rfl, rfl, h⟩
  · exact .inr ⟨ctx, as, bs, rfl, rfl, h⟩

theorem starPrecision_readyStep {env : DateEnv} {sp : Specifier} {ctx : FormatContext} {as bs : List Traits}
    (h : AllAlike env as bs) : ReadyStep env (starPrecision sp ctx as) (starPrecision sp ctx bs) := by
  unfold starPrecision
  split_ifs
  · refine (nextInt_ready h).bind fun w as bs _ h => ?_
    dsimp only
    cases ctx.setPrecision (if w ≥ 0 then w else UNSET) with
    | error e => exact .inl ⟨e, rfl, rfl⟩
    | ok c => exact .inr ⟨c, as, bs, rfl, rfl, h⟩
  · exact .inr ⟨ctx, as, bs, rfl, rfl, h⟩

theorem Appender.append_ready {env : DateEnv} {a : Appender} (ha : a.Stored) {as bs : List Traits}
    (h : AllAlike env as bs) : ReadyStep env (a.append env as) (a.append env bs) := by
  cases a with
  | fixed t => exact .inr ⟨_, as, bs, rfl, rfl, h⟩
  | dflt sp ctx =>
    simp only [Appender.append, append_eq]
    refine (starWidth_readyStep h).bind fun c as bs hc h => ?_
    refine (starPrecision_readyStep h).bind fun c' as bs hc' h => ?_
    have hr : Ready c' := ready_of_stars ha.1 ha.2 hc hc'
    cases h with
    | nil => exact .inl ⟨_, rfl, rfl⟩
    | @cons t t' as bs h rest =>
      simp only [valueStep, h.2 sp c' hr]
      cases formatterFor env sp c' t' with
      | error e => exact .inl ⟨e, rfl, rfl⟩
      | ok s => exact .inr ⟨s, as, bs, rfl, rfl, rest⟩

theorem runSB_ready {env : DateEnv} {apps : List Appender} (hs : ∀ a ∈ apps, a.Stored) {as bs : List Traits}
    (sb : JStr) (h : AllAlike env as bs) :
    (runSB env apps as sb).target = (runSB env apps bs sb).target ∧
      ((runSB env apps as sb).result.map fun _ => ()) = (runSB env apps bs sb).result.map fun _ => () := by
  induction apps generalizing as bs sb with
  | nil => exact ⟨rfl, rfl⟩
  | cons a apps ih =>
    simp only [runSB]
    rcases a.append_ready (env := env) (hs a (by simp)) h with ⟨e, h1, h2⟩ | ⟨q, as', bs', h1, h2, h3⟩
    · rw [h1, h2]; exact ⟨rfl, rfl⟩
    · rw [h1, h2]
      dsimp only
      cases q.appendToSB sb with
      | error e => exact ⟨rfl, rfl⟩
      | ok sb => exact ih (fun a ha => hs a (by simp [ha])) sb h3

theorem runSink_ready {env : DateEnv} {σ : Type} (k : Sink σ) {apps : List Appender}
    (hs : ∀ a ∈ apps, a.Stored) {as bs : List Traits} (st : σ) (h : AllAlike env as bs) :
    (runSink env k apps as st).target = (runSink env k apps bs st).target ∧
      ((runSink env k apps as st).result.map fun _ => ()) =
        (runSink env k apps bs st).result.map fun _ => () := by
  induction apps generalizing as bs st with
  | nil => exact ⟨rfl, rfl⟩
  | cons a apps ih =>
    simp only [runSink]
    rcases a.append_ready (env := env) (hs a (by simp)) h with ⟨e, h1, h2⟩ | ⟨q, as', bs', h1, h2, h3⟩
    · rw [h1, h2]; exact ⟨rfl, rfl⟩
    · rw [h1, h2]
      dsimp only
      cases q.appendToCalls with
      | error e => exact ⟨rfl, rfl⟩
      | ok calls =>
        dsimp only
        generalize k.feed st calls = r
        obtain ⟨st', b⟩ := r
        cases b with
        | true => exact ih (fun a ha => hs a (by simp [ha])) st' h3
        | false => exact ⟨rfl, rfl⟩

theorem printf_ready {dates : DateSyntax} {env : DateEnv} {f : JStr} {as bs : List Traits}
    (h : AllAlike env as bs) : printf dates env f as = printf dates env f bs := by
  unfold printf
  cases hc : Compiler.compile dates f with
  | error e => rfl
  | ok apps =>
    obtain ⟨ps, hr, rfl⟩ := (compile_iff dates f _).1 hc
    have hs : ∀ a ∈ ps.map Piece.compiled, a.Stored := by
      intro a ha
      obtain ⟨p, hp, rfl⟩ := List.mem_map.1 ha
      exact Piece.compiled_stored (hr.ok p hp)
    obtain ⟨h1, h2⟩ := runSB_ready hs [] h
    rw [bind_ok, bind_ok, formatWith_eq, formatWith_eq, h1]
    revert h2
    cases (runSB env (ps.map Piece.compiled) as []).result <;>
      cases (runSB env (ps.map Piece.compiled) bs []).result <;> simp [Except.map]

namespace Limited

variable {lim : BigLimits}

/-- A `BigDecimal` within reach is seen alike by every directive. -/
theorem alike {env : DateEnv} {jdk : JdkEnv} {e : Entry} (h : InReach lim.limit e) :
    AlikeWhenReady env (toTraits lim jdk e) (e.toTraits jdk) := by
  match e, h with
  | .ref (.bigDecimal u σ id), h =>
    obtain ⟨⟨h1, h2, h3⟩, h4, h5⟩ := h
    refine ⟨intValue_ok h5 h2, fun sp ctx hr => ?_⟩
    have hf : SeqFormatter.f ctx (floatForm lim u σ) = SeqFormatter.f ctx (FloatForm.ofBigDecimal u σ) := by
      refine f_same (decimalLayout_same h1 ?_)
      rintro ⟨-, -, h⟩
      dsimp only at h
      have := precision6_nonneg hr
      have : 10 ^ (σ - precision6 ctx).toNat ≤ 10 ^ σ.toNat := Nat.pow_le_pow_right (by omega) (by omega)
      omega
    have e1 : (toTraits lim jdk (.ref (.bigDecimal u σ id))).asIntForm =
        (Entry.toTraits jdk (.ref (.bigDecimal u σ id))).asIntForm := by
      show (do return IntForm.ofBigInteger (← truncate lim u σ)) = _
      rw [truncate_ok h5 h2]
      rfl
    have e2 : (toTraits lim jdk (.ref (.bigDecimal u σ id))).asChar =
        (Entry.toTraits jdk (.ref (.bigDecimal u σ id))).asChar := by
      show (do return toChar (← intValue lim u σ)) = _
      rw [intValue_ok h5 h2]
      rfl
    have e3 : (toTraits lim jdk (.ref (.bigDecimal u σ id))).asFloatForm = .ok (floatForm lim u σ) := rfl
    have e4 : (Entry.toTraits jdk (.ref (.bigDecimal u σ id))).asFloatForm =
      .ok (FloatForm.ofBigDecimal u σ) := rfl
    cases sp <;> simp only [formatterFor, e1, e3, e4, SeqFormatter.c, e2, bind_ok, hf, e_same h1, g_same hr h1,
      a_same] <;> rfl
  | .ref (.bigInteger v id), h =>
    refine ⟨rfl, fun sp ctx hr => ?_⟩
    have hf : SeqFormatter.f ctx (floatForm lim v 0) = SeqFormatter.f ctx (FloatForm.ofBigDecimal v 0) := by
      refine f_same (decimalLayout_same (show v.natAbs < lim.limit from h) ?_)
      rintro ⟨h, -, -⟩
      dsimp only at h
      have := precision6_nonneg hr
      omega
    have e3 : (toTraits lim jdk (.ref (.bigInteger v id))).asFloatForm = .ok (floatForm lim v 0) := rfl
    have e4 : (Entry.toTraits jdk (.ref (.bigInteger v id))).asFloatForm = .ok (FloatForm.ofBigDecimal v 0) := rfl
    have h' : v.natAbs < lim.limit := h
    cases sp <;> simp only [formatterFor, e3, e4, bind_ok, hf, e_same h', g_same hr h', a_same] <;> rfl
  | .prim p, _ => exact ⟨rfl, fun _ _ _ => rfl⟩
  | .ref .null, _ => exact ⟨rfl, fun _ _ _ => rfl⟩
  | .ref (.boxed ..), _ => exact ⟨rfl, fun _ _ _ => rfl⟩
  | .ref (.string ..), _ => exact ⟨rfl, fun _ _ _ => rfl⟩
  | .ref (.seq ..), _ => exact ⟨rfl, fun _ _ _ => rfl⟩
  | .ref (.charSeq ..), _ => exact ⟨rfl, fun _ _ _ => rfl⟩
  | .ref (.temporal ..), _ => exact ⟨rfl, fun _ _ _ => rfl⟩
  | .ref (.traits ..), _ => exact ⟨rfl, fun _ _ _ => rfl⟩
  | .ref (.object ..), _ => exact ⟨rfl, fun _ _ _ => rfl⟩

theorem allAlike {env : DateEnv} {jdk : JdkEnv} {args : List Entry} (h : ∀ a ∈ args, InReach lim.limit a) :
    AllAlike env (args.map (toTraits lim jdk)) (args.map (Entry.toTraits jdk)) := by
  induction args with
  | nil => exact .nil
  | cons a args ih => exact .cons (alike (h a (by simp))) (ih fun b hb => h b (by simp [hb]))

end Limited
end FastPrintf
