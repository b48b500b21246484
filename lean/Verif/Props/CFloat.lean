/-
Property C78: `%f`, `%e` and `%g` of a `double` against C.
-/
import Verif.Props.Order
import Verif.Spec.CFloat
import Verif.Proofs.CFloat

namespace FastPrintf
open Spec DefaultAppender

/-! ### What C prints is defined and unique -/

theorem fixedText_exists (m p : Nat) (alt : Bool) : ∃ s, FixedText m p alt s := by
  have := BigDecimalWrapper.plainText_fixed (f := m) (e := -(p : Int)) (.inr (by omega)) (p := p) (by omega) alt
  rw [show (-(p : Int) + p).toNat = 0 by omega, pow_zero, mul_one] at this
  exact ⟨_, this⟩

theorem exponentText_exists (x : Int) : ∃ s, ExponentText x s := ⟨_, BigDecimalWrapper.exponentSeq_text x⟩

theorem minimalText_exists (m : Nat) (e : Int) : ∃ s, MinimalText ((m : ℚ) * 10 ^ e) s := by
  by_cases h : m = 0
  · subst h
    exact ⟨js! "0", js! "0", [], by decide, by unfold IsNumeral; decide, by unfold NoExtraZero; decide, by decide,
      by decide, by norm_num [valueIn, digitVal]⟩
  · exact ⟨_, BigDecimalWrapper.plainText_minimal h⟩

/-- **C78 (the reference).** C prints exactly one text for a finite `double` under `%f`, `%e` and `%g`. -/
theorem C78_reference (fl : Flags) (w p P : Nat) (hP : 1 ≤ P) (bits : BitVec 64) :
    (∃! out, CFixed fl w p bits out) ∧ (∃! out, CScientific fl w p bits out) ∧
      (∃! out, CGeneral fl w P bits out) := by
  have hx := magnitude_nonneg bits
  refine ⟨?_, ?_, ?_⟩
  · obtain ⟨m, hm⟩ := nearestEven_exists (show 0 ≤ magnitude bits * 10 ^ (p : Int) by positivity)
    obtain ⟨b, hb⟩ := fixedText_exists m p fl.alternate
    refine ⟨_, ⟨m, b, hm, hb, rfl⟩, ?_⟩
    rintro _ ⟨m', b', hm', hb', rfl⟩
    obtain rfl := hm.unique hm'
    rw [hb.unique hb']
  · have hex : ∃ m e, (magnitude bits = 0 ∧ m = 0 ∧ e = 0) ∨
        (magnitude bits ≠ 0 ∧ CSignificant (magnitude bits) (p + 1) m e) := by
      by_cases h0 : magnitude bits = 0
      · exact ⟨0, 0, .inl ⟨h0, rfl, rfl⟩⟩
      · obtain ⟨m, e, h⟩ := cSignificant_exists (lt_of_le_of_ne hx (Ne.symm h0)) (n := p + 1) (by omega)
        exact ⟨m, e, .inr ⟨h0, h⟩⟩
    obtain ⟨m, e, hme⟩ := hex
    obtain ⟨ms, hms⟩ := fixedText_exists m p fl.alternate
    obtain ⟨es, hes⟩ := exponentText_exists e
    refine ⟨_, ⟨_, ⟨m, e, ms, es, hme, hms, hes, rfl⟩, rfl⟩, ?_⟩
    rintro _ ⟨_, ⟨m', e', ms', es', hme', hms', hes', rfl⟩, rfl⟩
    have : m = m' ∧ e = e' := by
      rcases hme with ⟨h0, rfl, rfl⟩ | ⟨h0, h⟩ <;> rcases hme' with ⟨h0', rfl, rfl⟩ | ⟨h0', h'⟩
      · exact ⟨rfl, rfl⟩
      · exact absurd h0 h0'
      · exact absurd h0' h0
      · exact h.unique (by omega) h'
    obtain ⟨rfl, rfl⟩ := this
    rw [hms.unique hms', hes.unique hes']
  · have hex : ∃ m e, (magnitude bits = 0 ∧ m = 0 ∧ e = 0) ∨
        (magnitude bits ≠ 0 ∧ CSignificant (magnitude bits) P m e) := by
      by_cases h0 : magnitude bits = 0
      · exact ⟨0, 0, .inl ⟨h0, rfl, rfl⟩⟩
      · obtain ⟨m, e, h⟩ := cSignificant_exists (lt_of_le_of_ne hx (Ne.symm h0)) hP
        exact ⟨m, e, .inr ⟨h0, h⟩⟩
    obtain ⟨m, e, hme⟩ := hex
    have uniq : ∀ {m' : Nat} {e' : Int}, (magnitude bits = 0 ∧ m' = 0 ∧ e' = 0) ∨
        (magnitude bits ≠ 0 ∧ CSignificant (magnitude bits) P m' e') → m = m' ∧ e = e' := by
      intro m' e' hme'
      rcases hme with ⟨h0, rfl, rfl⟩ | ⟨h0, h⟩ <;> rcases hme' with ⟨h0', rfl, rfl⟩ | ⟨h0', h'⟩
      · exact ⟨rfl, rfl⟩
      · exact absurd h0 h0'
      · exact absurd h0' h0
      · exact h.unique hP h'
    by_cases hs : -4 ≤ e ∧ e < P
    · obtain ⟨k, hk⟩ := nearestEven_exists (show 0 ≤ magnitude bits * 10 ^ ((P : Int) - 1 - e) by positivity)
      obtain ⟨b, hb⟩ := minimalText_exists k (e - ((P : Int) - 1))
      refine ⟨_, ⟨m, e, b, hme, by rw [if_pos hs]; exact ⟨k, hk, hb⟩, rfl⟩, ?_⟩
      rintro _ ⟨m', e', b', hme', hb', rfl⟩
      obtain ⟨rfl, rfl⟩ := uniq hme'
      rw [if_pos hs] at hb'
      obtain ⟨k', hk', hb'⟩ := hb'
      obtain rfl := hk.unique hk'
      rw [hb.unique hb']
    · obtain ⟨ms, hms⟩ := minimalText_exists m (-((P : Int) - 1))
      obtain ⟨es, hes⟩ := exponentText_exists e
      refine ⟨_, ⟨m, e, _, hme, by rw [if_neg hs]; exact ⟨ms, es, hms, hes, rfl⟩, rfl⟩, ?_⟩
      rintro _ ⟨m', e', b', hme', hb', rfl⟩
      obtain ⟨rfl, rfl⟩ := uniq hme'
      rw [if_neg hs] at hb'
      obtain ⟨ms', es', hms', hes', rfl⟩ := hb'
      rw [hms.unique hms', hes.unique hes']

/-! ### Reading the reference -/

theorem cFixed_read {fl : Flags} {w p : Nat} {bits : BitVec 64} {m : Nat} {body : JStr}
    (hb : FixedText m p fl.alternate body) :
    (readNumber (Spec.field fl.leftJustify fl.zeroPad w (signText fl (negative bits)) body)).2 =
      m * 10 ^ (-(p : Int)) := by
  obtain ⟨ip, fp, hn, hl, hv⟩ := fixedText_written hb (tail := []) (.inl rfl)
  rw [List.append_nil] at hn
  rw [hn.read_field, hn.read, hv, hl]
  simp [readExponent]

theorem cScientific_read {fl : Flags} {w p : Nat} {bits : BitVec 64} {m : Nat} {e : Int} {ms es : JStr}
    (hb : FixedText m p fl.alternate ms) (he : ExponentText e es) :
    (readNumber (Spec.field fl.leftJustify fl.zeroPad w (signText fl (negative bits)) (ms ++ ch! 'e' :: es))).2 =
      m * 10 ^ (e - p) := by
  obtain ⟨hx1, hx2⟩ := exponent_read he
  obtain ⟨ip, fp, hn, hl, hv⟩ := fixedText_written hb (tail := ch! 'e' :: es) (.inr ⟨_, rfl, hx2⟩)
  rw [hn.read_field, hn.read, hv, hl]
  simp only [List.drop_succ_cons, List.drop_zero, hx1]

theorem minimal_read {fl : Flags} {left zero : Bool} {w : Nat} {neg : Bool} {v : ℚ} {body : JStr}
    (hb : MinimalText v body) :
    (readNumber (Spec.field left zero w (signText fl neg) body)).2 = v := by
  have h10 : (10 : ℚ) ≠ 0 := by norm_num
  obtain ⟨ip, fp, hn, hv⟩ := minimalText_written hb (tail := []) (.inl rfl)
  rw [List.append_nil] at hn
  rw [hn.read_field, hn.read, hv]
  simp only [List.drop_nil, readExponent]
  rw [mul_assoc, ← zpow_natCast (10 : ℚ) fp.length, ← zpow_add₀ h10]
  simp

theorem minimal_exponent_read {fl : Flags} {left zero : Bool} {w : Nat} {neg : Bool} {v : ℚ} {ms es : JStr} {e : Int}
    (hb : MinimalText v ms) (he : ExponentText e es) :
    (readNumber (Spec.field left zero w (signText fl neg) (ms ++ ch! 'e' :: es))).2 = v * 10 ^ e := by
  have h10 : (10 : ℚ) ≠ 0 := by norm_num
  obtain ⟨hx1, hx2⟩ := exponent_read he
  obtain ⟨ip, fp, hn, hv⟩ := minimalText_written hb (tail := ch! 'e' :: es) (.inr ⟨_, rfl, hx2⟩)
  rw [hn.read_field, hn.read, hv]
  simp only [List.drop_succ_cons, List.drop_zero, hx1]
  rw [mul_assoc, ← zpow_natCast (10 : ℚ) fp.length, ← zpow_add₀ h10]
  congr 2; ring

/-! ### The comparison -/

theorem not_deviates_zero (p : Int) : ¬ Deviates 0 0 p := by
  rintro (⟨k, h, hn⟩ | ⟨k, h, -⟩)
  · rw [zero_mul] at h hn
    have : k = 0 := by exact_mod_cast h.symm
    subst this
    exact hn (.inl (by norm_num))
  · have : (0 : ℚ) ≤ k := Nat.cast_nonneg k
    linarith

theorem decimal_deviates {bits : BitVec 64} {q : ℚ} (h : DecimalOf bits q) {p : Int} {m : Nat}
    (hm : NearestEven (magnitude bits * 10 ^ p) m) : halfUp q p = m ↔ ¬ Deviates (magnitude bits) q p := by
  rcases h with ⟨h0, rfl⟩ | ⟨h0, hq⟩
  · rw [h0] at hm ⊢
    rw [zero_mul] at hm
    have := hm.unique (show NearestEven 0 0 from .inl (by norm_num))
    subst this
    simp only [not_deviates_zero, not_false_iff, iff_true]
    exact halfUp_of_bounds (by norm_num) (by norm_num)
  · exact deviates_iff (lt_of_le_of_ne (magnitude_nonneg bits) (Ne.symm h0)) hq hm

/-- **C78 (`%f`).** The text printed for a finite `double` is the text C prints, unless rounding at the last
digit deviates: the decimal that stands for the number has no digit past it and is not what the number rounds
to, or it ends in a 5 just past it and the number does not round up. -/
theorem C78_f (dates : DateSyntax) (env : DateEnv) (jdk : JdkEnv) (d : Directive) (h : d.Ok dates)
    (hp : d.Plain) (hc : d.conv = ch! 'f') (bits : BitVec 64) (hf : finite bits) (e : Entry)
    (he : IsDouble e bits) (rest : List Traits) :
    ∃ s q, printf dates env d.text (e.toTraits jdk :: rest) = .ok s ∧ DecimalOf bits q ∧
      ∀ out, CFixed (flagSet d.flags) d.width.width (d.prec.precision.getD 6) bits out →
        (s = out ↔ ¬ Deviates (magnitude bits) q (d.prec.precision.getD 6 : Nat)) := by
  obtain ⟨q, body, h1, hq, hm⟩ := C23_f dates env jdk d h hp hc bits hf e he rest
  refine ⟨_, q, h1, hq, ?_⟩
  generalize d.prec.precision.getD 6 = p at *
  rintro _ ⟨m, b, hn, hb, rfl⟩
  rw [← decimal_deviates hq hn]
  unfold Directive.field
  constructor
  · intro heq
    have h3 := congrArg (fun s => (readNumber s).2) heq
    rw [cFixed_read hm, cFixed_read hb] at h3
    exact_mod_cast mul_right_cancel₀ (by positivity) h3
  · rintro rfl
    rw [hm.unique hb]

/-- **C78 (`%e`).** The same for `%e`, at the last of the digits counted from the first digit of the number. -/
theorem C78_e (dates : DateSyntax) (env : DateEnv) (jdk : JdkEnv) (d : Directive) (h : d.Ok dates)
    (hp : d.Plain) (hc : d.conv = ch! 'e') (bits : BitVec 64) (hf : finite bits) (e : Entry)
    (he : IsDouble e bits) (rest : List Traits) :
    ∃ s, printf dates env d.text (e.toTraits jdk :: rest) = .ok s ∧
      ∀ out, CScientific (flagSet d.flags) d.width.width (d.prec.precision.getD 6) bits out →
        ((magnitude bits = 0 ∧ s = out) ∨
          (magnitude bits ≠ 0 ∧ ∃ q, JavaDecimal bits q ∧ ∀ e0 : Int, 10 ^ e0 ≤ magnitude bits →
            magnitude bits < 10 ^ (e0 + 1) →
            (s = out ↔ ¬ Deviates (magnitude bits) q ((d.prec.precision.getD 6 : Nat) - e0)))) := by
  obtain ⟨m, ex, h1, h2⟩ := C24_e dates env jdk d h hp hc bits hf e he rest
  refine ⟨_, h1, ?_⟩
  generalize d.prec.precision.getD 6 = p at *
  rintro _ ⟨_, ⟨m', e', ms', es', hme', hms', hes', rfl⟩, rfl⟩
  rcases h2 with ⟨h0, hm, hex⟩ | ⟨q, M, x, h0, hq, hsig, hm, hex⟩
  · refine .inl ⟨h0, ?_⟩
    rcases hme' with ⟨-, rfl, rfl⟩ | ⟨hn, -⟩
    · have : ExponentText 0 ex := by
        rw [hex]
        exact ⟨js! "0", by unfold Shortest IsNumeral NoExtraZero; decide, by decide⟩
      rw [hm.unique hms', this.unique hes']; rfl
    · exact absurd h0 hn
  · refine .inr ⟨h0, q, hq, fun e0 l u => ?_⟩
    rcases hme' with ⟨hn, -⟩ | ⟨-, hsig'⟩
    · exact absurd hn h0
    have hx : 0 < magnitude bits := lt_of_le_of_ne (magnitude_nonneg bits) (Ne.symm h0)
    obtain ⟨k1, k2⟩ := significant_iff hx hq (by omega) hsig hsig' l u
    rw [show (p : Int) - e0 = ((p + 1 : Nat) : Int) - 1 - e0 by push_cast; ring, ← k1]
    unfold Directive.field
    constructor
    · intro heq
      have h3 := congrArg (fun s => (readNumber s).2) heq
      rw [cScientific_read hm hex, cScientific_read hms' hes'] at h3
      rw [show ((p + 1 : Nat) : Int) - 1 = p by push_cast; ring]
      exact h3
    · intro heq
      obtain ⟨rfl, rfl⟩ := k2 heq
      rw [hm.unique hms', hex.unique hes']

/-- **C78 (`%g`).** The same for `%g` without `#`; `P` is the precision, 6 if there is none, 1 if it is 0. -/
theorem C78_g (dates : DateSyntax) (env : DateEnv) (jdk : JdkEnv) (d : Directive) (h : d.Ok dates)
    (hp : d.Plain) (hc : d.conv = ch! 'g') (ha : (flagSet d.flags).alternate = false) (bits : BitVec 64)
    (hf : finite bits) (e : Entry) (he : IsDouble e bits) (rest : List Traits) :
    let P := max 1 (d.prec.precision.getD 6)
    ∃ s, printf dates env d.text (e.toTraits jdk :: rest) = .ok s ∧
      ∀ out, CGeneral (flagSet d.flags) d.width.width P bits out →
        ((magnitude bits = 0 ∧ s = out) ∨
          (magnitude bits ≠ 0 ∧ ∃ q, JavaDecimal bits q ∧ ∀ e0 : Int, 10 ^ e0 ≤ magnitude bits →
            magnitude bits < 10 ^ (e0 + 1) → (s = out ↔ ¬ Deviates (magnitude bits) q (P - 1 - e0)))) := by
  intro P
  have hP : 1 ≤ P := le_max_left _ _
  obtain ⟨body, h1, h2⟩ := C25_g dates env jdk d h hp hc bits hf e he rest
  refine ⟨_, h1, ?_⟩
  change (_ ∧ if _ then FixedText 0 (P - 1) true body else _) ∨ (∃ q M x, _ ∧ _ ∧ Significant q P M x ∧
    ∃ e n, _ ∧ _ ∧ GeneralText P n _ M x body) at h2
  clear_value P
  rw [ha] at h2
  rintro _ ⟨m', e', b', hme', hb', rfl⟩
  have h10 : (10 : ℚ) ≠ 0 := by norm_num
  rcases h2 with ⟨h0, hm⟩ | ⟨q, M, x, h0, hq, hsig, _, n, -, -, hm⟩
  · refine .inl ⟨h0, ?_⟩
    rcases hme' with ⟨-, rfl, rfl⟩ | ⟨hn, -⟩
    · rw [if_pos ⟨by omega, by omega⟩] at hb'
      obtain ⟨k, hk, hb'⟩ := hb'
      rw [h0, zero_mul] at hk
      obtain rfl := hk.unique (show NearestEven 0 0 from .inl (by norm_num))
      rw [Nat.cast_zero, zero_mul] at hb'
      have h00 : MinimalText 0 (js! "0") := ⟨js! "0", [], by decide, by unfold IsNumeral; decide,
        by unfold NoExtraZero; decide, by decide, by decide, by norm_num [valueIn, digitVal]⟩
      rw [hb'.unique h00]
      simp only [Bool.false_eq_true, if_false] at hm
      rw [hm]; rfl
    · exact absurd h0 hn
  · refine .inr ⟨h0, q, hq, fun e0 l u => ?_⟩
    rcases hme' with ⟨hn, -⟩ | ⟨-, hsig'⟩
    · exact absurd hn h0
    have hx : 0 < magnitude bits := lt_of_le_of_ne (magnitude_nonneg bits) (Ne.symm h0)
    obtain ⟨k1, k2⟩ := significant_iff hx hq hP hsig hsig' l u
    rw [← k1]
    unfold Directive.field
    -- what the two texts denote
    have r1 : (readNumber (Spec.field (flagSet d.flags).leftJustify (flagSet d.flags).zeroPad d.width.width
        (signText (flagSet d.flags) (negative bits)) body)).2 = M * 10 ^ (x - ((P : Int) - 1)) := by
      unfold GeneralText at hm
      by_cases hs : -4 ≤ x ∧ x < (P : Int)
      · rw [if_pos hs, if_neg (by simp)] at hm
        exact minimal_read hm
      · rw [if_neg hs] at hm
        obtain ⟨ms, xs, rfl, hxs, hm⟩ := hm
        rw [if_neg (by simp)] at hm
        rw [minimal_exponent_read hm hxs, mul_assoc, ← zpow_add₀ h10]
        congr 2; ring
    have r2 : (readNumber (Spec.field (flagSet d.flags).leftJustify (flagSet d.flags).zeroPad d.width.width
        (signText (flagSet d.flags) (negative bits)) b')).2 = m' * 10 ^ (e' - ((P : Int) - 1)) := by
      by_cases hs : -4 ≤ e' ∧ e' < (P : Int)
      · rw [if_pos hs] at hb'
        obtain ⟨k, hk, hb'⟩ := hb'
        obtain rfl := hk.unique (hsig'.again hP)
        exact minimal_read hb'
      · rw [if_neg hs] at hb'
        obtain ⟨ms, es, hms, hes, rfl⟩ := hb'
        rw [minimal_exponent_read hms hes, mul_assoc, ← zpow_add₀ h10]
        congr 2; ring
    constructor
    · intro heq
      have h3 := congrArg (fun s => (readNumber s).2) heq
      rwa [r1, r2] at h3
    · intro heq
      obtain ⟨rfl, rfl⟩ := k2 heq
      unfold GeneralText at hm
      by_cases hs : -4 ≤ x ∧ x < (P : Int)
      · rw [if_pos hs, if_neg (by simp)] at hm
        rw [if_pos hs] at hb'
        obtain ⟨k, hk, hb'⟩ := hb'
        obtain rfl := hk.unique (hsig'.again hP)
        rw [hm.unique hb']
      · rw [if_neg hs] at hm hb'
        obtain ⟨ms, xs, rfl, hxs, hm⟩ := hm
        rw [if_neg (by simp)] at hm
        obtain ⟨ms', es', hms', hes', rfl⟩ := hb'
        rw [hm.unique hms', hxs.unique hes']

/-! ### When the roundings deviate -/

/-- **C78 (few digits).** As long as a unit of the last digit is more than the distance between neighbouring
doubles, only a final 5 of the decimal can make a difference. -/
theorem C78_few {bits : BitVec 64} (hf : finite bits) {q : ℚ} (h : DecimalOf bits q) {p : Int}
    (hp : (2 : ℚ) ^ doubleQ bits * 10 ^ p < 1) :
    Deviates (magnitude bits) q p ↔
      ∃ k : Nat, q * 10 ^ p = k + 1 / 2 ∧ (magnitude bits < q ∨ (magnitude bits = q ∧ k % 2 = 0)) := by
  refine ⟨fun hd => ?_, .inr⟩
  rcases hd with ⟨k, hk, hn⟩ | hd
  · exfalso
    apply hn
    have h1 := C61_decimal hf h
    have hT : (0 : ℚ) < 10 ^ p := by positivity
    have h2 : |q * 10 ^ p - magnitude bits * 10 ^ p| < 1 / 2 := by
      rw [← sub_mul, abs_mul, abs_of_pos hT]
      calc |q - magnitude bits| * 10 ^ p ≤ 2 ^ doubleQ bits / 2 * 10 ^ p := mul_le_mul_of_nonneg_right h1 hT.le
        _ < 1 / 2 := by linarith
    rw [hk] at h2
    exact .inl h2
  · exact hd

/-- **C78 (fifteen digits).** That is so for a normal number of at most fifteen digits before the last place. -/
theorem C78_fifteen {bits : BitVec 64} (hc : 2 ^ 52 ≤ doubleC bits) {p : Int}
    (hp : magnitude bits * 10 ^ p < 10 ^ 15) : (2 : ℚ) ^ doubleQ bits * 10 ^ p < 1 := by
  have hT : (0 : ℚ) < 10 ^ p := by positivity
  have hc' : (2 : ℚ) ^ 52 ≤ doubleC bits := by exact_mod_cast hc
  have h1 : (2 : ℚ) ^ 52 * (2 ^ doubleQ bits * 10 ^ p) ≤ magnitude bits * 10 ^ p := by
    unfold magnitude
    rw [← mul_assoc]
    exact mul_le_mul_of_nonneg_right (mul_le_mul_of_nonneg_right hc' (by positivity)) hT.le
  have h2 : (2 : ℚ) ^ 52 * (2 ^ doubleQ bits * 10 ^ p) < 10 ^ 15 := lt_of_le_of_lt h1 hp
  norm_num at h2 ⊢
  linarith

/-- **C78 (one unit).** Then what is printed differs from what C prints by at most one in the last digit. -/
theorem C78_unit {bits : BitVec 64} (hf : finite bits) {q : ℚ} (h : DecimalOf bits q) {p : Int}
    (hp : (2 : ℚ) ^ doubleQ bits * 10 ^ p < 1) {m : Nat} (hm : NearestEven (magnitude bits * 10 ^ p) m) :
    halfUp q p ≤ m + 1 ∧ m ≤ halfUp q p + 1 := by
  have h1 := C61_decimal hf h
  have hT : (0 : ℚ) < 10 ^ p := by positivity
  have h2 : |q * 10 ^ p - magnitude bits * 10 ^ p| < 1 / 2 := by
    rw [← sub_mul, abs_mul, abs_of_pos hT]
    calc |q - magnitude bits| * 10 ^ p ≤ 2 ^ doubleQ bits / 2 * 10 ^ p := mul_le_mul_of_nonneg_right h1 hT.le
      _ < 1 / 2 := by linarith
  rw [abs_lt] at h2
  obtain ⟨a1, a2⟩ := halfUp_bounds (decimal_nonneg h) p
  obtain ⟨b1, b2⟩ := hm.bounds
  constructor
  · have : (halfUp q p : ℚ) < (m + 2 : Nat) := by push_cast; linarith
    have : halfUp q p < m + 2 := by exact_mod_cast this
    omega
  · have : (m : ℚ) < (halfUp q p + 2 : Nat) := by push_cast; linarith
    have : m < halfUp q p + 2 := by exact_mod_cast this
    omega

/-- **C78 (exact decimals).** A number that its decimal gives exactly (an integer below 2⁵³, say) deviates
exactly if it is halfway between two decimals of that length and the lower one is even. -/
theorem C78_exact (x : ℚ) (p : Int) : Deviates x x p ↔ ∃ k : Nat, x * 10 ^ p = k + 1 / 2 ∧ k % 2 = 0 := by
  constructor
  · rintro (⟨k, hk, hn⟩ | ⟨k, hk, h | ⟨-, h⟩⟩)
    · exact absurd (.inl (by rw [hk]; norm_num)) hn
    · exact absurd h (lt_irrefl _)
    · exact ⟨k, hk, h⟩
  · rintro ⟨k, hk, h⟩
    exact .inr ⟨k, hk, .inr ⟨rfl, h⟩⟩

/-- **C78 (all digits).** When all digits of the binary value are asked for, C prints it exactly, and the
library does exactly if the decimal is exact. -/
theorem C78_all {bits : BitVec 64} {q : ℚ} (h : DecimalOf bits q) {p : Int} {n : Nat}
    (hn : magnitude bits * 10 ^ p = n) : Deviates (magnitude bits) q p ↔ q ≠ magnitude bits := by
  have h10 : (10 : ℚ) ≠ 0 := by norm_num
  have hm : NearestEven (magnitude bits * 10 ^ p) n := .inl (by rw [hn]; norm_num)
  have key := decimal_deviates h hm
  rw [← not_iff_not, ← key, not_not]
  constructor
  · intro hu
    rcases h with ⟨h0, rfl⟩ | ⟨h0, hq⟩
    · exact h0.symm
    · obtain ⟨s, i, hs, hqe, hno⟩ := chosen_between hq
      by_cases hi : -p ≤ i
      · have hk : q * 10 ^ p = ((s * 10 ^ (i + p).toNat : Nat) : ℚ) := by
          rw [hqe, mul_assoc, ← zpow_add₀ h10, ← Int.toNat_of_nonneg (show 0 ≤ i + p by omega), zpow_natCast]
          push_cast; rfl
        have hk' := halfUp_of_bounds (q := q) (p := p) (m := s * 10 ^ (i + p).toNat) (by rw [hk]; linarith)
          (by rw [hk]; linarith)
        rw [← hk', hu, ← hn] at hk
        exact mul_right_cancel₀ (by positivity) hk
      · have hx : magnitude bits = ((n * 10 ^ (-p - i).toNat : Nat) : ℚ) * 10 ^ i := by
          push_cast
          rw [← hn, ← zpow_natCast, Int.toNat_of_nonneg (by omega), mul_assoc, mul_assoc, ← zpow_add₀ h10,
            ← zpow_add₀ h10, show p + (-p - i + i) = 0 by ring, zpow_zero, mul_one]
        have hpos : 0 < n * 10 ^ (-p - i).toNat := by
          rcases Nat.eq_zero_or_pos (n * 10 ^ (-p - i).toNat) with hz | hz
          · rw [hz, Nat.cast_zero, zero_mul] at hx
            exact absurd hx h0
          · exact hz
        have := hno _ hpos
        rw [← hx] at this
        rcases lt_trichotomy q (magnitude bits) with g | g | g
        · exact absurd (.inr ⟨g, le_refl _⟩) this
        · exact g
        · exact absurd (.inl ⟨le_refl _, g⟩) this
  · intro hq
    rw [hq]
    exact halfUp_of_bounds (by rw [hn]; linarith) (by rw [hn]; linarith)

/-! ### Examples -/

-- one half and two and a half: half up against ties to even
example : printf ⟨fun _ => true⟩ sampleDateEnv (js! "%.0f %.0f %.0f") [doubleArg 0x3FE0000000000000#64,
    doubleArg 0x3FF8000000000000#64, doubleArg 0x4004000000000000#64] = .ok (js! "1 2 3") := by decide +kernel
example : CFixed {} 0 0 0x3FE0000000000000#64 (js! "0") :=
  ⟨0, js! "0", .inr ⟨by norm_num [show magnitude 0x3FE0000000000000#64 = 1 / 2 by decide +kernel], rfl⟩,
    ⟨js! "0", [], by decide, by unfold IsNumeral; decide, by unfold NoExtraZero; decide, by decide, by decide,
      by decide⟩, by decide +kernel⟩
example : Deviates (1 / 2) (1 / 2) 0 := (C78_exact _ _).2 ⟨0, by norm_num, rfl⟩
-- 1.005 is below 1005/1000: C prints 1.00
example : printf ⟨fun _ => true⟩ sampleDateEnv (js! "%.2f|%.2e") [doubleArg 0x3FF0147AE147AE14#64,
    doubleArg 0x3FF0147AE147AE14#64] = .ok (js! "1.01|1.01e+00") := by decide +kernel
example : CFixed {} 0 2 0x3FF0147AE147AE14#64 (js! "1.00") :=
  ⟨100, js! "1.00", .inl (by
      norm_num [show magnitude 0x3FF0147AE147AE14#64 = 1131529406376837 / 1125899906842624 by decide +kernel, abs_lt]),
    ⟨js! "1", js! "00", by decide, by unfold IsNumeral; decide, by unfold NoExtraZero; decide, by decide, by decide,
      by decide⟩, by decide +kernel⟩
-- one tenth with twenty places
example : printf ⟨fun _ => true⟩ sampleDateEnv (js! "%.20f") [doubleArg 0x3FB999999999999A#64] =
    .ok (js! "0.10000000000000000000") := by decide +kernel
example : CFixed {} 0 20 0x3FB999999999999A#64 (js! "0.10000000000000000555") :=
  ⟨10000000000000000555, js! "0.10000000000000000555", .inl (by
      norm_num [show magnitude 0x3FB999999999999A#64 = 3602879701896397 / 36028797018963968 by decide +kernel, abs_lt]),
    ⟨js! "0", js! "10000000000000000555", by decide, by unfold IsNumeral; decide, by unfold NoExtraZero; decide,
      by decide, by decide, by decide⟩, by decide +kernel⟩
-- the hypotheses of the fifteen digits are met: 1.005 with six places
example : 2 ^ 52 ≤ doubleC 0x3FF0147AE147AE14#64 ∧ magnitude 0x3FF0147AE147AE14#64 * 10 ^ (6 : Int) < 10 ^ 15 := by
  refine ⟨by decide +kernel, ?_⟩
  norm_num [show magnitude 0x3FF0147AE147AE14#64 = 1131529406376837 / 1125899906842624 by decide +kernel]

end FastPrintf
