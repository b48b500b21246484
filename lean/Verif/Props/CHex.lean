/-
Property C82: `%a`, `%#g` and the names of infinities and NaN compared with the C standard.
-/
import Verif.Props.CFloat
import Verif.Props.Hex
import Verif.Props.Text
import Verif.Spec.CHex

namespace FastPrintf
open Spec

/-! ### Texts with a point -/

theorem dropWhile_all {p : Nat → Bool} {l r : JStr} (h : ∀ c ∈ l, p c = true) :
    (l ++ r).dropWhile p = r.dropWhile p := by
  induction l with
  | nil => rfl
  | cons a l ih =>
    rw [List.cons_append, List.dropWhile_cons_of_pos (h a (by simp))]
    exact ih fun c hc => h c (by simp [hc])

/-- From the point on, a field is its body followed by blanks. -/
theorem field_point (left zero : Bool) (w : Nat) {pre ip : JStr} (h : ∀ c ∈ pre ++ ip, c ≠ 46) (t : JStr) :
    ∃ k, (Spec.field left zero w pre (ip ++ t)).dropWhile (· != 46) =
      (t ++ List.replicate k 32).dropWhile (· != 46) := by
  have hb : ∀ c ∈ pre ++ ip, (c != 46) = true := fun c hc => by simpa using h c hc
  unfold Spec.field
  generalize w - (pre.length + (ip ++ t).length) = n
  cases left
  · refine ⟨0, ?_⟩
    rw [List.replicate_zero, List.append_nil]
    cases zero
    · rw [if_neg (by simp), if_neg (by simp)]
      rw [show List.replicate n 32 ++ pre ++ (ip ++ t) = (List.replicate n 32 ++ (pre ++ ip)) ++ t by simp]
      apply dropWhile_all
      intro c hc
      rcases List.mem_append.1 hc with hc | hc
      · rw [List.eq_of_mem_replicate hc]; rfl
      · exact hb c hc
    · rw [if_neg (by simp), if_pos rfl]
      rw [show pre ++ List.replicate n 48 ++ (ip ++ t) = (pre ++ (List.replicate n 48 ++ ip)) ++ t by simp]
      apply dropWhile_all
      intro c hc
      rcases List.mem_append.1 hc with hc | hc
      · exact hb c (List.mem_append_left _ hc)
      · rcases List.mem_append.1 hc with hc | hc
        · rw [List.eq_of_mem_replicate hc]; rfl
        · exact hb c (List.mem_append_right _ hc)
  · refine ⟨n, ?_⟩
    rw [if_pos rfl, show pre ++ (ip ++ t) ++ List.replicate n 32 = (pre ++ ip) ++ (t ++ List.replicate n 32) by simp]
    exact dropWhile_all hb

theorem digit_no_point {b : Nat} {c : JChar} (h : IsDigitIn b c) : c ≠ 46 := by
  unfold IsDigitIn at h; omega

theorem sign_no_point (fl : Flags) (neg : Bool) : ∀ c ∈ signText fl neg, c ≠ 46 := by
  unfold signText
  split_ifs <;> decide

/-- What stands between the point and the `e`. -/
def pointText (s : JStr) : JStr := (s.dropWhile (· != 46)).takeWhile (· != 101)

/-- The length of that part in a text of style `e`. -/
theorem pointText_field (fl : Flags) (left zero : Bool) (w : Nat) (neg : Bool) {m p : Nat} {alt : Bool} {ms es : JStr}
    {x : Int} (h : FixedText m p alt ms) (he : ExponentText x es) :
    (pointText (Spec.field left zero w (signText fl neg) (ms ++ ch! 'e' :: es))).length =
      if p = 0 ∧ alt = false then 0 else p + 1 := by
  obtain ⟨ip, fp, rfl, hip, -, hfp, hl, -⟩ := h
  obtain ⟨ds, hds, rfl⟩ := he
  have hpre : ∀ c ∈ signText fl neg ++ ip, c ≠ 46 := by
    intro c hc
    rcases List.mem_append.1 hc with hc | hc
    · exact sign_no_point fl neg c hc
    · exact digit_no_point (hip.2 c hc)
  unfold pointText
  rw [List.append_assoc]
  obtain ⟨k, hk⟩ := field_point left zero w hpre (fraction alt fp ++ ch! 'e' ::
    (if x < 0 then ch! '-' else ch! '+') :: (List.replicate (2 - ds.length) 48 ++ ds))
  rw [hk]
  by_cases h0 : p = 0 ∧ alt = false
  · rw [if_pos h0]
    obtain ⟨rfl, rfl⟩ := h0
    obtain rfl := List.length_eq_zero_iff.1 hl
    have : ((fraction false [] ++ ch! 'e' :: (if x < 0 then ch! '-' else ch! '+') ::
        (List.replicate (2 - ds.length) 48 ++ ds)) ++ List.replicate k 32).dropWhile (· != 46) = [] := by
      rw [← List.append_nil (_ ++ List.replicate k 32), dropWhile_all]
      · rfl
      intro c hc
      have : c ≠ 46 := by
        simp only [fraction, List.mem_append, List.mem_cons, List.mem_replicate] at hc
        rcases hc with (hc | hc | hc | hc | hc) | hc
        · simp at hc
        · rw [hc]; decide
        · rw [hc]; split_ifs <;> decide
        · rw [hc.2]; decide
        · exact digit_no_point (hds.1.2 c hc)
        · rw [hc.2]; decide
      simpa using this
    rw [this]; rfl
  · rw [if_neg h0]
    have hf : fraction alt fp = ch! '.' :: fp := by
      unfold fraction
      rw [if_neg]
      rintro ⟨rfl, ha⟩
      exact h0 ⟨by simpa using hl.symm, by simpa using ha⟩
    rw [hf, List.cons_append, List.cons_append, List.dropWhile_cons_of_neg (by decide),
      List.takeWhile_cons_of_pos (by decide), List.length_cons, List.append_assoc,
      List.takeWhile_append_of_pos]
    · rw [List.cons_append, List.takeWhile_cons_of_neg (by decide), List.append_nil, hl]
    · intro c hc
      have := hfp c hc
      unfold IsDigitIn digitVal at this
      have : c ≠ 101 := by
        rintro rfl
        norm_num at this
      simpa using this

/-- Reading a text of style `e`, with or without a point. -/
theorem fixed_exponent_read {fl : Flags} {left zero alt neg : Bool} {w p m : Nat} {e : Int} {ms es : JStr}
    (hb : FixedText m p alt ms) (he : ExponentText e es) :
    (readNumber (Spec.field left zero w (signText fl neg) (ms ++ ch! 'e' :: es))).2 = m * 10 ^ (e - p) := by
  obtain ⟨hx1, hx2⟩ := exponent_read he
  obtain ⟨ip, fp, hn, hl, hv⟩ := fixedText_written hb (tail := ch! 'e' :: es) (.inr ⟨_, rfl, hx2⟩)
  rw [hn.read_field, hn.read, hv, hl]
  simp only [List.drop_succ_cons, List.drop_zero, hx1]

theorem fixed_read {fl : Flags} {left zero alt neg : Bool} {w p m : Nat} {body : JStr}
    (hb : FixedText m p alt body) :
    (readNumber (Spec.field left zero w (signText fl neg) body)).2 = m * 10 ^ (-(p : Int)) := by
  obtain ⟨ip, fp, hn, hl, hv⟩ := fixedText_written hb (tail := []) (.inl rfl)
  rw [List.append_nil] at hn
  rw [hn.read_field, hn.read, hv, hl]
  simp [readExponent]

/-! ### `%#g` -/

/-- C has a text for every finite number. -/
theorem cGeneralAlt_exists (fl : Flags) (w : Nat) {P : Nat} (hP : 1 ≤ P) (bits : BitVec 64) :
    ∃ out, CGeneralAlt fl w P bits out := by
  obtain ⟨m, X, h⟩ : ∃ (m : Nat) (X : Int), (magnitude bits = 0 ∧ m = 0 ∧ X = 0) ∨
      (magnitude bits ≠ 0 ∧ CSignificant (magnitude bits) P m X) := by
    by_cases h0 : magnitude bits = 0
    · exact ⟨0, 0, .inl ⟨h0, rfl, rfl⟩⟩
    · obtain ⟨m, X, h⟩ := cSignificant_exists (lt_of_le_of_ne (magnitude_nonneg bits) (Ne.symm h0)) hP
      exact ⟨m, X, .inr ⟨h0, h⟩⟩
  by_cases hX : -4 ≤ X ∧ X < P
  · obtain ⟨k, hk⟩ := nearestEven_exists (show 0 ≤ magnitude bits * 10 ^ ((P : Int) - 1 - X) from
      mul_nonneg (magnitude_nonneg bits) (by positivity))
    obtain ⟨b, hb⟩ := fixedText_exists k ((P : Int) - 1 - X).toNat true
    exact ⟨_, m, X, b, h, by rw [if_pos hX]; exact ⟨k, hk, hb⟩, rfl⟩
  · obtain ⟨ms, hms⟩ := fixedText_exists m (P - 1) true
    obtain ⟨es, hes⟩ := exponentText_exists X
    exact ⟨_, m, X, _, h, by rw [if_neg hX]; exact ⟨ms, es, hms, hes, rfl⟩, rfl⟩

/-- **C82 (`%#g`).** With `#` the text printed for a finite `double` under `%g` is the one C prints exactly if
the rounding does not deviate (see C78) and either the plain style applies or all `P` digits were computed
and `P` is not 1.  Here `n` is the number of digits the library computes. -/
theorem C82_g (dates : DateSyntax) (env : DateEnv) (jdk : JdkEnv) (d : Directive) (h : d.Ok dates)
    (hp : d.Plain) (hc : d.conv = ch! 'g') (ha : (flagSet d.flags).alternate = true) (bits : BitVec 64)
    (hf : finite bits) (e : Entry) (he : IsDouble e bits) (rest : List Traits) :
    let P := max 1 (d.prec.precision.getD 6)
    ∃ s, printf dates env d.text (e.toTraits jdk :: rest) = .ok s ∧
      ∀ out, CGeneralAlt (flagSet d.flags) d.width.width P bits out →
        ((magnitude bits = 0 ∧ s = out) ∨
          (magnitude bits ≠ 0 ∧ ∃ q k n, JavaDecimal bits q ∧ LastPlace bits k ∧ DigitsDownTo q k n ∧
            ∀ (e0 : Int) (m : Nat) (X : Int), 10 ^ e0 ≤ magnitude bits → magnitude bits < 10 ^ (e0 + 1) →
              CSignificant (magnitude bits) P m X →
              (s = out ↔ ¬ Deviates (magnitude bits) q (P - 1 - e0) ∧
                ((-4 ≤ X ∧ X < P) ∨ (P ≤ n ∧ P ≠ 1))))) := by
  intro P
  have hP : 1 ≤ P := le_max_left _ _
  obtain ⟨body, h1, h2⟩ := C25_g dates env jdk d h hp hc bits hf e he rest
  refine ⟨_, h1, ?_⟩
  change (_ ∧ if _ then FixedText 0 (P - 1) true body else _) ∨ (∃ q M x, _ ∧ _ ∧ Significant q P M x ∧
    ∃ e n, _ ∧ _ ∧ GeneralText P n _ M x body) at h2
  clear_value P
  rw [ha] at h2
  rintro _ ⟨m', e', b', hme', hb', rfl⟩
  have h10 : (10 : ℚ) ≠ 0 := by norm_num
  rcases h2 with ⟨h0, hm⟩ | ⟨q, M, x, h0, hq, hsig, k, n, hk, hn, hm⟩
  · refine .inl ⟨h0, ?_⟩
    rcases hme' with ⟨-, rfl, rfl⟩ | ⟨hn, -⟩
    · rw [if_pos ⟨by omega, by omega⟩] at hb'
      obtain ⟨k, hk, hb'⟩ := hb'
      rw [h0, zero_mul] at hk
      obtain rfl := hk.unique (show NearestEven 0 0 from .inl (by norm_num))
      rw [if_pos rfl] at hm
      rw [show ((P : Int) - 1 - 0).toNat = P - 1 by omega] at hb'
      rw [hb'.unique hm]; rfl
    · exact absurd h0 hn
  · refine .inr ⟨h0, q, k, n, hq, hk, hn, fun e0 m X l u hX => ?_⟩
    rcases hme' with ⟨hn, -⟩ | ⟨-, hsig'⟩
    · exact absurd hn h0
    have hx : 0 < magnitude bits := lt_of_le_of_ne (magnitude_nonneg bits) (Ne.symm h0)
    obtain ⟨rfl, rfl⟩ : m' = m ∧ e' = X := hsig'.unique hP hX
    obtain ⟨k1, k2⟩ := significant_iff hx hq hP hsig hsig' l u
    rw [← k1]
    unfold Directive.field
    -- what the two texts denote
    have r1 : (readNumber (Spec.field (flagSet d.flags).leftJustify (flagSet d.flags).zeroPad d.width.width
        (signText (flagSet d.flags) (negative bits)) body)).2 = M * 10 ^ (x - ((P : Int) - 1)) := by
      unfold GeneralText at hm
      by_cases hs : -4 ≤ x ∧ x < (P : Int)
      · rw [if_pos hs, if_pos rfl] at hm
        rw [fixed_read hm]
        congr 2; omega
      · rw [if_neg hs] at hm
        obtain ⟨ms, xs, rfl, hxs, hm⟩ := hm
        rw [if_pos rfl] at hm
        obtain ⟨M', rfl, hm⟩ := hm
        rw [fixed_exponent_read hm hxs]
        push_cast
        rw [mul_assoc, ← zpow_natCast, ← zpow_add₀ h10]
        by_cases hn0 : n = 0
        · subst hn0
          exfalso
          have h3 := hsig.2.1
          have h4 := hsig.1
          rw [Nat.min_zero, Nat.sub_zero] at h3 h4
          rcases Nat.eq_zero_or_pos M' with rfl | hM
          · rw [zero_mul] at h4
            have : 0 < 10 ^ (P - 1) := by positivity
            omega
          · exact absurd h3 (not_lt.2 (Nat.le_mul_of_pos_left _ hM))
        · congr 2; omega
    have r2 : (readNumber (Spec.field (flagSet d.flags).leftJustify (flagSet d.flags).zeroPad d.width.width
        (signText (flagSet d.flags) (negative bits)) b')).2 = m' * 10 ^ (e' - ((P : Int) - 1)) := by
      by_cases hs : -4 ≤ e' ∧ e' < (P : Int)
      · rw [if_pos hs] at hb'
        obtain ⟨k, hk, hb'⟩ := hb'
        obtain rfl := hk.unique (hsig'.again hP)
        rw [fixed_read hb']
        congr 2; omega
      · rw [if_neg hs] at hb'
        obtain ⟨ms, es, hms, hes, rfl⟩ := hb'
        rw [fixed_exponent_read hms hes]
        congr 2; omega
    constructor
    · intro heq
      have h3 := congrArg (fun s => (readNumber s).2) heq
      rw [r1, r2] at h3
      refine ⟨h3, ?_⟩
      obtain ⟨rfl, rfl⟩ := k2 h3
      by_cases hs : -4 ≤ x ∧ x < (P : Int)
      · exact .inl hs
      · right
        unfold GeneralText at hm
        rw [if_neg hs] at hm hb'
        obtain ⟨ms, xs, rfl, hxs, hm⟩ := hm
        rw [if_pos rfl] at hm
        obtain ⟨M', -, hm⟩ := hm
        obtain ⟨ms', es', hms', hes', rfl⟩ := hb'
        have h4 := congrArg (fun s => (pointText s).length) heq
        rw [pointText_field _ _ _ _ _ hm hxs, pointText_field _ _ _ _ _ hms' hes',
          if_neg (show ¬ (P - 1 = 0 ∧ true = false) by simp)] at h4
        by_cases hP1 : P = 1
        · subst hP1
          rw [if_pos ⟨by omega, by simp⟩] at h4
          omega
        · rw [if_neg (by simp [hP1])] at h4
          omega
    · rintro ⟨heq, hcase⟩
      obtain ⟨rfl, rfl⟩ := k2 heq
      unfold GeneralText at hm
      by_cases hs : -4 ≤ x ∧ x < (P : Int)
      · rw [if_pos hs, if_pos rfl] at hm
        rw [if_pos hs] at hb'
        obtain ⟨k, hk, hb'⟩ := hb'
        obtain rfl := hk.unique (hsig'.again hP)
        rw [hm.unique hb']
      · rw [if_neg hs] at hm hb'
        rcases hcase with hcase | ⟨hPn, hP1⟩
        · exact absurd hcase hs
        obtain ⟨ms, xs, rfl, hxs, hm⟩ := hm
        rw [if_pos rfl] at hm
        obtain ⟨M', rfl, hm⟩ := hm
        obtain ⟨ms', es', hms', hes', rfl⟩ := hb'
        rw [Nat.min_eq_left hPn] at hm hms'
        rw [Nat.sub_self, pow_zero, mul_one] at hms'
        rw [show decide (P ≠ 1) = true by simpa using hP1] at hm
        rw [hm.unique hms', hxs.unique hes']

/-! ### `%a` -/

theorem nearestEven_of_eq {y : ℚ} {m : Nat} (h : y = m) : NearestEven y m := .inl (by rw [h]; norm_num)

/-- Rounded to `q` hex digits, a text `1.h…hp±x` is nearest to the value at its last digit. -/
theorem hexRounded_nearest {v : ℚ} {q : Nat} {fp : JStr} {x : Int} (hfp : ∀ c ∈ fp, IsDigitIn 16 c)
    (hl : fp.length = q) (h : HexRounded v q (hexValue 1 fp x)) :
    NearestEven (v * 2 ^ (4 * (q : Int) - x)) (1 * 16 ^ q + valueIn 16 fp) := by
  have h2 : (2 : ℚ) ≠ 0 := by norm_num
  obtain ⟨E, k, l, u, hw, hd, ht⟩ := h
  have hv : valueIn 16 fp < 16 ^ q := hl ▸ valueIn_lt (by norm_num) fp fun c hc => (hfp c hc).2
  -- everything in units of the last digit
  have hunit : hexValue 1 fp x = ((16 ^ q + valueIn 16 fp : Nat) : ℚ) * 2 ^ (x - 4 * (q : Int)) := by
    unfold hexValue
    rw [hl, sub_eq_add_neg, zpow_add₀ h2, zpow_neg, show (2 : ℚ) ^ (4 * (q : Int)) = 16 ^ q by
      rw [zpow_mul]; norm_num]
    push_cast
    field_simp
  have hpow : ∀ a : Int, (2 : ℚ) ^ a = 16 ^ q * 2 ^ (a - 4 * (q : Int)) := by
    intro a
    rw [show ((16 : ℚ) ^ q) = 2 ^ (4 * (q : Int)) by rw [zpow_mul]; norm_num, ← zpow_add₀ h2]
    congr 1; ring
  generalize hN : 16 ^ q + valueIn 16 fp = N at *
  have hN1 : 16 ^ q ≤ N := by omega
  have hN2 : N < 2 * 16 ^ q := by omega
  have hu : (0 : ℚ) < 2 ^ (E - 4 * (q : Int)) := by positivity
  have hux : (0 : ℚ) < 2 ^ (x - 4 * (q : Int)) := by positivity
  have hkN : (k : ℚ) * 2 ^ (E - 4 * (q : Int)) = N * 2 ^ (x - 4 * (q : Int)) := by rw [← hw, hunit]
  rw [hw] at hd ht
  have hcast1 : ((16 ^ q : Nat) : ℚ) ≤ N := by exact_mod_cast hN1
  have hcast2 : (N : ℚ) + 1 ≤ 2 * (16 ^ q : Nat) := by exact_mod_cast hN2
  rw [Nat.cast_pow] at hcast1 hcast2
  push_cast at hcast1 hcast2
  have hl' : (16 : ℚ) ^ q * 2 ^ (E - 4 * (q : Int)) ≤ v := by rw [← hpow]; exact l
  have hu' : v < 2 * (16 : ℚ) ^ q * 2 ^ (E - 4 * (q : Int)) := by
    rw [zpow_add₀ h2, zpow_one, hpow E] at u; linarith
  -- the exponent is that of the value, or one more
  have hxE : x = E ∨ x = E + 1 := by
    have hk1 : (16 : ℚ) ^ q ≤ k := by
      by_contra hlt
      push Not at hlt
      have : k + 1 ≤ 16 ^ q := by
        have : (k : ℚ) < ((16 ^ q : Nat) : ℚ) := by push_cast; exact hlt
        exact_mod_cast this
      have : (k : ℚ) + 1 ≤ 16 ^ q := by exact_mod_cast this
      rw [abs_le] at hd
      nlinarith
    have hk2 : (k : ℚ) ≤ 2 * 16 ^ q := by
      by_contra hlt
      push Not at hlt
      have : 2 * 16 ^ q + 1 ≤ k := by
        have : ((2 * 16 ^ q : Nat) : ℚ) < (k : ℚ) := by push_cast; exact hlt
        exact_mod_cast this
      have : (2 : ℚ) * 16 ^ q + 1 ≤ k := by exact_mod_cast this
      rw [abs_le] at hd
      nlinarith
    have hq0 : (0 : ℚ) < 16 ^ q := by positivity
    by_contra hne
    rcases (by omega : x ≤ E - 1 ∨ E + 2 ≤ x) with g | g
    · have h3 : (2 : ℚ) ^ (x - 4 * (q : Int)) ≤ 2 ^ (E - 1 - 4 * (q : Int)) :=
        zpow_le_zpow_right₀ (by norm_num) (by omega)
      have h4 : (2 : ℚ) ^ (E - 4 * (q : Int)) = 2 ^ (E - 1 - 4 * (q : Int)) * 2 := by
        rw [← zpow_add_one₀ h2]; congr 1; ring
      nlinarith
    · have h3 : (2 : ℚ) ^ (E + 2 - 4 * (q : Int)) ≤ 2 ^ (x - 4 * (q : Int)) :=
        zpow_le_zpow_right₀ (by norm_num) (by omega)
      have h4 : (2 : ℚ) ^ (E + 2 - 4 * (q : Int)) = 2 ^ (E - 4 * (q : Int)) * 4 := by
        rw [show E + 2 - 4 * (q : Int) = E - 4 * (q : Int) + 2 by ring, zpow_add₀ h2]; norm_num
      nlinarith
  rw [one_mul, hN]
  have habs : |(N : ℚ) - v * 2 ^ (4 * (q : Int) - x)| * 2 ^ (x - 4 * (q : Int)) =
      |v - N * 2 ^ (x - 4 * (q : Int))| := by
    rw [← abs_of_pos hux, ← abs_mul, sub_mul, mul_assoc, abs_of_pos hux, ← zpow_add₀ h2, abs_sub_comm]
    congr 2
    rw [show 4 * (q : Int) - x + (x - 4 * (q : Int)) = 0 by ring, zpow_zero, mul_one]
  rw [hkN] at hd ht
  rcases hxE with rfl | rfl
  · have hk : k = N := by exact_mod_cast mul_right_cancel₀ hux.ne' hkN
    rcases lt_or_eq_of_le hd with g | g
    · left
      nlinarith
    · refine .inr ⟨?_, hk ▸ ht g⟩
      rw [g] at habs
      have := mul_right_cancel₀ hux.ne' (habs.trans (show _ = 1 / 2 * _ by ring))
      exact this
  · left
    have h4 : (2 : ℚ) ^ (E + 1 - 4 * (q : Int)) = 2 ^ (E - 4 * (q : Int)) * 2 := by
      rw [← zpow_add_one₀ h2]; congr 1; ring
    rw [h4] at habs hd
    nlinarith

/-- **C82 (`%a`).** The text printed for a finite `double` under `%a` is one that the C standard allows, for all
flags, widths and precisions except precision 0: there the library prints one digit after the point and C none. -/
theorem C82_a (dates : DateSyntax) (env : DateEnv) (jdk : JdkEnv) (d : Directive) (h : d.Ok dates)
    (hp : d.Plain) (hc : d.conv = ch! 'a') (bits : BitVec 64) (hf : finite bits) (e : Entry)
    (he : IsDouble e bits) (rest : List Traits) :
    ∃ s, printf dates env d.text (e.toTraits jdk :: rest) = .ok s ∧
      (CHex (flagSet d.flags) d.width.width d.prec.precision bits s ↔ d.prec.precision ≠ some 0) := by
  have h2 : (2 : ℚ) ≠ 0 := by norm_num
  have hlead : IsDigitIn 16 (48 + if expBits bits = 0 then 0 else 1) ∧
      (expBits bits ≠ 0 → (48 + if expBits bits = 0 then 0 else 1) ≠ 48) ∧
      digitVal (48 + if expBits bits = 0 then 0 else 1) = if expBits bits = 0 then 0 else 1 := by
    by_cases h0 : expBits bits = 0
    · rw [if_pos h0]; exact ⟨by decide, fun g => absurd h0 g, by decide⟩
    · rw [if_neg h0]; exact ⟨by decide, fun _ => by decide, by decide⟩
  -- a text with a digit after the point is not one for precision 0
  have hno : ∀ (lead : Nat) (fp : JStr) (x : Int) (body : JStr), HexText lead fp x body → fp ≠ [] →
      ¬ CHex (flagSet d.flags) d.width.width (some 0) bits
        (d.field (signText (flagSet d.flags) (negative bits) ++ js! "0x") body) := by
    rintro lead fp x body ⟨hle, hfp, ds, hds, rfl⟩ hne ⟨l', fp', x', ds', hl', -, -, hds', -, ⟨hz, -⟩, heq⟩
    obtain rfl := List.length_eq_zero_iff.1 hz
    unfold Directive.field at heq
    have hsx : ∀ c ∈ signText (flagSet d.flags) (negative bits) ++ js! "0x", c ≠ 46 := by
      intro c hc
      rcases List.mem_append.1 hc with hc | hc
      · exact sign_no_point _ _ c hc
      · exact (by decide : ∀ c ∈ js! "0x", c ≠ 46) c hc
    obtain ⟨k, hk⟩ := field_point (flagSet d.flags).leftJustify (flagSet d.flags).zeroPad d.width.width
      (pre := signText (flagSet d.flags) (negative bits) ++ js! "0x") (ip := [48 + lead]) (by
        intro c hc
        rcases List.mem_append.1 hc with hc | hc
        · exact hsx c hc
        · have : c = 48 + lead := by simpa using hc
          omega)
      (ch! '.' :: fp ++ ch! 'p' :: (if x < 0 then ch! '-' else ch! '+') :: ds)
    obtain ⟨k', hk'⟩ := field_point (flagSet d.flags).leftJustify (flagSet d.flags).zeroPad d.width.width
      (pre := signText (flagSet d.flags) (negative bits) ++ js! "0x") (ip := [l']) (by
        intro c hc
        rcases List.mem_append.1 hc with hc | hc
        · exact hsx c hc
        · have : c = l' := by simpa using hc
          rw [this]; exact digit_no_point hl')
      ((if ([] : JStr) = [] ∧ ¬ (flagSet d.flags).alternate then [] else [ch! '.']) ++
        ch! 'p' :: (if x' < 0 then ch! '-' else ch! '+') :: ds')
    have h3 := congrArg (List.dropWhile (· != 46)) heq
    rw [show (48 + lead) :: ch! '.' :: fp ++ ch! 'p' :: (if x < 0 then ch! '-' else ch! '+') :: ds =
      [48 + lead] ++ (ch! '.' :: fp ++ ch! 'p' :: (if x < 0 then ch! '-' else ch! '+') :: ds) by rfl, hk] at h3
    rw [show l' :: (if ([] : JStr) = [] ∧ ¬ (flagSet d.flags).alternate then [] else [ch! '.']) ++
        ch! 'p' :: (if x' < 0 then ch! '-' else ch! '+') :: ds' =
      [l'] ++ ((if ([] : JStr) = [] ∧ ¬ (flagSet d.flags).alternate then [] else [ch! '.']) ++
        ch! 'p' :: (if x' < 0 then ch! '-' else ch! '+') :: ds') by rfl, hk'] at h3
    obtain ⟨c, cs, rfl⟩ : ∃ c cs, fp = c :: cs := List.exists_cons_of_ne_nil hne
    rw [List.cons_append, List.cons_append, List.dropWhile_cons_of_neg (by decide)] at h3
    by_cases halt : (flagSet d.flags).alternate = true
    · rw [if_neg (show ¬ (([] : JStr) = [] ∧ ¬ (flagSet d.flags).alternate = true) from fun g => g.2 halt),
        List.singleton_append] at h3
      simp only [List.cons_append] at h3
      rw [List.dropWhile_cons_of_neg (by decide)] at h3
      have h4 := (List.cons.inj (List.cons.inj h3).2).1
      have := hfp c (by simp)
      rw [h4] at this
      exact absurd this (by decide)
    · rw [if_pos (show ([] : JStr) = [] ∧ ¬ (flagSet d.flags).alternate = true from ⟨rfl, halt⟩), List.nil_append,
        ← List.append_nil (_ ++ List.replicate k' 32), dropWhile_all] at h3
      · cases h3
      intro a ha
      have : a ≠ 46 := by
        simp only [List.mem_append, List.mem_cons, List.mem_replicate] at ha
        rcases ha with (ha | ha | ha) | ha
        · rw [ha]; decide
        · rw [ha]; split_ifs <;> decide
        · exact digit_no_point (hds'.1.2 a ha)
        · rw [ha.2]; decide
      simpa using this
  rcases hprec : d.prec.precision with _ | p
  · obtain ⟨fp, x, body, h1, ⟨hle, hfp, ds, hds, rfl⟩, hv, hx, hne, -⟩ :=
      C27_exact dates env jdk d h hp hc hprec bits hf e he rest
    refine ⟨_, h1, fun _ => by simp, fun _ => ⟨48 + if expBits bits = 0 then 0 else 1, fp, x, ds, hlead.1,
      hlead.2.1, hfp, hds, fun h0 => by rw [hx, if_pos h0], ?_, ?_⟩⟩
    · dsimp only; rw [hlead.2.2]; exact hv
    · rw [if_neg (show ¬ (fp = [] ∧ ¬ (flagSet d.flags).alternate = true) from fun g => hne g.1)]; rfl
  · by_cases hz : magnitude bits = 0 ∨ 13 ≤ p
    · obtain ⟨fp, x, body, h1, ht, hv, hx, hl⟩ :=
        C27_exact_padded dates env jdk d h hp hc p hprec bits hf hz e he rest
      have hne : fp ≠ [] := by rintro rfl; simp at hl; omega
      refine ⟨_, h1, ?_⟩
      rcases Nat.eq_zero_or_pos p with rfl | hpos
      · exact ⟨fun hC => absurd hC (hno _ _ _ _ ht hne), fun g => absurd rfl g⟩
      obtain ⟨hle, hfp, ds, hds, rfl⟩ := ht
      refine ⟨fun _ => by simp; omega, fun _ => ⟨48 + if expBits bits = 0 then 0 else 1, fp, x, ds, hlead.1,
        hlead.2.1, hfp, hds, fun h0 => by rw [hx, if_pos h0], ⟨by omega, ?_⟩, ?_⟩⟩
      · rw [hlead.2.2]
        apply nearestEven_of_eq
        rw [← hv]
        unfold hexValue
        generalize (if expBits bits = 0 then 0 else 1 : Nat) = L
        rw [show fp.length = p by omega, mul_assoc, ← zpow_add₀ h2, show x + (4 * (p : Int) - x) = 4 * p by ring,
          zpow_mul]
        push_cast
        norm_num
        field_simp
      · rw [if_neg (show ¬ (fp = [] ∧ ¬ (flagSet d.flags).alternate = true) from fun g => hne g.1)]; rfl
    · push Not at hz
      obtain ⟨fp, x, body, h1, ht, hl, hr⟩ :=
        C27_rounded dates env jdk d h hp hc p hprec (by omega) bits hf hz.1 e he rest
      have hne : fp ≠ [] := by rintro rfl; simp at hl; omega
      refine ⟨_, h1, ?_⟩
      rcases Nat.eq_zero_or_pos p with rfl | hpos
      · exact ⟨fun hC => absurd hC (hno _ _ _ _ ht hne), fun g => absurd rfl g⟩
      obtain ⟨hle, hfp, ds, hds, rfl⟩ := ht
      rw [show max 1 p = p by omega] at hl hr
      refine ⟨fun _ => by simp; omega, fun _ => ⟨49, fp, x, ds, by decide, fun _ => by decide, hfp, hds,
        fun h0 => absurd h0 hz.1, ⟨hl, hexRounded_nearest hfp hl hr⟩, ?_⟩⟩
      rw [if_neg (show ¬ (fp = [] ∧ ¬ (flagSet d.flags).alternate = true) from fun g => hne g.1)]; rfl

/-! ### Infinities and NaN -/

theorem field_visible (left : Bool) (w : Nat) (b : JStr) :
    (Spec.field left false w [] b).filter (· != 32) = b.filter (· != 32) := by
  unfold Spec.field
  cases left <;> simp

/-- A blank for the sign is lost in the padding on the left, and only there. -/
theorem field_blank (left : Bool) (w : Nat) {N : JStr} (hN : N.head? ≠ some 32) (hN0 : N ≠ []) :
    Spec.field left false w [] N = Spec.field left false w [] (32 :: N) ↔ left = false ∧ N.length < w := by
  obtain ⟨c, cs, rfl⟩ := List.exists_cons_of_ne_nil hN0
  have hc : c ≠ 32 := by simpa using hN
  constructor
  · intro heq
    have hl := congrArg List.length heq
    unfold Spec.field at heq hl
    cases left
    · refine ⟨rfl, ?_⟩
      simp only [List.length_append, List.length_replicate, List.length_cons, List.length_nil, Bool.false_eq_true,
        if_false] at hl ⊢
      omega
    · exfalso
      rw [if_pos rfl, if_pos rfl] at heq
      exact hc (by simpa using congrArg List.head? heq)
  · rintro ⟨rfl, hw⟩
    unfold Spec.field
    simp only [Bool.false_eq_true, if_false, List.length_nil, Nat.zero_add, List.append_nil]
    obtain ⟨k, hk⟩ : ∃ k, w = (c :: cs).length + 1 + k := ⟨w - ((c :: cs).length + 1), by omega⟩
    rw [show w - (c :: cs).length = k + 1 by omega, show w - (32 :: c :: cs).length = k by simp only [List.length_cons] at hk ⊢; omega]
    rw [List.replicate_succ', List.append_assoc]; rfl

/-- A sign in front of a name shows, unless it is a blank lost in the padding. -/
theorem field_sign (left : Bool) (w : Nat) {N : JStr} (hN : N.head? ≠ some 32) (hN0 : N ≠ []) :
    (∀ c, c ≠ 32 → Spec.field left false w [] N ≠ Spec.field left false w [] (c :: N)) ∧
    ∀ plus space : Bool, Spec.field left false w [] N =
        Spec.field left false w [] ((if plus then js! "+" else if space then js! " " else []) ++ N) ↔
      plus = false ∧ (space = true → left = false ∧ N.length < w) := by
  have h1 : ∀ c, c ≠ 32 → Spec.field left false w [] N ≠ Spec.field left false w [] (c :: N) := by
    intro c hc heq
    have h3 := congrArg (List.filter (· != 32)) heq
    rw [field_visible, field_visible, List.filter_cons_of_pos (by simpa using hc)] at h3
    have := congrArg List.length h3
    rw [List.length_cons] at this
    omega
  refine ⟨h1, fun plus space => ?_⟩
  cases plus
  · cases space
    · simp
    · have := field_blank left w hN hN0
      simpa using this
  · simpa using h1 43 (by decide)

/-- **C82 (infinities and NaN).** The lower-case conversions write `NaN` and `Infinity`, which C never does. -/
theorem C82_nonfinite (dates : DateSyntax) (env : DateEnv) (jdk : JdkEnv) (d : Directive) (h : d.Ok dates)
    (hp : d.Plain) (hc : d.conv ∈ floatConvs) (bits : BitVec 64) (hf : ¬ finite bits) (e : Entry)
    (he : IsDouble e bits) (rest : List Traits) :
    ∃ s, printf dates env d.text (e.toTraits jdk :: rest) = .ok s ∧
      ¬ CNonFinite false (flagSet d.flags) d.width.width bits s := by
  refine ⟨_, C30_nonfinite dates env jdk d h hp hc bits hf e he rest, ?_⟩
  rintro ⟨neg, name, hname, heq⟩
  have h3 := congrArg (List.filter (· != 32)) heq
  rw [field_visible, field_visible, if_neg (by simp)] at h3
  have key : ∀ (plus space sign neg : Bool), ∀ n ∈ [js! "nan", js! "inf", js! "infinity"],
      ∀ L ∈ [js! "NaN", js! "-Infinity", js! "+Infinity", js! "Infinity"],
      L.filter (· != 32) ≠ ((if neg then js! "-" else if plus then js! "+" else if space then js! " " else []) ++ n).filter
        (· != 32) := by decide
  refine key (flagSet d.flags).plus (flagSet d.flags).leadingSpace true neg name ?_ _ ?_ h3
  · split_ifs at hname with h0
    · simp [hname]
    · rcases hname.2 with h | h <;> simp [h]
  · unfold nonFiniteName
    split_ifs <;> simp

/-- **C82 (infinities and NaN, upper case).** The upper-case conversions write `NAN` and `INFINITY`, as C may,
except that `+` is ignored for NaN, and that the blank for a sign is missing where it would be visible: with
`-`, or in a field that the name fills. -/
theorem C82_nonfinite_upper (dates : DateSyntax) (env : DateEnv) (jdk : JdkEnv) (d : Directive) (h : d.Ok dates)
    (hp : d.Plain) (hc : d.conv ∈ floatConvs) (up : JChar) (hu : (d.conv, up) ∈ casePairs) (bits : BitVec 64)
    (hf : ¬ finite bits) (e : Entry) (he : IsDouble e bits) :
    ∃ s, printf dates env ({ d with conv := up } : Directive).text [e.toTraits jdk] = .ok s ∧
      (CNonFinite true (flagSet d.flags) d.width.width bits s ↔
        ¬ ((fracBits bits ≠ 0 ∧ ch! '+' ∈ d.flags) ∨
          ((fracBits bits ≠ 0 ∨ ¬ negative bits) ∧ ch! '+' ∉ d.flags ∧ ch! ' ' ∈ d.flags ∧
            (ch! '-' ∈ d.flags ∨ d.width.width ≤ if fracBits bits ≠ 0 then 3 else 8)))) := by
  have hw : WellBehaved e := by
    cases he <;> trivial
  have hl := C30_nonfinite dates env jdk d h hp hc bits hf e he []
  obtain ⟨-, hup | ⟨-, hup, -⟩⟩ := C19_upper_case dates env jdk d h up hu [e] (by simpa using hw)
  swap
  · rw [List.map_cons, List.map_nil, hl] at hup; cases hup
  rw [List.map_cons, List.map_nil, hl] at hup
  refine ⟨_, hup, ?_⟩
  dsimp only
  rw [field_upper, List.map_nil]
  have hpl : (flagSet d.flags).plus = decide (ch! '+' ∈ d.flags) := by simp [flagSet]
  have hsp : (flagSet d.flags).leadingSpace = decide (ch! ' ' ∈ d.flags) := by simp [flagSet]
  have hle : (flagSet d.flags).leftJustify = decide (ch! '-' ∈ d.flags) := by simp [flagSet]
  unfold CNonFinite signText nonFiniteName
  rw [hpl, hsp, hle]
  generalize d.width.width = w
  by_cases hn : fracBits bits ≠ 0
  · simp only [if_pos hn]
    obtain ⟨k1, k2⟩ := field_sign (decide (ch! '-' ∈ d.flags)) w (N := js! "NAN") (by decide) (by decide)
    constructor
    · rintro ⟨neg, name, rfl, heq⟩
      cases neg
      · have := (k2 (decide (ch! '+' ∈ d.flags)) (decide (ch! ' ' ∈ d.flags))).1 heq
        simp only [decide_eq_false_iff_not, decide_eq_true_eq, List.length_cons, List.length_nil] at this
        rintro (g | ⟨-, g1, g2, g3 | g3⟩)
        · exact this.1 g.2
        · exact (this.2 g2).1 g3
        · exact absurd (this.2 g2).2 (by omega)
      · exact absurd heq (k1 45 (by decide))
    · intro hno
      refine ⟨false, js! "nan", rfl, ?_⟩
      refine (k2 (decide (ch! '+' ∈ d.flags)) (decide (ch! ' ' ∈ d.flags))).2 ?_
      simp only [decide_eq_false_iff_not, decide_eq_true_eq, List.length_cons, List.length_nil]
      refine ⟨fun g => hno (.inl ⟨hn, g⟩), fun g => ?_⟩
      by_contra g3
      refine hno (.inr ⟨.inl hn, fun g4 => hno (.inl ⟨hn, g4⟩), g, ?_⟩)
      by_contra g5
      exact g3 ⟨fun g6 => g5 (.inl g6), by omega⟩
  · simp only [if_neg hn]
    by_cases hneg : negative bits
    · simp only [if_pos hneg, decide_eq_true hneg]
      refine ⟨fun _ => ?_, fun _ => ⟨true, js! "infinity", ⟨rfl, .inr rfl⟩, rfl⟩⟩
      rintro (g | ⟨g | g, -⟩)
      · exact hn g.1
      · exact hn g
      · exact g hneg
    · simp only [if_neg hneg, decide_eq_false hneg]
      by_cases hp1 : ch! '+' ∈ d.flags
      · simp only [decide_eq_true hp1, if_true]
        refine ⟨fun _ => ?_, fun _ => ⟨false, js! "infinity", ⟨rfl, .inr rfl⟩, rfl⟩⟩
        rintro (g | ⟨-, g, -⟩)
        · exact hn g.1
        · exact g hp1
      · obtain ⟨k1, k2⟩ := field_sign (decide (ch! '-' ∈ d.flags)) w (N := js! "INFINITY") (by decide) (by decide)
        simp only [decide_eq_false hp1]
        constructor
        · rintro ⟨neg, name, ⟨rfl, rfl | rfl⟩, heq⟩
          · exfalso
            have h3 := congrArg (List.filter (· != 32)) heq
            rw [field_visible, field_visible] at h3
            by_cases g : ch! ' ' ∈ d.flags
            · simp only [decide_eq_true g] at h3; exact absurd h3 (by decide)
            · simp only [decide_eq_false g] at h3; exact absurd h3 (by decide)
          · have := ((k2 false (decide (ch! ' ' ∈ d.flags))).1 heq).2
            simp only [decide_eq_false_iff_not, decide_eq_true_eq, List.length_cons, List.length_nil] at this
            rintro (g | ⟨-, g1, g2, g3 | g3⟩)
            · exact hn g.1
            · exact (this g2).1 g3
            · exact absurd (this g2).2 (by omega)
        · intro hno
          refine ⟨false, js! "infinity", ⟨rfl, .inr rfl⟩,
            (k2 false (decide (ch! ' ' ∈ d.flags))).2 ⟨rfl, fun g => ?_⟩⟩
          simp only [decide_eq_false_iff_not, decide_eq_true_eq, List.length_cons, List.length_nil] at g ⊢
          by_contra g3
          refine hno (.inr ⟨.inr hneg, hp1, g, ?_⟩)
          by_contra g5
          exact g3 ⟨fun g6 => g5 (.inl g6), by omega⟩

/-! ### Examples -/

-- `%#g`: the plain style keeps its zeros, as in C; in the exponent style digits are missing where C has
-- `1.00000e+10` and `1.e+10`
example : printf ⟨fun _ => true⟩ sampleDateEnv (js! "%#g|%#.3g|%#.1g")
    [doubleArg 0x3FF8000000000000#64, doubleArg 0x3FF8000000000000#64, doubleArg 0x4202A05F20000000#64] =
    .ok (js! "1.50000|1.50|1e+10") := by decide +kernel
-- `%a`: 1.0 has a zero after the point (glibc prints `0x1p+0`); precision 0 counts as 1 (C: `0x1p+0`)
example : printf ⟨fun _ => true⟩ sampleDateEnv (js! "%a|%.0a|%.2a")
    [doubleArg 0x3FF0000000000000#64, doubleArg 0x3FF0000000000000#64, doubleArg 0x3FF8000000000000#64] =
    .ok (js! "0x1.0p+0|0x1.0p+0|0x1.80p+0") := by decide +kernel
-- infinities: C prints `inf`, and `+NAN`, ` INFINITY`
example : printf ⟨fun _ => true⟩ sampleDateEnv (js! "%f|%+F|% F|% 9F")
    [doubleArg 0x7FF0000000000000#64, doubleArg 0x7FF8000000000000#64, doubleArg 0x7FF0000000000000#64,
      doubleArg 0x7FF0000000000000#64] =
    .ok (js! "Infinity|NAN|INFINITY| INFINITY") := by decide +kernel
-- the references have texts
example : CGeneralAlt { alternate := true } 0 6 0#64 (js! "0.00000") :=
  ⟨0, 0, js! "0.00000", .inl ⟨by rw [magnitude_zero_iff]; decide, rfl, rfl⟩, by
    rw [if_pos (by decide)]
    exact ⟨0, .inl (by rw [show magnitude 0#64 = 0 by rw [magnitude_zero_iff]; decide]; norm_num), js! "0", js! "00000",
      by decide, by unfold IsNumeral; decide, by unfold NoExtraZero; decide, by decide, by decide, by decide⟩, by decide⟩

end FastPrintf
