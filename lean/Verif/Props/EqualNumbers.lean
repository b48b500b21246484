/-
C83: equal numbers print alike, whatever their types and representations, and the exceptions.
-/
import Verif.Spec.EqualNumbers
import Verif.Props.Integers
import Verif.Props.BigDecimal
import Verif.Props.ReadBack
import Verif.Props.Readings
import Verif.Props.Text
import Verif.Props.DoubleText
import Verif.Proofs.CFloat

namespace FastPrintf
open Spec DefaultAppender

/-! ### Integers -/

theorem Spec.Counts.d {dates : DateSyntax} (env : DateEnv) {jdk : JdkEnv} {d : Directive} (h : d.Ok dates)
    (hp : d.Plain) (hc : d.conv = ch! 'd' ∨ d.conv = ch! 'i') {e : Entry} {v : Int} (hv : Counts jdk e v)
    (rest : List Traits) :
    printf dates env d.text (e.toTraits jdk :: rest) =
      .ok (dText (flagSet d.flags) d.width.width d.prec.precision v) := by
  obtain ⟨x, rfl, hx | hr⟩ := hv
  · exact printf_d env jdk h hp hc hx rest
  · have hi : d.conv ∈ intConvs := by rcases hc with hc | hc <;> rw [hc] <;> decide
    obtain ⟨e', he'⟩ : ∃ e', x.Given e' := by
      cases hx : x.prim? with
      | some p => exact ⟨_, .prim hx⟩
      | none => cases x with
        | big v => exact ⟨_, .big v ⟨[], 0⟩⟩
        | _ => cases hx
    rw [C48_read_as_integer dates env jdk d h hp hi e x hr e' he' rest]
    exact printf_d env jdk h hp hc he' rest

/-- **C83.** Under `%d` and `%i` arguments that stand for the same integer print alike: it does not matter whether it is
a `byte`, `short`, `char`, `int`, `long`, `BigInteger`, a `float`, `double` or `BigDecimal` with that integer part,
a text that spells it, or a date. -/
theorem C83_d (dates : DateSyntax) (env : DateEnv) (jdk : JdkEnv) (d : Directive) (h : d.Ok dates) (hp : d.Plain)
    (hc : d.conv = ch! 'd' ∨ d.conv = ch! 'i') (e e' : Entry) (v : Int) (hv : Counts jdk e v)
    (hv' : Counts jdk e' v) (rest : List Traits) :
    printf dates env d.text (e.toTraits jdk :: rest) = printf dates env d.text (e'.toTraits jdk :: rest) := by
  rw [hv.d env h hp hc rest, hv'.d env h hp hc rest]

/-- The unsigned reading of a nonnegative integer is the integer. -/
theorem unsigned_nonneg {x : Integral} (h : 0 ≤ x.value) : x.unsigned = some x.value.toNat := by
  cases x with
  | byte v => simp only [Integral.value] at h; simp only [Integral.unsigned, Integral.value]; congr 2; have := v.isLt; rw [BitVec.toInt_eq_toNat_cond] at h ⊢; split at h <;> split <;> omega
  | short v => simp only [Integral.value] at h; simp only [Integral.unsigned, Integral.value]; congr 2; have := v.isLt; rw [BitVec.toInt_eq_toNat_cond] at h ⊢; split at h <;> split <;> omega
  | int v => simp only [Integral.value] at h; simp only [Integral.unsigned, Integral.value]; congr 2; have := v.isLt; rw [BitVec.toInt_eq_toNat_cond] at h ⊢; split at h <;> split <;> omega
  | long v => simp only [Integral.value] at h; simp only [Integral.unsigned, Integral.value]; congr 2; have := v.isLt; rw [BitVec.toInt_eq_toNat_cond] at h ⊢; split at h <;> split <;> omega
  | char v => simp [Integral.unsigned, Integral.value]
  | bool b => cases b <;> rfl
  | big v => simp only [Integral.value] at h; simp only [Integral.unsigned, Integral.value]; rw [if_neg (by omega)]

theorem Spec.Counts.unsigned {dates : DateSyntax} (env : DateEnv) {jdk : JdkEnv} {d : Directive} (h : d.Ok dates)
    (hp : d.Plain) {c : UConv} (hc : d.conv = c.char) {e : Entry} {v : Int} (hv : Counts jdk e v) (h0 : 0 ≤ v)
    (rest : List Traits) :
    printf dates env d.text (e.toTraits jdk :: rest) =
      .ok (uText c (flagSet d.flags) d.width.width d.prec.precision v.toNat) := by
  obtain ⟨x, rfl, hx | hr⟩ := hv
  · exact printf_u env jdk h hp hc hx (unsigned_nonneg h0) rest
  · have hi : d.conv ∈ intConvs := by rw [hc]; cases c <;> decide
    obtain ⟨e', he'⟩ : ∃ e', x.Given e' := by
      cases hx : x.prim? with
      | some p => exact ⟨_, .prim hx⟩
      | none => cases x with
        | big v => exact ⟨_, .big v ⟨[], 0⟩⟩
        | _ => cases hx
    rw [C48_read_as_integer dates env jdk d h hp hi e x hr e' he' rest]
    exact printf_u env jdk h hp hc he' (unsigned_nonneg h0) rest

/-- Under `%u`, `%o` and `%x` so do nonnegative ones. -/
theorem C83_unsigned (dates : DateSyntax) (env : DateEnv) (jdk : JdkEnv) (d : Directive) (h : d.Ok dates)
    (hp : d.Plain) (c : UConv) (hc : d.conv = c.char) (e e' : Entry) (v : Int) (hv : Counts jdk e v)
    (hv' : Counts jdk e' v) (h0 : 0 ≤ v) (rest : List Traits) :
    printf dates env d.text (e.toTraits jdk :: rest) = printf dates env d.text (e'.toTraits jdk :: rest) := by
  rw [hv.unsigned env h hp hc h0 rest, hv'.unsigned env h hp hc h0 rest]

/-! ### Decimals -/

/-- What is known of a number of value `v`: it prints like a big number or like a `double` whose decimal it is. -/
theorem Spec.Worth.cases' {e : Entry} {v : ℚ} (hw : Worth e v) (jdk : JdkEnv) :
    (∃ u scale n, IsBig e u scale ∧ DigitCount u.natAbs n ∧ ScaleOk n scale ∧ (u ≠ 0 ∨ 0 ≤ scale) ∧
      |v| = bigValue u.natAbs scale ∧ (v < 0 ↔ u < 0)) ∨
    (∃ bits e', IsDouble e' bits ∧ finite bits ∧ DecimalOf bits |v| ∧ (v < 0 ↔ negative bits) ∧
      (∀ (dates : DateSyntax) (env : DateEnv) (d : Directive), d.Ok dates → d.Plain → d.conv ∈ allFloatConvs → ∀ rest : List Traits,
        printf dates env d.text (e.toTraits jdk :: rest) = printf dates env d.text (e'.toTraits jdk :: rest)) ∧
      ¬ ∃ u scale, IsBig e u scale) := by
  cases hw with
  | @integer x e h hb hv =>
    right
    have hle : |x.value| ≤ 2 ^ 63 := integral_abs_le hb
    have hn := JavaDouble.ofInt_nearest hle
    set bits := JavaDouble.ofInt x.value
    have hf : IsFloat (|(x.value : ℚ)|) := by
      refine ⟨x.value.natAbs, 0, hv, by norm_num, ?_⟩
      rw [zpow_zero, mul_one, ← Int.cast_abs, Int.abs_eq_natAbs]; rfl
    have hm : magnitude bits = x.value.natAbs := by
      have h1 := hn.2.2.le hf le_rfl
      have h2 := hn.2.2.ge hf le_rfl
      rw [le_antisymm h2 h1, ← Int.cast_abs, Int.abs_eq_natAbs]; rfl
    refine ⟨bits, .prim (.double bits), .prim bits, hn.1, ?_, hn.2.1.symm, ?_, ?_⟩
    · have := C60_integer hn.1 hm hv
      rwa [← Int.cast_abs, Int.abs_eq_natAbs]
    · intro dates env d h' hp hc rest
      exact C49_read_as_double dates env jdk d h' hp hc e bits (.integral h hb hn) _ (.prim bits) rest
    · rintro ⟨u, scale, k⟩
      cases k <;> cases h
      exact hb _ rfl
  | @big e u scale h n hn hs hz =>
    left
    have hp : (0 : ℚ) < 10 ^ (-scale) := by positivity
    refine ⟨u, scale, n, h, hn, hs, hz, ?_, ?_⟩
    · rw [abs_mul, abs_of_pos hp]
      unfold bigValue
      congr 1
      rw [← Int.cast_abs, Int.abs_eq_natAbs]; rfl
    · rw [mul_neg_iff]
      constructor
      · rintro (⟨_, h⟩ | ⟨h, _⟩)
        · linarith
        · exact_mod_cast h
      · intro h; right; exact ⟨by exact_mod_cast h, hp⟩
  | @double e bits h hf hz q hq =>
    right
    have h0 : 0 ≤ q := by
      rcases hq with ⟨_, rfl⟩ | ⟨_, hq⟩
      · exact le_rfl
      · exact (javaDecimal_pos hq).le
    have ha : |signed (negative bits) q| = q := by
      unfold signed; split_ifs
      · rw [abs_neg, abs_of_nonneg h0]
      · exact abs_of_nonneg h0
    refine ⟨bits, e, h, hf, by rwa [ha], ?_, fun _ _ _ _ _ _ _ => rfl, by rintro ⟨u, scale, k⟩; cases k <;> cases h⟩
    unfold signed
    by_cases hn : negative bits
    · rw [if_pos (decide_eq_true hn)]
      have : 0 < q := by
        rcases hq with ⟨h1, _⟩ | ⟨h1, hq⟩
        · exact absurd hn (hz h1)
        · exact javaDecimal_pos hq
      exact ⟨fun _ => hn, fun _ => by linarith⟩
    · rw [if_neg (by simpa using hn)]
      exact ⟨fun h => absurd h (not_lt.2 h0), fun h => absurd h hn⟩

/-- `%f` depends on the value only. -/
theorem Spec.Worth.f {dates : DateSyntax} (env : DateEnv) (jdk : JdkEnv) {d : Directive} (h : d.Ok dates)
    (hp : d.Plain) (hc : d.conv = ch! 'f') {e : Entry} {v : ℚ} (hw : Worth e v) (rest : List Traits) :
    ∃ body, printf dates env d.text (e.toTraits jdk :: rest) =
        .ok (d.field (signText (flagSet d.flags) (v < 0)) body) ∧
      FixedText (halfUp |v| (d.prec.precision.getD 6)) (d.prec.precision.getD 6) (flagSet d.flags).alternate body := by
  rcases hw.cases' jdk with ⟨u, scale, n, hb, hn, hs, hz, hv, hsg⟩ | ⟨bits, e', hb, hf, hq, hsg, heq, -⟩
  · obtain ⟨body, h1, h2⟩ := C28_f dates env jdk d h hp hc u scale e hb n hn hs hz rest
    exact ⟨body, by rw [h1]; simp only [hsg], by rwa [hv]⟩
  · obtain ⟨q, body, h1, h2, h3⟩ := C23_f dates env jdk d h hp hc bits hf e' hb rest
    have : q = |v| := by
      rcases hq with ⟨g1, g2⟩ | ⟨g1, g2⟩ <;> rcases h2 with ⟨k1, k2⟩ | ⟨k1, k2⟩
      · rw [g2, k2]
      · exact absurd g1 k1
      · exact absurd k1 g1
      · exact k2.unique hf k1 g2
    subst this
    exact ⟨body, by rw [heq dates env d h hp (by rw [hc]; decide), h1]; simp only [hsg], h3⟩

/-- **C83 (`%f`).** Numbers of the same value print alike under `%f`, whatever their types and representations. -/
theorem C83_f (dates : DateSyntax) (env : DateEnv) (jdk : JdkEnv) (d : Directive) (h : d.Ok dates) (hp : d.Plain)
    (hc : d.conv = ch! 'f') (e e' : Entry) (v : ℚ) (hv : Worth e v) (hv' : Worth e' v) (rest : List Traits) :
    printf dates env d.text (e.toTraits jdk :: rest) = printf dates env d.text (e'.toTraits jdk :: rest) := by
  obtain ⟨b, h1, h2⟩ := hv.f env jdk h hp hc rest
  obtain ⟨b', h1', h2'⟩ := hv'.f env jdk h hp hc rest
  rw [h1, h1', h2.unique h2']

/-- `%e` of a nonzero number, as far as it depends on the value only. -/
theorem Spec.Worth.e {dates : DateSyntax} (env : DateEnv) (jdk : JdkEnv) {d : Directive} (h : d.Ok dates)
    (hp : d.Plain) (hc : d.conv = ch! 'e') {e : Entry} {v : ℚ} (hw : Worth e v) (h0 : v ≠ 0) (rest : List Traits) :
    ∃ m ex M x, printf dates env d.text (e.toTraits jdk :: rest) =
        .ok (d.field (signText (flagSet d.flags) (v < 0)) (m ++ ch! 'e' :: ex)) ∧
      Significant |v| (d.prec.precision.getD 6 + 1) M x ∧
      FixedText M (d.prec.precision.getD 6) (flagSet d.flags).alternate m ∧
      (d.prec.precision.getD 6 < 9 ∨ x ≠ 9 → ExponentText x ex) := by
  rcases hw.cases' jdk with ⟨u, scale, n, hb, hn, hs, hz, hv, hsg⟩ | ⟨bits, e', hb, hf, hq, hsg, heq, -⟩
  · have hu : u ≠ 0 := by
      rintro rfl
      apply h0
      rw [← abs_eq_zero, hv]
      simp [bigValue]
    obtain ⟨m, ex, M, x, h1, h2, h3, h4⟩ := C29_e dates env jdk d h hp hc u scale e hb n hn hs hu rest
    refine ⟨m, ex, M, x, by rw [h1]; simp only [hsg], by rwa [hv], h3, fun g => ?_⟩
    unfold BigExponentText at h4
    rwa [if_neg (by rintro ⟨k1, k2⟩; rcases g with g | g <;> omega)] at h4
  · obtain ⟨m, ex, h1, h2⟩ := C24_e dates env jdk d h hp hc bits hf e' hb rest
    have hm : magnitude bits ≠ 0 := by
      intro hm
      rcases hq with ⟨_, g⟩ | ⟨g, _⟩
      · exact h0 (abs_eq_zero.1 g)
      · exact g hm
    rcases h2 with ⟨g, _⟩ | ⟨q, M, x, -, k1, k2, k3, k4⟩
    · exact absurd g hm
    · have : q = |v| := by
        rcases hq with ⟨g1, g2⟩ | ⟨g1, g2⟩
        · exact absurd g1 hm
        · exact k1.unique hf hm g2
      subst this
      exact ⟨m, ex, M, x, by rw [heq dates env d h hp (by rw [hc]; decide), h1]; simp only [hsg], k2, k3, fun _ => k4⟩

/-- A number rounded to at least ten digits has exponent 9 only if it is between `10^9 - 1` and `10^10`. -/
theorem exponent_nine {v : ℚ} {P M : Nat} (hP : 10 ≤ P) (h : Significant v P M 9) : 10 ^ 9 - 1 < v ∧ v < 10 ^ 10 := by
  have h10 : (10 : ℚ) ≠ 0 := by norm_num
  obtain ⟨h1, h2, x0, l, r, he⟩ := h
  have v0 : 0 < v := lt_of_lt_of_le (by positivity) l
  have err := halfUp_error v0.le ((P : Int) - 1 - x0)
  rw [show -((P : Int) - 1 - x0) = x0 - (P - 1) from by ring, ← he] at err
  have hlow : (10 : ℚ) ^ (9 : Int) ≤ M * 10 ^ (9 - ((P : Int) - 1)) := by
    have hM : (10 : ℚ) ^ ((P : Int) - 1) ≤ M := by
      rw [show (P : Int) - 1 = ((P - 1 : Nat) : Int) from by omega, zpow_natCast]; exact_mod_cast h1
    calc (10 : ℚ) ^ (9 : Int) = 10 ^ ((P : Int) - 1) * 10 ^ (9 - ((P : Int) - 1)) := by rw [← zpow_add₀ h10]; congr 1; ring
      _ ≤ _ := mul_le_mul_of_nonneg_right hM (by positivity)
  have hhigh : (M : ℚ) * 10 ^ (9 - ((P : Int) - 1)) < 10 ^ (10 : Int) := by
    have hM : (M : ℚ) < 10 ^ (P : Int) := by rw [zpow_natCast]; exact_mod_cast h2
    calc (M : ℚ) * 10 ^ (9 - ((P : Int) - 1)) < 10 ^ (P : Int) * 10 ^ (9 - ((P : Int) - 1)) :=
          mul_lt_mul_of_pos_right hM (by positivity)
      _ = _ := by rw [← zpow_add₀ h10]; congr 1; ring
  have hx : x0 ≤ 9 := by
    by_contra hx
    have hx : 10 ≤ x0 := by omega
    have hf : 10 ^ (P - 1) ≤ halfUp v ((P : Int) - 1 - x0) := by
      unfold halfUp
      apply Nat.le_floor
      have : (10 : ℚ) ^ ((P : Int) - 1) ≤ v * 10 ^ ((P : Int) - 1 - x0) := by
        calc (10 : ℚ) ^ ((P : Int) - 1) = 10 ^ x0 * 10 ^ ((P : Int) - 1 - x0) := by rw [← zpow_add₀ h10]; congr 1; ring
          _ ≤ _ := mul_le_mul_of_nonneg_right l (by positivity)
      rw [show (P : Int) - 1 = ((P - 1 : Nat) : Int) from by omega, zpow_natCast] at this
      push_cast
      rw [show (P : Int) - 1 = ((P - 1 : Nat) : Int) from by omega]
      linarith
    have : (10 : ℚ) ^ x0 ≤ M * 10 ^ (9 - ((P : Int) - 1)) := by
      rw [he]
      have hf' : (10 : ℚ) ^ ((P : Int) - 1) ≤ (halfUp v ((P : Int) - 1 - x0) : ℚ) := by
        rw [show (P : Int) - 1 = ((P - 1 : Nat) : Int) from by omega, zpow_natCast]
        rw [show ((P - 1 : Nat) : Int) = (P : Int) - 1 from by omega]
        exact_mod_cast hf
      calc (10 : ℚ) ^ x0 = 10 ^ ((P : Int) - 1) * 10 ^ (x0 - ((P : Int) - 1)) := by rw [← zpow_add₀ h10]; congr 1; ring
        _ ≤ _ := mul_le_mul_of_nonneg_right hf' (by positivity)
    have : (10 : ℚ) ^ (10 : Int) ≤ 10 ^ x0 := zpow_le_zpow_right₀ (by norm_num) hx
    linarith
  have hs : (10 : ℚ) ^ (x0 - ((P : Int) - 1)) ≤ 10 ^ (0 : Int) := zpow_le_zpow_right₀ (by norm_num) (by omega)
  rw [abs_le] at err
  rw [zpow_zero] at hs
  norm_num at hlow ⊢
  constructor
  · linarith [err.2]
  · calc v < 10 ^ (x0 + 1) := r
      _ ≤ 10 ^ (10 : Int) := zpow_le_zpow_right₀ (by norm_num) (by omega)
      _ = _ := by norm_num

/-- **C83 (`%e`).** Nonzero numbers of the same value print alike under `%e` with a precision below 9; with a higher
one too, unless the number is about `10^9 … 10^10`. -/
theorem C83_e (dates : DateSyntax) (env : DateEnv) (jdk : JdkEnv) (d : Directive) (h : d.Ok dates) (hp : d.Plain)
    (hc : d.conv = ch! 'e') (e e' : Entry) (v : ℚ) (hv : Worth e v) (hv' : Worth e' v) (h0 : v ≠ 0)
    (h9 : d.prec.precision.getD 6 < 9 ∨ |v| ≤ 10 ^ 9 - 1 ∨ 10 ^ 10 ≤ |v|) (rest : List Traits) :
    printf dates env d.text (e.toTraits jdk :: rest) = printf dates env d.text (e'.toTraits jdk :: rest) := by
  obtain ⟨m, ex, M, x, h1, h2, h3, h4⟩ := hv.e env jdk h hp hc h0 rest
  obtain ⟨m', ex', M', x', h1', h2', h3', h4'⟩ := hv'.e env jdk h hp hc h0 rest
  obtain ⟨rfl, rfl⟩ := h2.unique h2'
  have hg : d.prec.precision.getD 6 < 9 ∨ x ≠ 9 := by
    by_cases hx : x = 9
    · subst hx
      by_cases hp9 : d.prec.precision.getD 6 < 9
      · exact .inl hp9
      · have := exponent_nine (by omega) h2
        rcases h9 with g | g | g
        · exact .inl g
        · linarith [this.1]
        · linarith [this.2]
    · exact .inr hx
  rw [h1, h1', h3.unique h3', (h4 hg).unique (h4' hg)]

/-- `%g` without `#` and width of a nonzero number, as far as it depends on the value only: the style goes by an
exponent that is the one of the rounded number, and for a big number the one before rounding. -/
theorem Spec.Worth.g {dates : DateSyntax} (env : DateEnv) (jdk : JdkEnv) {d : Directive} (h : d.Ok dates)
    (hp : d.Plain) (hc : d.conv = ch! 'g') (ha : (flagSet d.flags).alternate = false) (hw : d.width.width = 0)
    {e : Entry} {v : ℚ} (hv : Worth e v) (h0 : v ≠ 0) (rest : List Traits) :
    ∃ body M x y, printf dates env d.text (e.toTraits jdk :: rest) =
        .ok (signText (flagSet d.flags) (v < 0) ++ body) ∧
      Significant |v| (max 1 (d.prec.precision.getD 6)) M x ∧
      BigGeneralText (max 1 (d.prec.precision.getD 6)) 0 false y M x body ∧
      (y = x ∨ (10 ^ y ≤ |v| ∧ |v| < 10 ^ (y + 1))) ∧
      ((∃ u scale, IsBig e u scale) → 10 ^ y ≤ |v| ∧ |v| < 10 ^ (y + 1)) := by
  rcases hv.cases' jdk with ⟨u, scale, n, hb, hn, hs, hz, hv, hsg⟩ | ⟨bits, e', hb, hf, hq, hsg, heq, hnb⟩
  · have hu : u ≠ 0 := by
      rintro rfl
      apply h0
      rw [← abs_eq_zero, hv]
      simp [bigValue]
    obtain ⟨body, y, M, x, h1, h2, h3, h4, h5⟩ := C29_g dates env jdk d h hp hc u scale e hb n hn hs hu rest
    rw [ha] at h5
    refine ⟨body, M, x, y, ?_, by rwa [hv], h5, .inr ⟨by rwa [hv], by rwa [hv]⟩, fun _ => ⟨by rwa [hv], by rwa [hv]⟩⟩
    rw [h1, hw, Nat.zero_sub]
    simp only [padWith, hsg, List.replicate_zero, List.append_nil, List.nil_append, ite_self]
  · obtain ⟨body, h1, h2⟩ := C25_g dates env jdk d h hp hc bits hf e' hb rest
    have hm : magnitude bits ≠ 0 := by
      intro hm
      rcases hq with ⟨_, g⟩ | ⟨g, _⟩
      · exact h0 (abs_eq_zero.1 g)
      · exact g hm
    rcases h2 with ⟨g, _⟩ | ⟨q, M, x, -, k1, k2, _, _, -, -, k3⟩
    · exact absurd g hm
    · have : q = |v| := by
        rcases hq with ⟨g1, g2⟩ | ⟨g1, g2⟩
        · exact absurd g1 hm
        · exact k1.unique hf hm g2
      subst this
      rw [ha] at k3
      refine ⟨body, M, x, x, ?_, k2, k3, .inl rfl, fun g => absurd g hnb⟩
      rw [heq dates env d h hp (by rw [hc]; decide), h1]
      simp only [hsg, Directive.field, hw, field, Nat.zero_sub, List.replicate_zero, List.append_nil, List.nil_append, ite_self]

theorem minimalGeneral_unique {P n : Nat} {y : Int} {M : Nat} {x : Int} {s s' : JStr}
    (h : BigGeneralText P n false y M x s) (h' : BigGeneralText P n false y M x s') : s = s' := by
  unfold BigGeneralText at h h'
  by_cases hs : -4 ≤ y ∧ y < P
  · rw [if_pos hs] at h h'
    exact MinimalText.unique h h'
  · rw [if_neg hs] at h h'
    obtain ⟨m, xs, rfl, h1, h2⟩ := h
    obtain ⟨m', xs', rfl, h1', h2'⟩ := h'
    rw [h1.unique h1', MinimalText.unique h2 h2']

/-- **C83 (`%g`).** Nonzero numbers of the same value print alike under `%g` without `#` and without a width, if
rounding does not change the decimal exponent. -/
theorem C83_g (dates : DateSyntax) (env : DateEnv) (jdk : JdkEnv) (d : Directive) (h : d.Ok dates) (hp : d.Plain)
    (hc : d.conv = ch! 'g') (ha : (flagSet d.flags).alternate = false) (hw : d.width.width = 0) (e e' : Entry) (v : ℚ)
    (hv : Worth e v) (hv' : Worth e' v) (h0 : v ≠ 0) (hn : NoCarry v (max 1 (d.prec.precision.getD 6)))
    (rest : List Traits) :
    printf dates env d.text (e.toTraits jdk :: rest) = printf dates env d.text (e'.toTraits jdk :: rest) := by
  obtain ⟨b, M, x, y, h1, h2, h3, h4, -⟩ := hv.g env jdk h hp hc ha hw h0 rest
  obtain ⟨b', M', x', y', h1', h2', h3', h4', -⟩ := hv'.g env jdk h hp hc ha hw h0 rest
  obtain ⟨rfl, rfl⟩ := h2.unique h2'
  obtain ⟨M', x', g1, g2, g3⟩ := hn
  obtain ⟨rfl, rfl⟩ := h2.unique g1
  have same : ∀ y : Int, (y = x ∨ (10 ^ y ≤ |v| ∧ |v| < 10 ^ (y + 1))) → y = x := by
    rintro y (rfl | ⟨k1, k2⟩)
    · rfl
    · exact decade_unique k1 k2 g2 g3
  rw [same y h4] at h3
  rw [same y' h4'] at h3'
  rw [h1, h1', minimalGeneral_unique h3 h3']

/-- Two big numbers of the same value do so without that condition. -/
theorem C83_g_big (dates : DateSyntax) (env : DateEnv) (jdk : JdkEnv) (d : Directive) (h : d.Ok dates) (hp : d.Plain)
    (hc : d.conv = ch! 'g') (ha : (flagSet d.flags).alternate = false) (hw : d.width.width = 0) (e e' : Entry)
    (u scale u' scale' : Int) (he : IsBig e u scale) (he' : IsBig e' u' scale') (v : ℚ)
    (hv : Worth e v) (hv' : Worth e' v) (h0 : v ≠ 0) (rest : List Traits) :
    printf dates env d.text (e.toTraits jdk :: rest) = printf dates env d.text (e'.toTraits jdk :: rest) := by
  obtain ⟨b, M, x, y, h1, h2, h3, -, h4⟩ := hv.g env jdk h hp hc ha hw h0 rest
  obtain ⟨b', M', x', y', h1', h2', h3', -, h4'⟩ := hv'.g env jdk h hp hc ha hw h0 rest
  obtain ⟨rfl, rfl⟩ := h2.unique h2'
  obtain ⟨k1, k2⟩ := h4 ⟨_, _, he⟩
  obtain ⟨k1', k2'⟩ := h4' ⟨_, _, he'⟩
  obtain rfl : y = y' := decade_unique k1 k2 k1' k2'
  rw [h1, h1', minimalGeneral_unique h3 h3']

/-! ### The exceptions -/

/-- **C83 (capitals).** Two arguments that print alike under a conversion print alike under its upper-case twin. -/
theorem C83_upper (dates : DateSyntax) (env : DateEnv) (jdk : JdkEnv) (d : Directive) (h : d.Ok dates)
    (up : JChar) (hu : (d.conv, up) ∈ casePairs) (e e' : Entry) (he : WellBehaved e) (he' : WellBehaved e') (s : JStr)
    (h1 : printf dates env d.text [e.toTraits jdk] = .ok s) (h2 : printf dates env d.text [e'.toTraits jdk] = .ok s) :
    printf dates env ({ d with conv := up } : Directive).text [e.toTraits jdk] =
      printf dates env ({ d with conv := up } : Directive).text [e'.toTraits jdk] := by
  have key : ∀ e : Entry, WellBehaved e → printf dates env d.text [e.toTraits jdk] = .ok s →
      printf dates env ({ d with conv := up } : Directive).text [e.toTraits jdk] = .ok (s.map Spec.upper) := by
    intro e he hs
    rcases (C19_upper_case dates env jdk d h up hu [e] (by simpa using he)).2 with g | ⟨-, g, -⟩
    · rw [List.map_singleton, hs] at g
      exact g
    · rw [List.map_singleton, hs] at g
      cases g
  rw [key e he h1, key e' he' h2]

/-- Negative integers do not print alike under the unsigned conversions: the width of the type shows. -/
theorem C83_unsigned_witness :
    printf ⟨fun _ => true⟩ sampleDateEnv (js! "%x %x") [intArg (-1#32), (Prim.long (-1#64)).traits sampleJdk .primitive] =
      .ok (js! "ffffffff ffffffffffffffff") := rfl

/-- Equal `BigDecimal`s that do not print alike: under `%.9e` 1234567890 and 123456789E+1, under `%8g` 2.5 and 2.50,
under `%#g` 1E+7 and 1.0E+7, and the zeros 0 and 0.00, or 0 and 0E+3. -/
theorem C83_scale_witness :
    printf ⟨fun _ => true⟩ sampleDateEnv (js! "%.9e %.9e") [bigArg 1234567890 0, bigArg 123456789 (-1)] =
      .ok (js! "1.234567890e+9 1.234567890e+09") ∧
    printf ⟨fun _ => true⟩ sampleDateEnv (js! "%8g|%8g") [bigArg 25 1, bigArg 250 2] =
      .ok (js! "     2.5|       2.5") ∧
    printf ⟨fun _ => true⟩ sampleDateEnv (js! "%#g %#g") [bigArg 1 (-7), bigArg 10 (-6)] =
      .ok (js! "1e+07 1.0e+07") ∧
    printf ⟨fun _ => true⟩ sampleDateEnv (js! "%e %e %g %g") [bigArg 0 0, bigArg 0 2, bigArg 0 0, bigArg 0 2] =
      .ok (js! "0.000000e+00 0.000000e-02 0 0e-02") ∧
    printf ⟨fun _ => true⟩ sampleDateEnv (js! "%f %f") [bigArg 0 0, bigArg 0 (-3)] =
      .ok (js! "0.000000 0000.000000") :=
  ⟨rfl, rfl, rfl, rfl, rfl⟩

/-- A `double` and a `BigDecimal` of the same value: under `%g` 999999.5, which rounding carries to a million, and under
`%.9e` 1234567890. -/
theorem C83_carry_witness :
    printf ⟨fun _ => true⟩ sampleDateEnv (js! "%g %g") [doubleArg 0x412E847F00000000#64, bigArg 9999995 1] =
      .ok (js! "1e+06 1000000") ∧
    printf ⟨fun _ => true⟩ sampleDateEnv (js! "%.9e %.9e") [doubleArg 0x41D26580B4800000#64, bigArg 1234567890 0] =
      .ok (js! "1.234567890e+09 1.234567890e+9") := by
  decide +kernel

/-- A `long` is read as a `double` by the decimal conversions, so that above `2^53` it need not print like the
`BigInteger` of its value. -/
theorem C83_long_witness :
    printf ⟨fun _ => true⟩ sampleDateEnv (js! "%.0f %.0f") [(Prim.long 9007199254740993#64).traits sampleJdk .primitive,
      bigIntArg 9007199254740993] = .ok (js! "9007199254740992 9007199254740993") := by
  decide +kernel

/-! ### Examples -/

-- 2.5 as a `double`, as 2.5 and as 2.50
example : Worth (.prim (.double 0x4004000000000000#64)) (5 / 2) := by
  have hf : finite 0x4004000000000000#64 := by unfold finite; decide
  have h0 : magnitude 0x4004000000000000#64 ≠ 0 := by rw [Ne, magnitude_zero_iff]; decide
  obtain ⟨f, e, n, h1, -, -, -, -, h2, -⟩ := C26_decimal _ hf h0
  have h3 : DoubleToDecimal.toDecimal 0x4004000000000000#64 = .ok (.dec 25000000000000000#64 (-16) 17) := by
    decide +kernel
  rw [h3] at h1
  cases h1
  have := Worth.double (.prim 0x4004000000000000#64) hf (fun h => absurd h h0) (.inr ⟨h0, h2⟩)
  rw [show signed (decide (negative 0x4004000000000000#64)) (((25000000000000000#64).toNat : ℚ) * 10 ^ (-16 : Int)) = 5 / 2 by
    unfold signed; rw [if_neg (by decide)]; norm_num] at this
  exact this
example : Worth (.ref (.bigDecimal 25 1 ⟨[], 0⟩)) (5 / 2) := by
  have := Worth.big (.decimal 25 1 ⟨[], 0⟩) (n := 2)
    ⟨js! "25", by unfold Shortest IsNumeral NoExtraZero; decide, rfl⟩ (by unfold ScaleOk; omega) (.inl (by decide))
  norm_num at this
  exact this
example : Worth (.ref (.bigDecimal 250 2 ⟨[], 0⟩)) (5 / 2) := by
  have := Worth.big (.decimal 250 2 ⟨[], 0⟩) (n := 3)
    ⟨js! "250", by unfold Shortest IsNumeral NoExtraZero; decide, rfl⟩ (by unfold ScaleOk; omega) (.inl (by decide))
  norm_num at this
  exact this
example : Worth (.prim (.int (-7#32))) (-7) := by
  have := Worth.integer (x := .int (-7#32)) (.prim rfl) (by rintro v ⟨⟩) (by decide)
  rw [show (Integral.int (-7#32)).value = -7 by decide] at this
  exact_mod_cast this
example : printf ⟨fun _ => true⟩ sampleDateEnv (js! "%+08.2f|%+08.2f|%+08.2f|%e %e %e|%g %g %g")
    ((List.replicate 3 [doubleArg 0x4004000000000000#64, bigArg 25 1, bigArg 250 2]).flatten) =
    .ok (js! "+0002.50|+0002.50|+0002.50|2.500000e+00 2.500000e+00 2.500000e+00|2.5 2.5 2.5") := by decide +kernel
-- rounding 2.5 to six digits does not carry
example : NoCarry (5 / 2) 6 := by
  refine ⟨250000, 0, ⟨by norm_num, by norm_num, 0, by norm_num [abs_of_pos], by norm_num [abs_of_pos], ?_⟩, by norm_num [abs_of_pos],
    by norm_num [abs_of_pos]⟩
  have : halfUp |(5 / 2 : ℚ)| (((6 : Nat) : Int) - 1 - 0) = 250000 := by
    rw [abs_of_pos (by norm_num)]
    unfold halfUp
    rw [show (5 / 2 : ℚ) * 10 ^ (((6 : Nat) : Int) - 1 - 0) + 1 / 2 = 250000 + 1 / 2 by norm_num]
    exact (Nat.floor_eq_iff (by norm_num)).2 ⟨by norm_num, by norm_num⟩
  rw [this]
-- seven as an `int`, as a `BigInteger`, as 7.9 and as a text
example : Counts sampleJdk (.prim (.int 7#32)) 7 := ⟨.int 7#32, by decide, .inl (.prim rfl)⟩
example : Counts sampleJdk (.ref (.bigInteger 7 ⟨[], 0⟩)) 7 := ⟨.big 7, rfl, .inl (.big 7 _)⟩
example : Counts sampleJdk (.ref (.bigDecimal 79 1 ⟨[], 0⟩)) 7 :=
  ⟨_, by norm_num [Integral.value, truncation], .inr (.bigDecimal 79 1 ⟨[], 0⟩)⟩
example : printf ⟨fun _ => true⟩ sampleDateEnv (js! "%03d %03d %03d %03d") [intArg 7#32, bigIntArg 7, bigArg 79 1,
    strArg (js! "7")] = .ok (js! "007 007 007 007") := rfl

end FastPrintf
