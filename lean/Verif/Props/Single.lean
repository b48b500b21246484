/-
C81: printed floats.  A `float` is printed by its widening to `double`; nine digits read back as the `float`,
and six digits are those it was written with.
-/
import Verif.Spec.Single
import Verif.Props.Order
import Verif.Props.Readings
import Verif.Props.Samples
import Verif.Proofs.CFloat

namespace FastPrintf
open Spec DefaultAppender

/-! ### The magnitude of a float and its neighbours -/

/-- The significand and exponent of a `float`. -/
theorem single_form {b : BitVec 32} : ∃ (c : Nat) (q : Int), magnitude32 b = c * 2 ^ q ∧ c < 2 ^ 24 ∧ -149 ≤ q ∧
    (q = -149 ∨ 2 ^ 23 ≤ c) ∧ (expBits32 b ≠ 0 → 2 ^ 23 ≤ c) := by
  have hE : expBits32 b < 256 := Nat.mod_lt _ (by norm_num)
  have hT : fracBits32 b < 2 ^ 23 := Nat.mod_lt _ (by norm_num)
  unfold magnitude32
  by_cases h : expBits32 b = 0
  · rw [if_pos h]
    exact ⟨fracBits32 b, -149, rfl, by omega, by omega, .inl rfl, fun h' => absurd h h'⟩
  · rw [if_neg h]
    exact ⟨2 ^ 23 + fracBits32 b, (expBits32 b : Int) - 150, rfl, by omega, by omega, .inr (by omega), fun _ => by omega⟩

/-- Different magnitudes of floats are apart. -/
theorem single_gap {c : Nat} {q : Int} (hq : q = -149 ∨ 2 ^ 23 ≤ c) {y : ℚ} (hy : IsSingle y)
    (hne : y ≠ c * 2 ^ q) : (2 : ℚ) ^ (q - 1) ≤ |y - c * 2 ^ q| := by
  obtain ⟨c', q', h1, h2, rfl⟩ := hy
  have two : (2 : ℚ) ≠ 0 := by norm_num
  by_cases hqq : q - 1 ≤ q'
  · -- both are multiples of `2^(q-1)`
    have e1 : (c' : ℚ) * 2 ^ q' - c * 2 ^ q = (((c' * 2 ^ (q' - (q - 1)).toNat : Nat) : Int) - ((c * 2 : Nat) : Int) : Int) * 2 ^ (q - 1) := by
      push_cast
      rw [sub_mul, mul_assoc, mul_assoc, ← zpow_natCast, ← zpow_add₀ two, ← zpow_one_add₀ two]
      congr 3 <;> omega
    rw [e1, abs_mul, abs_of_pos (by positivity : (0 : ℚ) < 2 ^ (q - 1))]
    have hz : (((c' * 2 ^ (q' - (q - 1)).toNat : Nat) : Int) - ((c * 2 : Nat) : Int) : Int) ≠ 0 := by
      intro hz
      rw [hz] at e1
      apply hne
      rw [← sub_eq_zero, e1]; simp
    have : (1 : ℚ) ≤ |((((c' * 2 ^ (q' - (q - 1)).toNat : Nat) : Int) - ((c * 2 : Nat) : Int) : Int) : ℚ)| := by
      exact_mod_cast Int.one_le_abs hz
    have p : (0 : ℚ) < 2 ^ (q - 1) := by positivity
    nlinarith
  · -- the other one is below the binade
    have hc : 2 ^ 23 ≤ c := hq.resolve_left (by omega)
    have hcq : ((2 ^ 23 : Nat) : ℚ) ≤ c := by exact_mod_cast hc
    have hc' : (c' : ℚ) < ((2 ^ 24 : Nat) : ℚ) := by exact_mod_cast h1
    have hw : (2 : ℚ) ^ q' ≤ 2 ^ (q - 2) := zpow_le_zpow_right₀ (by norm_num) (by omega)
    have e1 : (2 : ℚ) ^ q = 4 * 2 ^ (q - 2) := by
      rw [show q = 2 + (q - 2) by ring, zpow_add₀ two]; norm_num
    have e2 : (2 : ℚ) ^ (q - 1) = 2 * 2 ^ (q - 2) := by
      rw [show q - 1 = 1 + (q - 2) by ring, zpow_add₀ two]; norm_num
    have p : (0 : ℚ) < 2 ^ (q - 2) := by positivity
    have p' : (0 : ℚ) < 2 ^ q' := by positivity
    rw [e1, e2, abs_sub_comm]
    refine le_trans ?_ (le_abs_self _)
    push_cast at hcq hc'
    have : (c' : ℚ) * 2 ^ q' ≤ 2 ^ 24 * 2 ^ (q - 2) :=
      mul_le_mul hc'.le hw p'.le (by norm_num)
    nlinarith

/-- A number that is near enough to a `float` is read as it. -/
theorem nearest_single {b : BitVec 32} {r : ℚ}
    (h : |r - magnitude32 b| < 2 ^ (-27 : Int) * magnitude32 b + 2 ^ (-152 : Int)) {y : ℚ} (hy : IsSingle y) :
    y = magnitude32 b ∨ |r - magnitude32 b| < |r - y| := by
  obtain ⟨c, q, hm, hc, hq, hn, -⟩ := single_form (b := b)
  by_cases hne : y = magnitude32 b
  · exact .inl hne
  · right
    rw [hm] at hne h ⊢
    have g := single_gap hn hy hne
    have e2 : (2 : ℚ) ^ (q - 1) = 2 ^ q / 2 := by
      rw [zpow_sub₀ (by norm_num)]; norm_num
    have hr : |r - c * 2 ^ q| < 2 ^ q / 4 := by
      have p : (0 : ℚ) < 2 ^ q := by positivity
      refine h.trans_le ?_
      have hcq : (c : ℚ) ≤ ((2 ^ 24 : Nat) : ℚ) := by exact_mod_cast hc.le
      push_cast at hcq
      have h1 : (2 : ℚ) ^ (-27 : Int) * (c * 2 ^ q) ≤ 2 ^ (-27 : Int) * (2 ^ 24 * 2 ^ q) :=
        mul_le_mul_of_nonneg_left (mul_le_mul_of_nonneg_right hcq p.le) (by positivity)
      have h2 : (2 : ℚ) ^ (-149 : Int) ≤ 2 ^ q := zpow_le_zpow_right₀ (by norm_num) hq
      rw [← mul_assoc (2 ^ (-27 : Int)) (2 ^ 24)] at h1
      norm_num at h1 h2 ⊢
      linarith
    have : |y - c * 2 ^ q| ≤ |r - y| + |r - c * 2 ^ q| := by
      rw [abs_sub_comm r y]
      calc |y - c * 2 ^ q| = |(y - r) + (r - c * 2 ^ q)| := by congr 1; ring
        _ ≤ _ := abs_add_le _ _
    linarith

/-! ### The widening -/

/-- The widening of a finite `float` has its sign and magnitude. -/
theorem widen_single {b : BitVec 32} (hf : finite32 b) : finite (JavaDouble.ofFloat b) ∧
    decide (negative (JavaDouble.ofFloat b)) = negative32 b ∧ magnitude (JavaDouble.ofFloat b) = magnitude32 b := by
  have h := JavaDouble.ofFloat_datum b
  unfold doubleDatum floatDatum at h
  unfold finite32 at hf
  rw [if_neg hf] at h
  unfold finite
  by_cases hx : expBits (JavaDouble.ofFloat b) = 2047
  · rw [if_pos hx] at h
    by_cases hy : fracBits (JavaDouble.ofFloat b) = 0
    · rw [if_pos hy] at h; cases h
    · rw [if_neg hy] at h; cases h
  · rw [if_neg hx] at h
    obtain ⟨h1, h2⟩ := Datum.number.inj h
    refine ⟨hx, h1, ?_⟩
    rw [h1] at h2
    unfold signed at h2
    by_cases hn : negative32 b = true
    · rw [if_pos hn, if_pos hn] at h2; exact neg_injective h2
    · rw [if_neg hn, if_neg hn] at h2; exact h2

/-- The widening is far from the limits of `double`: half a unit in its last place is small. -/
theorem widen_unit {b : BitVec 32} (hf : finite32 b) (h0 : magnitude32 b ≠ 0) :
    (2 : ℚ) ^ doubleQ (JavaDouble.ofFloat b) ≤ magnitude32 b * 2 ^ (-52 : Int) := by
  obtain ⟨f1, f2, f3⟩ := widen_single hf
  rw [← f3] at h0 ⊢
  have hc := (double_canonical f1 h0).1
  have p := two_zpow_pos (doubleQ (JavaDouble.ofFloat b))
  have big : (2 : ℚ) ^ (-149 : Int) ≤ magnitude (JavaDouble.ofFloat b) := by
    rw [f3] at h0 ⊢
    obtain ⟨c, q, hm, -, hq, -⟩ := single_form (b := b)
    have : (2 : ℚ) ^ (-149 : Int) ≤ 2 ^ q := zpow_le_zpow_right₀ (by norm_num) hq
    have hc : c ≠ 0 := by rintro rfl; simp [hm] at h0
    have hc1 : (1 : ℚ) ≤ c := by exact_mod_cast Nat.one_le_iff_ne_zero.2 hc
    rw [hm]
    have p : (0 : ℚ) < 2 ^ q := by positivity
    nlinarith
  have h52 : 2 ^ 52 ≤ doubleC (JavaDouble.ofFloat b) := by
    rcases hc.normal with hq | h
    · exfalso
      unfold magnitude at big
      rw [hq] at big
      have hlt : (doubleC (JavaDouble.ofFloat b) : ℚ) < ((2 ^ 53 : Nat) : ℚ) := by exact_mod_cast hc.lt
      have : (2 : ℚ) ^ (-149 : Int) = 2 ^ (925 : Nat) * 2 ^ (-1074 : Int) := by
        rw [← zpow_natCast, ← zpow_add₀ (by norm_num)]; norm_num
      rw [this] at big
      have p : (0 : ℚ) < 2 ^ (-1074 : Int) := by positivity
      have := le_of_mul_le_mul_right big p
      have l : (2 : ℚ) ^ 53 ≤ 2 ^ (925 : Nat) := pow_le_pow_right₀ (by norm_num) (by norm_num)
      push_cast at hlt
      exact absurd (l.trans this) (not_le.2 hlt)
    · exact h
  have h52q : ((2 ^ 52 : Nat) : ℚ) ≤ doubleC (JavaDouble.ofFloat b) := by exact_mod_cast h52
  unfold magnitude
  push_cast at h52q
  rw [show (2 : ℚ) ^ (-52 : Int) = 1 / 2 ^ 52 by norm_num]
  have := mul_le_mul_of_nonneg_right h52q p.le
  rw [mul_one_div, le_div_iff₀ (by norm_num)]
  linarith

theorem zero_unit {bits : BitVec 64} (h : magnitude bits = 0) : doubleQ bits = -1074 := by
  unfold doubleQ
  by_cases he : expBits bits = 0
  · rw [if_pos he]
  · exfalso
    unfold magnitude doubleC at h
    rw [if_neg he] at h
    have := two_zpow_pos (doubleQ bits)
    push_cast at h
    nlinarith [(Nat.cast_nonneg (fracBits bits) : (0 : ℚ) ≤ _)]

/-- Significand and exponent of a magnitude are determined. -/
theorem canonical32 {c c' : Nat} {q q' : Int} (h1 : c < 2 ^ 24) (h1' : c' < 2 ^ 24) (h2 : q = -149 ∨ 2 ^ 23 ≤ c)
    (h2' : q' = -149 ∨ 2 ^ 23 ≤ c') (h3 : -149 ≤ q) (h3' : -149 ≤ q') (h : (c : ℚ) * 2 ^ q = c' * 2 ^ q') :
    c = c' ∧ q = q' := by
  wlog hle : q ≤ q' generalizing c c' q q'
  · obtain ⟨g1, g2⟩ := this h1' h1 h2' h2 h3' h3 h.symm (by omega)
    exact ⟨g1.symm, g2.symm⟩
  obtain ⟨n, rfl⟩ : ∃ n : Nat, q' = q + n := ⟨(q' - q).toNat, by omega⟩
  rw [zpow_add₀ (by norm_num), zpow_natCast, mul_comm (2 ^ q : ℚ), ← mul_assoc] at h
  have h' := mul_right_cancel₀ (by positivity : (2 : ℚ) ^ q ≠ 0) h
  have h'' : c = c' * 2 ^ n := by exact_mod_cast h'
  rcases Nat.eq_zero_or_pos n with rfl | hn
  · exact ⟨by simpa using h'', by simp⟩
  · exfalso
    have : 2 ^ 23 ≤ c' := h2'.resolve_left (by omega)
    have : 2 ^ 1 ≤ 2 ^ n := Nat.pow_le_pow_right (by norm_num) hn
    nlinarith

/-- Sign and magnitude determine a finite `float`. -/
theorem single_unique {b b' : BitVec 32} (hs : negative32 b = negative32 b')
    (hm : magnitude32 b = magnitude32 b') : b = b' := by
  have hE : expBits32 b < 256 := Nat.mod_lt _ (by norm_num)
  have hT : fracBits32 b < 2 ^ 23 := Nat.mod_lt _ (by norm_num)
  have hE' : expBits32 b' < 256 := Nat.mod_lt _ (by norm_num)
  have hT' : fracBits32 b' < 2 ^ 23 := Nat.mod_lt _ (by norm_num)
  have key : expBits32 b = expBits32 b' ∧ fracBits32 b = fracBits32 b' := by
    have form : ∀ b : BitVec 32, magnitude32 b =
        ((if expBits32 b = 0 then fracBits32 b else 2 ^ 23 + fracBits32 b : Nat) : ℚ) *
          2 ^ (if expBits32 b = 0 then -149 else (expBits32 b : Int) - 150) := by
      intro b
      unfold magnitude32
      split_ifs <;> rfl
    rw [form b, form b'] at hm
    obtain ⟨h1, h2⟩ := canonical32 (by split_ifs <;> omega) (by split_ifs <;> omega) (by split_ifs <;> omega)
      (by split_ifs <;> omega) (by split_ifs <;> omega) (by split_ifs <;> omega) hm
    split_ifs at h1 h2 <;> omega
  apply BitVec.eq_of_toNat_eq
  have := b.isLt
  have := b'.isLt
  unfold negative32 at hs
  rw [decide_eq_decide] at hs
  unfold expBits32 fracBits32 at key
  omega

/-- A `float` prints like the `double` of the same value. -/
theorem print_single (dates : DateSyntax) (env : DateEnv) (jdk : JdkEnv) (d : Directive) (h : d.Ok dates)
    (hp : d.Plain) (hc : d.conv ∈ allFloatConvs) {b : BitVec 32} {e : Entry} (he : Holds e (.float b))
    (rest : List Traits) :
    printf dates env d.text (e.toTraits jdk :: rest) =
      printf dates env d.text ((Entry.prim (.double (JavaDouble.ofFloat b))).toTraits jdk :: rest) :=
  C49_read_as_double dates env jdk d h hp hc e _ (.float he (JavaDouble.ofFloat_datum b)) _ (.prim _) rest

/-! ### Nine digits read back -/

theorem significant_single {b : BitVec 32} (hf : finite32 b) {P : Nat} (hP : 9 ≤ P) {v : ℚ}
    (h : PrintsE P (JavaDouble.ofFloat b) v) {y : ℚ} (hy : IsSingle y) :
    y = magnitude32 b ∨ |v - magnitude32 b| < |v - y| := by
  obtain ⟨f1, f2, f3⟩ := widen_single hf
  by_cases h0 : magnitude32 b = 0
  · refine nearest_single ?_ hy
    rw [h.zero (by rw [f3, h0]), h0]
    simp
  · have m0 : 0 < magnitude32 b := lt_of_le_of_ne (by rw [← f3]; exact magnitude_nonneg _) (Ne.symm h0)
    refine nearest_single ?_ hy
    have he := h.error f1
    have hu := widen_unit hf h0
    rw [f3] at he
    refine he.trans_lt ?_
    have p : (10 : ℚ) ^ (-((P : Int) - 1)) ≤ 10 ^ (-8 : Int) := zpow_le_zpow_right₀ (by norm_num) (by omega)
    have pp : (0 : ℚ) < 10 ^ (-((P : Int) - 1)) := by positivity
    have w0 : (0 : ℚ) < 2 ^ doubleQ (JavaDouble.ofFloat b) := by positivity
    generalize (2 : ℚ) ^ doubleQ (JavaDouble.ofFloat b) = w at *
    generalize (10 : ℚ) ^ (-((P : Int) - 1)) = t at *
    generalize magnitude32 b = m at *
    have := mul_le_mul_of_nonneg_left p (by positivity : 0 ≤ m + w / 2)
    norm_num at hu this ⊢
    linarith

/-- **C81.** `%.pe` with `p ≥ 8` of a finite `float` prints a number that reads back as that `float`, sign
included (`-0.0f` too). -/
theorem C81_e (dates : DateSyntax) (env : DateEnv) (jdk : JdkEnv) (d : Directive) (h : d.Ok dates)
    (hp : d.Plain) (hc : d.conv = ch! 'e') (b : BitVec 32) (hf : finite32 b) (e : Entry)
    (he : Holds e (.float b)) (rest : List Traits) (hP : 8 ≤ d.prec.precision.getD 6) :
    ∃ s, printf dates env d.text (e.toTraits jdk :: rest) = .ok s ∧ ReadsAsSingle b s := by
  rw [print_single dates env jdk d h hp (by rw [hc]; decide) he]
  obtain ⟨f1, f2, f3⟩ := widen_single hf
  obtain ⟨s, v, h1, h2, h3⟩ := read_e dates env jdk d h hp hc _ f1 _ (.prim _) rest
  refine ⟨s, h1, by rw [h2, ← f2], fun y hy => ?_⟩
  rw [h2]
  exact significant_single hf (by omega) h3 hy

/-- `%.Pg` with `P ≥ 9`. -/
theorem C81_g (dates : DateSyntax) (env : DateEnv) (jdk : JdkEnv) (d : Directive) (h : d.Ok dates)
    (hp : d.Plain) (hc : d.conv = ch! 'g') (b : BitVec 32) (hf : finite32 b) (e : Entry)
    (he : Holds e (.float b)) (rest : List Traits) (hP : 9 ≤ d.prec.precision.getD 6) :
    ∃ s, printf dates env d.text (e.toTraits jdk :: rest) = .ok s ∧ ReadsAsSingle b s := by
  rw [print_single dates env jdk d h hp (by rw [hc]; decide) he]
  obtain ⟨f1, f2, f3⟩ := widen_single hf
  obtain ⟨s, v, h1, h2, h3⟩ := read_g dates env jdk d h hp hc _ f1 _ (.prim _) rest
  refine ⟨s, h1, by rw [h2, ← f2], fun y hy => ?_⟩
  rw [h2]
  exact significant_single hf (by omega) h3 hy

/-- `%.pf` with `p ≥ 46`; from 1 on, `p ≥ 8` is enough. -/
theorem C81_f (dates : DateSyntax) (env : DateEnv) (jdk : JdkEnv) (d : Directive) (h : d.Ok dates)
    (hp : d.Plain) (hc : d.conv = ch! 'f') (b : BitVec 32) (hf : finite32 b) (e : Entry)
    (he : Holds e (.float b)) (rest : List Traits)
    (hP : 46 ≤ d.prec.precision.getD 6 ∨ (1 ≤ magnitude32 b ∧ 8 ≤ d.prec.precision.getD 6)) :
    ∃ s, printf dates env d.text (e.toTraits jdk :: rest) = .ok s ∧ ReadsAsSingle b s := by
  rw [print_single dates env jdk d h hp (by rw [hc]; decide) he]
  obtain ⟨f1, f2, f3⟩ := widen_single hf
  obtain ⟨s, h1, h2, h3⟩ := C61_f dates env jdk d h hp hc _ f1 _ (.prim _) rest
  refine ⟨s, h1, by rw [h2, f2], fun y hy => ?_⟩
  generalize d.prec.precision.getD 6 = p at *
  rw [f3] at h3
  refine nearest_single (h3.trans_lt ?_) hy
  have m0 : 0 ≤ magnitude32 b := by rw [← f3]; exact magnitude_nonneg _
  have w : (2 : ℚ) ^ doubleQ (JavaDouble.ofFloat b) ≤ magnitude32 b * 2 ^ (-52 : Int) + 2 ^ (-160 : Int) := by
    by_cases h0 : magnitude32 b = 0
    · rw [h0, zero_mul, zero_add]
      exact zpow_le_zpow_right₀ (by norm_num) (by rw [zero_unit (f3.trans h0)]; norm_num)
    · exact (widen_unit hf h0).trans (by norm_num)
  rcases hP with hP | ⟨hm, hP⟩
  · have p1 : (10 : ℚ) ^ (-(p : Int)) ≤ 10 ^ (-46 : Int) := zpow_le_zpow_right₀ (by norm_num) (by omega)
    norm_num at p1 w ⊢
    linarith
  · have p1 : (10 : ℚ) ^ (-(p : Int)) ≤ 10 ^ (-8 : Int) := zpow_le_zpow_right₀ (by norm_num) (by omega)
    norm_num at p1 w ⊢
    linarith

/-- With that many digits no two floats print alike. -/
theorem C81_injective (dates : DateSyntax) (env : DateEnv) (jdk : JdkEnv) (d : Directive) (h : d.Ok dates)
    (hp : d.Plain)
    (hc : d.conv = ch! 'e' ∧ 8 ≤ d.prec.precision.getD 6 ∨ d.conv = ch! 'g' ∧ 9 ≤ d.prec.precision.getD 6 ∨
      d.conv = ch! 'f' ∧ 46 ≤ d.prec.precision.getD 6)
    (b b' : BitVec 32) (hf : finite32 b) (hf' : finite32 b') (e e' : Entry)
    (he : Holds e (.float b)) (he' : Holds e' (.float b')) (rest rest' : List Traits)
    (heq : printf dates env d.text (e.toTraits jdk :: rest) = printf dates env d.text (e'.toTraits jdk :: rest')) :
    b = b' := by
  have key : ∀ (b : BitVec 32) (_ : finite32 b) (e : Entry) (_ : Holds e (.float b)) (rest : List Traits),
      ∃ s, printf dates env d.text (e.toTraits jdk :: rest) = .ok s ∧ ReadsAsSingle b s := by
    intro b hf e he rest
    rcases hc with ⟨hc, hP⟩ | ⟨hc, hP⟩ | ⟨hc, hP⟩
    · exact C81_e dates env jdk d h hp hc b hf e he rest hP
    · exact C81_g dates env jdk d h hp hc b hf e he rest hP
    · exact C81_f dates env jdk d h hp hc b hf e he rest (.inl hP)
  obtain ⟨s, h1, h2, h3⟩ := key b hf e he rest
  obtain ⟨s', h1', h2', h3'⟩ := key b' hf' e' he' rest'
  rw [heq, h1'] at h1
  obtain rfl := Except.ok.inj h1
  have hm : magnitude32 b = magnitude32 b' := by
    obtain ⟨c, q, hm, hc, hq, -⟩ := single_form (b := b)
    obtain ⟨c', q', hm', hc', hq', -⟩ := single_form (b := b')
    rcases h3 _ ⟨c', q', hc', hq', hm'⟩ with g | g
    · exact g.symm
    · rcases h3' _ ⟨c, q, hc, hq, hm⟩ with g' | g'
      · exact g'
      · exact absurd g' (not_lt.2 g.le)
  exact single_unique (h2.symm.trans h2') hm

/-! ### Six digits are those the float was written with -/

/-- The decimal of the widening of the normal `float` nearest to `D` is near `D`. -/
theorem near_written {b : BitVec 32} (hf : finite32 b) (hn : expBits32 b ≠ 0) {D : ℚ}
    (h : NearestSingle D b) {q : ℚ} (hq : JavaDecimal (JavaDouble.ofFloat b) q) :
    0 < D ∧ |q - D| < D * 10 ^ (-7 : Int) := by
  obtain ⟨f1, f2, f3⟩ := widen_single hf
  obtain ⟨c, x, hm, hc, hx, -, hc23⟩ := single_form (b := b)
  replace hc23 := hc23 hn
  have w : (0 : ℚ) < 2 ^ x := by positivity
  have hcq : ((2 ^ 23 : Nat) : ℚ) ≤ c := by exact_mod_cast hc23
  push_cast at hcq
  have m0 : magnitude32 b ≠ 0 := by rw [hm]; positivity
  have u := widen_unit hf m0
  have d1 := C61_decimal f1 (.inr ⟨by rw [f3]; exact m0, hq⟩)
  have up : IsSingle ((c + 1) * 2 ^ x) := by
    by_cases h24 : c + 1 = 2 ^ 24
    · refine ⟨2 ^ 23, x + 1, by norm_num, by omega, ?_⟩
      have : (c : ℚ) + 1 = 2 ^ 24 := by exact_mod_cast h24
      rw [this, zpow_add₀ (by norm_num)]
      push_cast; ring
    · exact ⟨c + 1, x, by omega, hx, by push_cast; ring⟩
  have down : IsSingle ((c - 1) * 2 ^ x) := ⟨c - 1, x, by omega, hx, by rw [Nat.cast_sub (by omega)]; simp⟩
  have near : |D - magnitude32 b| ≤ 2 ^ x / 2 := by
    have h1 := h _ up
    have h2 := h _ down
    rw [hm] at h1 h2 ⊢
    rw [show D - ((c : ℚ) + 1) * 2 ^ x = D - c * 2 ^ x - 2 ^ x by ring] at h1
    rw [show D - ((c : ℚ) - 1) * 2 ^ x = D - c * 2 ^ x + 2 ^ x by ring] at h2
    generalize D - c * 2 ^ x = t at *
    rcases abs_cases t with ⟨e, _⟩ | ⟨e, _⟩ <;> rw [e] at h1 h2 ⊢
    · rcases abs_cases (t - 2 ^ x) with ⟨e', _⟩ | ⟨e', _⟩ <;> rw [e'] at h1 <;> linarith
    · rcases abs_cases (t + 2 ^ x) with ⟨e', _⟩ | ⟨e', _⟩ <;> rw [e'] at h2 <;> linarith
  rw [f3] at d1
  have hw : (2 : ℚ) ^ x * 2 ^ 23 ≤ magnitude32 b := by rw [hm]; nlinarith
  have mp : 0 < magnitude32 b := by rw [hm]; positivity
  generalize magnitude32 b = m at *
  generalize (2 : ℚ) ^ doubleQ (JavaDouble.ofFloat b) = v at *
  generalize (2 : ℚ) ^ x = w at *
  rw [abs_le] at near d1
  norm_num at hw u ⊢
  refine ⟨by linarith, ?_⟩
  rw [abs_lt]
  constructor <;> linarith

/-- `halfUp` of a number near a whole number of units. -/
theorem halfUp_near {q D : ℚ} {s : Nat} {p : Int} (hD : D * 10 ^ p = s) (hs : (s : ℚ) ≤ 10 ^ 6)
    (hD0 : 0 < D) (h : |q - D| < D * 10 ^ (-7 : Int)) : halfUp q p = s := by
  have t : (0 : ℚ) < 10 ^ p := by positivity
  rw [abs_lt] at h
  norm_num at h
  apply halfUp_of_bounds
  · nlinarith [h.1]
  · nlinarith [h.2]

theorem significant_written {b : BitVec 32} (hf : finite32 b) (hn : expBits32 b ≠ 0) {D : ℚ} {P : Nat} (hP : 1 ≤ P)
    (hP6 : P ≤ 6) (hD : HasLength P D) (h : NearestSingle D b) {v : ℚ}
    (hv : PrintsE P (JavaDouble.ofFloat b) v) : v = D := by
  obtain ⟨f1, f2, f3⟩ := widen_single hf
  rcases hv with ⟨h0, -⟩ | ⟨q, M, X, h0, hq, ⟨-, -, x0, l, u, e⟩, rfl⟩
  · exfalso
    obtain ⟨c, x, hm, hc, hx, -, hc23⟩ := single_form (b := b)
    have : (0 : ℚ) < c := by exact_mod_cast lt_of_lt_of_le (by norm_num) (hc23 hn)
    rw [f3, hm] at h0
    have : (0 : ℚ) < c * 2 ^ x := by positivity
    linarith
  · rw [e]
    obtain ⟨s, i, s1, s2, hs⟩ := hD
    obtain ⟨hDp, hqD⟩ := near_written hf hn h hq
    have h10 : (10 : ℚ) ≠ 0 := by norm_num
    have t : (0 : ℚ) < 10 ^ i := by positivity
    have hsP : (s : ℚ) + 1 ≤ 10 ^ P := by exact_mod_cast s2
    have hsP' : (10 : ℚ) ^ (P - 1) ≤ s := by exact_mod_cast s1
    have hP6' : (10 : ℚ) ^ P ≤ 10 ^ 6 := pow_le_pow_right₀ (by norm_num) hP6
    have small : D * 10 ^ (-7 : Int) < 10 ^ i := by
      rw [hs]
      norm_num at hP6' ⊢
      nlinarith
    have value : ∀ n : Nat, D * 10 ^ ((P : Int) - 1 - x0) = n → (n : ℚ) ≤ 10 ^ 6 →
        (halfUp q (P - 1 - x0) : ℚ) * 10 ^ (x0 - ((P : Int) - 1)) = D := by
      intro n hn hn6
      rw [halfUp_near hn hn6 hDp hqD, ← hn, mul_assoc, ← zpow_add₀ h10]
      simp
    have hqD' := abs_lt.1 hqD
    have pow : ∀ n : Nat, (10 : ℚ) ^ (i + n) = 10 ^ n * 10 ^ i := fun n => by
      rw [zpow_add₀ h10, zpow_natCast]; ring
    rcases le_or_gt (i + P - 1) x0 with hx | hx
    · have hx' : x0 = i + P - 1 := by
        by_contra hne
        have : (10 : ℚ) ^ (i + P) ≤ 10 ^ x0 := zpow_le_zpow_right₀ (by norm_num) (by omega)
        rw [pow] at this
        have : (s : ℚ) * 10 ^ i + 10 ^ i ≤ q := by nlinarith
        rw [← hs] at this
        linarith
      refine value s ?_ (by linarith)
      rw [hs, hx', mul_assoc, ← zpow_add₀ h10]
      simp
    · have hq1 : q < 10 ^ (i + (P - 1 : Nat)) :=
        u.trans_le (zpow_le_zpow_right₀ (by norm_num) (by omega))
      rw [pow] at hq1
      have hs1 : s = 10 ^ (P - 1) := by
        by_contra hne
        have : 10 ^ (P - 1) + 1 ≤ s := by omega
        have : (10 : ℚ) ^ (P - 1) + 1 ≤ s := by exact_mod_cast this
        have : (10 : ℚ) ^ (P - 1) * 10 ^ i + 10 ^ i ≤ D := by rw [hs]; nlinarith
        linarith
      have hx' : x0 = i + P - 2 := by
        by_contra hne
        have g : (10 : ℚ) ^ (x0 + 1) ≤ 10 ^ (i + P - 2) := zpow_le_zpow_right₀ (by norm_num) (by omega)
        have : (10 : ℚ) ^ (i + P - 2) * 10 = D := by
          rw [hs, hs1, ← zpow_add_one₀ h10, Nat.cast_pow, ← zpow_natCast, Nat.cast_ofNat, ← zpow_add₀ h10]
          congr 1
          omega
        norm_num at hqD'
        linarith [hqD'.1]
      refine value (10 * s) ?_ ?_
      · rw [hs, hx', mul_assoc, ← zpow_add₀ h10, show i + ((P : Int) - 1 - (i + P - 2)) = 1 by ring]
        push_cast; ring
      · rw [hs1]
        push_cast
        rw [← pow_succ', show P - 1 + 1 = P by omega]
        exact hP6'

/-- **C81 (six digits).** If a normal `float` is the nearest to a decimal of at most six digits, `%.pe` with at
least that many digits and at most six in all prints that decimal. -/
theorem C81_written_e (dates : DateSyntax) (env : DateEnv) (jdk : JdkEnv) (d : Directive) (h : d.Ok dates)
    (hp : d.Plain) (hc : d.conv = ch! 'e') (b : BitVec 32) (hf : finite32 b) (hn : expBits32 b ≠ 0) (e : Entry)
    (he : Holds e (.float b)) (rest : List Traits) {D : ℚ} {n : Nat} (hn1 : 1 ≤ n) (hD : HasLength n D)
    (hr : NearestSingle D b) (hP : n ≤ d.prec.precision.getD 6 + 1) (hP6 : d.prec.precision.getD 6 + 1 ≤ 6) :
    ∃ s, printf dates env d.text (e.toTraits jdk :: rest) = .ok s ∧ readNumber s = (negative32 b, D) := by
  rw [print_single dates env jdk d h hp (by rw [hc]; decide) he]
  obtain ⟨f1, f2, f3⟩ := widen_single hf
  obtain ⟨s, v, h1, h2, h3⟩ := read_e dates env jdk d h hp hc _ f1 _ (.prim _) rest
  refine ⟨s, h1, ?_⟩
  rw [h2, f2, significant_written hf hn (by omega) hP6 (hD.mono hn1 hP) hr h3]

/-- `%.Pg` with `P` at least that many digits and at most six; so `%g` prints every normal `float` as it was
written, if it was written with six digits or fewer. -/
theorem C81_written_g (dates : DateSyntax) (env : DateEnv) (jdk : JdkEnv) (d : Directive) (h : d.Ok dates)
    (hp : d.Plain) (hc : d.conv = ch! 'g') (b : BitVec 32) (hf : finite32 b) (hn : expBits32 b ≠ 0) (e : Entry)
    (he : Holds e (.float b)) (rest : List Traits) {D : ℚ} {n : Nat} (hn1 : 1 ≤ n) (hD : HasLength n D)
    (hr : NearestSingle D b) (hP : n ≤ max 1 (d.prec.precision.getD 6)) (hP6 : d.prec.precision.getD 6 ≤ 6) :
    ∃ s, printf dates env d.text (e.toTraits jdk :: rest) = .ok s ∧ readNumber s = (negative32 b, D) := by
  rw [print_single dates env jdk d h hp (by rw [hc]; decide) he]
  obtain ⟨f1, f2, f3⟩ := widen_single hf
  obtain ⟨s, v, h1, h2, h3⟩ := read_g dates env jdk d h hp hc _ f1 _ (.prim _) rest
  refine ⟨s, h1, ?_⟩
  rw [h2, f2, significant_written hf hn (by omega) (by omega) (hD.mono hn1 hP) hr h3]

/-- `%.pf` if the decimal has no more than `p` places, and below a million units of the last one. -/
theorem C81_written_f (dates : DateSyntax) (env : DateEnv) (jdk : JdkEnv) (d : Directive) (h : d.Ok dates)
    (hp : d.Plain) (hc : d.conv = ch! 'f') (b : BitVec 32) (hf : finite32 b) (hn : expBits32 b ≠ 0) (e : Entry)
    (he : Holds e (.float b)) (rest : List Traits) {D : ℚ} {m : Nat} (hm : m ≤ 10 ^ 6)
    (hD : D * 10 ^ d.prec.precision.getD 6 = m) (hr : NearestSingle D b) :
    ∃ s, printf dates env d.text (e.toTraits jdk :: rest) = .ok s ∧ readNumber s = (negative32 b, D) := by
  rw [print_single dates env jdk d h hp (by rw [hc]; decide) he]
  obtain ⟨f1, f2, f3⟩ := widen_single hf
  obtain ⟨s, v, h1, h2, q, hq, hv⟩ := read_f dates env jdk d h hp hc _ f1 _ (.prim _) rest
  refine ⟨s, h1, ?_⟩
  generalize d.prec.precision.getD 6 = p at *
  have hq' : JavaDecimal (JavaDouble.ofFloat b) q := by
    rcases hq with ⟨h0, -⟩ | ⟨-, hq⟩
    · exfalso
      obtain ⟨c, x, hm, hc, hx, -, hc23⟩ := single_form (b := b)
      have : (0 : ℚ) < c := by exact_mod_cast lt_of_lt_of_le (by norm_num) (hc23 hn)
      rw [f3, hm] at h0
      have : (0 : ℚ) < c * 2 ^ x := by positivity
      linarith
    · exact hq
  obtain ⟨hDp, hqD⟩ := near_written hf hn hr hq'
  have hD' : D * 10 ^ (p : Int) = m := by rw [zpow_natCast]; exact hD
  rw [h2, f2, hv, halfUp_near hD' (by exact_mod_cast hm) hDp hqD, ← hD', mul_assoc, ← zpow_add₀ (by norm_num)]
  simp

/-! ### Examples -/

-- 0.1f: nine digits are more than it was written with, six are those
example : printf ⟨fun _ => true⟩ sampleDateEnv (js! "%.8e %.9g %g %.5e %.9f")
    (List.replicate 5 ((Entry.prim (.float 0x3DCCCCCD#32)).toTraits sampleJdk)) =
    .ok (js! "1.00000001e-01 0.100000001 0.1 1.00000e-01 0.100000001") := by decide +kernel
-- `%.17g` shows the digits of the widened number
example : printf ⟨fun _ => true⟩ sampleDateEnv (js! "%.17g") [(Entry.prim (.float 0x3DCCCCCD#32)).toTraits sampleJdk] =
    .ok (js! "0.10000000149011612") := by decide +kernel
/-- **C81, negated claim.** Eight digits are not enough: two neighbours near 1000 print alike. -/
theorem C81_eight_witness : printf ⟨fun _ => true⟩ sampleDateEnv (js! "%.7e %.7e %.8e %.8e")
    [(Entry.prim (.float 0x447A0001#32)).toTraits sampleJdk, (Entry.prim (.float 0x447A0002#32)).toTraits sampleJdk,
     (Entry.prim (.float 0x447A0001#32)).toTraits sampleJdk, (Entry.prim (.float 0x447A0002#32)).toTraits sampleJdk] =
    .ok (js! "1.0000001e+03 1.0000001e+03 1.00000006e+03 1.00000012e+03") := by decide +kernel
-- seven digits may be others than those it was written with: this is the float nearest to 8589973e3
example : printf ⟨fun _ => true⟩ sampleDateEnv (js! "%.6e") [(Entry.prim (.float 0x50000026#32)).toTraits sampleJdk] =
    .ok (js! "8.589974e+09") := by decide +kernel
example : magnitude32 0x50000026#32 = 8589973504 := by decide +kernel
-- 1.49f is a normal float nearest to a decimal of three digits
example : finite32 0x3FBEB852#32 ∧ expBits32 0x3FBEB852#32 ≠ 0 ∧ HasLength 3 (149 / 100) ∧
    NearestSingle (149 / 100) 0x3FBEB852#32 := by
  have hm : magnitude32 0x3FBEB852#32 = 12499026 / 2 ^ 23 := by decide +kernel
  refine ⟨by unfold finite32; decide, by decide, ⟨149, -2, by norm_num, by norm_num, by norm_num⟩, fun y hy => ?_⟩
  rcases nearest_single (b := 0x3FBEB852#32) (r := 149 / 100) (by rw [hm]; norm_num [abs_of_neg]) hy with h | h
  · rw [h]
  · exact h.le
example : printf ⟨fun _ => true⟩ sampleDateEnv (js! "%g %.2f %.10f")
    (List.replicate 3 ((Entry.prim (.float 0x3FBEB852#32)).toTraits sampleJdk)) =
    .ok (js! "1.49 1.49 1.4900000095") := by decide +kernel
-- the least number
example : printf ⟨fun _ => true⟩ sampleDateEnv (js! "%.8e %g") (List.replicate 2 ((Entry.prim (.float 1#32)).toTraits sampleJdk)) =
    .ok (js! "1.40129846e-45 1.4013e-45") := by decide +kernel

end FastPrintf
