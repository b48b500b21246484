/-
Properties C59, C60, C61: printed doubles read back, decimals of up to 15 digits and integers print as
written, and the error against the binary value.
-/
import Verif.Props.Floating
import Verif.Props.Double
import Verif.Proofs.ReadBack

namespace FastPrintf
open Spec

/-! ### Reading determines the double -/

theorem roundsTo_zero {c : Nat} {q : Int} (h : Canonical c q) {d : ℚ} {e : Prop}
    (r : RoundsTo (c * 2 ^ q) (c % 2 = 0) d) (r0 : RoundsTo 0 e d) : False := by
  have hp := two_zpow_pos q
  have hc : (1 : ℚ) ≤ c := by exact_mod_cast h.pos
  have hx : 0 < (c : ℚ) * 2 ^ q := by positivity
  have h1 := r 0 ⟨0, 0, by norm_num, by norm_num, by simp⟩
  have h2 := r0 _ ⟨c, q, h.lt, h.min, rfl⟩
  have h3 := r0 (2 ^ (-1074 : Int)) ⟨1, -1074, by norm_num, by norm_num, by simp⟩
  have hm : (2 : ℚ) ^ (-1074 : Int) ≤ 2 ^ q := zpow_le_zpow_right₀ (by norm_num) h.min
  have hpos : (0 : ℚ) < 2 ^ (-1074 : Int) := by positivity
  generalize (2 : ℚ) ^ (-1074 : Int) = u at *
  simp only [sub_zero] at h1 h2 h3
  have hle : |d| ≤ |d - u| := by
    rcases h3 with h | h | h
    · exact absurd h hpos.ne'
    · exact h.le
    · exact h.1.le
  have hd : 2 * d ≤ u := by
    rcases abs_cases d with ⟨e1, e2⟩ | ⟨e1, e2⟩ <;> rcases abs_cases (d - u) with ⟨e3, e4⟩ | ⟨e3, e4⟩ <;> linarith
  have heq : |d - c * 2 ^ q| = |d| ∧ c % 2 = 0 := by
    rcases h1 with h | h | h
    · exact absurd h.symm hx.ne'
    · rcases h2 with h' | h' | h'
      · exact absurd h' hx.ne'
      · exact absurd (h.trans h') (lt_irrefl _)
      · rw [h'.1] at h; exact absurd h (lt_irrefl _)
    · exact h
  have hxu : (c : ℚ) * 2 ^ q ≤ u := by
    rcases abs_cases d with ⟨e1, e2⟩ | ⟨e1, e2⟩ <;>
      rcases abs_cases (d - c * 2 ^ q) with ⟨e3, e4⟩ | ⟨e3, e4⟩ <;> linarith [heq.1]
  have : (2 : ℚ) ≤ c := by
    have h1 := h.pos
    have h2 := heq.2
    have : 2 ≤ c := by omega
    exact_mod_cast this
  nlinarith

/-- A text reads as at most one double. -/
theorem C59_determined {bits bits' : BitVec 64} (hf : finite bits) (hf' : finite bits') {s : JStr}
    (h : ReadsAs bits s) (h' : ReadsAs bits' s) : bits = bits' := by
  obtain ⟨v, s1, r1⟩ := h
  obtain ⟨v', s2, r2⟩ := h'
  rw [s1] at s2
  simp only [Option.some.injEq, Prod.mk.injEq] at s2
  obtain ⟨hn, rfl⟩ := s2
  refine bits_ext hf hf' ?_ ?_
  · simpa using hn
  by_cases h0 : magnitude bits = 0 <;> by_cases h0' : magnitude bits' = 0
  · rw [h0, h0']
  · rw [h0] at r1
    exact (roundsTo_zero (double_canonical hf' h0').1 r2 r1).elim
  · rw [h0'] at r2
    exact (roundsTo_zero (double_canonical hf h0).1 r1 r2).elim
  · have c1 := (double_canonical hf h0).1
    have c2 := (double_canonical hf' h0').1
    unfold magnitude at *
    rcases lt_trichotomy ((doubleC bits : ℚ) * 2 ^ doubleQ bits) (doubleC bits' * 2 ^ doubleQ bits') with h | h | h
    · exact (roundsTo_disjoint c1 c2 h r1 r2).elim
    · exact h
    · exact (roundsTo_disjoint c2 c1 h r2 r1).elim

/-! ### Enough digits -/

/-- A decimal of at most `P` digits is not changed by rounding to `P` significant digits. -/
theorem significant_exact {f : Nat} {i : Int} {P M : Nat} {x : Int} (hf : f < 10 ^ P)
    (h : Significant ((f : ℚ) * 10 ^ i) P M x) : (M : ℚ) * 10 ^ (x - (P - 1)) = f * 10 ^ i := by
  obtain ⟨-, -, x0, h1, -, h3⟩ := h
  rw [h3]
  have hx : x0 < P + i := by
    by_contra hge
    have h4 : (10 : ℚ) ^ ((P : Int) + i) ≤ 10 ^ x0 := zpow_le_zpow_right₀ (by norm_num) (by omega)
    rw [zpow_add₀ (by norm_num), zpow_natCast] at h4
    have h5 : (f : ℚ) < 10 ^ P := by exact_mod_cast hf
    have h6 : (0 : ℚ) < 10 ^ i := by positivity
    nlinarith
  have : halfUp ((f : ℚ) * 10 ^ i) (P - 1 - x0) = f * 10 ^ (i + (P - 1 - x0)).toNat := by
    unfold halfUp
    rw [mul_assoc, ← zpow_add₀ (by norm_num), zpow_nat (by omega), Nat.floor_eq_iff (by positivity)]
    constructor <;> linarith
  rw [this, ← zpow_nat (by omega), mul_assoc, ← zpow_add₀ (by norm_num)]
  congr 2
  omega

theorem halfUp_exact {f : Nat} {i : Int} {p : Nat} (h : 0 ≤ i + p) :
    (halfUp ((f : ℚ) * 10 ^ i) p : ℚ) * 10 ^ (-(p : Int)) = f * 10 ^ i := by
  have : halfUp ((f : ℚ) * 10 ^ i) p = f * 10 ^ (i + p).toNat := by
    unfold halfUp
    rw [mul_assoc, ← zpow_add₀ (by norm_num), zpow_nat (by omega), Nat.floor_eq_iff (by positivity)]
    constructor <;> linarith
  rw [this, ← zpow_nat h, mul_assoc, ← zpow_add₀ (by norm_num)]
  congr 2
  omega

/-- The decimal of a double has at most 17 digits, and its last place is bounded. -/
theorem JavaDecimal_digits {bits : BitVec 64} (hf : finite bits) (h0 : magnitude bits ≠ 0) {q : ℚ}
    (h : JavaDecimal bits q) : ∃ (f : Nat) (e : Int), q = f * 10 ^ e ∧ f < 10 ^ 17 ∧ LastPlace bits e := by
  obtain ⟨f, e, n, -, -, h2, -, h3, h4, h5⟩ := C26_decimal bits hf h0
  refine ⟨f.toNat, e, C26_unique hf h0 h h4, lt_of_lt_of_le h2 ?_, h5⟩
  exact Nat.pow_le_pow_right (by norm_num) h3

set_option exponentiation.threshold 2000 in
theorem small_places : (10 : ℚ) ^ (-325 : Int) ≤ 3 / 4 * 2 ^ (-1074 : Int) ∧
    (10 : ℚ) ^ (-16 : Int) ≤ 3 / 4 * 2 ^ (-52 : Int) := by
  constructor <;> norm_num

theorem LastPlace_bound {bits : BitVec 64} (hf : finite bits) (h0 : magnitude bits ≠ 0) {e : Int}
    (h : LastPlace bits e) : -325 ≤ e ∧ (1 ≤ magnitude bits → -16 ≤ e) := by
  have hc := (double_canonical hf h0).1
  unfold LastPlace at h
  by_cases h1 : magnitude bits < 2 ^ 52 ∧ (magnitude bits).den = 1
  · rw [if_pos h1] at h; omega
  rw [if_neg h1] at h
  have small : 1 ≤ magnitude bits → -52 ≤ doubleQ bits := by
    intro hm
    by_contra hq
    unfold magnitude at hm
    have e1 : (2 : ℚ) ^ doubleQ bits ≤ 2 ^ (-53 : Int) := zpow_le_zpow_right₀ (by norm_num) (by omega)
    have e2 : ((doubleC bits : Nat) : ℚ) < 2 ^ 53 := by exact_mod_cast hc.lt
    have e3 : (0 : ℚ) ≤ doubleC bits := Nat.cast_nonneg _
    have e4 := two_zpow_pos (doubleQ bits)
    have e5 : (2 : ℚ) ^ (-53 : Int) * 2 ^ 53 = 1 := by norm_num
    nlinarith
  by_cases h2 : doubleC bits < 3
  · rw [if_pos h2] at h
    refine ⟨by omega, fun hm => ?_⟩
    exfalso
    have := small hm
    rcases hc.normal with hn | hn <;> omega
  rw [if_neg h2] at h
  obtain ⟨-, h⟩ := h
  have hlt : ∀ k : Int, (10 : ℚ) ^ k ≤ (if doubleC bits = 2 ^ 52 ∧ doubleQ bits ≠ -1074 then 3 / 4 else 1) *
      (2 : ℚ) ^ doubleQ bits → k ≤ e := by
    intro k hk
    have := lt_of_le_of_lt hk h
    have := (zpow_lt_zpow_iff_right₀ (by norm_num : (1 : ℚ) < 10)).1 this
    omega
  refine ⟨hlt _ ?_, fun hm => hlt _ ?_⟩
  · have e1 : (2 : ℚ) ^ (-1074 : Int) ≤ 2 ^ doubleQ bits := zpow_le_zpow_right₀ (by norm_num) hc.min
    have e2 := small_places.1.trans (mul_le_mul_of_nonneg_left e1 (by norm_num))
    have e3 := two_zpow_pos (doubleQ bits)
    generalize (10 : ℚ) ^ (-325 : Int) = u at *
    split_ifs <;> linarith
  · have e1 : (2 : ℚ) ^ (-52 : Int) ≤ 2 ^ doubleQ bits := zpow_le_zpow_right₀ (by norm_num) (small hm)
    have e2 := small_places.2.trans (mul_le_mul_of_nonneg_left e1 (by norm_num))
    have e3 := two_zpow_pos (doubleQ bits)
    generalize (10 : ℚ) ^ (-16 : Int) = u at *
    split_ifs <;> linarith

/-! ### C59 -/

theorem readsAs_zero {bits : BitVec 64} (h0 : magnitude bits = 0) {s : JStr}
    (h : javaNumber s = some (decide (negative bits), 0)) : ReadsAs bits s := by
  refine ⟨0, h, ?_⟩
  rw [h0]
  intro y _
  by_cases hy : y = 0
  · exact .inl hy
  · right; left
    simp only [sub_self, zero_sub, abs_neg, abs_zero]
    positivity

theorem readsAs_decimal {bits : BitVec 64} {q : ℚ} (h : JavaDecimal bits q) {s : JStr}
    (hs : javaNumber s = some (decide (negative bits), q)) : ReadsAs bits s :=
  ⟨q, hs, C26_roundtrip h⟩

/-- **C59.**  `%.pe` with `p ≥ 16` of a finite `double` prints a text that reads back as that double, sign
included (`-0.0` too), whatever the flags and the width are. -/
theorem C59_e (dates : DateSyntax) (env : DateEnv) (jdk : JdkEnv) (d : Directive) (h : d.Ok dates)
    (hp : d.Plain) (hc : d.conv = ch! 'e') (bits : BitVec 64) (hf : finite bits) (e : Entry)
    (he : IsDouble e bits) (rest : List Traits) (hP : 16 ≤ d.prec.precision.getD 6) :
    ∃ s, printf dates env d.text (e.toTraits jdk :: rest) = .ok s ∧ ReadsAs bits s := by
  obtain ⟨m, ex, h1, h2⟩ := C24_e dates env jdk d h hp hc bits hf e he rest
  refine ⟨_, h1, ?_⟩
  generalize d.prec.precision.getD 6 = p at *
  rcases h2 with ⟨h0, hm, hex⟩ | ⟨q, M, x, h0, hq, hsig, hm, hex⟩
  · obtain ⟨ip, fp, hn, hl, hv⟩ := fixedText_written hm (tail := ch! 'e' :: ex)
      (.inr ⟨_, rfl, by rw [hex]; decide⟩)
    apply readsAs_zero h0
    unfold Directive.field
    rw [hn.java_field, hn.read, hv]
    refine congrArg some ?_
    simp
  · obtain ⟨hx1, hx2⟩ := exponent_read hex
    obtain ⟨ip, fp, hn, hl, hv⟩ := fixedText_written hm (tail := ch! 'e' :: ex) (.inr ⟨_, rfl, hx2⟩)
    apply readsAs_decimal hq
    unfold Directive.field
    rw [hn.java_field, hn.read, hv, hl]
    refine congrArg some ?_
    simp only [List.drop_succ_cons, List.drop_zero, hx1]
    obtain ⟨f, i, rfl, hf17, -⟩ := JavaDecimal_digits hf h0 hq
    have := significant_exact (lt_of_lt_of_le hf17 (Nat.pow_le_pow_right (by norm_num) (by omega))) hsig
    rw [← this]
    congr 2
    congr 1
    push_cast
    ring

/-- `%.Pg` with `P ≥ 17`. -/
theorem C59_g (dates : DateSyntax) (env : DateEnv) (jdk : JdkEnv) (d : Directive) (h : d.Ok dates)
    (hp : d.Plain) (hc : d.conv = ch! 'g') (bits : BitVec 64) (hf : finite bits) (e : Entry)
    (he : IsDouble e bits) (rest : List Traits) (hP : 17 ≤ d.prec.precision.getD 6) :
    ∃ s, printf dates env d.text (e.toTraits jdk :: rest) = .ok s ∧ ReadsAs bits s := by
  obtain ⟨body, h1, h2⟩ := C25_g dates env jdk d h hp hc bits hf e he rest
  refine ⟨_, h1, ?_⟩
  generalize d.prec.precision.getD 6 = p at *
  rw [max_eq_right (by omega)] at h2
  rcases h2 with ⟨h0, hm⟩ | ⟨q, M, x, h0, hq, hsig, _, n, -, -, hm⟩
  · apply readsAs_zero h0
    unfold Directive.field
    split_ifs at hm
    · obtain ⟨ip, fp, hn, hl, hv⟩ := fixedText_written hm (tail := []) (.inl rfl)
      rw [List.append_nil] at hn
      rw [hn.java_field, hn.read, hv]
      refine congrArg some ?_
      simp
    · have hn : NumText body (js! "0") [] false [] :=
        ⟨by rw [hm]; decide, by decide, by decide, by decide, .inl rfl⟩
      rw [hn.java_field, hn.read]
      refine congrArg some ?_
      simp [valueIn, digitVal]
  · apply readsAs_decimal hq
    unfold Directive.field
    obtain ⟨f, i, rfl, hf17, -⟩ := JavaDecimal_digits hf h0 hq
    have hval := significant_exact (lt_of_lt_of_le hf17 (Nat.pow_le_pow_right (by norm_num) hP)) hsig
    rw [← hval]
    have h10 : (10 : ℚ) ≠ 0 := by norm_num
    unfold GeneralText at hm
    by_cases hx : -4 ≤ x ∧ x < (p : Int)
    · rw [if_pos hx] at hm
      split_ifs at hm
      · obtain ⟨ip, fp, hn, hl, hv⟩ := fixedText_written hm (tail := []) (.inl rfl)
        rw [List.append_nil] at hn
        rw [hn.java_field, hn.read, hv, hl]
        refine congrArg some ?_
        simp only [List.drop_nil, readExponent]
        congr 2
        congr 1
        omega
      · obtain ⟨ip, fp, hn, hv⟩ := minimalText_written hm (tail := []) (.inl rfl)
        rw [List.append_nil] at hn
        rw [hn.java_field, hn.read, hv]
        refine congrArg some ?_
        simp only [List.drop_nil, readExponent]
        congr 1
        rw [mul_assoc, ← zpow_natCast (10 : ℚ) fp.length, ← zpow_add₀ h10]
        simp
    · rw [if_neg hx] at hm
      obtain ⟨ms, xs, rfl, hxs, hm⟩ := hm
      obtain ⟨hx1, hx2⟩ := exponent_read hxs
      split_ifs at hm
      · obtain ⟨m', hM, hm⟩ := hm
        obtain ⟨ip, fp, hn, hl, hv⟩ := fixedText_written hm (tail := ch! 'e' :: xs) (.inr ⟨_, rfl, hx2⟩)
        rw [hn.java_field, hn.read, hv, hl]
        refine congrArg some ?_
        simp only [List.drop_succ_cons, List.drop_zero, hx1]
        congr 1
        have hn1 : 1 ≤ n := by
          by_contra hn0
          obtain ⟨s1, s2, -⟩ := hsig
          rw [hM, show p - min p n = p by omega] at s1 s2
          have : 0 < 10 ^ (p - 1) := by positivity
          have : m' ≠ 0 := by rintro rfl; omega
          nlinarith [Nat.one_le_iff_ne_zero.2 this]
        rw [hM]
        push_cast
        rw [mul_assoc, ← zpow_natCast (10 : ℚ) (p - min p n), ← zpow_add₀ h10]
        congr 2
        omega
      · obtain ⟨ip, fp, hn, hv⟩ := minimalText_written hm (tail := ch! 'e' :: xs) (.inr ⟨_, rfl, hx2⟩)
        rw [hn.java_field, hn.read, hv]
        refine congrArg some ?_
        simp only [List.drop_succ_cons, List.drop_zero, hx1]
        congr 1
        rw [mul_assoc, mul_assoc, ← zpow_natCast (10 : ℚ) fp.length, ← zpow_add₀ h10, ← zpow_add₀ h10]
        congr 2
        ring

/-- `%.pf` with `p ≥ 325`; from 1 on, `p ≥ 16` is enough. -/
theorem C59_f (dates : DateSyntax) (env : DateEnv) (jdk : JdkEnv) (d : Directive) (h : d.Ok dates)
    (hp : d.Plain) (hc : d.conv = ch! 'f') (bits : BitVec 64) (hf : finite bits) (e : Entry)
    (he : IsDouble e bits) (rest : List Traits)
    (hP : 325 ≤ d.prec.precision.getD 6 ∨ (1 ≤ magnitude bits ∧ 16 ≤ d.prec.precision.getD 6)) :
    ∃ s, printf dates env d.text (e.toTraits jdk :: rest) = .ok s ∧ ReadsAs bits s := by
  obtain ⟨q, body, h1, hq, hm⟩ := C23_f dates env jdk d h hp hc bits hf e he rest
  refine ⟨_, h1, ?_⟩
  generalize d.prec.precision.getD 6 = p at *
  obtain ⟨ip, fp, hn, hl, hv⟩ := fixedText_written hm (tail := []) (.inl rfl)
  rw [List.append_nil] at hn
  unfold Directive.field
  rcases hq with ⟨h0, rfl⟩ | ⟨h0, hq⟩
  · apply readsAs_zero h0
    rw [hn.java_field, hn.read, hv]
    refine congrArg some ?_
    have : halfUp 0 p = 0 := by
      unfold halfUp
      rw [zero_mul, Nat.floor_eq_zero]; norm_num
    rw [this]; simp
  · apply readsAs_decimal hq
    obtain ⟨f, i, rfl, -, hlp⟩ := JavaDecimal_digits hf h0 hq
    have hb := LastPlace_bound hf h0 hlp
    rw [hn.java_field, hn.read, hv, hl]
    refine congrArg some ?_
    simp only [List.drop_nil, readExponent, zero_sub]
    rw [halfUp_exact]
    rcases hP with hP | ⟨hm1, hP⟩
    · have := hb.1; omega
    · have := hb.2 hm1; omega

/-- With that many digits no two doubles print alike. -/
theorem C59_injective (dates : DateSyntax) (env : DateEnv) (jdk : JdkEnv) (d : Directive) (h : d.Ok dates)
    (hp : d.Plain)
    (hc : d.conv = ch! 'e' ∧ 16 ≤ d.prec.precision.getD 6 ∨ d.conv = ch! 'g' ∧ 17 ≤ d.prec.precision.getD 6 ∨
      d.conv = ch! 'f' ∧ 325 ≤ d.prec.precision.getD 6)
    (bits bits' : BitVec 64) (hf : finite bits) (hf' : finite bits') (e e' : Entry)
    (he : IsDouble e bits) (he' : IsDouble e' bits') (rest rest' : List Traits)
    (heq : printf dates env d.text (e.toTraits jdk :: rest) = printf dates env d.text (e'.toTraits jdk :: rest')) :
    bits = bits' := by
  have key : (∃ s, printf dates env d.text (e.toTraits jdk :: rest) = .ok s ∧ ReadsAs bits s) ∧
      (∃ s, printf dates env d.text (e'.toTraits jdk :: rest') = .ok s ∧ ReadsAs bits' s) := by
    rcases hc with ⟨hc, hP⟩ | ⟨hc, hP⟩ | ⟨hc, hP⟩
    · exact ⟨C59_e dates env jdk d h hp hc bits hf e he rest hP,
        C59_e dates env jdk d h hp hc bits' hf' e' he' rest' hP⟩
    · exact ⟨C59_g dates env jdk d h hp hc bits hf e he rest hP,
        C59_g dates env jdk d h hp hc bits' hf' e' he' rest' hP⟩
    · exact ⟨C59_f dates env jdk d h hp hc bits hf e he rest (.inl hP),
        C59_f dates env jdk d h hp hc bits' hf' e' he' rest' (.inl hP)⟩
  obtain ⟨⟨s, h1, h2⟩, s', h3, h4⟩ := key
  rw [heq, h3] at h1
  obtain rfl := Except.ok.inj h1
  exact C59_determined hf hf' h2 h4

/-! ### C60 -/

/-- Two decimals of 15 digits do not round to the same normal double. -/
theorem fifteen_unique {bits : BitVec 64} (hf : finite bits) (hn : expBits bits ≠ 0) {a b : ℚ}
    (ha : HasLength 15 a) (hb : HasLength 15 b) (ra : RoundsTo (magnitude bits) (doubleC bits % 2 = 0) a)
    (rb : RoundsTo (magnitude bits) (doubleC bits % 2 = 0) b) : a = b := by
  wlog hle : a ≤ b generalizing a b
  · exact (this hb ha rb ra (le_of_not_ge hle)).symm
  have hc52 : 2 ^ 52 ≤ doubleC bits := by unfold doubleC; rw [if_neg hn]; omega
  have h0 : magnitude bits ≠ 0 := by
    unfold magnitude
    have : (0 : ℚ) < doubleC bits := by exact_mod_cast lt_of_lt_of_le (by norm_num) hc52
    positivity
  have hc := (double_canonical hf h0).1
  have ia := ((roundsTo_iff hc a).1 ra).le
  have ib := ((roundsTo_iff hc b).1 rb).le
  have hl : ((lowQuarters (doubleC bits) (doubleQ bits) : Nat) : ℚ) ≤ 2 := by
    unfold lowQuarters; split_ifs <;> norm_num
  have hw := two_zpow_pos (doubleQ bits)
  have hcq : ((2 ^ 52 : Nat) : ℚ) ≤ doubleC bits := by exact_mod_cast hc52
  generalize (2 : ℚ) ^ doubleQ bits = w at *
  generalize ((lowQuarters (doubleC bits) (doubleQ bits) : Nat) : ℚ) = l at *
  generalize ((doubleC bits : Nat) : ℚ) = c at *
  have hd : b - a ≤ w := by nlinarith [ia.1, ib.2]
  have hbig : (10 ^ 15 + 1) * w < a := by
    push_cast at hcq
    nlinarith [ia.1]
  obtain ⟨s, i, s1, s2, rfl⟩ := ha
  obtain ⟨t, j, t1, t2, rfl⟩ := hb
  have hs : (s : ℚ) < 10 ^ 15 := by exact_mod_cast s2
  have ht : (t : ℚ) < 10 ^ 15 := by exact_mod_cast t2
  have key : ∀ k : Int, ∀ u v : Nat, (s : ℚ) * 10 ^ i = u * 10 ^ k → (t : ℚ) * 10 ^ j = v * 10 ^ k →
      ((u : ℚ) < 10 ^ 15 ∨ (v : ℚ) < 10 ^ 15) → (s : ℚ) * 10 ^ i = t * 10 ^ j := by
    intro k u v hu hv hlt
    rw [hu, hv] at hle hd ⊢
    rw [hu] at hbig
    have hk : (0 : ℚ) < 10 ^ k := by positivity
    generalize (10 : ℚ) ^ k = x at *
    rcases Nat.lt_trichotomy u v with h | h | h
    · exfalso
      have h1 : (u : ℚ) + 1 ≤ v := by exact_mod_cast h
      have h2 : x ≤ w := by nlinarith
      have h3 : (u : ℚ) < 10 ^ 15 := by
        rcases hlt with h | h
        · exact h
        · linarith
      nlinarith
    · rw [h]
    · exfalso
      have h1 : (v : ℚ) + 1 ≤ u := by exact_mod_cast h
      nlinarith
  rcases le_total i j with hij | hij
  · refine key i s (t * 10 ^ (j - i).toNat) rfl ?_ (.inl hs)
    rw [← zpow_nat (by omega), mul_assoc, ← zpow_add₀ (by norm_num)]
    congr 2; omega
  · refine key j (s * 10 ^ (i - j).toNat) t ?_ rfl (.inr ht)
    rw [← zpow_nat (by omega), mul_assoc, ← zpow_add₀ (by norm_num)]
    congr 2; omega

/-- **C60.**  A decimal of at most 15 significant digits stands for the normal double it rounds to. -/
theorem C60_decimal {bits : BitVec 64} (hf : finite bits) (hn : expBits bits ≠ 0) {D : ℚ} {n : Nat}
    (hn1 : 1 ≤ n) (hn15 : n ≤ 15) (hD : HasLength n D)
    (hr : RoundsTo (magnitude bits) (doubleC bits % 2 = 0) D) : JavaDecimal bits D := by
  have hc52 : 2 ^ 52 ≤ doubleC bits := by unfold doubleC; rw [if_neg hn]; omega
  have h0 : magnitude bits ≠ 0 := by
    unfold magnitude
    have : (0 : ℚ) < doubleC bits := by exact_mod_cast lt_of_lt_of_le (by norm_num) hc52
    positivity
  obtain ⟨f, e, k, -, -, -, -, -, hq, -⟩ := C26_decimal bits hf h0
  obtain ⟨m, hm, hR, hl, -⟩ := id hq
  have hmn : m ≤ n := hm.2 ⟨hn1, D, hr, hD⟩
  have : D = f.toNat * 10 ^ e :=
    fifteen_unique hf hn (hD.mono hn1 hn15) (hl.mono (by omega) (by omega)) hr hR
  rw [this]; exact hq

/-- So `%.pf` of the double nearest to such a decimal `D` prints `D` itself rounded half up to `p` places,
and all of `D` if `D` has no more places: the binary value does not show. -/
theorem C60_f (dates : DateSyntax) (env : DateEnv) (jdk : JdkEnv) (d : Directive) (h : d.Ok dates)
    (hp : d.Plain) (hc : d.conv = ch! 'f') (bits : BitVec 64) (hf : finite bits) (hn : expBits bits ≠ 0)
    (e : Entry) (he : IsDouble e bits) (rest : List Traits) {D : ℚ} {n : Nat} (hn1 : 1 ≤ n) (hn15 : n ≤ 15)
    (hD : HasLength n D) (hr : RoundsTo (magnitude bits) (doubleC bits % 2 = 0) D) :
    ∃ body, printf dates env d.text (e.toTraits jdk :: rest) =
        .ok (d.field (signText (flagSet d.flags) (negative bits)) body) ∧
      FixedText (halfUp D (d.prec.precision.getD 6)) (d.prec.precision.getD 6)
        (flagSet d.flags).alternate body := by
  obtain ⟨q, body, h1, h2, h3⟩ := C23_f dates env jdk d h hp hc bits hf e he rest
  have hJ := C60_decimal hf hn hn1 hn15 hD hr
  rcases h2 with ⟨h0, rfl⟩ | ⟨h0, hq⟩
  · exfalso
    unfold magnitude at h0
    have hc52 : 2 ^ 52 ≤ doubleC bits := by unfold doubleC; rw [if_neg hn]; omega
    have : (0 : ℚ) < doubleC bits := by exact_mod_cast lt_of_lt_of_le (by norm_num) hc52
    have := two_zpow_pos (doubleQ bits)
    nlinarith
  · rw [C26_unique hf h0 hJ hq]
    exact ⟨body, h1, h3⟩

/-- A normal double is not zero. -/
theorem normal_nonzero {bits : BitVec 64} (hn : expBits bits ≠ 0) : magnitude bits ≠ 0 := by
  have hc52 : 2 ^ 52 ≤ doubleC bits := by unfold doubleC; rw [if_neg hn]; omega
  have : (0 : ℚ) < doubleC bits := by exact_mod_cast lt_of_lt_of_le (by norm_num) hc52
  unfold magnitude
  positivity

/-- `%.pe` of the double nearest to `D` prints `D` rounded half up to `p + 1` significant digits. -/
theorem C60_e (dates : DateSyntax) (env : DateEnv) (jdk : JdkEnv) (d : Directive) (h : d.Ok dates)
    (hp : d.Plain) (hc : d.conv = ch! 'e') (bits : BitVec 64) (hf : finite bits) (hn : expBits bits ≠ 0)
    (e : Entry) (he : IsDouble e bits) (rest : List Traits) {D : ℚ} {n : Nat} (hn1 : 1 ≤ n) (hn15 : n ≤ 15)
    (hD : HasLength n D) (hr : RoundsTo (magnitude bits) (doubleC bits % 2 = 0) D) :
    ∃ m ex M x, printf dates env d.text (e.toTraits jdk :: rest) =
        .ok (d.field (signText (flagSet d.flags) (negative bits)) (m ++ ch! 'e' :: ex)) ∧
      Significant D (d.prec.precision.getD 6 + 1) M x ∧
      FixedText M (d.prec.precision.getD 6) (flagSet d.flags).alternate m ∧ ExponentText x ex := by
  obtain ⟨m, ex, h1, h2⟩ := C24_e dates env jdk d h hp hc bits hf e he rest
  have hJ := C60_decimal hf hn hn1 hn15 hD hr
  rcases h2 with ⟨h0, -⟩ | ⟨q, M, x, h0, hq, hM, h3, h4⟩
  · exact absurd h0 (normal_nonzero hn)
  · rw [C26_unique hf h0 hq hJ] at hM
    exact ⟨m, ex, M, x, h1, hM, h3, h4⟩

/-- `%.Pg` of the double nearest to `D` prints `D` rounded half up to `P` significant digits, without
superfluous zeros if `#` is not given; so if `D` has no more than `P` digits, it is `D` that is printed. -/
theorem C60_g (dates : DateSyntax) (env : DateEnv) (jdk : JdkEnv) (d : Directive) (h : d.Ok dates)
    (hp : d.Plain) (hc : d.conv = ch! 'g') (bits : BitVec 64) (hf : finite bits) (hn : expBits bits ≠ 0)
    (e : Entry) (he : IsDouble e bits) (rest : List Traits) {D : ℚ} {n : Nat} (hn1 : 1 ≤ n) (hn15 : n ≤ 15)
    (hD : HasLength n D) (hr : RoundsTo (magnitude bits) (doubleC bits % 2 = 0) D) :
    let P := max 1 (d.prec.precision.getD 6)
    ∃ body M x, printf dates env d.text (e.toTraits jdk :: rest) =
        .ok (d.field (signText (flagSet d.flags) (negative bits)) body) ∧
      Significant D P M x ∧
      ∃ e n, LastPlace bits e ∧ DigitsDownTo D e n ∧
        GeneralText P n (flagSet d.flags).alternate M x body := by
  intro P
  obtain ⟨body, h1, h2⟩ := C25_g dates env jdk d h hp hc bits hf e he rest
  have hJ := C60_decimal hf hn hn1 hn15 hD hr
  rcases h2 with ⟨h0, -⟩ | ⟨q, M, x, h0, hq, hM, k, j, h3, h4, h5⟩
  · exact absurd h0 (normal_nonzero hn)
  · obtain rfl := C26_unique hf h0 hq hJ
    exact ⟨body, M, x, h1, hM, k, j, h3, h4, h5⟩

/-- The decimal of an integer below `2^53` is the integer. -/
theorem C60_integer {bits : BitVec 64} (hf : finite bits) {N : Nat} (hN : magnitude bits = N)
    (hlt : N < 2 ^ 53) : DecimalOf bits N := by
  by_cases h0 : magnitude bits = 0
  · exact .inl ⟨h0, by rw [← hN, h0]⟩
  refine .inr ⟨h0, ?_⟩
  have hpos : 0 < N := by
    rcases Nat.eq_zero_or_pos N with h | h
    · rw [h] at hN; simp at hN; exact absurd hN h0
    · exact h
  have hc := (double_canonical hf h0).1
  have hw := two_zpow_pos (doubleQ bits)
  have hNq : (N : ℚ) < 2 ^ 53 := by exact_mod_cast hlt
  have hq : (2 : ℚ) ^ doubleQ bits ≤ 1 := by
    rcases hc.normal with hq | hq
    · rw [hq]; exact zpow_le_one_of_nonpos₀ (by norm_num) (by norm_num)
    · by_contra hgt
      have : 1 ≤ doubleQ bits := by
        by_contra hle
        exact hgt (zpow_le_one_of_nonpos₀ (by norm_num) (by omega))
      have h2 : (2 : ℚ) ^ (1 : Int) ≤ 2 ^ doubleQ bits := zpow_le_zpow_right₀ (by norm_num) this
      have h3 : ((2 ^ 52 : Nat) : ℚ) ≤ doubleC bits := by exact_mod_cast hq
      rw [← hN] at hNq
      unfold magnitude at hNq
      push_cast at h3
      rw [zpow_one] at h2
      nlinarith
  unfold JavaDecimal
  rw [hN]
  refine DoubleToDecimal.chosen_integer hpos ?_ ?_
  · intro y hy
    by_cases hyN : y = N
    · exact .inl hyN
    · right; left
      rw [sub_self, abs_zero, abs_pos, sub_ne_zero]
      exact Ne.symm hyN
  · intro d hd
    rw [← hN] at hd ⊢
    unfold magnitude at hd ⊢
    have hl : ((lowQuarters (doubleC bits) (doubleQ bits) : Nat) : ℚ) ≤ 2 := by
      unfold lowQuarters; split_ifs <;> norm_num
    have := ((roundsTo_iff hc d).1 hd).le
    rw [abs_lt]
    constructor <;> nlinarith [this.1, this.2]

/-! ### C61 -/

/-- The decimal is within half a unit in the last place of the double. -/
theorem C61_decimal {bits : BitVec 64} (hf : finite bits) {q : ℚ} (h : DecimalOf bits q) :
    |q - magnitude bits| ≤ 2 ^ doubleQ bits / 2 := by
  have hw := two_zpow_pos (doubleQ bits)
  rcases h with ⟨h0, rfl⟩ | ⟨h0, hq⟩
  · rw [h0]; simp; positivity
  · have hc := (double_canonical hf h0).1
    have := ((roundsTo_iff hc q).1 (C26_roundtrip hq)).le
    have hl : ((lowQuarters (doubleC bits) (doubleQ bits) : Nat) : ℚ) ≤ 2 := by
      unfold lowQuarters; split_ifs <;> norm_num
    unfold magnitude
    rw [abs_le]
    constructor <;> nlinarith [this.1, this.2]

/-- **C61.**  The number that `%.pf` prints is within half a unit of its last place plus half a unit in the
last place of the double, of the exact value of the double. -/
theorem C61_f (dates : DateSyntax) (env : DateEnv) (jdk : JdkEnv) (d : Directive) (h : d.Ok dates)
    (hp : d.Plain) (hc : d.conv = ch! 'f') (bits : BitVec 64) (hf : finite bits) (e : Entry)
    (he : IsDouble e bits) (rest : List Traits) :
    ∃ s, printf dates env d.text (e.toTraits jdk :: rest) = .ok s ∧
      (readNumber s).1 = decide (negative bits) ∧
      |(readNumber s).2 - magnitude bits| ≤
        10 ^ (-(d.prec.precision.getD 6 : Int)) / 2 + 2 ^ doubleQ bits / 2 := by
  obtain ⟨q, body, h1, hq, hm⟩ := C23_f dates env jdk d h hp hc bits hf e he rest
  refine ⟨_, h1, ?_⟩
  have h2 := C23_error hq (d.prec.precision.getD 6)
  have h3 := C61_decimal hf hq
  generalize d.prec.precision.getD 6 = p at *
  obtain ⟨ip, fp, hn, hl, hv⟩ := fixedText_written hm (tail := []) (.inl rfl)
  rw [List.append_nil] at hn
  unfold Directive.field
  rw [hn.read_field, hn.read, hv, hl]
  refine ⟨rfl, ?_⟩
  simp only [List.drop_nil, readExponent, zero_sub]
  calc _ = |((halfUp q p : ℚ) * 10 ^ (-(p : Int)) - q) + (q - magnitude bits)| := by congr 1; ring
    _ ≤ _ := (abs_add_le _ _).trans (add_le_add h2 h3)

/-! ### Examples -/

-- one digit less than C59 asks for does not do: 0.3 and 0.1 + 0.2 print alike under `%.15e` and `%.16g`
example : printf ⟨fun _ => true⟩ sampleDateEnv (js! "%.15e %.16g") [doubleArg 0x3FD3333333333333#64,
    doubleArg 0x3FD3333333333333#64] = printf ⟨fun _ => true⟩ sampleDateEnv (js! "%.15e %.16g")
      [doubleArg 0x3FD3333333333334#64, doubleArg 0x3FD3333333333334#64] := by decide +kernel
-- with one digit more they do not
example : printf ⟨fun _ => true⟩ sampleDateEnv (js! "%.16e %.16e") [doubleArg 0x3FD3333333333333#64,
    doubleArg 0x3FD3333333333334#64] = .ok (js! "3.0000000000000000e-01 3.0000000000000004e-01") := by decide +kernel
-- the padded and signed texts are read
example : readNumber (js! "+000012.50") = (false, 25 / 2) ∧ readNumber (js! "   -1e-05") = (true, 1 / 100000) := by
  decide +kernel
example : (printf ⟨fun _ => true⟩ sampleDateEnv (js! "%030.16e") [doubleArg 0x8000000000000000#64]).map readNumber =
    .ok (true, 0) := by decide +kernel
-- 1.005 has a binary value below 1.005, but is printed as 1.01
example : printf ⟨fun _ => true⟩ sampleDateEnv (js! "%.2f") [doubleArg 0x3FF0147AE147AE14#64] =
    .ok (js! "1.01") := by decide +kernel
example : HasLength 4 (1005 / 1000) := ⟨1005, -3, by norm_num, by norm_num, by norm_num⟩
example (hf : finite 0x3FF0147AE147AE14#64) (h0 : magnitude 0x3FF0147AE147AE14#64 ≠ 0) :
    RoundsTo (magnitude 0x3FF0147AE147AE14#64) (doubleC 0x3FF0147AE147AE14#64 % 2 = 0) (1005 / 1000) := by
  obtain ⟨f, e, n, h1, -, -, -, -, h2, -⟩ := C26_decimal _ hf h0
  have h3 : DoubleToDecimal.toDecimal 0x3FF0147AE147AE14#64 = .ok (.dec 10050000000000000#64 (-16) 17) := by
    decide +kernel
  rw [h3] at h1
  cases h1
  have h4 := C26_roundtrip h2
  norm_num at h4 ⊢
  exact h4
-- 0.1 and 1234.5 under `%e` and `%g`
example : printf ⟨fun _ => true⟩ sampleDateEnv (js! "%.3e %g %.15g") [doubleArg 0x3FB999999999999A#64,
    doubleArg 0x40934A0000000000#64, doubleArg 0x3FB999999999999A#64] =
    .ok (js! "1.000e-01 1234.5 0.1") := by decide +kernel
-- the greatest integer that C60 is about; some integers above print other digits than their own: 2^60 is
-- 1152921504606846976
example : printf ⟨fun _ => true⟩ sampleDateEnv (js! "%.0f %.0f") [doubleArg 0x433FFFFFFFFFFFFF#64,
    doubleArg 0x43B0000000000000#64] = .ok (js! "9007199254740991 1152921504606847000") := by decide +kernel

end FastPrintf
