/-
C65, C66: order.  Printed numbers keep the order of the values, and columns of numbers sort.
-/
import Verif.Props.ReadBack
import Verif.Props.BigDecimal
import Verif.Props.Integers
import Verif.Props.Compile
import Verif.Proofs.Order

namespace FastPrintf
open Spec DefaultAppender

/-! ### The decimals keep the order -/

theorem roundsTo_mono {x y : ℚ} (hx : IsFloat x) (hy : IsFloat y) (hlt : x < y) {e e' : Prop} {d d' : ℚ}
    (h : RoundsTo x e d) (h' : RoundsTo y e' d') : d ≤ d' := by
  have h1 : |d - x| ≤ |d - y| := by
    rcases h y hy with g | g | g
    · exact absurd g hlt.ne'
    · exact g.le
    · exact g.1.le
  have h2 : |d' - y| ≤ |d' - x| := by
    rcases h' x hx with g | g | g
    · exact absurd g hlt.ne
    · exact g.le
    · exact g.1.le
  by_contra hn
  rcases abs_cases (d - x) with a | a <;> rcases abs_cases (d - y) with b | b <;>
    rcases abs_cases (d' - x) with c | c <;> rcases abs_cases (d' - y) with f | f <;> linarith

theorem magnitude_isFloat {bits : BitVec 64} (hf : finite bits) : IsFloat (magnitude bits) := by
  by_cases h0 : magnitude bits = 0
  · exact ⟨0, 0, by norm_num, by norm_num, by rw [h0]; simp⟩
  · have c := (double_canonical hf h0).1
    exact ⟨_, _, c.lt, c.min, rfl⟩

/-- The sign bit is not part of the magnitude. -/
theorem doubleC_eq {b b' : BitVec 64} (hf : finite b) (hf' : finite b') (hm : magnitude b = magnitude b') :
    doubleC b = doubleC b' := by
  have main : ∀ {b b' : BitVec 64}, finite b → finite b' → magnitude b = magnitude b' → negative b →
      ¬ negative b' → doubleC b = doubleC b' := by
    intro b b' hf hf' hm hn hn'
    have e : ∀ x : BitVec 64, expBits (x &&& 0x7FFFFFFFFFFFFFFF#64) = expBits x ∧
        fracBits (x &&& 0x7FFFFFFFFFFFFFFF#64) = fracBits x ∧ ¬ negative (x &&& 0x7FFFFFFFFFFFFFFF#64) := by
      intro x
      have : (x &&& 0x7FFFFFFFFFFFFFFF#64).toNat = x.toNat % 2 ^ 63 := by
        rw [BitVec.toNat_and]
        exact Nat.and_two_pow_sub_one_eq_mod _ 63
      have hx := x.isLt
      unfold expBits fracBits negative
      rw [this]
      refine ⟨by omega, by omega, by omega⟩
    obtain ⟨e1, e2, e3⟩ := e b
    have hc : doubleC (b &&& 0x7FFFFFFFFFFFFFFF#64) = doubleC b := by unfold doubleC; rw [e1, e2]
    have hq : doubleQ (b &&& 0x7FFFFFFFFFFFFFFF#64) = doubleQ b := by unfold doubleQ; rw [e1]
    have := bits_ext (b := b &&& 0x7FFFFFFFFFFFFFFF#64) (b' := b') (by unfold finite; rw [e1]; exact hf) hf'
      ⟨fun h => absurd h e3, fun h => absurd h hn'⟩ (by unfold magnitude; rw [hc, hq]; exact hm)
    rw [← hc, this]
  by_cases h : negative b <;> by_cases h' : negative b'
  · rw [bits_ext hf hf' ⟨fun _ => h', fun _ => h⟩ hm]
  · exact main hf hf' hm h h'
  · exact (main hf' hf hm.symm h' h).symm
  · rw [bits_ext hf hf' ⟨fun g => absurd g h, fun g => absurd g h'⟩ hm]

theorem decimal_mono {b b' : BitVec 64} (hf : finite b) (hf' : finite b') (h0 : magnitude b ≠ 0)
    {q q' : ℚ} (h : JavaDecimal b q) (h' : JavaDecimal b' q')
    (hm : magnitude b ≤ magnitude b') : q ≤ q' := by
  rcases hm.lt_or_eq with g | g
  · exact roundsTo_mono (magnitude_isFloat hf) (magnitude_isFloat hf') g (C26_roundtrip h) (C26_roundtrip h')
  · refine (C26_unique hf h0 h ?_).le
    unfold JavaDecimal
    rw [g, doubleC_eq hf hf' g]
    exact h'

theorem decimal_nonneg {b : BitVec 64} {q : ℚ} (h : DecimalOf b q) : 0 ≤ q := by
  rcases h with ⟨_, rfl⟩ | ⟨_, m, _, _, ⟨s, i, _, _, rfl⟩, _⟩
  · exact le_refl _
  · positivity

theorem magnitude_nonneg (b : BitVec 64) : 0 ≤ magnitude b := by unfold magnitude; positivity

theorem decimalOf_mono {b b' : BitVec 64} (hf : finite b) (hf' : finite b') {q q' : ℚ} (h : DecimalOf b q)
    (h' : DecimalOf b' q') (hm : magnitude b ≤ magnitude b') : q ≤ q' := by
  have hq' := decimal_nonneg h'
  rcases h with ⟨_, rfl⟩ | ⟨h0, h⟩
  · exact hq'
  · rcases h' with ⟨h0', rfl⟩ | ⟨h0', h'⟩
    · exact absurd (le_antisymm (hm.trans h0'.le) (magnitude_nonneg b)) h0
    · exact decimal_mono hf hf' h0 h h' hm

theorem halfUp_mono {d d' : ℚ} (h : d ≤ d') (p : Int) : halfUp d p ≤ halfUp d' p := by
  unfold halfUp
  apply Nat.floor_le_floor
  have : (0 : ℚ) < 10 ^ p := by positivity
  nlinarith

theorem Spec.Significant.mono {d d' : ℚ} {n m m' : Nat} {x x' : Int} (hn : 1 ≤ n) (h : Significant d n m x)
    (h' : Significant d' n m' x') (hd : d ≤ d') :
    (m : ℚ) * 10 ^ (x - (n - 1)) ≤ m' * 10 ^ (x' - (n - 1)) := by
  obtain ⟨-, -, x0, l, u, e⟩ := h
  obtain ⟨-, -, x0', l', u', e'⟩ := h'
  rw [e, e']
  have h10 : (10 : ℚ) ≠ 0 := by norm_num
  rcases lt_trichotomy x0 x0' with g | g | g
  · -- the smaller number rounds to at most the power of ten between them
    have p1 : (0 : ℚ) < 10 ^ (x0 - (n - 1)) := by positivity
    have p2 : (0 : ℚ) < 10 ^ (x0' - (n - 1)) := by positivity
    have a : (halfUp d (n - 1 - x0) : ℚ) ≤ 10 ^ n := by
      have hv : d * 10 ^ ((n : Int) - 1 - x0) < 10 ^ n := by
        have := mul_lt_mul_of_pos_right u (by positivity : (0 : ℚ) < 10 ^ ((n : Int) - 1 - x0))
        rw [← zpow_add₀ h10, show x0 + 1 + ((n : Int) - 1 - x0) = n by ring, zpow_natCast] at this
        exact this
      have : halfUp d (n - 1 - x0) < 10 ^ n + 1 := by
        unfold halfUp
        rw [Nat.floor_lt (by have : (0 : ℚ) < 10 ^ x0 := by positivity
                             have : (0 : ℚ) ≤ d := by linarith
                             positivity)]
        push_cast
        linarith
      exact_mod_cast (by omega : halfUp d (n - 1 - x0) ≤ 10 ^ n)
    have b : (10 : ℚ) ^ (n - 1) ≤ halfUp d' (n - 1 - x0') := by
      have hv : (10 : ℚ) ^ (n - 1) ≤ d' * 10 ^ ((n : Int) - 1 - x0') := by
        have := mul_le_mul_of_nonneg_right l' (by positivity : (0 : ℚ) ≤ 10 ^ ((n : Int) - 1 - x0'))
        rw [← zpow_add₀ h10, show x0' + ((n : Int) - 1 - x0') = ((n - 1 : Nat) : Int) by omega, zpow_natCast] at this
        exact this
      have : 10 ^ (n - 1) ≤ halfUp d' (n - 1 - x0') := by
        unfold halfUp
        apply Nat.le_floor
        push_cast
        linarith
      exact_mod_cast this
    calc (halfUp d (n - 1 - x0) : ℚ) * 10 ^ (x0 - (n - 1))
        ≤ 10 ^ n * 10 ^ (x0 - (n - 1)) := mul_le_mul_of_nonneg_right a p1.le
      _ = 10 ^ (x0 + 1) := by rw [← zpow_natCast (10 : ℚ) n, ← zpow_add₀ h10]; congr 1; ring
      _ ≤ 10 ^ x0' := zpow_le_zpow_right₀ (by norm_num) (by omega)
      _ = 10 ^ (n - 1) * 10 ^ (x0' - (n - 1)) := by
        rw [← zpow_natCast (10 : ℚ) (n - 1), ← zpow_add₀ h10]; congr 1; omega
      _ ≤ _ := mul_le_mul_of_nonneg_right b p2.le
  · subst g
    have : (0 : ℚ) < 10 ^ (x0 - (n - 1)) := by positivity
    have h2 : (halfUp d (n - 1 - x0) : ℚ) ≤ halfUp d' (n - 1 - x0) := by exact_mod_cast halfUp_mono hd _
    nlinarith
  · have : (10 : ℚ) ^ (x0' + 1) ≤ 10 ^ x0 := zpow_le_zpow_right₀ (by norm_num) (by omega)
    linarith

/-! ### What the printed texts denote -/

/-- The magnitude printed for a finite `double` under `%.pf`. -/
def PrintsF (p : Nat) (bits : BitVec 64) (v : ℚ) : Prop :=
  ∃ q, DecimalOf bits q ∧ v = halfUp q p * 10 ^ (-(p : Int))

/-- The magnitude printed with `P` significant digits. -/
def PrintsE (P : Nat) (bits : BitVec 64) (v : ℚ) : Prop :=
  (magnitude bits = 0 ∧ v = 0) ∨
    ∃ q M x, magnitude bits ≠ 0 ∧ JavaDecimal bits q ∧ Significant q P M x ∧ v = M * 10 ^ (x - (P - 1))

theorem read_f (dates : DateSyntax) (env : DateEnv) (jdk : JdkEnv) (d : Directive) (h : d.Ok dates)
    (hp : d.Plain) (hc : d.conv = ch! 'f') (bits : BitVec 64) (hf : finite bits) (e : Entry)
    (he : IsDouble e bits) (rest : List Traits) :
    ∃ s v, printf dates env d.text (e.toTraits jdk :: rest) = .ok s ∧
      readNumber s = (decide (negative bits), v) ∧ PrintsF (d.prec.precision.getD 6) bits v := by
  obtain ⟨q, body, h1, hq, hm⟩ := C23_f dates env jdk d h hp hc bits hf e he rest
  refine ⟨_, _, h1, ?_, q, hq, rfl⟩
  generalize d.prec.precision.getD 6 = p at *
  obtain ⟨ip, fp, hn, hl, hv⟩ := fixedText_written hm (tail := []) (.inl rfl)
  rw [List.append_nil] at hn
  unfold Directive.field
  rw [hn.read_field, hn.read, hv, hl]
  simp [readExponent]

theorem read_e (dates : DateSyntax) (env : DateEnv) (jdk : JdkEnv) (d : Directive) (h : d.Ok dates)
    (hp : d.Plain) (hc : d.conv = ch! 'e') (bits : BitVec 64) (hf : finite bits) (e : Entry)
    (he : IsDouble e bits) (rest : List Traits) :
    ∃ s v, printf dates env d.text (e.toTraits jdk :: rest) = .ok s ∧
      readNumber s = (decide (negative bits), v) ∧ PrintsE (d.prec.precision.getD 6 + 1) bits v := by
  obtain ⟨m, ex, h1, h2⟩ := C24_e dates env jdk d h hp hc bits hf e he rest
  generalize d.prec.precision.getD 6 = p at *
  rcases h2 with ⟨h0, hm, hex⟩ | ⟨q, M, x, h0, hq, hsig, hm, hex⟩
  · refine ⟨_, 0, h1, ?_, .inl ⟨h0, rfl⟩⟩
    obtain ⟨ip, fp, hn, hl, hv⟩ := fixedText_written hm (tail := ch! 'e' :: ex)
      (.inr ⟨_, rfl, by rw [hex]; decide⟩)
    unfold Directive.field
    rw [hn.read_field, hn.read, hv]
    simp
  · refine ⟨_, _, h1, ?_, .inr ⟨q, M, x, h0, hq, hsig, rfl⟩⟩
    obtain ⟨hx1, hx2⟩ := exponent_read hex
    obtain ⟨ip, fp, hn, hl, hv⟩ := fixedText_written hm (tail := ch! 'e' :: ex) (.inr ⟨_, rfl, hx2⟩)
    unfold Directive.field
    rw [hn.read_field, hn.read, hv, hl]
    simp only [List.drop_succ_cons, List.drop_zero, hx1]
    congr 3
    push_cast
    ring

theorem read_g (dates : DateSyntax) (env : DateEnv) (jdk : JdkEnv) (d : Directive) (h : d.Ok dates)
    (hp : d.Plain) (hc : d.conv = ch! 'g') (bits : BitVec 64) (hf : finite bits) (e : Entry)
    (he : IsDouble e bits) (rest : List Traits) :
    ∃ s v, printf dates env d.text (e.toTraits jdk :: rest) = .ok s ∧
      readNumber s = (decide (negative bits), v) ∧ PrintsE (max 1 (d.prec.precision.getD 6)) bits v := by
  obtain ⟨body, h1, h2⟩ := C25_g dates env jdk d h hp hc bits hf e he rest
  have hP : 1 ≤ max 1 (d.prec.precision.getD 6) := le_max_left _ _
  generalize max 1 (d.prec.precision.getD 6) = p at *
  rcases h2 with ⟨h0, hm⟩ | ⟨q, M, x, h0, hq, hsig, _, n, -, -, hm⟩
  · refine ⟨_, 0, h1, ?_, .inl ⟨h0, rfl⟩⟩
    unfold Directive.field
    split_ifs at hm
    · obtain ⟨ip, fp, hn, hl, hv⟩ := fixedText_written hm (tail := []) (.inl rfl)
      rw [List.append_nil] at hn
      rw [hn.read_field, hn.read, hv]
      simp
    · have hn : NumText body (js! "0") [] false [] :=
        ⟨by rw [hm]; decide, by decide, by decide, by decide, .inl rfl⟩
      rw [hn.read_field, hn.read]
      simp [valueIn, digitVal]
  · refine ⟨_, _, h1, ?_, .inr ⟨q, M, x, h0, hq, hsig, rfl⟩⟩
    unfold Directive.field
    have h10 : (10 : ℚ) ≠ 0 := by norm_num
    unfold GeneralText at hm
    by_cases hx : -4 ≤ x ∧ x < (p : Int)
    · rw [if_pos hx] at hm
      split_ifs at hm
      · obtain ⟨ip, fp, hn, hl, hv⟩ := fixedText_written hm (tail := []) (.inl rfl)
        rw [List.append_nil] at hn
        rw [hn.read_field, hn.read, hv, hl]
        simp only [List.drop_nil, readExponent]
        congr 3
        omega
      · obtain ⟨ip, fp, hn, hv⟩ := minimalText_written hm (tail := []) (.inl rfl)
        rw [List.append_nil] at hn
        rw [hn.read_field, hn.read, hv]
        simp only [List.drop_nil, readExponent]
        congr 1
        rw [mul_assoc, ← zpow_natCast (10 : ℚ) fp.length, ← zpow_add₀ h10]
        simp
    · rw [if_neg hx] at hm
      obtain ⟨ms, xs, rfl, hxs, hm⟩ := hm
      obtain ⟨hx1, hx2⟩ := exponent_read hxs
      split_ifs at hm
      · obtain ⟨m', hM, hm⟩ := hm
        obtain ⟨ip, fp, hn, hl, hv⟩ := fixedText_written hm (tail := ch! 'e' :: xs) (.inr ⟨_, rfl, hx2⟩)
        rw [hn.read_field, hn.read, hv, hl]
        simp only [List.drop_succ_cons, List.drop_zero, hx1]
        congr 1
        have hn1 : 1 ≤ n := by
          by_contra hn0
          obtain ⟨s1, s2, -⟩ := hsig
          rw [hM, show p - min p n = p by omega] at s1 s2
          have : 0 < 10 ^ (p - 1) := by positivity
          have : m' ≠ 0 := by rintro rfl; omega
          nlinarith [Nat.one_le_iff_ne_zero.2 this]
        rw [hM]
        push_cast
        rw [mul_assoc, ← zpow_natCast (10 : ℚ) (p - min p n), ← zpow_add₀ h10]
        congr 2
        omega
      · obtain ⟨ip, fp, hn, hv⟩ := minimalText_written hm (tail := ch! 'e' :: xs) (.inr ⟨_, rfl, hx2⟩)
        rw [hn.read_field, hn.read, hv]
        simp only [List.drop_succ_cons, List.drop_zero, hx1]
        congr 1
        rw [mul_assoc, mul_assoc, ← zpow_natCast (10 : ℚ) fp.length, ← zpow_add₀ h10, ← zpow_add₀ h10]
        congr 2
        ring

theorem PrintsF.mono {p : Nat} {b b' : BitVec 64} (hf : finite b) (hf' : finite b') {v v' : ℚ}
    (h : PrintsF p b v) (h' : PrintsF p b' v') (hm : magnitude b ≤ magnitude b') : v ≤ v' := by
  obtain ⟨q, hq, rfl⟩ := h
  obtain ⟨q', hq', rfl⟩ := h'
  have h2 : (halfUp q p : ℚ) ≤ halfUp q' p := by exact_mod_cast halfUp_mono (decimalOf_mono hf hf' hq hq' hm) p
  exact mul_le_mul_of_nonneg_right h2 (by positivity)

theorem PrintsF.nonneg {p : Nat} {b : BitVec 64} {v : ℚ} (h : PrintsF p b v) : 0 ≤ v := by
  obtain ⟨q, -, rfl⟩ := h
  positivity

theorem PrintsE.nonneg {p : Nat} {b : BitVec 64} {v : ℚ} (h : PrintsE p b v) : 0 ≤ v := by
  rcases h with ⟨-, rfl⟩ | ⟨q, M, x, -, -, -, rfl⟩
  · exact le_refl _
  · positivity

theorem PrintsE.mono {P : Nat} (hP : 1 ≤ P) {b b' : BitVec 64} (hf : finite b) (hf' : finite b') {v v' : ℚ}
    (h : PrintsE P b v) (h' : PrintsE P b' v') (hm : magnitude b ≤ magnitude b') : v ≤ v' := by
  have hv' := h'.nonneg
  rcases h with ⟨-, rfl⟩ | ⟨q, M, x, h0, hq, hs, rfl⟩
  · exact hv'
  · rcases h' with ⟨h0', rfl⟩ | ⟨q', M', x', h0', hq', hs', rfl⟩
    · exact absurd (le_antisymm (hm.trans h0'.le) (magnitude_nonneg b)) h0
    · exact hs.mono hP hs' (decimal_mono hf hf' h0 hq hq' hm)

/-! ### C65 -/

theorem signed_mono {b b' : BitVec 64} (hd : doubleValue b ≤ doubleValue b') {v v' : ℚ} (hv : 0 ≤ v) (hv' : 0 ≤ v')
    (h0 : magnitude b = 0 → v = 0) (h0' : magnitude b' = 0 → v' = 0)
    (h : magnitude b ≤ magnitude b' → v ≤ v') (h' : magnitude b' ≤ magnitude b → v' ≤ v) :
    signed (decide (negative b)) v ≤ signed (decide (negative b')) v' := by
  have m := magnitude_nonneg b
  have m' := magnitude_nonneg b'
  unfold doubleValue at hd
  unfold signed at *
  by_cases hn : negative b <;> by_cases hn' : negative b' <;>
    simp only [hn, hn', decide_true, decide_false, if_true, Bool.false_eq_true, if_false] at hd ⊢
  · linarith [h' (by linarith)]
  · linarith
  · have e : magnitude b = 0 := by linarith
    have e' : magnitude b' = 0 := by linarith
    rw [h0 e, h0' e']; simp
  · exact h hd

theorem PrintsF.zero {p : Nat} {b : BitVec 64} {v : ℚ} (h : PrintsF p b v) (h0 : magnitude b = 0) : v = 0 := by
  obtain ⟨q, hq, rfl⟩ := h
  rcases hq with ⟨-, rfl⟩ | ⟨h1, -⟩
  · have : halfUp 0 p = 0 := by
      unfold halfUp
      rw [zero_mul, Nat.floor_eq_zero]; norm_num
    rw [this]; simp
  · exact absurd h0 h1

theorem PrintsE.zero {p : Nat} {b : BitVec 64} {v : ℚ} (h : PrintsE p b v) (h0 : magnitude b = 0) : v = 0 := by
  rcases h with ⟨-, h⟩ | ⟨_, _, _, h1, _⟩
  · exact h
  · exact absurd h0 h1

/-- **C65.** `%f`, `%e` and `%g` keep the order of finite doubles: under the same directive the text of the
greater number never denotes the smaller one. -/
theorem C65_monotone (dates : DateSyntax) (env : DateEnv) (jdk : JdkEnv) (d : Directive) (h : d.Ok dates)
    (hp : d.Plain) (hc : d.conv = ch! 'f' ∨ d.conv = ch! 'e' ∨ d.conv = ch! 'g') (b b' : BitVec 64)
    (hf : finite b) (hf' : finite b') (e e' : Entry) (he : IsDouble e b) (he' : IsDouble e' b')
    (rest rest' : List Traits) (hle : doubleValue b ≤ doubleValue b') :
    ∃ s s', printf dates env d.text (e.toTraits jdk :: rest) = .ok s ∧
      printf dates env d.text (e'.toTraits jdk :: rest') = .ok s' ∧ readValue s ≤ readValue s' := by
  have fin : ∀ {s s' : JStr} {v v' : ℚ}, readNumber s = (decide (negative b), v) →
      readNumber s' = (decide (negative b'), v') → 0 ≤ v → 0 ≤ v' → (magnitude b = 0 → v = 0) →
      (magnitude b' = 0 → v' = 0) → (magnitude b ≤ magnitude b' → v ≤ v') →
      (magnitude b' ≤ magnitude b → v' ≤ v) → readValue s ≤ readValue s' := by
    intro s s' v v' r r' p p' z z' m m'
    unfold readValue
    rw [r, r']
    exact signed_mono hle p p' z z' m m'
  rcases hc with hc | hc | hc
  · obtain ⟨s, v, h1, h2, h3⟩ := read_f dates env jdk d h hp hc b hf e he rest
    obtain ⟨s', v', h1', h2', h3'⟩ := read_f dates env jdk d h hp hc b' hf' e' he' rest'
    exact ⟨s, s', h1, h1', fin h2 h2' h3.nonneg h3'.nonneg h3.zero h3'.zero (h3.mono hf hf' h3') (h3'.mono hf' hf h3)⟩
  · obtain ⟨s, v, h1, h2, h3⟩ := read_e dates env jdk d h hp hc b hf e he rest
    obtain ⟨s', v', h1', h2', h3'⟩ := read_e dates env jdk d h hp hc b' hf' e' he' rest'
    exact ⟨s, s', h1, h1', fin h2 h2' h3.nonneg h3'.nonneg h3.zero h3'.zero
      (h3.mono (by omega) hf hf' h3') (h3'.mono (by omega) hf' hf h3)⟩
  · obtain ⟨s, v, h1, h2, h3⟩ := read_g dates env jdk d h hp hc b hf e he rest
    obtain ⟨s', v', h1', h2', h3'⟩ := read_g dates env jdk d h hp hc b' hf' e' he' rest'
    exact ⟨s, s', h1, h1', fin h2 h2' h3.nonneg h3'.nonneg h3.zero h3'.zero
      (h3.mono (le_max_left _ _) hf hf' h3') (h3'.mono (le_max_left _ _) hf' hf h3)⟩

/-! ### The error of `%e` and `%g` (C61) -/

theorem Spec.Significant.error {q : ℚ} {n M : Nat} {x : Int} (h : Significant q n M x) :
    |(M : ℚ) * 10 ^ (x - (n - 1)) - q| ≤ q * 10 ^ (-((n : Int) - 1)) / 2 := by
  obtain ⟨-, -, x0, l, u, e⟩ := h
  have h10 : (10 : ℚ) ≠ 0 := by norm_num
  have hq : (0 : ℚ) ≤ q := le_trans (by positivity) l
  have := halfUp_error hq (n - 1 - x0)
  rw [show -((n : Int) - 1 - x0) = x0 - (n - 1) by ring] at this
  rw [e]
  refine this.trans ?_
  rw [show x0 - ((n : Int) - 1) = x0 + -((n : Int) - 1) by ring, zpow_add₀ h10]
  have p : (0 : ℚ) < 10 ^ (-((n : Int) - 1)) := by positivity
  nlinarith

theorem PrintsE.error {P : Nat} {bits : BitVec 64} (hf : finite bits) {v : ℚ} (h : PrintsE P bits v) :
    |v - magnitude bits| ≤
      (magnitude bits + 2 ^ doubleQ bits / 2) * 10 ^ (-((P : Int) - 1)) / 2 + 2 ^ doubleQ bits / 2 := by
  have p : (0 : ℚ) < 10 ^ (-((P : Int) - 1)) := by positivity
  have w : (0 : ℚ) < 2 ^ doubleQ bits := by positivity
  have m := magnitude_nonneg bits
  rcases h with ⟨h0, rfl⟩ | ⟨q, M, x, h0, hq, hs, rfl⟩
  · rw [h0]; simp; positivity
  · have h1 := C61_decimal hf (.inr ⟨h0, hq⟩)
    have h2 := hs.error
    have h3 : q * 10 ^ (-((P : Int) - 1)) ≤ (magnitude bits + 2 ^ doubleQ bits / 2) * 10 ^ (-((P : Int) - 1)) :=
      mul_le_mul_of_nonneg_right (by linarith [(abs_le.1 h1).2]) p.le
    rw [abs_le] at *
    constructor <;> linarith [h1.1, h1.2, h2.1, h2.2]

/-- **C61 (`%e`).** With `p` digits after the point, what is printed for a finite `double` is off by at most
half a unit of the last digit, relative to the number, and half the gap between doubles. -/
theorem C61_e (dates : DateSyntax) (env : DateEnv) (jdk : JdkEnv) (d : Directive) (h : d.Ok dates)
    (hp : d.Plain) (hc : d.conv = ch! 'e') (bits : BitVec 64) (hf : finite bits) (e : Entry)
    (he : IsDouble e bits) (rest : List Traits) :
    ∃ s, printf dates env d.text (e.toTraits jdk :: rest) = .ok s ∧
      (readNumber s).1 = decide (negative bits) ∧
      |(readNumber s).2 - magnitude bits| ≤
        (magnitude bits + 2 ^ doubleQ bits / 2) * 10 ^ (-(d.prec.precision.getD 6 : Int)) / 2 +
          2 ^ doubleQ bits / 2 := by
  obtain ⟨s, v, h1, h2, h3⟩ := read_e dates env jdk d h hp hc bits hf e he rest
  refine ⟨s, h1, by rw [h2], ?_⟩
  have := h3.error hf
  rw [h2]
  simpa using this

/-- **C61 (`%g`).** The same with `P` significant digits. -/
theorem C61_g (dates : DateSyntax) (env : DateEnv) (jdk : JdkEnv) (d : Directive) (h : d.Ok dates)
    (hp : d.Plain) (hc : d.conv = ch! 'g') (bits : BitVec 64) (hf : finite bits) (e : Entry)
    (he : IsDouble e bits) (rest : List Traits) :
    ∃ s, printf dates env d.text (e.toTraits jdk :: rest) = .ok s ∧
      (readNumber s).1 = decide (negative bits) ∧
      |(readNumber s).2 - magnitude bits| ≤
        (magnitude bits + 2 ^ doubleQ bits / 2) * 10 ^ (-((max 1 (d.prec.precision.getD 6) : Nat) - 1 : Int)) / 2 +
          2 ^ doubleQ bits / 2 := by
  obtain ⟨s, v, h1, h2, h3⟩ := read_g dates env jdk d h hp hc bits hf e he rest
  refine ⟨s, h1, by rw [h2], ?_⟩
  rw [h2]
  exact h3.error hf

/-! ### C66: columns of numbers sort -/

theorem sign_nonneg {fl : Flags} : signText fl false = [] ∨ signText fl false = js! "+" ∨
    signText fl false = js! " " := by
  unfold signText
  cases fl.plus <;> cases fl.leadingSpace <;> simp

theorem fraction_none : fraction false [] = [] := rfl

/-- The digits of an integer with a precision. -/
theorem withPrecision_numeral {b v : Nat} (hb : 1 ≤ b) {prec : Option Nat} (hp : prec ≠ some 0) {ds : JStr}
    (h : Shortest b v ds) : IsNumeral b (withPrecision prec (v = 0) ds) ∧
      valueIn b (withPrecision prec (v = 0) ds) = v ∧
      (withPrecision prec (v = 0) ds).length = max (prec.getD 1) ds.length ∧
      (prec.getD 1 < ds.length → 1 < ds.length → (withPrecision prec (v = 0) ds).head? ≠ some 48) := by
  obtain ⟨h1, h2, h3⟩ := h
  unfold withPrecision
  rw [if_neg (by rintro ⟨-, h⟩; exact hp h)]
  refine ⟨⟨by simp [h1.1], ?_⟩, ?_, by simp; omega, ?_⟩
  · intro c hc
    rcases List.mem_append.1 hc with g | g
    · rw [List.eq_of_mem_replicate g]; exact ⟨.inl (by omega), by unfold digitVal; simp; omega⟩
    · exact h1.2 c g
  · rw [valueIn_append, valueIn_replicate_zero, h3]; simp
  · intro hl hl1
    rw [show prec.getD 1 - ds.length = 0 by omega]
    rcases h2 with rfl | h2
    · simp at hl1
    · simpa using h2

theorem sort_integers {b : Nat} (hb : 2 ≤ b) {prec : Option Nat} (hp : prec ≠ some 0) {zero : Bool} {w : Nat}
    {sg : JStr} (hsg : sg = [] ∨ sg = js! "+" ∨ sg = js! " ") {m m' : Nat} {ds ds' : JStr}
    (h : Shortest b m ds) (h' : Shortest b m' ds')
    (hl : (field false zero w sg (withPrecision prec (m = 0) ds)).length =
      (field false zero w sg (withPrecision prec (m' = 0) ds')).length) :
    SortLike (field false zero w sg (withPrecision prec (m = 0) ds))
      (field false zero w sg (withPrecision prec (m' = 0) ds')) m m' := by
  obtain ⟨n1, n2, n3, n4⟩ := withPrecision_numeral (by omega : 1 ≤ b) hp h
  obtain ⟨n1', n2', n3', n4'⟩ := withPrecision_numeral (by omega : 1 ≤ b) hp h'
  have p1 : 1 ≤ prec.getD 1 := by
    cases prec with
    | none => simp
    | some p => simp only [Option.getD_some]; rcases Nat.eq_zero_or_pos p with rfl | g; exact absurd rfl hp; exact g
  have := sort_field hb (alt := false) (zero := zero) (w := w) (fp := []) (fp' := []) hsg n1 n1' (by simp) (by simp) rfl
    (by intro g; exact n4 (by omega) (by omega)) (by intro g; exact n4' (by omega) (by omega))
    (by simpa only [fraction_none, List.append_nil] using hl)
  simpa only [fraction_none, List.append_nil, n2, n2'] using this

/-- **C66 (`%d`).** Numbers that are not negative, printed by the same directive without `-` to texts of the
same length, sort as text as they do as numbers, whether padded with zeros or with spaces. -/
theorem C66_sort_d (dates : DateSyntax) (env : DateEnv) (jdk : JdkEnv) (d : Directive) (h : d.Ok dates)
    (hp : d.Plain) (hc : d.conv = ch! 'd' ∨ d.conv = ch! 'i') (hl : ch! '-' ∉ d.flags)
    (hz : d.prec.precision ≠ some 0) (x x' : Integral) (hx : 0 ≤ x.value) (hx' : 0 ≤ x'.value) (e e' : Entry)
    (he : x.Given e) (he' : x'.Given e') (rest rest' : List Traits) {s s' : JStr}
    (hs : printf dates env d.text (e.toTraits jdk :: rest) = .ok s)
    (hs' : printf dates env d.text (e'.toTraits jdk :: rest') = .ok s') (hlen : s.length = s'.length) :
    SortLike s s' x.value.toNat x'.value.toNat := by
  obtain ⟨o, h1, h2⟩ := C12_d_is_C dates env jdk d h hp hc x e he rest
  obtain ⟨o', h1', h2'⟩ := C12_d_is_C dates env jdk d h hp hc x' e' he' rest'
  rw [hs] at h1
  rw [hs'] at h1'
  cases h1; cases h1'
  obtain ⟨ds, g1, g2⟩ := h2.2 (by rintro ⟨-, g, -⟩; exact hz g)
  obtain ⟨ds', g1', g2'⟩ := h2'.2 (by rintro ⟨-, g, -⟩; exact hz g)
  have hleft : (flagSet d.flags).leftJustify = false := by simpa [flagSet] using hl
  have c : ∀ {v : Int}, 0 ≤ v → decide (v < 0) = false ∧ v.natAbs = v.toNat ∧ (v = 0 ↔ v.toNat = 0) := by
    intro v hv; exact ⟨by simpa using hv, by omega, by omega⟩
  obtain ⟨c1, c2, c3⟩ := c hx
  obtain ⟨c1', c2', c3'⟩ := c hx'
  rw [hleft, c1] at g2
  rw [hleft, c1'] at g2'
  simp only [c3] at g2
  simp only [c3'] at g2'
  rw [c2] at g1
  rw [c2'] at g1'
  rw [g2, g2'] at hlen ⊢
  exact sort_integers (by omega) hz sign_nonneg g1 g1' hlen

/-- **C66 (`%u`, `%o`, `%x`).** Likewise, by the unsigned value. -/
theorem C66_sort_unsigned (dates : DateSyntax) (env : DateEnv) (jdk : JdkEnv) (d : Directive) (h : d.Ok dates)
    (hp : d.Plain) (c : UConv) (hc : d.conv = c.char) (hl : ch! '-' ∉ d.flags) (ha : ch! '#' ∉ d.flags)
    (hz : d.prec.precision ≠ some 0) (x x' : Integral) (n n' : Nat) (hx : x.unsigned = some n)
    (hx' : x'.unsigned = some n') (e e' : Entry)
    (he : x.Given e) (he' : x'.Given e') (rest rest' : List Traits) {s s' : JStr}
    (hs : printf dates env d.text (e.toTraits jdk :: rest) = .ok s)
    (hs' : printf dates env d.text (e'.toTraits jdk :: rest') = .ok s') (hlen : s.length = s'.length) :
    SortLike s s' n n' := by
  obtain ⟨o, h1, h2⟩ := C15_unsigned_is_C dates env jdk d h hp c hc x e he n hx rest
  obtain ⟨o', h1', h2'⟩ := C15_unsigned_is_C dates env jdk d h hp c hc x' e' he' n' hx' rest'
  rw [hs] at h1
  rw [hs'] at h1'
  cases h1; cases h1'
  obtain ⟨ds, g1, g2⟩ := h2.2 (by rintro ⟨-, g, -⟩; exact ha g)
  obtain ⟨ds', g1', g2'⟩ := h2'.2 (by rintro ⟨-, g, -⟩; exact ha g)
  have hleft : (flagSet d.flags).leftJustify = false := by simpa [flagSet] using hl
  have halt : (flagSet d.flags).alternate = false := by simpa [flagSet] using ha
  have al : ∀ (v : Nat) (ds : JStr), alternative c false v ds = ([], ds) := by
    intro v ds; cases c <;> simp [alternative]
  rw [hleft, halt, al] at g2 g2'
  rw [g2, g2'] at hlen ⊢
  exact sort_integers (by cases c <;> decide) hz (.inl rfl) g1 g1' hlen

theorem sort_fixed {fl : Flags} {zero alt : Bool} {w p m m' : Nat} {t t' : JStr} (h : FixedText m p alt t)
    (h' : FixedText m' p alt t')
    (hl : (field false zero w (signText fl false) t).length = (field false zero w (signText fl false) t').length) :
    SortLike (field false zero w (signText fl false) t) (field false zero w (signText fl false) t') m m' := by
  obtain ⟨ip, fp, rfl, h2, h3, h4, h5, rfl⟩ := h
  obtain ⟨ip', fp', rfl, h2', h3', h4', h5', rfl⟩ := h'
  have nz : ∀ {a b : JStr}, IsNumeral 10 a → NoExtraZero b → a.length < b.length → b.head? ≠ some 48 := by
    intro a b ha hb hlt
    rcases hb with rfl | hb
    · exact absurd (List.eq_nil_of_length_eq_zero (by simpa using hlt)) ha.1
    · exact hb
  exact sort_field (by omega) sign_nonneg h2 h2' h4 h4' (h5.trans h5'.symm) (nz h2' h3) (nz h2 h3') hl

/-- **C66 (`%f`).** Finite doubles that are not negative: the text of the greater one does not sort first. -/
theorem C66_sort_f (dates : DateSyntax) (env : DateEnv) (jdk : JdkEnv) (d : Directive) (h : d.Ok dates)
    (hp : d.Plain) (hc : d.conv = ch! 'f') (hl : ch! '-' ∉ d.flags) (b b' : BitVec 64) (hf : finite b)
    (hf' : finite b') (hn : ¬ negative b) (hn' : ¬ negative b') (hle : magnitude b ≤ magnitude b') (e e' : Entry)
    (he : IsDouble e b) (he' : IsDouble e' b') (rest rest' : List Traits) {s s' : JStr}
    (hs : printf dates env d.text (e.toTraits jdk :: rest) = .ok s)
    (hs' : printf dates env d.text (e'.toTraits jdk :: rest') = .ok s') (hlen : s.length = s'.length) :
    compareTo s s' ≤ 0 := by
  obtain ⟨q, t, h1, h2, h3⟩ := C23_f dates env jdk d h hp hc b hf e he rest
  obtain ⟨q', t', h1', h2', h3'⟩ := C23_f dates env jdk d h hp hc b' hf' e' he' rest'
  rw [hs] at h1
  rw [hs'] at h1'
  cases h1; cases h1'
  have hleft : (flagSet d.flags).leftJustify = false := by simpa [flagSet] using hl
  unfold Directive.field at *
  simp only [hleft, hn, hn', decide_false] at *
  have := sort_fixed h3 h3' hlen
  have hm := halfUp_mono (decimalOf_mono hf hf' h2 h2' hle) (d.prec.precision.getD 6 : Nat)
  rcases hm.lt_or_eq with g | g
  · exact (this.1.2 g).le
  · exact (this.2.2 g).le

/-- **C66 (`%f` of big numbers).** The same for `BigDecimal`s and `BigInteger`s. -/
theorem C66_sort_big (dates : DateSyntax) (env : DateEnv) (jdk : JdkEnv) (d : Directive) (h : d.Ok dates)
    (hp : d.Plain) (hc : d.conv = ch! 'f') (hl : ch! '-' ∉ d.flags) (u u' : Nat) (scale scale' : Int)
    (hle : bigValue u scale ≤ bigValue u' scale') (e e' : Entry)
    (he : IsBig e u scale) (he' : IsBig e' u' scale') (n n' : Nat) (hn : DigitCount u n) (hn' : DigitCount u' n')
    (hs0 : ScaleOk n scale) (hs0' : ScaleOk n' scale') (hz : u ≠ 0 ∨ 0 ≤ scale) (hz' : u' ≠ 0 ∨ 0 ≤ scale')
    (rest rest' : List Traits) {s s' : JStr}
    (hs : printf dates env d.text (e.toTraits jdk :: rest) = .ok s)
    (hs' : printf dates env d.text (e'.toTraits jdk :: rest') = .ok s') (hlen : s.length = s'.length) :
    compareTo s s' ≤ 0 := by
  obtain ⟨t, h1, h3⟩ := C28_f dates env jdk d h hp hc u scale e he n hn hs0 (by omega) rest
  obtain ⟨t', h1', h3'⟩ := C28_f dates env jdk d h hp hc u' scale' e' he' n' hn' hs0' (by omega) rest'
  rw [hs] at h1
  rw [hs'] at h1'
  cases h1; cases h1'
  have hleft : (flagSet d.flags).leftJustify = false := by simpa [flagSet] using hl
  have hneg : ∀ k : Nat, decide ((k : Int) < 0) = false := by intro k; simp
  unfold Directive.field at *
  simp only [hleft, hneg, Int.natAbs_natCast] at *
  have := sort_fixed h3 h3' hlen
  have hm := halfUp_mono hle (d.prec.precision.getD 6 : Nat)
  rcases hm.lt_or_eq with g | g
  · exact (this.1.2 g).le
  · exact (this.2.2 g).le

/-! ### Examples -/

-- the hypotheses are met: 0.1 and 0.3 under `%5.1f`
example : finite 0x3FB999999999999A#64 ∧ finite 0x3FD3333333333333#64 ∧
    doubleValue 0x3FB999999999999A#64 ≤ doubleValue 0x3FD3333333333333#64 := by
  refine ⟨by unfold finite; decide, by unfold finite; decide, by decide +kernel⟩
example : printf sampleDates sampleDateEnv (js! "%5.1f") [doubleArg 0x3FB999999999999A#64] = .ok (js! "  0.1") ∧
    printf sampleDates sampleDateEnv (js! "%5.1f") [doubleArg 0x3FD3333333333333#64] = .ok (js! "  0.3") ∧
    compareTo (js! "  0.1") (js! "  0.3") ≤ 0 := by decide +kernel
-- a column of integers; left-justified it does not sort
example : printf sampleDates sampleDateEnv (js! "%+4d") [intArg 9] = .ok (js! "  +9") ∧
    printf sampleDates sampleDateEnv (js! "%+4d") [intArg 10] = .ok (js! " +10") ∧
    SortLike (js! "  +9") (js! " +10") 9 10 ∧
    printf sampleDates sampleDateEnv (js! "%-4d") [intArg 9] = .ok (js! "9   ") ∧
    printf sampleDates sampleDateEnv (js! "%-4d") [intArg 10] = .ok (js! "10  ") ∧
    ¬ SortLike (js! "9   ") (js! "10  ") 9 10 := by unfold SortLike; decide +kernel
-- nor do negative numbers
example : printf sampleDates sampleDateEnv (js! "%4d") [intArg (-9)] = .ok (js! "  -9") ∧
    printf sampleDates sampleDateEnv (js! "%4d") [intArg (-8)] = .ok (js! "  -8") ∧
    compareTo (js! "  -9") (js! "  -8") > 0 := by decide +kernel

end FastPrintf
