/-
C62: how long the output can get.
-/
import Verif.Props.Determined
import Verif.Props.ReadBack
import Verif.Props.DoubleText
import Verif.Proofs.Size
import Verif.Spec.Size
import Verif.Props.BigDecimal

namespace FastPrintf
open Spec

/-! ### Doubles -/

set_option exponentiation.threshold 2000 in
theorem magnitude_bounds {bits : BitVec 64} (hf : finite bits) :
    doubleC bits < 2 ^ 53 ∧ -1074 ≤ doubleQ bits ∧ doubleQ bits ≤ 971 := by
  unfold doubleC doubleQ
  have h1 : fracBits bits < 2 ^ 52 := Nat.mod_lt _ (by norm_num)
  have h2 : expBits bits < 2048 := Nat.mod_lt _ (by norm_num)
  have h3 : expBits bits ≠ 2047 := hf
  refine ⟨?_, ?_, ?_⟩ <;> split_ifs <;> omega

theorem magnitude_lt {bits : BitVec 64} (hf : finite bits) : magnitude bits < 2 ^ (1024 : Int) := by
  obtain ⟨h1, -, h3⟩ := magnitude_bounds hf
  unfold magnitude
  have hc : (doubleC bits : ℚ) < 2 ^ (53 : Int) := by
    have : (doubleC bits : ℚ) < ((2 ^ 53 : Nat) : ℚ) := by exact_mod_cast h1
    rwa [Nat.cast_pow, ← zpow_natCast] at this
  have hp : (0 : ℚ) < 2 ^ doubleQ bits := by positivity
  calc (doubleC bits : ℚ) * 2 ^ doubleQ bits < 2 ^ (53 : Int) * 2 ^ doubleQ bits := by
        exact mul_lt_mul_of_pos_right hc hp
    _ = 2 ^ (53 + doubleQ bits) := by rw [zpow_add₀ (by norm_num)]
    _ ≤ _ := zpow_le_zpow_right₀ (by norm_num) (by omega)

theorem magnitude_ge {bits : BitVec 64} (hf : finite bits) (h0 : magnitude bits ≠ 0) :
    (2 : ℚ) ^ (-1074 : Int) ≤ magnitude bits := by
  obtain ⟨-, h2, -⟩ := magnitude_bounds hf
  have hc : 1 ≤ doubleC bits := by
    by_contra h
    apply h0
    unfold magnitude
    simp [show doubleC bits = 0 by omega]
  have hc' : (1 : ℚ) ≤ doubleC bits := by exact_mod_cast hc
  calc (2 : ℚ) ^ (-1074 : Int) ≤ 2 ^ doubleQ bits := zpow_le_zpow_right₀ (by norm_num) h2
    _ ≤ _ := by
      unfold magnitude
      have : (0 : ℚ) < 2 ^ doubleQ bits := by positivity
      nlinarith

set_option exponentiation.threshold 2000 in
theorem big_power : (2 : ℚ) ^ (1024 : Int) + 2 ^ (971 : Int) / 2 + 1 ≤ 10 ^ (309 : Int) := by norm_num

theorem decimalOf_lt {bits : BitVec 64} (hf : finite bits) {q : ℚ} (h : DecimalOf bits q) :
    0 ≤ q ∧ q + 1 < 10 ^ (309 : Int) := by
  refine ⟨?_, ?_⟩
  · rcases h with ⟨-, rfl⟩ | ⟨-, h⟩
    · exact le_rfl
    · exact (javaDecimal_pos h).le
  have h1 := C61_decimal hf h
  have h2 := magnitude_lt hf
  have h3 : (2 : ℚ) ^ doubleQ bits ≤ 2 ^ (971 : Int) :=
    zpow_le_zpow_right₀ (by norm_num) (magnitude_bounds hf).2.2
  have h4 := big_power
  rw [abs_le] at h1
  generalize (2 : ℚ) ^ (1024 : Int) = A at *
  generalize (2 : ℚ) ^ (971 : Int) = B at *
  generalize (10 : ℚ) ^ (309 : Int) = C at *
  linarith [h1.2]

theorem javaDecimal_ge {bits : BitVec 64} (hf : finite bits) (h0 : magnitude bits ≠ 0) {q : ℚ}
    (h : JavaDecimal bits q) : (10 : ℚ) ^ (-325 : Int) ≤ q := by
  obtain ⟨f, e, rfl, -, h2⟩ := JavaDecimal_digits hf h0 h
  have he := (LastPlace_bound hf h0 h2).1
  have hf1 : 1 ≤ f := by
    by_contra hc
    have := javaDecimal_pos h
    simp [show f = 0 by omega] at this
  have : (1 : ℚ) ≤ f := by exact_mod_cast hf1
  calc (10 : ℚ) ^ (-325 : Int) ≤ 10 ^ e := zpow_le_zpow_right₀ (by norm_num) he
    _ ≤ _ := by
      have : (0 : ℚ) < 10 ^ e := by positivity
      nlinarith

theorem halfUp_lt {q : ℚ} (h0 : 0 ≤ q) {k p : Nat} (h : q + 1 < 10 ^ (k : Int)) : halfUp q p < 10 ^ (k + p) := by
  unfold halfUp
  rw [Nat.floor_lt (by positivity)]
  push_cast
  rw [pow_add]
  rw [zpow_natCast] at h
  rw [zpow_natCast]
  have : (1 : ℚ) ≤ 10 ^ p := one_le_pow₀ (by norm_num)
  nlinarith

/-- Rounding moves the decimal exponent by at most one. -/
theorem significant_exponent {q : ℚ} {n M : Nat} {x : Int} (hn : 1 ≤ n) (h : Significant q n M x) :
    ∃ x0 : Int, 10 ^ x0 ≤ q ∧ q < 10 ^ (x0 + 1) ∧ x0 ≤ x ∧ x ≤ x0 + 1 := by
  obtain ⟨h1, h2, x0, h3, h4, h5⟩ := h
  refine ⟨x0, h3, h4, ?_⟩
  have hp : (0 : ℚ) < 10 ^ ((n : Int) - 1 - x0) := by positivity
  have e1 : (10 : ℚ) ^ x0 * 10 ^ ((n : Int) - 1 - x0) = 10 ^ (n - 1) := by
    rw [← zpow_add₀ (by norm_num), ← zpow_natCast]; congr 1; omega
  have e2 : (10 : ℚ) ^ (x0 + 1) * 10 ^ ((n : Int) - 1 - x0) = 10 ^ n := by
    rw [← zpow_add₀ (by norm_num), ← zpow_natCast]; congr 1; omega
  have lo : 10 ^ (n - 1) ≤ halfUp q (n - 1 - x0) := by
    unfold halfUp
    refine Nat.le_floor ?_
    push_cast
    rw [← e1]
    nlinarith [mul_le_mul_of_nonneg_right h3 hp.le]
  have hi : halfUp q (n - 1 - x0) ≤ 10 ^ n := by
    unfold halfUp
    refine Nat.lt_succ_iff.1 ((Nat.floor_lt (by have := le_trans (by positivity) h3; positivity)).2 ?_)
    push_cast
    rw [← e2]
    nlinarith [mul_lt_mul_of_pos_right h4 hp]
  have g1 : ((10 ^ (n - 1) : Nat) : ℚ) ≤ M := by exact_mod_cast h1
  have g2 : (M : ℚ) < ((10 ^ n : Nat) : ℚ) := by exact_mod_cast h2
  have g3 : ((10 ^ (n - 1) : Nat) : ℚ) ≤ (halfUp q (n - 1 - x0) : ℚ) := by exact_mod_cast lo
  have g4 : (halfUp q (n - 1 - x0) : ℚ) ≤ ((10 ^ n : Nat) : ℚ) := by exact_mod_cast hi
  have hn1 : ((n - 1 : Nat) : Int) = n - 1 := by omega
  push_cast at g1 g2 g3 g4
  rw [← zpow_natCast, hn1] at g1 g3
  rw [← zpow_natCast] at g2 g4
  have p1 : (0 : ℚ) < 10 ^ (x - ((n : Int) - 1)) := by positivity
  have p2 : (0 : ℚ) < 10 ^ (x0 - ((n : Int) - 1)) := by positivity
  have m1 := mul_le_mul_of_nonneg_right g1 p1.le
  have m2 := mul_lt_mul_of_pos_right g2 p1
  have m3 := mul_le_mul_of_nonneg_right g3 p2.le
  have m4 := mul_le_mul_of_nonneg_right g4 p2.le
  rw [← zpow_add₀ (by norm_num)] at m1 m2 m3 m4
  rw [h5] at m1 m2
  have r1 := (zpow_le_zpow_iff_right₀ (show (1 : ℚ) < 10 by norm_num)).1 (m1.trans m4)
  have r2 := (zpow_lt_zpow_iff_right₀ (show (1 : ℚ) < 10 by norm_num)).1 (m3.trans_lt m2)
  omega

theorem double_exponent {bits : BitVec 64} (hf : finite bits) (h0 : magnitude bits ≠ 0) {q : ℚ}
    (h : JavaDecimal bits q) {n M : Nat} {x : Int} (hn : 1 ≤ n) (hs : Significant q n M x) : |x| < 1000 := by
  obtain ⟨x0, h1, h2, h3, h4⟩ := significant_exponent hn hs
  have a := (decimalOf_lt hf (.inr ⟨h0, h⟩)).2
  have b := javaDecimal_ge hf h0 h
  have r1 : x0 < 309 := (zpow_lt_zpow_iff_right₀ (show (1 : ℚ) < 10 by norm_num)).1 (by
    generalize (10 : ℚ) ^ (309 : Int) = C at *
    linarith)
  have r2 : -325 < x0 + 1 := (zpow_lt_zpow_iff_right₀ (show (1 : ℚ) < 10 by norm_num)).1 (b.trans_lt h2)
  rw [abs_lt]
  omega

/-! ### `%a` -/

theorem hex_last_zero {s : JStr} (hs : s ≠ []) (hd : ∀ c ∈ s, IsDigitIn 16 c) (h : 16 ∣ valueIn 16 s) :
    s.getLast? = some 48 := by
  induction s using List.reverseRecOn with
  | nil => exact absurd rfl hs
  | append_singleton t c _ =>
    have hc := hd c (by simp)
    rw [valueIn_append, List.length_singleton, pow_one] at h
    have e : valueIn 16 [c] = digitVal c := by simp [valueIn]
    rw [e] at h
    have h0 : digitVal c = 0 := by
      have := hc.2; omega
    have : c = 48 := by
      have h1 := hc.1; have h2 := hc.2
      unfold digitVal at h0 h2
      split_ifs at h0 h2 <;> omega
    simp [this]

theorem hex_fraction {b : BitVec 64} {fp : JStr} {x : Int}
    (hv : hexValue (if expBits b = 0 then 0 else 1) fp x = magnitude b)
    (hx : x = (if magnitude b = 0 then 0 else if expBits b = 0 then -1022 else (expBits b : Int) - 1023)) :
    valueIn 16 fp * 2 ^ 52 = fracBits b * 16 ^ fp.length := by
  have hp : (0 : ℚ) < 16 ^ fp.length := by positivity
  have key : (valueIn 16 fp : ℚ) * 2 ^ 52 = fracBits b * 16 ^ fp.length := by
    unfold hexValue at hv
    by_cases h0 : magnitude b = 0
    · rw [if_pos h0] at hx
      subst hx
      rw [h0] at hv
      have hc : doubleC b = 0 := by
        unfold magnitude at h0
        have : (2 : ℚ) ^ doubleQ b ≠ 0 := by positivity
        rcases mul_eq_zero.1 h0 with h | h
        · exact_mod_cast h
        · exact absurd h this
      unfold doubleC at hc
      by_cases he : expBits b = 0
      · rw [if_pos he] at hc hv
        rw [hc]
        have : (valueIn 16 fp : ℚ) / 16 ^ fp.length = 0 := by simpa using hv
        rw [div_eq_zero_iff] at this
        rcases this with h | h
        · rw [h]; simp
        · exact absurd h hp.ne'
      · rw [if_neg he] at hc; omega
    · rw [if_neg h0] at hx
      unfold magnitude doubleC doubleQ at hv
      by_cases he : expBits b = 0
      · simp only [he, if_true] at hv hx
        subst hx
        have e : (2 : ℚ) ^ (-1022 : Int) = 2 ^ (-1074 : Int) * 2 ^ 52 := by
          rw [← zpow_natCast, ← zpow_add₀ (by norm_num)]; congr 1
        rw [e] at hv
        have hne : (2 : ℚ) ^ (-1074 : Int) ≠ 0 := by positivity
        generalize (2 : ℚ) ^ (-1074 : Int) = A at *
        push_cast at hv
        rw [zero_add] at hv
        have : A * (valueIn 16 fp * 2 ^ 52) = A * (fracBits b * 16 ^ fp.length) := by
          field_simp at hv
          linear_combination A * hv
        exact mul_left_cancel₀ hne this
      · simp only [he, if_false] at hv hx
        subst hx
        have e : (2 : ℚ) ^ ((expBits b : Int) - 1023) = 2 ^ ((expBits b : Int) - 1075) * 2 ^ 52 := by
          rw [← zpow_natCast, ← zpow_add₀ (by norm_num)]; congr 1; push_cast; ring
        rw [e] at hv
        have hne : (2 : ℚ) ^ ((expBits b : Int) - 1075) ≠ 0 := by positivity
        generalize (2 : ℚ) ^ ((expBits b : Int) - 1075) = A at *
        push_cast at hv
        have : A * (valueIn 16 fp * 2 ^ 52) = A * (fracBits b * 16 ^ fp.length) := by
          field_simp at hv
          linear_combination A * hv
        exact mul_left_cancel₀ hne this
  exact_mod_cast key

theorem hex_fraction_length {b : BitVec 64} {fp : JStr} {x : Int} (hd : ∀ c ∈ fp, IsDigitIn 16 c)
    (hv : hexValue (if expBits b = 0 then 0 else 1) fp x = magnitude b)
    (hx : x = (if magnitude b = 0 then 0 else if expBits b = 0 then -1022 else (expBits b : Int) - 1023))
    (hn : fp ≠ [] ∧ (fp = js! "0" ∨ fp.getLast? ≠ some 48)) : fp.length ≤ 13 := by
  by_contra hc
  obtain ⟨j, hj⟩ : ∃ j, fp.length = 13 + (j + 1) := ⟨fp.length - 14, by omega⟩
  have e := hex_fraction hv hx
  have e2 : valueIn 16 fp = fracBits b * 16 ^ (j + 1) := by
    rw [hj, pow_add, show (16 : Nat) ^ 13 = 2 ^ 52 by norm_num, mul_left_comm, mul_comm] at e
    exact mul_left_cancel₀ (by norm_num) e
  have hl := hex_last_zero hn.1 hd (e2 ▸ Dvd.dvd.mul_left (dvd_pow_self 16 (by omega)) _)
  rcases hn.2 with h | h
  · rw [h] at hc; simp at hc
  · exact h hl

theorem hexRounded_exponent {b : BitVec 64} (hf : finite b) (hz : magnitude b ≠ 0) {k : Nat} {fp : JStr} {x : Int}
    (hd : ∀ c ∈ fp, IsDigitIn 16 c) (h : HexRounded (magnitude b) k (hexValue 1 fp x)) : |x| < 10000 := by
  obtain ⟨E, m, h1, h2, -, h4, -⟩ := h
  have hE1 : E < 1024 := (zpow_lt_zpow_iff_right₀ (show (1 : ℚ) < 2 by norm_num)).1 (h1.trans_lt (magnitude_lt hf))
  have hE2 : -1074 < E + 1 :=
    (zpow_lt_zpow_iff_right₀ (show (1 : ℚ) < 2 by norm_num)).1 ((magnitude_ge hf hz).trans_lt h2)
  have hv : (valueIn 16 fp : ℚ) / 16 ^ fp.length < 1 := by
    rw [div_lt_one (by positivity)]
    exact_mod_cast valueIn_lt (by norm_num) fp fun c hc => (hd c hc).2
  have hv0 : (0 : ℚ) ≤ (valueIn 16 fp : ℚ) / 16 ^ fp.length := by positivity
  have hx : (0 : ℚ) < 2 ^ x := by positivity
  have hlo : (2 : ℚ) ^ x ≤ hexValue 1 fp x := by unfold hexValue; push_cast; nlinarith
  have hhi : hexValue 1 fp x < 2 ^ (x + 1) := by
    rw [zpow_add₀ (by norm_num), zpow_one]; unfold hexValue; push_cast; nlinarith
  have hq : (2 : ℚ) ^ (E - 4 * k) ≤ 2 ^ E := zpow_le_zpow_right₀ (by norm_num) (by omega)
  rw [abs_le] at h4
  have hEp : (0 : ℚ) < 2 ^ E := by positivity
  have e1 : (2 : ℚ) ^ (E + 1) = 2 ^ E * 2 := by rw [zpow_add₀ (by norm_num), zpow_one]
  have e2 : (2 : ℚ) ^ (E + 2) = 2 ^ E * 4 := by
    rw [zpow_add₀ (by norm_num)]; norm_num
  have e3 : (2 : ℚ) ^ (E - 1) = 2 ^ E / 2 := by rw [zpow_sub₀ (by norm_num), zpow_one]
  have r1 : (2 : ℚ) ^ x < 2 ^ (E + 2) := by rw [e2]; rw [e1] at h2; linarith [h4.1]
  have r2 : (2 : ℚ) ^ (E - 1) < 2 ^ (x + 1) := by rw [e3]; linarith [h4.2]
  have := (zpow_lt_zpow_iff_right₀ (show (1 : ℚ) < 2 by norm_num)).1 r1
  have := (zpow_lt_zpow_iff_right₀ (show (1 : ℚ) < 2 by norm_num)).1 r2
  rw [abs_lt]
  omega

theorem hexText_length {lead : Nat} {fp : JStr} {x : Int} {s : JStr} (h : HexText lead fp x s)
    (hx : |x| < 10000) : s.length ≤ fp.length + 8 := by
  obtain ⟨-, -, ds, h1, rfl⟩ := h
  have := shortest_length (by norm_num) h1 (k := 4) (by norm_num) (by rw [abs_lt] at hx; omega)
  simp only [List.length_cons, List.length_append]
  omega

/-! ### `%g` -/

theorem generalText_length {P n M : Nat} {alt : Bool} {x : Int} {body : JStr} (hP : 1 ≤ P) (hM : M < 10 ^ P)
    (hx : |x| < 1000) (h : GeneralText P n alt M x body) : body.length ≤ P + 6 := by
  unfold GeneralText at h
  by_cases hs : -4 ≤ x ∧ x < P
  · rw [if_pos hs] at h
    have hp : ∃ k : Nat, 1 ≤ k ∧ P ≤ k + ((P : Int) - 1 - x).toNat ∧ k + 1 + ((P : Int) - 1 - x).toNat ≤ P + 6 := by
      by_cases h0 : 0 ≤ x
      · exact ⟨x.toNat + 1, by omega, by omega, by omega⟩
      · exact ⟨1, le_rfl, by omega, by omega⟩
    obtain ⟨k, h1, h2, h3⟩ := hp
    have hM' : M < 10 ^ (k + ((P : Int) - 1 - x).toNat) :=
      lt_of_lt_of_le hM (Nat.pow_le_pow_right (by norm_num) h2)
    cases alt with
    | true =>
      rw [if_pos rfl] at h
      exact (fixedText_length h h1 hM').trans h3
    | false =>
      rw [if_neg (by simp)] at h
      refine (minimalText_length h (N := M) (p := ((P : Int) - 1 - x).toNat) ?_ h1 hM').trans h3
      rw [mul_assoc, ← zpow_natCast, ← zpow_add₀ (by norm_num)]
      rw [show x - ((P : Int) - 1) + (((P : Int) - 1 - x).toNat : Int) = 0 by omega]
      simp
  · rw [if_neg hs] at h
    obtain ⟨ms, xs, rfl, h1, h2⟩ := h
    have hxs := exponentText_length h1 hx
    have hms : ms.length ≤ P + 1 := by
      cases alt with
      | true =>
        rw [if_pos rfl] at h2
        obtain ⟨m', e, h3⟩ := h2
        have hm' : m' < 10 ^ (1 + (min P n - 1)) := by
          have : m' * 10 ^ (P - min P n) < 10 ^ (min P n) * 10 ^ (P - min P n) := by
            rw [← e, ← pow_add, show min P n + (P - min P n) = P by omega]; exact hM
          exact lt_of_lt_of_le (lt_of_mul_lt_mul_right this (Nat.zero_le _))
            (Nat.pow_le_pow_right (by norm_num) (by omega))
        exact (fixedText_length h3 le_rfl hm').trans (by omega)
      | false =>
        rw [if_neg (by simp)] at h2
        refine (minimalText_length h2 (N := M) (p := P - 1) (k := 1) ?_ le_rfl
          (by rwa [show 1 + (P - 1) = P by omega])).trans (by omega)
        rw [mul_assoc, ← zpow_natCast, ← zpow_add₀ (by norm_num)]
        rw [show -((P : Int) - 1) + ((P - 1 : Nat) : Int) = 0 by omega]
        simp
    simp only [List.length_append, List.length_cons]
    omega

/-! ### One directive -/

theorem Spec.Directive.field_length (d : Directive) (pre body : JStr) :
    (d.field pre body).length = max d.width.width (pre.length + body.length) :=
  FastPrintf.field_length ..

theorem Spec.Directive.padded_length (d : Directive) (s : JStr) :
    (d.padded s).length = max d.width.width s.length := FastPrintf.Spec.padded_length ..

theorem floatText_length {d : Directive} {b : BitVec 64} {out : JStr} (h : FloatText d (.double b) (.ok out)) :
    out.length ≤ d.reach := by
  have hsg := fun neg => signText_length (flagSet d.flags) neg
  unfold Directive.reach numberExtra
  have hdig : 1 ≤ d.digits ∧ d.digits ≤ d.places + 1 := by unfold Directive.digits; omega
  cases h with
  | nonFinite hf =>
    rw [Directive.padded_length]
    have : (nonFiniteName b (ch! '+' ∈ d.flags)).length ≤ 9 := by
      unfold nonFiniteName; split_ifs <;> simp
    omega
  | fixed hc hf hq hb =>
    rw [Directive.field_length]
    have h1 := decimalOf_lt hf hq
    have := fixedText_length hb (k := 309) (by norm_num) (halfUp_lt h1.1 h1.2)
    have := hsg (negative b)
    omega
  | scientificZero hc hf hz hm =>
    rw [Directive.field_length]
    have := fixedText_length hm (k := 1) (by norm_num) (by positivity)
    have := hsg (negative b)
    simp only [List.length_append, List.length_cons, List.length_nil]
    omega
  | scientific hc hf hz hq hs hm hx =>
    rw [Directive.field_length]
    have h1 := double_exponent hf hz hq (by omega) hs
    have := exponentText_length hx h1
    have := fixedText_length hm (k := 1) (by norm_num) (by rw [add_comm]; exact hs.2.1)
    have := hsg (negative b)
    simp only [List.length_append, List.length_cons]
    omega
  | @generalZero hc _ hf hz body hb =>
    rw [Directive.field_length]
    have := hsg (negative b)
    have hl : body.length ≤ d.places + 2 := by
      split_ifs at hb
      · have := fixedText_length hb (k := 1) (by norm_num) (by positivity)
        omega
      · subst hb; simp
    omega
  | general hc hf hz hq hs hl hn hb =>
    rw [Directive.field_length]
    have := generalText_length hdig.1 hs.2.1 (double_exponent hf hz hq hdig.1 hs) hb
    have := hsg (negative b)
    omega
  | @hexExact hc _ hf hp fp x body hb hv hx hn hl =>
    rw [Directive.field_length]
    have hxs : |x| < 10000 := by
      have h2 : expBits b < 2048 := Nat.mod_lt _ (by norm_num)
      rw [hx, abs_lt]
      split_ifs <;> omega
    have := hexText_length hb hxs
    have hfp : fp.length ≤ d.places + 13 := by
      unfold Directive.places
      cases hpr : d.prec.precision with
      | none =>
        have := hex_fraction_length hb.2.1 hv hx (hn hpr)
        omega
      | some p =>
        have := hl p hpr
        simp only [Option.getD_some]
        omega
    have := hsg (negative b)
    simp only [List.length_append, List.length_cons, List.length_nil]
    omega
  | @hexRounded hc _ hf hz p hp hp12 fp x body hb hl hr =>
    rw [Directive.field_length]
    have := hexText_length hb (hexRounded_exponent hf hz hb.2.1 hr)
    have := hsg (negative b)
    have hpl : d.places = p := by unfold Directive.places; rw [hp]; rfl
    simp only [List.length_append, List.length_cons, List.length_nil]
    omega

/-- The precision in digits of an integer is at most the places of a number with a point. -/
theorem precision_le (d : Directive) : d.prec.precision.getD 1 ≤ d.places + 1 := by
  unfold Directive.places
  cases d.prec.precision <;> simp

theorem signedNumberText_length {d : Directive} {v : Int} (hv : v.natAbs < 10 ^ 20) {out : JStr}
    (h : SignedNumberText (flagSet d.flags) d.width.width d.prec.precision v out) :
    out.length ≤ d.reach := by
  unfold Directive.reach numberExtra
  unfold SignedNumberText at h
  split_ifs at h with hz
  · subst h; simp
  · obtain ⟨ds, h1, rfl⟩ := h
    rw [FastPrintf.field_length]
    have := shortest_length (by norm_num) h1 (k := 20) (by norm_num) hv
    have := withPrecision_length d.prec.precision (decide (v = 0)) ds
    have := precision_le d
    have := signText_length (flagSet d.flags) (decide (v < 0))
    omega

theorem unsignedNumberText_length {d : Directive} {c : UConv} {n : Nat} (hn : n < 2 ^ 64) {out : JStr}
    (h : UnsignedNumberText c (flagSet d.flags) d.width.width d.prec.precision n out) :
    out.length ≤ d.reach := by
  unfold Directive.reach numberExtra
  rcases h with ⟨-, h, rfl⟩ | ⟨-, ds, h1, rfl⟩
  · unfold oddZeroText
    rw [FastPrintf.Spec.padded_length, List.length_replicate]
    have := precision_le d
    cases hp : d.prec.precision with
    | none =>
      simp only
      split_ifs <;> omega
    | some p =>
      rw [hp] at this
      simp only [Option.getD_some] at this ⊢
      omega
  · rw [FastPrintf.field_length]
    have hl : ds.length ≤ 22 := by
      refine shortest_length (by cases c <;> decide) h1 (by norm_num) (hn.trans_le ?_)
      cases c <;> norm_num [UConv.base]
    have := withPrecision_length d.prec.precision (decide (n = 0)) ds
    have := precision_le d
    have := alternative_length c (flagSet d.flags).alternate n
      (withPrecision d.prec.precision (decide (n = 0)) ds)
    omega

theorem small_value {x : Integral} (h : ∀ v, x ≠ .big v) :
    x.value.natAbs < 10 ^ 20 ∧ ∀ n, x.unsigned = some n → n < 2 ^ 64 := by
  cases x with
  | byte v =>
    have h1 := BitVec.toInt_lt (x := v)
    have h2 := BitVec.le_toInt v
    simp only [Integral.value, Integral.unsigned, Option.some.injEq]
    exact ⟨by omega, by rintro n rfl; omega⟩
  | short v =>
    have h1 := BitVec.toInt_lt (x := v)
    have h2 := BitVec.le_toInt v
    simp only [Integral.value, Integral.unsigned, Option.some.injEq]
    exact ⟨by omega, by rintro n rfl; omega⟩
  | char v =>
    have := v.isLt
    simp only [Integral.value, Integral.unsigned, Option.some.injEq]
    exact ⟨by omega, by rintro n rfl; omega⟩
  | int v =>
    have h1 := BitVec.toInt_lt (x := v)
    have h2 := BitVec.le_toInt v
    simp only [Integral.value, Integral.unsigned, Option.some.injEq]
    exact ⟨by omega, by rintro n rfl; omega⟩
  | long v =>
    have h1 := BitVec.toInt_lt (x := v)
    have h2 := BitVec.le_toInt v
    simp only [Integral.value, Integral.unsigned, Option.some.injEq]
    exact ⟨by omega, by rintro n rfl; omega⟩
  | bool b => cases b <;> simp [Integral.value, Integral.unsigned]
  | big v => exact absurd rfl (h v)

theorem wholeReading_small {jdk : JdkEnv} {e : Entry} (hb : ¬ BigNumber e) {x : Integral}
    (h : WholeReading jdk e (.ok x)) : ∀ v, x ≠ .big v := by
  rintro v rfl
  cases h with
  | given h =>
    cases h with
    | prim h => simp [Integral.prim?] at h
    | boxed h => simp [Integral.prim?] at h
    | big v id => exact hb ⟨_, _, .integer v id⟩
  | other h => cases h with
    | bigDecimal u s id => exact hb ⟨_, _, .decimal u s id⟩

theorem realReading_small {jdk : JdkEnv} {e : Entry} (hb : ¬ BigNumber e) {x : Floating}
    (h : RealReading jdk e (.ok x)) : ∃ b, x = .double b := by
  cases h with
  | double h => exact ⟨_, rfl⟩
  | big u s id => exact absurd ⟨_, _, .decimal u s id⟩ hb
  | other h => cases h with
    | bigInteger v id => exact absurd ⟨_, _, .integer v id⟩ hb
    | _ => exact ⟨_, rfl⟩

theorem map_eq_ok {α β : Type} {r : Res α} {f : α → β} {b : β} (h : r.map f = .ok b) : ∃ a, r = .ok a ∧ f a = b := by
  cases r with
  | error e => cases h
  | ok a => exact ⟨a, rfl, by cases h; rfl⟩

theorem reach_conv (d : Directive) (c : JChar) : ({ d with conv := c } : Directive).reach = d.reach := rfl

theorem padWith_length (left zero : Bool) (k : Nat) (pre body : JStr) :
    (padWith left zero k pre body).length = k + (pre.length + body.length) := by
  unfold padWith
  split_ifs <;> simp <;> omega

theorem cut_length_le (p : Option Nat) (s : JStr) : (cut p s).length ≤ s.length := by
  cases p <;> simp [cut]

theorem prints_short {jdk : JdkEnv} {env : DateEnv} {d : Directive} {e : Entry} {out : JStr}
    (hc : d.conv ∈ shortConvs) (hb : ¬ BigNumber e) (h : Prints jdk env d e (.ok out)) : out.length ≤ d.reach := by
  generalize hr : (Except.ok out : Res JStr) = r at h
  induction h generalizing out with
  | signed _ hw ht =>
    cases hr
    exact signedNumberText_length (small_value (wholeReading_small hb hw)).1 ht
  | unsigned _ hw hn ht =>
    cases hr
    exact unsignedNumberText_length ((small_value (wholeReading_small hb hw)).2 _ hn) ht
  | negative => cases hr
  | noInteger => cases hr
  | floating _ hw ht =>
    subst hr
    obtain ⟨b, rfl⟩ := realReading_small hb hw
    exact floatText_length ht
  | noFloat => cases hr
  | text hc' => rw [hc'] at hc; exact absurd hc (by decide)
  | rope hc' => rw [hc'] at hc; exact absurd hc (by decide)
  | char hc' hw =>
    obtain ⟨c, -, rfl⟩ := map_eq_ok hr.symm
    rw [Directive.padded_length]
    unfold Directive.reach numberExtra
    simp only [List.length_cons, List.length_nil]
    omega
  | pointer hc' => rw [hc'] at hc; exact absurd hc (by decide)
  | time hc' => rw [hc'] at hc; exact absurd hc (by decide)
  | noFormat hc' => rw [hc'] at hc; exact absurd hc (by decide)
  | noTime hc' => rw [hc'] at hc; exact absurd hc (by decide)
  | nothing => cases hr; simp
  | percent =>
    cases hr
    unfold Directive.reach numberExtra
    simp only [List.length_cons, List.length_nil]
    omega
  | @upper d e lo hp r h ih =>
    obtain ⟨s, rfl, rfl⟩ := map_eq_ok hr.symm
    rw [List.length_map, ← reach_conv d lo]
    refine ih ?_ hb rfl
    have key : ∀ p ∈ casePairs, p.2 ∈ shortConvs → p.1 ∈ shortConvs := by decide
    exact key _ hp hc

theorem prints_length {jdk : JdkEnv} {env : DateEnv} {d : Directive} {e : Entry} {out : JStr} {n : Nat}
    (hb : ¬ BigNumber e) (hn : TextsWithin jdk env n e) (h : Prints jdk env d e (.ok out)) :
    out.length ≤ d.reach + n := by
  generalize hr : (Except.ok out : Res JStr) = r at h
  induction h generalizing out with
  | @upper d e lo hp r h ih =>
    obtain ⟨s, rfl, rfl⟩ := map_eq_ok hr.symm
    rw [List.length_map, ← reach_conv d lo]
    exact ih hb hn rfl
  | @text d e hc r hw =>
    obtain ⟨s, rfl, rfl⟩ := map_eq_ok hr.symm
    rw [Directive.padded_length]
    have := hn.text _ hw
    have := cut_length_le d.prec.precision s
    unfold Directive.reach
    omega
  | @rope d hc q id =>
    cases hr
    rw [padWith_length]
    have := hn.rope _ _ rfl
    have := cut_length_le d.prec.precision q.text
    unfold Directive.reach
    simp only [List.length_nil]
    omega
  | @pointer d e hc r hw =>
    obtain ⟨s, rfl, rfl⟩ := map_eq_ok hr.symm
    rw [Directive.padded_length]
    have := hn.pointer _ hw
    unfold Directive.reach
    omega
  | @time d e hc t hw f t' hf =>
    obtain ⟨s, h1, rfl⟩ := map_eq_ok hr.symm
    rw [Directive.padded_length]
    have := hn.time _ _ _ _ hw h1
    unfold Directive.reach
    omega
  | signed hc hw ht =>
    cases hr
    have := prints_short (jdk := jdk) (env := env) (by rcases hc with hc | hc <;> rw [hc] <;> decide) hb (.signed hc hw ht)
    omega
  | @unsigned d e c hc x hw m hm o ht =>
    cases hr
    have := prints_short (jdk := jdk) (env := env) (by rw [hc]; cases c <;> decide) hb (.unsigned hc hw hm ht)
    omega
  | @floating d e hc x hw r ht =>
    subst hr
    obtain ⟨b, rfl⟩ := realReading_small hb hw
    have := floatText_length ht
    omega
  | @char d e hc r hw =>
    have h1 : Prints jdk env d e _ := .char hc hw
    rw [← hr] at h1
    have := prints_short (by rw [hc]; decide) hb h1
    omega
  | nothing => cases hr; simp
  | percent hc =>
    cases hr
    have := prints_short (jdk := jdk) (env := env) (by rw [hc]; decide) hb (.percent hc)
    omega
  | negative => cases hr
  | noInteger => cases hr
  | noFloat => cases hr
  | noFormat => cases hr
  | noTime => cases hr

/-- **C62 (numbers).**  A directive that prints a number, for any argument but a `BigDecimal` or
`BigInteger`, prints at most as many characters as its width, or its precision and 311 more. -/
theorem C62_number (dates : DateSyntax) (env : DateEnv) (jdk : JdkEnv) (hj : InstantsFit jdk) (d : Directive)
    (h : d.Ok dates) (hp : d.Plain) (hc : d.conv ∈ shortConvs) (e : Entry) (he : Covered e) (hb : ¬ BigNumber e)
    (out : JStr) (ho : printf dates env d.text [e.toTraits jdk] = .ok out) :
    out.length ≤ max d.width.width (d.prec.precision.getD 6 + 311) :=
  prints_short hc hb (ho ▸ C55_directive dates env jdk hj d h hp e he)

/-! ### Whole format strings -/

theorem width_le {w : Num} (h : WidthOk w) : w.width ≤ numberCap := by
  cases w with
  | digits ds => exact h.2.2.2
  | _ => exact Nat.zero_le _

theorem settles_bounds {jdk : JdkEnv} {d d' : Directive} {es es' : List Entry}
    (h : Settles jdk d es (.ok (d', es'))) (hw : WidthOk d.width) (hp : d.prec.Ok) :
    WidthOk d'.width ∧ d'.prec.Ok ∧ ∀ e ∈ es', e ∈ es := by
  generalize hr : (Except.ok (d', es') : Res (Directive × List Entry)) = r at h
  induction h with
  | plain _ es => cases hr; exact ⟨hw, hp, fun _ h => h⟩
  | missing => cases hr
  | unreadable => cases hr
  | @width d _ _ _ _ w hw' _ _ _ ih =>
    have : WidthOk w := by
      rcases hw' with ⟨-, rfl⟩ | ⟨ds, rfl, h, -⟩
      · trivial
      · exact h
    obtain ⟨h1, h2, h3⟩ := ih this hp hr
    exact ⟨h1, h2, fun e he => List.mem_cons_of_mem _ (h3 e he)⟩
  | @negativeWidth d _ _ _ _ _ w hw' _ _ _ ih =>
    have : WidthOk w := by
      rcases hw' with (⟨-, rfl⟩ | ⟨ds, rfl, h, -⟩) | ⟨-, rfl⟩
      · trivial
      · exact h
      · trivial
    obtain ⟨h1, h2, h3⟩ := ih this hp hr
    exact ⟨h1, h2, fun e he => List.mem_cons_of_mem _ (h3 e he)⟩
  | hugeWidth => cases hr
  | precision _ _ _ hd _ es => cases hr; exact ⟨hw, hd, fun _ h => List.mem_cons_of_mem _ h⟩
  | negativePrecision _ _ _ _ es => cases hr; exact ⟨hw, trivial, fun _ h => List.mem_cons_of_mem _ h⟩
  | hugePrecision => cases hr

theorem reach_le {d : Directive} (hw : WidthOk d.width) (hp : d.prec.Ok) : d.reach ≤ 65847 := by
  have h1 := width_le hw
  have h2 : d.places ≤ numberCap := by
    unfold Directive.places
    cases hq : d.prec with
    | digits ds => rw [hq] at hp; exact hp.2
    | _ => simp [Num.precision, numberCap]
  unfold Directive.reach numberExtra
  unfold numberCap at h1 h2
  omega

theorem output_length {dates : DateSyntax} {jdk : JdkEnv} {env : DateEnv} {n : Nat} {ps : List Piece}
    {es : List Entry} {out : JStr} (h : Output jdk env ps es (.ok out)) (hok : ∀ p ∈ ps, p.Ok dates)
    (hb : ∀ e ∈ es, ¬ BigNumber e) (hn : ∀ e ∈ es, TextsWithin jdk env n e) :
    out.length ≤ (ps.flatMap Piece.text).length + directives ps * (65847 + n) := by
  generalize hr : (Except.ok out : Res JStr) = r at h
  induction h generalizing out with
  | done => cases hr; simp
  | lit s h ih =>
    obtain ⟨o, rfl, rfl⟩ := map_eq_ok hr.symm
    have := ih (fun p hp => hok p (by simp [hp])) hb hn rfl
    simp only [List.length_append, List.flatMap_cons, Piece.text, directives] at this ⊢
    omega
  | percent h ih =>
    obtain ⟨o, rfl, rfl⟩ := map_eq_ok hr.symm
    have := ih (fun p hp => hok p (by simp [hp])) hb hn rfl
    simp only [List.length_append, List.flatMap_cons, Piece.text, directives, List.length_cons,
      List.length_nil] at this ⊢
    omega
  | badStar => cases hr
  | noArgument => cases hr
  | fails => cases hr
  | @prints d d' es es' e hs o hp ps r h ih =>
    obtain ⟨o', rfl, rfl⟩ := map_eq_ok hr.symm
    have hd : d.Ok dates := hok (.dir d) (by simp)
    obtain ⟨h1, h2, h3⟩ := settles_bounds hs hd.width hd.prec
    have i1 := ih (fun p hp => hok p (by simp [hp])) (fun e he => hb e (h3 e (by simp [he])))
      (fun e he => hn e (h3 e (by simp [he]))) rfl
    have i2 := prints_length (hb e (h3 e (by simp))) (hn e (h3 e (by simp))) hp
    have i3 := reach_le h1 h2
    simp only [List.length_append, List.flatMap_cons, directives] at i1 ⊢
    rw [Nat.succ_mul]
    omega

theorem directives_le (ps : List Piece) : 2 * directives ps ≤ (ps.flatMap Piece.text).length := by
  induction ps with
  | nil => simp [directives]
  | cons p ps ih =>
    cases p with
    | lit s => simp only [directives, List.flatMap_cons, List.length_append]; omega
    | percent => simp only [directives, List.flatMap_cons, List.length_append]; omega
    | dir d =>
      simp only [directives, List.flatMap_cons, List.length_append, Piece.text, Directive.text, List.length_cons,
        List.length_nil]
      omega

/-- **C62 (whole format strings).**  If no argument is a `BigDecimal` or `BigInteger`, and the texts that
`%s`, `%p` and `%t` take from an argument have at most `n` characters, then the output is longer than the
format string by at most `65847 + n` characters for each directive, and there are at most half as many
directives as characters. -/
theorem C62_total (dates : DateSyntax) (env : DateEnv) (jdk : JdkEnv) (hj : InstantsFit jdk) (f : JStr)
    (ps : List Piece) (h : Reading dates f ps) (es : List Entry) (he : ∀ e ∈ es, Covered e)
    (hb : ∀ e ∈ es, ¬ BigNumber e) (n : Nat) (hn : ∀ e ∈ es, TextsWithin jdk env n e) (out : JStr)
    (ho : printf dates env f (es.map (·.toTraits jdk)) = .ok out) :
    out.length ≤ f.length + directives ps * (65847 + n) ∧ 2 * directives ps ≤ f.length := by
  have h1 := C55_semantics dates env jdk hj f ps h es he
  rw [ho] at h1
  have h2 := output_length h1 h.ok hb hn
  have h3 := directives_le ps
  rw [h.text] at h2 h3
  exact ⟨h2, h3⟩

/-! ### Big numbers -/

theorem fixedText_length_ge {m p : Nat} {alt : Bool} {s : JStr} (h : FixedText m p alt s) {k : Nat}
    (hp : 1 ≤ p) (hm : 10 ^ (k + p) ≤ m) : k + 2 + p ≤ s.length := by
  obtain ⟨ip, fp, rfl, h1, h2, h3, h4, h5⟩ := h
  have hl : valueIn 10 (ip ++ fp) < 10 ^ (ip ++ fp).length :=
    valueIn_lt (by norm_num) _ fun c hc => by
      rcases List.mem_append.1 hc with hc | hc
      · exact (h1.2 c hc).2
      · exact (h3 c hc).2
  rw [h5, List.length_append, h4] at hl
  have := (Nat.pow_lt_pow_iff_right (show 1 < 10 by norm_num)).1 (hm.trans_lt hl)
  have hf : (fraction alt fp).length = p + 1 := by
    unfold fraction
    rw [if_neg (by rintro ⟨rfl, -⟩; simp at h4; omega)]
    simp [h4]
  rw [List.length_append, hf]
  omega

/-- **C62 (big numbers).**  There is no such bound for a `BigDecimal`: `%f` of `10^k`, written `1E+k`,
prints `k + 8` characters, up to the longest string there can be. -/
theorem C62_big (dates : DateSyntax) (env : DateEnv) (jdk : JdkEnv) (id : Identity) (k : Nat)
    (hk : k ≤ 2147483639) : ∃ out,
      printf dates env (js! "%f") [(Entry.ref (.bigDecimal 1 (-k) id)).toTraits jdk] = .ok out ∧
        out.length = k + 8 := by
  obtain ⟨body, h1, h2⟩ := C28_f dates env jdk ⟨[], .absent, .absent, ch! 'f', none⟩
    ⟨by simp, by simp, trivial, trivial, by decide, by simp, by simp⟩ ⟨by simp, by simp⟩ rfl 1 (-k) _
    (.decimal 1 (-k) id) 1 ⟨js! "1", by unfold Shortest IsNumeral NoExtraZero; decide, rfl⟩
    (by unfold ScaleOk; omega) (.inl (by norm_num)) []
  refine ⟨_, h1, ?_⟩
  have e : halfUp (bigValue (Int.natAbs 1) (-k)) 6 = 10 ^ (k + 6) := by
    unfold halfUp bigValue
    rw [neg_neg]
    have : ((Int.natAbs 1 : Nat) : ℚ) * 10 ^ (k : Int) * 10 ^ (6 : Int) + 1 / 2 = ((10 ^ (k + 6) : Nat) : ℚ) + 1 / 2 := by
      push_cast
      rw [pow_add, zpow_natCast]
      norm_num
    rw [this, Nat.floor_eq_iff (by positivity)]
    constructor <;> push_cast <;> linarith
  simp only [Num.precision, Option.getD_none] at h2
  have h2' : FixedText (10 ^ (k + 6)) 6 false body := by rw [← e]; exact h2
  have l1 := fixedText_length_ge h2' (k := k) (by norm_num) le_rfl
  have l2 := fixedText_length h2' (k := k + 1) (by omega) (Nat.pow_lt_pow_right (by norm_num) (by omega))
  rw [Directive.field_length]
  have : (signText (flagSet []) (decide ((1 : Int) < 0))).length = 0 := by decide
  simp only [Num.width] at this ⊢
  omega

/-! ### Examples -/

-- the bound is reached: `%.1f` of the least double has 312 characters
example : (printf ⟨fun _ => true⟩ sampleDateEnv (js! "%.1f") [doubleArg 0xFFEFFFFFFFFFFFFF#64]).map (·.length) =
    .ok 312 := by decide +kernel
-- what `%s`, `%p` and `%t` take from a `boolean`
theorem bool_texts (jdk : JdkEnv) (env : DateEnv) (b : Bool) : TextsWithin jdk env 5 (.prim (.bool b)) := by
  refine ⟨?_, by simp, ?_, ?_⟩
  · rintro s hs
    cases hs with
    | shows h => cases h with
      | number hx hb hc hs =>
        cases hx with
        | prim h => rename_i x; cases x <;> simp_all [Integral.prim?]
      | @bool b' e hx => split_ifs <;> simp
      | char => simp
    | float h => cases h
    | double h => cases h
  · rintro s hs; cases hs
  · rintro t f t' s hs
    cases hs with
    | int h => cases h with | prim h => simp [Integral.prim?] at h
    | seconds h => cases h with | long h => cases h with | prim h => simp [Integral.prim?] at h
    | millis h => cases h with | long h => cases h with | prim h => simp [Integral.prim?] at h
-- the theorem about whole format strings applies to `%*s%%`
example (out : JStr) (h : printf sampleDates sampleDateEnv (js! "%*s%%")
    ([.prim (.bool true), .prim (.bool false)].map (Entry.toTraits sampleJdk)) = .ok out) :
      out.length ≤ 5 + 1 * (65847 + 5) := by
  refine (C62_total _ _ _ (by rintro t sec nano ⟨⟩) _ _ starFormat_reading _ ?_ ?_ 5 ?_ out h).1
  · intro e he
    simp only [List.mem_cons, List.not_mem_nil, or_false] at he
    rcases he with rfl | rfl <;> exact .prim (by simp)
  · rintro e he ⟨u, s, hb⟩
    simp only [List.mem_cons, List.not_mem_nil, or_false] at he
    rcases he with rfl | rfl <;> cases hb
  · intro e he
    simp only [List.mem_cons, List.not_mem_nil, or_false] at he
    rcases he with rfl | rfl <;> exact bool_texts _ _ _
example : printf sampleDates sampleDateEnv (js! "%*s%%")
    ([.prim (.bool true), .prim (.bool false)].map (Entry.toTraits sampleJdk)) = .ok (js! "false%") := by decide
-- a big number
example : printf ⟨fun _ => true⟩ sampleDateEnv (js! "%f")
    [(Entry.ref (.bigDecimal 1 (-12) someId)).toTraits sampleJdk] = .ok (js! "1000000000000.000000") := by decide +kernel

end FastPrintf
