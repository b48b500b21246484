/-
Bounds of `log10 2` and `log10 (3/4)` that are sharp enough to locate the powers of two among the powers of ten for
exponents up to several millions.
-/
import Mathlib.Analysis.SpecialFunctions.Log.Base
import Mathlib.Tactic.IntervalCases
import Verif.Proofs.Schubfach

namespace FastPrintf.Logs

/-- `log10 2`. -/
noncomputable def L : ℝ := Real.logb 10 2
/-- `log10 (3/4)`. -/
noncomputable def M : ℝ := Real.logb 10 (3 / 4)

theorem L_gt {a b : ℕ} (h : 10 ^ a < 2 ^ b) : (a : ℝ) < b * L := by
  have h' : (10 : ℝ) ^ a < 2 ^ b := by exact_mod_cast h
  have := Real.logb_lt_logb (b := 10) (by norm_num) (by positivity) h'
  rwa [Real.logb_pow, Real.logb_pow, Real.logb_self_eq_one (by norm_num), mul_one] at this

theorem L_lt {a b : ℕ} (h : 2 ^ b < 10 ^ a) : b * L < (a : ℝ) := by
  have h' : (2 : ℝ) ^ b < 10 ^ a := by exact_mod_cast h
  have := Real.logb_lt_logb (b := 10) (by norm_num) (by positivity) h'
  rwa [Real.logb_pow, Real.logb_pow, Real.logb_self_eq_one (by norm_num), mul_one] at this

theorem M_gt {a b : ℕ} (h : 4 ^ b < 3 ^ b * 10 ^ a) : -(a : ℝ) < b * M := by
  have h' : (1 : ℝ) < (3 / 4) ^ b * 10 ^ a := by
    have : (4 : ℝ) ^ b < 3 ^ b * 10 ^ a := by exact_mod_cast h
    rw [div_pow, div_mul_eq_mul_div, lt_div_iff₀ (by positivity)]
    linarith
  have := Real.logb_pos (b := 10) (by norm_num) h'
  rw [Real.logb_mul (by positivity) (by positivity), Real.logb_pow, Real.logb_pow,
    Real.logb_self_eq_one (by norm_num), mul_one] at this
  unfold M
  linarith

theorem M_lt {a b : ℕ} (h : 3 ^ b * 10 ^ a < 4 ^ b) : b * M < -(a : ℝ) := by
  have h' : (3 / 4 : ℝ) ^ b * 10 ^ a < 1 := by
    have : (3 : ℝ) ^ b * 10 ^ a < 4 ^ b := by exact_mod_cast h
    rw [div_pow, div_mul_eq_mul_div, div_lt_iff₀ (by positivity)]
    linarith
  have := Real.logb_neg (b := 10) (by norm_num) (by positivity) h'
  rw [Real.logb_mul (by positivity) (by positivity), Real.logb_pow, Real.logb_pow,
    Real.logb_self_eq_one (by norm_num), mul_one] at this
  unfold M
  linarith

theorem l1 : (97879 : ℝ) < 325147 * L := by exact_mod_cast L_gt (a := 97879) (b := 325147) (by decide +kernel)
theorem l2 : 6107016 * L < (1838395 : ℝ) := by exact_mod_cast L_lt (a := 1838395) (b := 6107016) (by decide +kernel)
theorem l3 : (1936274 : ℝ) < 6432163 * L := by exact_mod_cast L_gt (a := 1936274) (b := 6432163) (by decide +kernel)
theorem l4 : 12539179 * L < (3774669 : ℝ) := by exact_mod_cast L_lt (a := 3774669) (b := 12539179) (by decide +kernel)
theorem l5 : (5781869 : ℝ) * L < 1740516 := by exact_mod_cast L_lt (a := 1740516) (b := 5781869) (by decide +kernel)
theorem m1 : -(87438 : ℝ) < 699847 * M := by exact_mod_cast M_gt (a := 87438) (b := 699847) (by decide +kernel)
theorem m2 : 958974 * M < -(119813 : ℝ) := by exact_mod_cast M_lt (a := 119813) (b := 958974) (by decide +kernel)

theorem logb_zpow (x : ℝ) (e : ℤ) (hx : 0 < x) : Real.logb 10 (x ^ e) = e * Real.logb 10 x := by
  rw [← Real.rpow_intCast, Real.logb_rpow_eq_mul_logb_of_pos hx]

theorem m3 : -(566690 : ℝ) < 4535743 * M := by exact_mod_cast M_gt (a := 566690) (b := 4535743) (by decide +kernel)
theorem m4 : 14566203 * M < -(1819883 : ℝ) := by
  exact_mod_cast M_lt (a := 1819883) (b := 14566203) (by decide +kernel)

/-- Powers of ten and powers of two compare as `k` and `e * L`. -/
theorem ten_le_two {k e : ℤ} : (10 : ℝ) ^ k ≤ 2 ^ e ↔ (k : ℝ) ≤ e * L := by
  unfold L
  rw [← logb_zpow 2 e (by norm_num), Real.le_logb_iff_rpow_le (by norm_num) (by positivity), Real.rpow_intCast]

theorem two_le_ten {k e : ℤ} : (2 : ℝ) ^ e ≤ 10 ^ k ↔ e * L ≤ (k : ℝ) := by
  unfold L
  rw [← logb_zpow 2 e (by norm_num), Real.logb_le_iff_le_rpow (by norm_num) (by positivity), Real.rpow_intCast]

theorem ten_le_three {k e : ℤ} : (10 : ℝ) ^ k ≤ 3 / 4 * 2 ^ e ↔ (k : ℝ) ≤ e * L + M := by
  have : e * L + M = Real.logb 10 (3 / 4 * 2 ^ e) := by
    rw [Real.logb_mul (by norm_num) (by positivity), logb_zpow 2 e (by norm_num)]
    unfold L M
    ring
  rw [this, Real.le_logb_iff_rpow_le (by norm_num) (by positivity), Real.rpow_intCast]

/-- Below the quotient by `C_10`: below `log10 2^e`. -/
theorem below_two {e k : ℤ} (h1 : -6432162 ≤ e) (h2 : e ≤ 6432162) (h : k * 2 ^ 41 ≤ e * 661971961083) :
    (k : ℝ) ≤ e * L := by
  by_contra hn
  push Not at hn
  rcases lt_trichotomy e 0 with he | he | he
  · have h3 : (e : ℝ) * 1838395 ≤ e * (6107016 * L) := by
      have : (e : ℝ) < 0 := by exact_mod_cast he
      nlinarith [l2]
    have h4 : (e : ℝ) * 1838395 < 6107016 * k := by linarith
    have h5 : e * 1838395 < 6107016 * k := by exact_mod_cast h4
    have h6 : 325147 * k < e * 97879 := by omega
    omega
  · subst he
    have : (0 : ℝ) < k := by simpa using hn
    have : 0 < k := by exact_mod_cast this
    omega
  · have h3 : (e : ℝ) * 97879 ≤ e * (325147 * L) := by
      have : (0 : ℝ) < e := by exact_mod_cast he
      nlinarith [l1]
    have h4 : (e : ℝ) * 97879 < 325147 * k := by linarith
    have h5 : e * 97879 < 325147 * k := by exact_mod_cast h4
    omega

/-- Above it: above `log10 2^e`. -/
theorem above_two {e k : ℤ} (h1 : -6432162 ≤ e) (h2 : e ≤ 6432162) (h : e * 661971961083 < k * 2 ^ 41) :
    e * L < (k : ℝ) := by
  by_contra hn
  push Not at hn
  rcases lt_trichotomy e 0 with he | he | he
  · have h3 : (e : ℝ) * (325147 * L) < e * 97879 := by
      have : (e : ℝ) < 0 := by exact_mod_cast he
      nlinarith [l1]
    have h4 : (325147 : ℝ) * k < e * 97879 := by linarith
    have h5 : 325147 * k < e * 97879 := by exact_mod_cast h4
    omega
  · subst he
    have : (k : ℝ) ≤ 0 := by simpa using hn
    have : k ≤ 0 := by exact_mod_cast this
    omega
  · have h3 : (e : ℝ) * (6107016 * L) < e * 1838395 := by
      have : (0 : ℝ) < e := by exact_mod_cast he
      nlinarith [l2]
    have h4 : (6107016 : ℝ) * k < e * 1838395 := by linarith
    have h5 : 6107016 * k < e * 1838395 := by exact_mod_cast h4
    have h6 : e * 97879 < 325147 * k := by omega
    omega

/-- The same for powers of ten among the powers of two. -/
theorem below_ten {e k : ℤ} (h1 : -1838394 ≤ e) (h2 : e ≤ 1838394) (h : k * 2 ^ 38 ≤ e * 913124641741) :
    k * L ≤ (e : ℝ) := by
  by_contra hn
  push Not at hn
  rcases lt_trichotomy e 0 with he | he | he
  · have hk : (k : ℝ) < 0 := by
      have : k < 0 := by omega
      exact_mod_cast this
    have h3 : (k : ℝ) * (325147 * L) < k * 97879 := by nlinarith [l1]
    have h4 : (325147 : ℝ) * e < k * 97879 := by linarith
    have h5 : 325147 * e < k * 97879 := by exact_mod_cast h4
    have h6 : k * 1740516 < 5781869 * e := by omega
    omega
  · subst he
    have hk : k ≤ 0 := by omega
    have hk' : (k : ℝ) ≤ 0 := by exact_mod_cast hk
    have : 0 < L := by linarith [l1]
    have : (0 : ℝ) < k * L := by simpa using hn
    nlinarith
  · rcases le_or_gt k 0 with hk | hk
    · have hk' : (k : ℝ) ≤ 0 := by exact_mod_cast hk
      have : 0 < L := by linarith [l1]
      have : (0 : ℝ) < e := by exact_mod_cast he
      nlinarith
    have hk' : (0 : ℝ) < k := by exact_mod_cast hk
    have h3 : (k : ℝ) * (5781869 * L) < k * 1740516 := by nlinarith [l5]
    have h4 : (5781869 : ℝ) * e < k * 1740516 := by linarith
    have h5 : 5781869 * e < k * 1740516 := by exact_mod_cast h4
    omega

theorem above_ten {e k : ℤ} (h1 : -1838394 ≤ e) (h2 : e ≤ 1838394) (h : e * 913124641741 < k * 2 ^ 38) :
    (e : ℝ) < k * L := by
  by_contra hn
  push Not at hn
  have hL : 0 < L := by linarith [l1]
  rcases lt_trichotomy e 0 with he | he | he
  · rcases le_or_gt 0 k with hk | hk
    · have hk' : (0 : ℝ) ≤ k := by exact_mod_cast hk
      have : (e : ℝ) < 0 := by exact_mod_cast he
      nlinarith
    have hk' : (k : ℝ) < 0 := by exact_mod_cast hk
    have h3 : (k : ℝ) * 1740516 < k * (5781869 * L) := by nlinarith [l5]
    have h4 : (k : ℝ) * 1740516 < 5781869 * e := by linarith
    have h5 : k * 1740516 < 5781869 * e := by exact_mod_cast h4
    omega
  · subst he
    have hk : 0 < k := by omega
    have hk' : (0 : ℝ) < k := by exact_mod_cast hk
    have : (k : ℝ) * L ≤ 0 := by simpa using hn
    nlinarith
  · have hk : 0 < k := by omega
    have hk' : (0 : ℝ) < k := by exact_mod_cast hk
    have h3 : (k : ℝ) * 97879 < k * (325147 * L) := by nlinarith [l1]
    have h4 : (k : ℝ) * 97879 < 325147 * e := by linarith
    have h5 : k * 97879 < 325147 * e := by exact_mod_cast h4
    have h6 : 5781869 * e < k * 1740516 := by omega
    omega

/-- The same for three quarters of the powers of two. -/
theorem below_three {e k : ℤ} (h1 : -3606689 ≤ e) (h2 : e ≤ 3150619)
    (h : k * 2 ^ 41 ≤ e * 661971961083 + -274743187321) : (k : ℝ) ≤ e * L + M := by
  by_contra hn
  push Not at hn
  rcases lt_or_ge e 0 with he | he
  · have h3 : (e : ℝ) * 3774669 ≤ e * (12539179 * L) := by
      have : (e : ℝ) < 0 := by exact_mod_cast he
      nlinarith [l4]
    have h4 : 699847 * ((e : ℝ) * 3774669) + -87438 * 12539179 < 699847 * 12539179 * k := by
      linarith [m1]
    have h5 : 699847 * (e * 3774669) + -87438 * 12539179 < 699847 * 12539179 * k := by exact_mod_cast h4
    generalize hu : k * 325147 - 97879 * e = u at *
    generalize hv : 1838395 * e - k * 6107016 = v at *
    have : e = 325147 * v + 6107016 * u := by omega
    have : k = 97879 * v + 1838395 * u := by omega
    subst e k
    have : -40625 ≤ u := by omega
    have : u ≤ -40623 := by omega
    interval_cases u <;> omega
  · have h3 : (e : ℝ) * 1936274 ≤ e * (6432163 * L) := by
      have : (0 : ℝ) ≤ e := by exact_mod_cast he
      nlinarith [l3]
    have h4 : 699847 * ((e : ℝ) * 1936274) + -87438 * 6432163 < 699847 * 6432163 * k := by
      linarith [m1]
    have h5 : 699847 * (e * 1936274) + -87438 * 6432163 < 699847 * 6432163 * k := by exact_mod_cast h4
    generalize hu : k * 325147 - 97879 * e = u at *
    generalize hv : 1838395 * e - k * 6107016 = v at *
    have : e = 325147 * v + 6107016 * u := by omega
    have : k = 97879 * v + 1838395 * u := by omega
    subst e k
    have : -40625 ≤ u := by omega
    have : u ≤ -40623 := by omega
    interval_cases u <;> omega

theorem above_three {e k : ℤ} (h1 : -3606689 ≤ e) (h2 : e ≤ 3150619)
    (h : e * 661971961083 + -274743187321 < k * 2 ^ 41) : e * L + M < (k : ℝ) := by
  by_contra hn
  push Not at hn
  rcases lt_or_ge e 0 with he | he
  · have h3 : (e : ℝ) * (6432163 * L) ≤ e * 1936274 := by
      have : (e : ℝ) < 0 := by exact_mod_cast he
      nlinarith [l3]
    have h4 : 958974 * 6432163 * (k : ℝ) < 958974 * (e * 1936274) + -119813 * 6432163 := by
      linarith [m2]
    have h5 : 958974 * 6432163 * k < 958974 * (e * 1936274) + -119813 * 6432163 := by exact_mod_cast h4
    generalize hu : k * 325147 - 97879 * e = u at *
    generalize hv : 1838395 * e - k * 6107016 = v at *
    have : e = 325147 * v + 6107016 * u := by omega
    have : k = 97879 * v + 1838395 * u := by omega
    subst e k
    have : -40625 ≤ u := by omega
    have : u ≤ -40623 := by omega
    interval_cases u <;> omega
  · have h3 : (e : ℝ) * (12539179 * L) ≤ e * 3774669 := by
      have : (0 : ℝ) ≤ e := by exact_mod_cast he
      nlinarith [l4]
    have h4 : 958974 * 12539179 * (k : ℝ) < 958974 * (e * 3774669) + -119813 * 12539179 := by
      linarith [m2]
    have h5 : 958974 * 12539179 * k < 958974 * (e * 3774669) + -119813 * 12539179 := by exact_mod_cast h4
    generalize hu : k * 325147 - 97879 * e = u at *
    generalize hv : 1838395 * e - k * 6107016 = v at *
    have : e = 325147 * v + 6107016 * u := by omega
    have : k = 97879 * v + 1838395 * u := by omega
    subst e k
    have : -40625 ≤ u := by omega
    have : u ≤ -40623 := by omega
    interval_cases u <;> omega

end FastPrintf.Logs
