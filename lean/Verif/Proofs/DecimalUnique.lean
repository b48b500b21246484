/-
The decimal texts of `Spec.Decimal` are determined by what they denote.
-/
import Verif.Proofs.DecimalShape
import Verif.Proofs.Integers
import Mathlib.Tactic.Linarith

namespace FastPrintf.Spec

/-- A numeral followed by `p` digits is determined by its value. -/
theorem numeral_split {ip ip' fp fp' : JStr} (h : IsNumeral 10 ip) (hz : NoExtraZero ip)
    (h' : IsNumeral 10 ip') (hz' : NoExtraZero ip') (hd : ∀ c ∈ fp, IsDigitIn 10 c)
    (hd' : ∀ c ∈ fp', IsDigitIn 10 c) (hl : fp.length = fp'.length)
    (hv : valueIn 10 (ip ++ fp) = valueIn 10 (ip' ++ fp')) : ip = ip' ∧ fp = fp' := by
  rw [valueIn_append, valueIn_append, ← hl] at hv
  have l1 : valueIn 10 fp < 10 ^ fp.length := valueIn_lt (by omega) _ fun c hc => (hd c hc).2
  have l2 : valueIn 10 fp' < 10 ^ fp.length := by rw [hl]; exact valueIn_lt (by omega) _ fun c hc => (hd' c hc).2
  have e1 : valueIn 10 ip = valueIn 10 ip' := by
    have := congrArg (· / 10 ^ fp.length) hv
    rwa [Nat.add_comm, Nat.add_mul_div_right _ _ (by positivity), Nat.div_eq_of_lt l1, zero_add,
      Nat.add_comm, Nat.add_mul_div_right _ _ (by positivity), Nat.div_eq_of_lt l2, zero_add] at this
  refine ⟨?_, valueIn_inj_length (by omega) hd hd' hl (by rw [e1] at hv; omega)⟩
  rw [← toRadix_unique (by omega) (by omega) h hz, e1, toRadix_unique (by omega) (by omega) h' hz']

theorem FixedText.unique {m p : Nat} {alt : Bool} {s s' : JStr} (h : FixedText m p alt s)
    (h' : FixedText m p alt s') : s = s' := by
  obtain ⟨ip, fp, rfl, h1, h2, h3, h4, h5⟩ := h
  obtain ⟨ip', fp', rfl, h1', h2', h3', h4', h5'⟩ := h'
  obtain ⟨rfl, rfl⟩ := numeral_split h1 h2 h1' h2' h3 h3' (by omega) (by omega)
  rfl

theorem ExponentText.unique {x : Int} {s s' : JStr} (h : ExponentText x s) (h' : ExponentText x s') :
    s = s' := by
  obtain ⟨ds, h1, rfl⟩ := h
  obtain ⟨ds', h1', rfl⟩ := h'
  have : ds = ds' := by
    rw [← toRadix_unique (by omega) (by omega) h1.1 h1.2.1,
      ← toRadix_unique (by omega) (by omega) h1'.1 h1'.2.1, h1.2.2, h1'.2.2]
  rw [this]

/-- The last digit of a digit string with a nonempty fraction that is divisible by ten is a zero. -/
theorem last_zero {s : JStr} (hs : s ≠ []) (hd : ∀ c ∈ s, IsDigitIn 10 c) (h : 10 ∣ valueIn 10 s) :
    s.getLast? = some 48 := by
  induction s using List.reverseRecOn with
  | nil => exact absurd rfl hs
  | append_singleton t c _ =>
    have hc := hd c (by simp)
    rw [valueIn_append, List.length_singleton, pow_one] at h
    have e : valueIn 10 [c] = digitVal c := by simp [valueIn]
    rw [e] at h
    have h0 : digitVal c = 0 := by
      have := hc.2; omega
    have : c = 48 := by
      have h1 := hc.1; have h2 := hc.2
      unfold digitVal at h0 h2
      split_ifs at h0 h2 <;> omega
    simp [this]

theorem MinimalText.unique {v : ℚ} {s s' : JStr} (h : MinimalText v s) (h' : MinimalText v s') :
    s = s' := by
  have key : ∀ {ip ip' fp fp' : JStr}, IsNumeral 10 ip → (∀ c ∈ fp, IsDigitIn 10 c) →
      fp.getLast? ≠ some 48 → (valueIn 10 (ip ++ fp) : ℚ) = v * 10 ^ fp.length →
      (valueIn 10 (ip' ++ fp') : ℚ) = v * 10 ^ fp'.length → fp.length ≤ fp'.length := by
    intro ip ip' fp fp' h1 h3 h4 h5 h5'
    by_contra hc
    obtain ⟨k, hk⟩ : ∃ k, fp.length = fp'.length + (k + 1) := ⟨fp.length - fp'.length - 1, by omega⟩
    have e : valueIn 10 (ip ++ fp) = valueIn 10 (ip' ++ fp') * 10 ^ (k + 1) := by
      have : (valueIn 10 (ip ++ fp) : ℚ) = valueIn 10 (ip' ++ fp') * 10 ^ (k + 1) := by
        rw [h5, h5', hk, pow_add]; ring
      exact_mod_cast this
    have hd : 10 ∣ valueIn 10 fp := by
      rw [valueIn_append, hk] at e
      have d1 : 10 ∣ valueIn 10 ip * 10 ^ (fp'.length + (k + 1)) :=
        Dvd.dvd.mul_left (dvd_pow_self 10 (by omega)) _
      have d2 : 10 ∣ valueIn 10 (ip' ++ fp') * 10 ^ (k + 1) := Dvd.dvd.mul_left (dvd_pow_self 10 (by omega)) _
      rw [← e] at d2
      exact (Nat.dvd_add_right d1).1 d2
    have hne : fp ≠ [] := by rintro rfl; simp at hk
    exact h4 (last_zero hne h3 hd)
  obtain ⟨ip, fp, rfl, h1, h2, h3, h4, h5⟩ := h
  obtain ⟨ip', fp', rfl, h1', h2', h3', h4', h5'⟩ := h'
  have hl : fp.length = fp'.length := le_antisymm (key h1 h3 h4 h5 h5') (key h1' h3' h4' h5' h5)
  have hv : valueIn 10 (ip ++ fp) = valueIn 10 (ip' ++ fp') := by
    have : (valueIn 10 (ip ++ fp) : ℚ) = valueIn 10 (ip' ++ fp') := by rw [h5, h5', hl]
    exact_mod_cast this
  obtain ⟨rfl, rfl⟩ := numeral_split h1 h2 h1' h2' h3 h3' hl hv
  rfl

theorem zpow10_lt {a b : Int} (h : (10 : ℚ) ^ a < 10 ^ b) : a < b :=
  (zpow_lt_zpow_iff_right₀ (by norm_num)).1 h

theorem Significant.unique {d : ℚ} {n m m' : Nat} {x x' : Int} (h : Significant d n m x)
    (h' : Significant d n m' x') : m = m' ∧ x = x' := by
  obtain ⟨h1, h2, x0, h3, h4, h5⟩ := h
  obtain ⟨h1', h2', x0', h3', h4', h5'⟩ := h'
  have e0 : x0 = x0' := by
    have a := zpow10_lt (lt_of_le_of_lt h3 h4')
    have b := zpow10_lt (lt_of_le_of_lt h3' h4)
    omega
  subst e0
  have e : (m : ℚ) * 10 ^ (x - (n - 1)) = m' * 10 ^ (x' - (n - 1)) := by rw [h5, h5']
  have hn : 1 ≤ n := by
    by_contra hc
    obtain rfl : n = 0 := by omega
    simp at h1 h2; omega
  have key : ∀ {m m' : Nat} {x x' : Int}, 10 ^ (n - 1) ≤ m → m' < 10 ^ n →
      (m : ℚ) * 10 ^ (x - (n - 1)) = m' * 10 ^ (x' - (n - 1)) → x ≤ x' := by
    intro m m' x x' g1 g2 g3
    have q1 : (10 : ℚ) ^ ((n : Int) - 1) ≤ m := by
      have : ((10 ^ (n - 1) : Nat) : ℚ) ≤ m := by exact_mod_cast g1
      push_cast at this
      rwa [← zpow_natCast, Nat.cast_sub hn, Nat.cast_one] at this
    have q2 : (m' : ℚ) < 10 ^ (n : Int) := by
      rw [zpow_natCast]; exact_mod_cast g2
    have p1 : (0 : ℚ) < 10 ^ (x - (n - 1)) := by positivity
    have p2 : (0 : ℚ) < 10 ^ (x' - (n - 1)) := by positivity
    have r1 : (10 : ℚ) ^ x ≤ m * 10 ^ (x - (n - 1)) := by
      calc (10 : ℚ) ^ x = 10 ^ ((n : Int) - 1) * 10 ^ (x - (n - 1)) := by
            rw [← zpow_add₀ (by norm_num)]; congr 1; omega
        _ ≤ _ := mul_le_mul_of_nonneg_right q1 p1.le
    have r2 : (m' : ℚ) * 10 ^ (x' - (n - 1)) < 10 ^ (x' + 1) := by
      calc (m' : ℚ) * 10 ^ (x' - (n - 1)) < 10 ^ (n : Int) * 10 ^ (x' - (n - 1)) :=
            mul_lt_mul_of_pos_right q2 p2
        _ = _ := by rw [← zpow_add₀ (by norm_num)]; congr 1; omega
    have := zpow10_lt (lt_of_le_of_lt r1 (by rw [g3]; exact r2))
    omega
  have ex : x = x' := le_antisymm (key h1 h2' e) (key h1' h2 e.symm)
  subst ex
  have p1 : (10 : ℚ) ^ (x - (n - 1)) ≠ 0 := by positivity
  exact ⟨by exact_mod_cast mul_right_cancel₀ p1 e, rfl⟩

/-- Half up is within half a unit. -/
theorem halfUp_error {d : ℚ} (hd : 0 ≤ d) (p : Int) :
    |(halfUp d p : ℚ) * 10 ^ (-p) - d| ≤ 10 ^ (-p) / 2 := by
  have hp : (0 : ℚ) < 10 ^ (-p) := by positivity
  have e : d = (d * 10 ^ p) * 10 ^ (-p) := by
    rw [mul_assoc, ← zpow_add₀ (by norm_num)]; simp
  have h0 : 0 ≤ d * 10 ^ p + 1 / 2 := by positivity
  have h1 := Nat.floor_le h0
  have h2 := Nat.lt_floor_add_one (d * 10 ^ p + 1 / 2)
  unfold halfUp
  generalize hF : ((⌊d * 10 ^ p + 1 / 2⌋₊ : Nat) : ℚ) = F at *
  have e2 : F * 10 ^ (-p) - d = (F - d * 10 ^ p) * 10 ^ (-p) := by
    rw [sub_mul, ← e]
  rw [e2, abs_mul, abs_of_pos hp]
  have : |F - d * 10 ^ p| ≤ 1 / 2 := by rw [abs_le]; constructor <;> linarith
  calc _ ≤ 1 / 2 * (10 : ℚ) ^ (-p) := mul_le_mul_of_nonneg_right this hp.le
    _ = _ := by ring

end FastPrintf.Spec
