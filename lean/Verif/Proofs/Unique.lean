/-
The rule of `Spec.JavaDecimal` determines the decimal.
-/
import Verif.Proofs.Rounding

namespace FastPrintf.Spec

/-- Two neighbouring decimals of the same length are not both even. -/
theorem even_gap {n : Nat} (hn : 1 ≤ n) {d d' : ℚ} (hd : HasEvenLength n d) (hd' : HasEvenLength n d')
    (hlt : d < d') : ∃ e, d < e ∧ e < d' ∧ HasLength n e := by
  obtain ⟨s1, i1, a1, a2, a3, rfl⟩ := hd
  obtain ⟨s2, i2, b1, b2, b3, rfl⟩ := hd'
  have p1 : (0 : ℚ) < 10 ^ i1 := by positivity
  obtain ⟨m, rfl⟩ : ∃ m, n = m + 1 := ⟨n - 1, by omega⟩
  have hs : s1 + 1 < 10 ^ (m + 1) := by rw [pow_succ] at *; omega
  refine ⟨((s1 + 1 : Nat) : ℚ) * 10 ^ i1, ?_, ?_, s1 + 1, i1, by omega, hs, rfl⟩
  · refine mul_lt_mul_of_pos_right ?_ p1
    exact_mod_cast Nat.lt_succ_self s1
  · rcases lt_trichotomy i1 i2 with h | h | h
    · have h1 : ((s1 + 1 : Nat) : ℚ) < ((10 ^ (m + 1) : Nat) : ℚ) := by exact_mod_cast hs
      have h2 : (10 : ℚ) ^ i1 * 10 ≤ 10 ^ i2 := by
        rw [← zpow_add_one₀ (by norm_num)]
        exact zpow_le_zpow_right₀ (by norm_num) (by omega)
      have h3 : ((10 ^ m : Nat) : ℚ) ≤ s2 := by exact_mod_cast (by simpa using b1)
      have h4 : (0 : ℚ) ≤ s2 := by positivity
      have h5 : ((10 ^ (m + 1) : Nat) : ℚ) = ((10 ^ m : Nat) : ℚ) * 10 := by push_cast; ring
      calc ((s1 + 1 : Nat) : ℚ) * 10 ^ i1 < ((10 ^ (m + 1) : Nat) : ℚ) * 10 ^ i1 :=
            mul_lt_mul_of_pos_right h1 p1
        _ = ((10 ^ m : Nat) : ℚ) * (10 ^ i1 * 10) := by rw [h5]; ring
        _ ≤ s2 * (10 ^ i1 * 10) := mul_le_mul_of_nonneg_right h3 (by positivity)
        _ ≤ _ := mul_le_mul_of_nonneg_left h2 h4
    · subst h
      have h1 : (s1 : ℚ) < s2 := lt_of_mul_lt_mul_right hlt p1.le
      have h2 : s1 < s2 := by exact_mod_cast h1
      refine mul_lt_mul_of_pos_right ?_ p1
      exact_mod_cast (by omega : s1 + 1 < s2)
    · exfalso
      have h2 : (10 : ℚ) ^ i2 * 10 ≤ 10 ^ i1 := by
        rw [← zpow_add_one₀ (by norm_num)]
        exact zpow_le_zpow_right₀ (by norm_num) (by omega)
      have h1 : (s2 : ℚ) < ((10 ^ (m + 1) : Nat) : ℚ) := by exact_mod_cast b2
      have h3 : ((10 ^ m : Nat) : ℚ) ≤ s1 := by exact_mod_cast (by simpa using a1)
      have h4 : (0 : ℚ) ≤ s1 := by positivity
      have p2 : (0 : ℚ) < 10 ^ i2 := by positivity
      have h5 : ((10 ^ (m + 1) : Nat) : ℚ) = ((10 ^ m : Nat) : ℚ) * 10 := by push_cast; ring
      have : (s2 : ℚ) * 10 ^ i2 < s1 * 10 ^ i1 :=
        calc (s2 : ℚ) * 10 ^ i2 < ((10 ^ (m + 1) : Nat) : ℚ) * 10 ^ i2 := mul_lt_mul_of_pos_right h1 p2
          _ = ((10 ^ m : Nat) : ℚ) * (10 ^ i2 * 10) := by rw [h5]; ring
          _ ≤ s1 * (10 ^ i2 * 10) := mul_le_mul_of_nonneg_right h3 (by positivity)
          _ ≤ _ := mul_le_mul_of_nonneg_left h2 h4
      linarith

theorem Chosen.unique {c : Prop} {L U x d d' : ℚ} (h : Chosen (In c L U) x d) (h' : Chosen (In c L U) x d') :
    d = d' := by
  obtain ⟨m, hm, hR, hl, hc⟩ := h
  obtain ⟨m', hm', hR', hl', hc'⟩ := h'
  obtain rfl : m = m' := hm.unique hm'
  have hn : 1 ≤ max m 2 := by omega
  rcases hc d' hR' hl' with h | h | ⟨h, he⟩
  · exact h.symm
  · rcases hc' d hR hl with g | g | ⟨g, _⟩
    · exact g
    · linarith
    · linarith
  · rcases hc' d hR hl with g | g | ⟨g, he'⟩
    · exact g
    · linarith
    · -- both even: something lies between, and closer
      have close : ∀ {a b : ℚ}, In c L U a → In c L U b → |a - x| = |b - x| →
          (∀ e, In c L U e → HasLength (max m 2) e → e = a ∨ |a - x| < |e - x| ∨
            (|a - x| = |e - x| ∧ HasEvenLength (max m 2) a)) →
          (∃ e, a < e ∧ e < b ∧ HasLength (max m 2) e) → False := by
        intro a b ha hb hab hcl ⟨e, e1, e2, e3⟩
        have hin := In.between ha hb e1.le e2.le
        have hmid : |e - x| < |a - x| := by
          rcases abs_eq_abs.1 hab with h | h
          · linarith
          · rw [abs_of_nonpos (by linarith : a - x ≤ 0), abs_lt]
            constructor <;> linarith
        rcases hcl e hin e3 with q | q | ⟨q, _⟩
        · linarith
        · linarith
        · linarith
      rcases lt_trichotomy d d' with hlt | heq | hgt
      · exact (close hR hR' h hc (even_gap hn he he' hlt)).elim
      · exact heq
      · exact (close hR' hR g hc' (even_gap hn he' he hgt)).elim

/-- No decimal rounds to two magnitudes. -/
theorem roundsTo_disjoint {c c' : Nat} {q q' : Int} (h : Canonical c q) (h' : Canonical c' q')
    (hlt : (c : ℚ) * 2 ^ q < c' * 2 ^ q') {d : ℚ} (r : RoundsTo (c * 2 ^ q) (c % 2 = 0) d)
    (r' : RoundsTo (c' * 2 ^ q') (c' % 2 = 0) d) : False := by
  have f : IsFloat ((c : ℚ) * 2 ^ q) := ⟨c, q, h.lt, h.min, rfl⟩
  have f' : IsFloat ((c' : ℚ) * 2 ^ q') := ⟨c', q', h'.lt, h'.min, rfl⟩
  have hy := above_isFloat h
  have hp := two_zpow_pos q
  have hge : ((c : ℚ) + 1) * 2 ^ q ≤ c' * 2 ^ q' := by
    rcases gap h f' hlt.ne' with g | g
    · exact g
    · exfalso
      have : (0 : ℚ) ≤ lowQuarters c q / 2 := by positivity
      nlinarith
  rcases r _ f' with e | e | ⟨e, ev⟩
  · linarith
  · rcases r' _ f with g | g | ⟨g, _⟩ <;> linarith
  · rcases r' _ f with g | g | ⟨g, ev'⟩
    · linarith
    · linarith
    · rcases lt_or_eq_of_le hge with hlt2 | heq
      · -- the next magnitude is closer
        have hxy : (c : ℚ) * 2 ^ q < (c + 1) * 2 ^ q := by nlinarith
        have hmid : |d - (c + 1) * 2 ^ q| < |d - c * 2 ^ q| := by
          rcases abs_eq_abs.1 e with k | k
          · linarith
          · rw [abs_of_nonneg (by linarith : 0 ≤ d - c * 2 ^ q), abs_lt]
            constructor <;> linarith
        rcases r _ hy with k | k | ⟨k, _⟩ <;> linarith
      · -- adjacent: the significands have different parity
        rcases lt_trichotomy q q' with k | k | k
        · rw [zpow_split k.le, ← mul_assoc] at heq
          have e1 : ((c : ℚ) + 1) = c' * ((2 ^ (q' - q).toNat : Nat) : ℚ) := mul_right_cancel₀ hp.ne' heq
          have e2 : c + 1 = c' * 2 ^ (q' - q).toNat := by exact_mod_cast e1
          obtain ⟨j, hj⟩ : ∃ j, (q' - q).toNat = j + 1 := ⟨(q' - q).toNat - 1, by omega⟩
          rw [hj, pow_succ, ← mul_assoc] at e2
          omega
        · rw [← k] at heq
          have e1 : ((c : ℚ) + 1) = c' := mul_right_cancel₀ hp.ne' heq
          have e2 : c + 1 = c' := by exact_mod_cast e1
          omega
        · rw [zpow_split k.le, ← mul_assoc] at heq
          have e1 : ((c : ℚ) + 1) * ((2 ^ (q - q').toNat : Nat) : ℚ) = c' :=
            mul_right_cancel₀ (two_zpow_pos q').ne' heq
          have e2 : (c + 1) * 2 ^ (q - q').toNat = c' := by exact_mod_cast e1
          obtain ⟨j, hj⟩ : ∃ j, (q - q').toNat = j + 1 := ⟨(q - q').toNat - 1, by omega⟩
          have hbig : 2 ^ 52 ≤ c := by
            rcases h.normal with k2 | k2
            · have := h'.min; omega
            · exact k2
          have := h'.lt
          have : (c + 1) * 2 ≤ (c + 1) * 2 ^ (q - q').toNat := by
            apply Nat.mul_le_mul_left
            rw [hj, pow_succ]
            have : 0 < 2 ^ j := by positivity
            omega
          omega

/-- At most one decimal stands for a double. -/
theorem JavaDecimal.unique {bits : BitVec 64} (hf : finite bits) (h0 : magnitude bits ≠ 0) {d d' : ℚ}
    (h : JavaDecimal bits d) (h' : JavaDecimal bits d') : d = d' := by
  have can := (double_canonical hf h0).1
  have e : ∀ x, RoundsTo (magnitude bits) (doubleC bits % 2 = 0) x ↔ _ := roundsTo_iff can
  exact Chosen.unique (Chosen.congr e h) (Chosen.congr e h')

end FastPrintf.Spec
