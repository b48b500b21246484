/-
The decisions of `chooseNat` are those of `Spec.Chosen`.
-/
import Verif.Proofs.Rop
import Verif.Proofs.Rounding

namespace FastPrintf.DoubleToDecimal

open MathUtils Farey Spec

section choice
variable {A B c l : Nat}

/-- Comparing `n * (A / B) / 4` with an integer. -/
theorem quarter_le (hB : 0 < B) (n d : Nat) :
    (n : ℚ) * ((A : ℚ) / B / 4) ≤ d ↔ n * A ≤ 4 * d * B := by
  have hB' : (0 : ℚ) < B := by exact_mod_cast hB
  have e : (n : ℚ) * ((A : ℚ) / B / 4) = (n * A : Nat) / (4 * B : Nat) := by
    push_cast; field_simp
  have h4 : (0 : ℚ) < (4 * B : Nat) := by exact_mod_cast (by omega : 0 < 4 * B)
  rw [e, div_le_iff₀ h4, show 4 * d * B = d * (4 * B) by ring]
  exact_mod_cast Iff.rfl

theorem quarter_lt (hB : 0 < B) (n d : Nat) :
    (n : ℚ) * ((A : ℚ) / B / 4) < d ↔ n * A < 4 * d * B := by
  have hB' : (0 : ℚ) < B := by exact_mod_cast hB
  have e : (n : ℚ) * ((A : ℚ) / B / 4) = (n * A : Nat) / (4 * B : Nat) := by
    push_cast; field_simp
  have h4 : (0 : ℚ) < (4 * B : Nat) := by exact_mod_cast (by omega : 0 < 4 * B)
  rw [e, div_lt_iff₀ h4, show 4 * d * B = d * (4 * B) by ring]
  exact_mod_cast Iff.rfl

theorem lt_quarter (hB : 0 < B) (n d : Nat) :
    (d : ℚ) < n * ((A : ℚ) / B / 4) ↔ 4 * d * B < n * A := by
  rw [← not_le, quarter_le hB, not_le]

theorem le_quarter (hB : 0 < B) (n d : Nat) :
    (d : ℚ) ≤ n * ((A : ℚ) / B / 4) ↔ 4 * d * B ≤ n * A := by
  rw [← not_lt, quarter_lt hB, not_lt]

theorem low_iff (hB : 0 < B) (d : Nat) :
    ((l : ℚ) * ((A : ℚ) / B / 4) < d ∨ (c % 2 = 0 ∧ (l : ℚ) * ((A : ℚ) / B / 4) = d)) ↔
      rod (l * A) B + c % 2 ≤ 4 * d := by
  rcases Nat.mod_two_eq_zero_or_one c with h | h
  · simp only [h, true_and, Nat.add_zero, rod_le hB (by omega : 4 * d % 2 = 0)]
    rw [← le_iff_lt_or_eq, quarter_le hB]
  · simp only [h, Nat.add_one_le_iff, rod_lt hB (by omega : 4 * d % 2 = 0), one_ne_zero, false_and, or_false]
    rw [quarter_lt hB]

theorem high_iff (hB : 0 < B) (n d : Nat) :
    ((d : ℚ) < n * ((A : ℚ) / B / 4) ∨ (c % 2 = 0 ∧ (d : ℚ) = n * ((A : ℚ) / B / 4))) ↔
      4 * d + c % 2 ≤ rod (n * A) B := by
  rcases Nat.mod_two_eq_zero_or_one c with h | h
  · simp only [h, true_and, Nat.add_zero, le_rod hB (by omega : 4 * d % 2 = 0)]
    rw [← le_iff_lt_or_eq, le_quarter hB]
  · simp only [h, Nat.add_one_le_iff, lt_rod hB (by omega : 4 * d % 2 = 0), one_ne_zero, false_and, or_false]
    rw [lt_quarter hB]

/-- **The choice is right**: between the integers around `c * A / B`. -/
theorem chooseNat_chosen (hA : 0 < A) (hB : 0 < B) (hl : l < 4 * c) (hw1 : 4 * B ≤ (4 * c + 2 - l) * A)
    (hw2 : (4 * c + 2 - l) * A < 40 * B)
    (hw3 : c % 2 = 1 → (4 * c + 2 - l) * A = 4 * B → A = B ∧ l = 4 * c - 2)
    (hsm : c * A < 100 * B → 40 * B ≤ l * A) :
    Chosen (In (c % 2 = 0) ((l : ℚ) * ((A : ℚ) / B / 4)) (((4 * c + 2 : Nat) : ℚ) * ((A : ℚ) / B / 4)))
      (((4 * c : Nat) : ℚ) * ((A : ℚ) / B / 4))
      ((chooseNat (rod (4 * c * A) B) (rod (l * A) B) (rod ((4 * c + 2) * A) B) (c % 2)).1 : ℚ) := by
  have hB' : (0 : ℚ) < B := by exact_mod_cast hB
  have hA' : (0 : ℚ) < A := by exact_mod_cast hA
  obtain ⟨β, hβ⟩ : ∃ β : ℚ, β = (A : ℚ) / B / 4 := ⟨_, rfl⟩
  have hβ0 : 0 < β := by rw [hβ]; positivity
  obtain ⟨x, hx⟩ : ∃ x : ℚ, x = ((4 * c : Nat) : ℚ) * β := ⟨_, rfl⟩
  obtain ⟨L, hL⟩ : ∃ L : ℚ, L = (l : ℚ) * β := ⟨_, rfl⟩
  obtain ⟨U, hU⟩ : ∃ U : ℚ, U = ((4 * c + 2 : Nat) : ℚ) * β := ⟨_, rfl⟩
  have hLx : L < x := by
    rw [hL, hx]; exact mul_lt_mul_of_pos_right (by exact_mod_cast hl) hβ0
  have hxU : x < U := by
    rw [hU, hx]; exact mul_lt_mul_of_pos_right (by exact_mod_cast (by omega : 4 * c < 4 * c + 2)) hβ0
  have hxin : In (c % 2 = 0) L U x := ⟨.inl hLx, .inl hxU⟩
  have hUL : U - L = ((4 * c + 2 - l : Nat) : ℚ) * β := by
    rw [hU, hL, Nat.cast_sub (by omega)]; ring
  have hw2' : U - L < 10 := by
    rw [hUL, hβ]
    have := (quarter_lt (A := A) hB (4 * c + 2 - l) 10).2 (by omega)
    exact_mod_cast this
  have hw1' : 1 ≤ U - L := by
    rw [hUL, hβ]
    have := (le_quarter (A := A) hB (4 * c + 2 - l) 1).2 (by omega)
    exact_mod_cast this
  obtain ⟨s, hs⟩ : ∃ s, s = rod (4 * c * A) B / 4 := ⟨_, rfl⟩
  have hs' : s = c * A / B := by
    rw [hs, rod_div4, show 4 * c * A = c * A * 4 by ring, Nat.mul_div_mul_right _ _ (by omega)]
  have hfl : (s : ℚ) ≤ x := by
    rw [hx, hβ, le_quarter hB, hs']
    have := Nat.div_mul_le_self (c * A) B
    calc 4 * (c * A / B) * B = 4 * (c * A / B * B) := by ring
      _ ≤ 4 * (c * A) := by omega
      _ = _ := by ring
  have hce : x < ((s + 1 : Nat) : ℚ) := by
    rw [hx, hβ, quarter_lt hB, hs']
    have := Nat.lt_mul_div_succ (c * A) hB
    calc 4 * c * A = 4 * (c * A) := by ring
      _ < 4 * (B * (c * A / B + 1)) := by omega
      _ = _ := by ring
  have hlow : ∀ d : Nat, (L < d ∨ (c % 2 = 0 ∧ L = d)) ↔ rod (l * A) B + c % 2 ≤ 4 * d := by
    intro d; rw [hL, hβ]; exact low_iff hB d
  have hhigh : ∀ d : Nat, ((d : ℚ) < U ∨ (c % 2 = 0 ∧ (d : ℚ) = U)) ↔
      4 * d + c % 2 ≤ rod ((4 * c + 2) * A) B := by
    intro d; rw [hU, hβ]; exact high_iff hB _ d
  have below : ∀ d : Nat, d ≤ s → (In (c % 2 = 0) L U d ↔ rod (l * A) B + c % 2 ≤ 4 * d) := by
    intro d hd
    rw [← hlow]
    have : (d : ℚ) ≤ s := by exact_mod_cast hd
    exact ⟨fun h => h.1, fun h => ⟨h, .inl (by linarith)⟩⟩
  have above : ∀ d : Nat, s + 1 ≤ d → (In (c % 2 = 0) L U d ↔ 4 * d + c % 2 ≤ rod ((4 * c + 2) * A) B) := by
    intro d hd
    rw [← hhigh]
    have : ((s + 1 : Nat) : ℚ) ≤ d := by exact_mod_cast hd
    exact ⟨fun h => h.2, fun h => ⟨.inl (by linarith), h⟩⟩
  have hsmall : s < 100 → 10 ≤ L := by
    intro h
    have h1 : c * A < 100 * B := by
      rw [hs'] at h
      rwa [Nat.div_lt_iff_lt_mul hB] at h
    have := (le_quarter (A := A) hB l 10).2 (by have := hsm h1; omega)
    rw [hL, hβ]; exact_mod_cast this
  have hce' : x < s + 1 := by exact_mod_cast hce
  -- one of the two integers is inside
  have some : ¬ In (c % 2 = 0) L U s → ¬ In (c % 2 = 0) L U ((s + 1 : Nat) : ℚ) → False := by
    intro h1 h2
    have n1 : ¬ (L < s ∨ (c % 2 = 0 ∧ L = s)) := fun h => h1 ⟨h, .inl (by linarith)⟩
    have n2 : ¬ (((s + 1 : Nat) : ℚ) < U ∨ (c % 2 = 0 ∧ ((s + 1 : Nat) : ℚ) = U)) :=
      fun h => h2 ⟨.inl (by linarith), h⟩
    rw [not_or] at n1 n2
    have m1 : (s : ℚ) ≤ L := not_lt.1 n1.1
    have m2 : U ≤ s + 1 := by have := not_lt.1 n2.1; push_cast at this; exact this
    have e1 : L = s := by linarith
    have hodd : c % 2 = 1 := by
      rcases Nat.mod_two_eq_zero_or_one c with h | h
      · exact absurd ⟨h, e1⟩ n1.2
      · exact h
    have hUL1 : U - L = 1 := by linarith
    have hz : (4 * c + 2 - l) * A = 4 * B := by
      apply le_antisymm _ hw1
      have := (quarter_le (A := A) hB (4 * c + 2 - l) 1).1 (by
        rw [← hβ, ← hUL, hUL1]; norm_num)
      omega
    obtain ⟨hAB, hll⟩ := hw3 hodd hz
    -- then `x` is an integer
    have hsc : s = c := by rw [hs', hAB, Nat.mul_div_cancel _ hB]
    have hβ4 : β = 1 / 4 := by rw [hβ, hAB]; field_simp
    have hlc : l + 2 = 4 * c := by omega
    have hlc' : (l : ℚ) + 2 = 4 * c := by exact_mod_cast hlc
    rw [hL, hβ4, hsc] at e1
    linarith
  obtain ⟨b1, hb1⟩ : ∃ b, b = decide (rod (l * A) B + c % 2 ≤ 4 * (10 * (s / 10))) := ⟨_, rfl⟩
  obtain ⟨b2, hb2⟩ : ∃ b, b = decide (4 * (10 * (s / 10) + 10) + c % 2 ≤ rod ((4 * c + 2) * A) B) := ⟨_, rfl⟩
  obtain ⟨b3, hb3⟩ : ∃ b, b = decide (rod (l * A) B + c % 2 ≤ 4 * s) := ⟨_, rfl⟩
  obtain ⟨b4, hb4⟩ : ∃ b, b = decide (4 * (s + 1) + c % 2 ≤ rod ((4 * c + 2) * A) B) := ⟨_, rfl⟩
  have in1 : In (c % 2 = 0) L U ((10 * (s / 10) : Nat) : ℚ) ↔ b1 = true := by
    rw [hb1, decide_eq_true_eq]; exact below _ (by omega)
  have in2 : In (c % 2 = 0) L U ((10 * (s / 10) + 10 : Nat) : ℚ) ↔ b2 = true := by
    rw [hb2, decide_eq_true_eq]; exact above _ (by omega)
  have in3 : In (c % 2 = 0) L U (s : ℚ) ↔ b3 = true := by
    rw [hb3, decide_eq_true_eq]; exact below _ (by omega)
  have in4 : In (c % 2 = 0) L U ((s + 1 : Nat) : ℚ) ↔ b4 = true := by
    rw [hb4, decide_eq_true_eq]; exact above _ (by omega)
  have notboth : ¬ (b1 = true ∧ b2 = true) := by
    rintro ⟨h1, h2⟩
    have i1 := (in1.2 h1).le
    have i2 := (in2.2 h2).le
    push_cast at i1 i2
    linarith
  unfold chooseNat
  simp only [← hs, ← hb1, ← hb2, ← hb3, ← hb4, ← hβ, ← hx, ← hL, ← hU]
  by_cases hc : 100 ≤ s ∧ b1 ≠ b2
  · rw [if_pos hc]
    refine chosen_tens hxin hfl hc.1 hw2' ?_ ?_
    · by_cases h1 : b1 = true
      · simp only [h1, if_true]; exact in1.2 h1
      · simp only [h1, Bool.false_eq_true, if_false]; exact in2.2 (by cases b1 <;> cases b2 <;> simp_all)
    · by_cases h1 : b1 = true
      · simp only [h1, if_true]; exact .inl trivial
      · simp only [h1, Bool.false_eq_true, if_false]; exact .inr ⟨trivial, by rw [in1]; exact h1⟩
  · rw [if_neg hc]
    have key : ∀ D : Nat, Nearest (In (c % 2 = 0) L U) x s D → Chosen (In (c % 2 = 0) L U) x D := by
      intro D hD
      by_cases h100 : 100 ≤ s
      · have hbb : b1 = b2 := by by_contra h; exact hc ⟨h100, h⟩
        have hb1f : b1 = false := by
          cases h : b1
          · rfl
          · exact absurd ⟨h, by rw [← hbb]; exact h⟩ notboth
        exact chosen_units hD hxin h100 (by rw [in1, hb1f]; simp) (by rw [in2, ← hbb, hb1f]; simp)
      · exact chosen_small hD (hsmall (by omega)) (by omega)
    apply key
    by_cases hb : b3 ≠ b4
    · rw [if_pos hb]
      refine ⟨hfl, hce', ?_, ?_, ?_, ?_⟩
      · by_cases h3 : b3 = true
        · simp only [h3, if_true]; exact in3.2 h3
        · simp only [h3, Bool.false_eq_true, if_false]; exact in4.2 (by cases b3 <;> cases b4 <;> simp_all)
      · intro h
        left
        rw [in4]
        by_cases h3 : b3 = true
        · intro h4; exact hb (by rw [h3, h4])
        · simp [h3] at h
      · intro h
        left
        rw [in3]
        intro h3
        simp [h3] at h
      · by_cases h3 : b3 = true <;> simp [h3]
    · rw [if_neg hb]
      have hbb : b3 = b4 := not_not.1 hb
      have h3 : b3 = true := by
        cases h : b3
        · exact (some (by rw [in3, h]; simp) (by rw [in4, ← hbb, h]; simp)).elim
        · rfl
      have c1 : rod (4 * c * A) B < 4 * s + 2 ↔ x - s < s + 1 - x := by
        rw [rod_lt hB (by omega)]
        have := quarter_lt (A := A) hB (2 * (4 * c)) (2 * s + 1)
        rw [← hβ] at this
        have e : ((2 * (4 * c) : Nat) : ℚ) * β = 2 * x := by rw [hx]; push_cast; ring
        rw [e] at this
        have e2 : 2 * (4 * c) * A < 4 * (2 * s + 1) * B ↔ 4 * c * A < (4 * s + 2) * B := by
          rw [show 2 * (4 * c) * A = 2 * (4 * c * A) by ring,
            show 4 * (2 * s + 1) * B = 2 * ((4 * s + 2) * B) by ring]; omega
        rw [← e2, ← this]
        push_cast
        constructor <;> intro h <;> linarith
      have c2 : rod (4 * c * A) B ≤ 4 * s + 2 ↔ x - s ≤ s + 1 - x := by
        rw [rod_le hB (by omega)]
        have := quarter_le (A := A) hB (2 * (4 * c)) (2 * s + 1)
        rw [← hβ] at this
        have e : ((2 * (4 * c) : Nat) : ℚ) * β = 2 * x := by rw [hx]; push_cast; ring
        rw [e] at this
        have e2 : 2 * (4 * c) * A ≤ 4 * (2 * s + 1) * B ↔ 4 * c * A ≤ (4 * s + 2) * B := by
          rw [show 2 * (4 * c) * A = 2 * (4 * c * A) by ring,
            show 4 * (2 * s + 1) * B = 2 * ((4 * s + 2) * B) by ring]; omega
        rw [← e2, ← this]
        push_cast
        constructor <;> intro h <;> linarith
      by_cases hcmp : rod (4 * c * A) B < 4 * s + 2 ∨ rod (4 * c * A) B = 4 * s + 2 ∧ s % 2 = 0
      · rw [if_pos hcmp]
        refine ⟨hfl, hce', in3.2 h3, fun _ => ?_, fun h => by omega, .inl rfl⟩
        right
        rcases hcmp with h | ⟨h, h'⟩
        · exact .inl (c1.1 h)
        · right
          have a1 : x - s ≤ s + 1 - x := c2.1 h.le
          have a2 : ¬ (x - s < s + 1 - x) := fun hh => by have := c1.2 hh; omega
          exact ⟨le_antisymm a1 (not_lt.1 a2), h'⟩
      · rw [if_neg hcmp]
        refine ⟨hfl, hce', in4.2 (by rw [← hbb]; exact h3), fun h => by omega, fun _ => ?_, .inr rfl⟩
        right
        rw [not_or, not_and] at hcmp
        rcases Nat.lt_or_ge (4 * s + 2) (rod (4 * c * A) B) with h | h
        · left
          by_contra hge
          have := c2.2 (by linarith); omega
        · right
          have h' : rod (4 * c * A) B = 4 * s + 2 := by omega
          have a1 : x - s ≤ s + 1 - x := c2.1 h
          have a2 : ¬ (x - s < s + 1 - x) := fun hh => by have := c1.2 hh; omega
          exact ⟨le_antisymm a1 (not_lt.1 a2), by have := hcmp.2 h'; omega⟩

end choice

end FastPrintf.DoubleToDecimal
