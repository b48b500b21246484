/-
C87: the helpers of `MathUtils` do what their comments say, on the whole ranges given there, and no further.
-/
import Verif.Spec.Helpers
import Verif.Proofs.Logs

namespace FastPrintf
open Spec MathUtils

/-- The quotient without wrapping. -/
theorem flog10pow2_eq {e : Int} (h1 : -7000000 ≤ e) (h2 : e ≤ 7000000) :
    flog10pow2 e = e * 661971961083 / 2 ^ 41 := by
  unfold flog10pow2 C_10 Q_10 wrap32 wrap64
  rw [Int.bmod_eq_of_le (n := e * 661971961083) (by omega) (by omega), Int.bmod_eq_of_le (by omega) (by omega)]

theorem flog10three_eq {e : Int} (h1 : -7000000 ≤ e) (h2 : e ≤ 7000000) :
    flog10threeQuartersPow2 e = (e * 661971961083 + -274743187321) / 2 ^ 41 := by
  unfold flog10threeQuartersPow2 C_10 A_10 Q_10 wrap32 wrap64
  rw [Int.bmod_eq_of_le (n := e * 661971961083) (by omega) (by omega),
    Int.bmod_eq_of_le (n := e * 661971961083 + -274743187321) (by omega) (by omega),
    Int.bmod_eq_of_le (by omega) (by omega)]

theorem flog2pow10_eq {e : Int} (h1 : -7000000 ≤ e) (h2 : e ≤ 7000000) :
    flog2pow10 e = e * 913124641741 / 2 ^ 38 := by
  unfold flog2pow10 C_2 Q_2 wrap32 wrap64
  rw [Int.bmod_eq_of_le (n := e * 913124641741) (by omega) (by omega), Int.bmod_eq_of_le (by omega) (by omega)]

theorem floorLog_real {b x : ℚ} {k : Int} (h1 : (b : ℝ) ^ k ≤ x) (h2 : ¬ (b : ℝ) ^ (k + 1) ≤ x) : FloorLog b x k := by
  rw [not_le] at h2
  exact ⟨by exact_mod_cast h1, by exact_mod_cast h2⟩

/-- **C87 (`flog10pow2`).** For `|e| ≤ 6432162` the result is the floor of `log10 2^e`. -/
theorem C87_flog10pow2 (e : Int) (h1 : -6432162 ≤ e) (h2 : e ≤ 6432162) : FloorLog 10 (2 ^ e) (flog10pow2 e) := by
  rw [flog10pow2_eq (by omega) (by omega)]
  refine floorLog_real ?_ ?_
  · push_cast
    exact Logs.ten_le_two.mpr (Logs.below_two h1 h2 (by omega))
  · push_cast
    exact mt Logs.ten_le_two.mp (not_le.mpr (Logs.above_two h1 h2 (by omega)))

/-- **C87 (`flog10threeQuartersPow2`).** From -3606689 to 3150619 it is the floor of `log10 (3/4 * 2^e)`. -/
theorem C87_flog10threeQuartersPow2 (e : Int) (h1 : -3606689 ≤ e) (h2 : e ≤ 3150619) :
    FloorLog 10 (3 / 4 * 2 ^ e) (flog10threeQuartersPow2 e) := by
  rw [flog10three_eq (by omega) (by omega)]
  refine floorLog_real ?_ ?_
  · push_cast
    exact Logs.ten_le_three.mpr (Logs.below_three h1 h2 (by omega))
  · push_cast
    exact mt Logs.ten_le_three.mp (not_le.mpr (Logs.above_three h1 h2 (by omega)))

/-- **C87 (`flog2pow10`).** For `|e| ≤ 1838394` it is the floor of `log2 10^e`. -/
theorem C87_flog2pow10 (e : Int) (h1 : -1838394 ≤ e) (h2 : e ≤ 1838394) : FloorLog 2 (10 ^ e) (flog2pow10 e) := by
  rw [flog2pow10_eq (by omega) (by omega)]
  refine floorLog_real ?_ ?_
  · push_cast
    exact Logs.two_le_ten.mpr (Logs.below_ten h1 h2 (by omega))
  · push_cast
    exact mt Logs.two_le_ten.mp (not_le.mpr (Logs.above_ten h1 h2 (by omega)))

/-- Too low: `b^(k+1)` is reached. -/
theorem not_floorLog_high {a b c m n : ℕ} {k : Int} (hk : k + 1 = n) (h : 4 * b ^ n ≤ c * a ^ m) :
    ¬ FloorLog b (c / 4 * a ^ (m : Int)) k := by
  intro ⟨_, h2⟩
  rw [hk, zpow_natCast, zpow_natCast] at h2
  have : (4 : ℚ) * b ^ n ≤ c * a ^ m := by exact_mod_cast h
  linarith

/-- Too high: `b^k` is not reached. -/
theorem not_floorLog_low {a b c m n : ℕ} {k : Int} (ha : 0 < a) (hb : 0 < b) (hk : k = -(n : Int))
    (h : c * b ^ n < 4 * a ^ m) : ¬ FloorLog b (c / 4 * a ^ (-(m : Int))) k := by
  intro ⟨h1, _⟩
  have h' : (c : ℚ) * b ^ n < 4 * a ^ m := by exact_mod_cast h
  rw [hk, zpow_neg, zpow_natCast, zpow_neg, zpow_natCast] at h1
  have h3 : 0 < (b : ℚ) ^ n := by positivity
  have h4 : 0 < (a : ℚ) ^ m := by positivity
  field_simp at h1
  linarith

/-- **C87 (limits).** The ranges cannot be extended: at the next exponents the results are wrong. -/
theorem C87_limits :
    ¬ FloorLog 10 (2 ^ (6432163 : Int)) (flog10pow2 6432163) ∧
    ¬ FloorLog 10 (2 ^ (-6432163 : Int)) (flog10pow2 (-6432163)) ∧
    ¬ FloorLog 10 (3 / 4 * 2 ^ (3150620 : Int)) (flog10threeQuartersPow2 3150620) ∧
    ¬ FloorLog 10 (3 / 4 * 2 ^ (-3606690 : Int)) (flog10threeQuartersPow2 (-3606690)) ∧
    ¬ FloorLog 2 (10 ^ (1838395 : Int)) (flog2pow10 1838395) ∧
    ¬ FloorLog 2 (10 ^ (-1838395 : Int)) (flog2pow10 (-1838395)) := by
  refine ⟨?_, ?_, ?_, ?_, ?_, ?_⟩
  · have := not_floorLog_high (a := 2) (b := 10) (c := 4) (m := 6432163) (n := 1936274) (k := flog10pow2 6432163)
      (by decide +kernel) (by decide +kernel)
    rwa [show ((4 : ℕ) : ℚ) / 4 = 1 by norm_num, one_mul] at this
  · have := not_floorLog_low (a := 2) (b := 10) (c := 4) (m := 6432163) (n := 1936274) (k := flog10pow2 (-6432163))
      (by norm_num) (by norm_num) (by decide +kernel) (by decide +kernel)
    rwa [show ((4 : ℕ) : ℚ) / 4 = 1 by norm_num, one_mul] at this
  · exact not_floorLog_high (a := 2) (b := 10) (c := 3) (m := 3150620) (n := 948431)
      (k := flog10threeQuartersPow2 3150620) (by decide +kernel) (by decide +kernel)
  · exact not_floorLog_low (a := 2) (b := 10) (c := 3) (m := 3606690) (n := 1085722)
      (k := flog10threeQuartersPow2 (-3606690)) (by norm_num) (by norm_num) (by decide +kernel) (by decide +kernel)
  · have := not_floorLog_high (a := 10) (b := 2) (c := 4) (m := 1838395) (n := 6107016) (k := flog2pow10 1838395)
      (by decide +kernel) (by decide +kernel)
    rwa [show ((4 : ℕ) : ℚ) / 4 = 1 by norm_num, one_mul] at this
  · have := not_floorLog_low (a := 10) (b := 2) (c := 4) (m := 1838395) (n := 6107016) (k := flog2pow10 (-1838395))
      (by norm_num) (by norm_num) (by decide +kernel) (by decide +kernel)
    rwa [show ((4 : ℕ) : ℚ) / 4 = 1 by norm_num, one_mul] at this

/-- The natural-number form of `TenPower`, for the check of the table. -/
def tenPowerOK (i : Nat) : Bool :=
  let k : Int := i - 324
  let r : Int := flog2pow10 (-k) - 125
  let a := 10 ^ (-k).toNat * 2 ^ (-r).toNat
  let b := 10 ^ k.toNat * 2 ^ r.toNat
  match gTable[i]? with
  | some g => decide (g.1 < 2 ^ 63) && decide (g.2 < 2 ^ 63) && (g.1 * 2 ^ 63 + g.2 == a / b + 1)
  | none => false

theorem gTable_ok : ∀ i < 617, tenPowerOK i = true := by decide +kernel

theorem zpow_split (x : ℚ) (j : Int) : x ^ j = x ^ j.toNat / x ^ (-j).toNat := by
  rcases le_total 0 j with h | h
  · obtain ⟨n, rfl⟩ := Int.eq_ofNat_of_zero_le h
    simp
  · obtain ⟨n, hn⟩ := Int.eq_ofNat_of_zero_le (by omega : 0 ≤ -j)
    obtain rfl : j = -(n : Int) := by omega
    simp

/-- **C87 (`g1`, `g0`).** For every exponent from `K_MIN` to `K_MAX` the two halves of the table entry make up the
number for that power of ten. -/
theorem C87_g (k : Int) (h1 : K_MIN ≤ k) (h2 : k ≤ K_MAX) :
    ∃ x y : Nat, g1 k = .ok (BitVec.ofNat 64 x) ∧ g0 k = .ok (BitVec.ofNat 64 y) ∧ x < 2 ^ 63 ∧ y < 2 ^ 63 ∧
      TenPower k (flog2pow10 (-k) - 125) (x * 2 ^ 63 + y) := by
  unfold K_MIN at h1
  unfold K_MAX at h2
  have ok := gTable_ok (k + 324).toNat (by omega)
  have hk : (((k + 324).toNat : Nat) : Int) - 324 = k := by omega
  unfold tenPowerOK at ok
  rw [hk] at ok
  dsimp only at ok
  cases he : gTable[(k + 324).toNat]? with
  | none => rw [he] at ok; exact absurd ok (by simp)
  | some g =>
    rw [he] at ok
    simp only [Bool.and_eq_true, decide_eq_true_eq, beq_iff_eq] at ok
    obtain ⟨⟨hx, hy⟩, hg⟩ := ok
    obtain ⟨i1, i2⟩ := DoubleToDecimal.gIndex_eq h1 he
    refine ⟨g.1, g.2, ?_, ?_, hx, hy, ?_⟩
    · unfold g1
      rw [if_neg (by omega), i2, he]
    · unfold g0
      rw [if_neg (by omega), i2, he]
    · obtain ⟨f1, f2⟩ := C87_flog2pow10 (-k) (by omega) (by omega)
      generalize flog2pow10 (-k) = j at *
      have p2 : (0 : ℚ) < 2 ^ (j - 125) := by positivity
      refine ⟨10 ^ (-k) / 2 ^ (j - 125), by field_simp, ?_, ?_, ?_⟩
      · rw [le_div_iff₀ p2, show (2 : ℚ) ^ 125 = 2 ^ (125 : Int) by norm_num, ← zpow_add₀ (by norm_num)]
        rwa [show 125 + (j - 125) = j by omega]
      · rw [div_lt_iff₀ p2, show (2 : ℚ) ^ 126 = 2 ^ (126 : Int) by norm_num, ← zpow_add₀ (by norm_num)]
        rwa [show 126 + (j - 125) = j + 1 by omega]
      · rw [hg, zpow_split _ (-k), zpow_split _ (j - 125), neg_neg, div_div_div_eq]
        have := Rat.floor_natCast_div_natCast (10 ^ (-k).toNat * 2 ^ (-(j - 125)).toNat)
          (10 ^ k.toNat * 2 ^ (j - 125).toNat)
        push_cast at this ⊢
        rw [this]

theorem gIndex_out {k : Int} (h1 : intMin ≤ k) (h2 : k ≤ intMax) :
    (gIndex k < 0 ∨ 617 ≤ (gIndex k).toNat / 2) ↔
      ¬ (K_MIN ≤ k ∧ k ≤ K_MAX) ∧ -2147483356 < k ∧ k < 2147483324 := by
  unfold intMin at h1
  unfold intMax at h2
  unfold gIndex wrap32 K_MIN K_MAX Int.bmod
  dsimp only
  split <;> split <;> omega

theorem g1_error {k : Int} : g1 k = .error .indexOutOfBounds ↔ gIndex k < 0 ∨ 617 ≤ (gIndex k).toNat / 2 := by
  unfold g1
  by_cases h : gIndex k < 0
  · simp [h]
  · rw [if_neg h]
    by_cases h' : 617 ≤ (gIndex k).toNat / 2
    · rw [List.getElem?_eq_none (by rw [DoubleToDecimal.gTable_length]; exact h')]
      simp [h']
    · rw [List.getElem?_eq_getElem (by rw [DoubleToDecimal.gTable_length]; omega)]
      simp [h, h']

theorem g0_error {k : Int} : g0 k = .error .indexOutOfBounds ↔ gIndex k < 0 ∨ 617 ≤ (gIndex k).toNat / 2 := by
  unfold g0
  by_cases h : gIndex k < 0
  · simp [h]
  · rw [if_neg h]
    by_cases h' : 617 ≤ (gIndex k).toNat / 2
    · rw [List.getElem?_eq_none (by rw [DoubleToDecimal.gTable_length]; exact h')]
      simp [h']
    · rw [List.getElem?_eq_getElem (by rw [DoubleToDecimal.gTable_length]; omega)]
      simp [h, h']

/-- **C87 (outside).** Outside that range the table is left, and an `ArrayIndexOutOfBoundsException` thrown, except
for some exponents at both ends of `int`, where the index wraps round. -/
theorem C87_outside (k : Int) (h1 : intMin ≤ k) (h2 : k ≤ intMax) :
    (g1 k = .error .indexOutOfBounds ↔
      ¬ (K_MIN ≤ k ∧ k ≤ K_MAX) ∧ -2147483356 < k ∧ k < 2147483324) ∧
    (g0 k = .error .indexOutOfBounds ↔
      ¬ (K_MIN ≤ k ∧ k ≤ K_MAX) ∧ -2147483356 < k ∧ k < 2147483324) := by
  exact ⟨g1_error.trans (gIndex_out h1 h2), g0_error.trans (gIndex_out h1 h2)⟩

/-- **C87 (`pow10`).** The powers of ten up to 10^17. -/
theorem C87_pow10 (e : Int) :
    (∀ n : Nat, e = n → n ≤ 17 → pow10 e = .ok (10 ^ n)) ∧ (e < 0 ∨ 17 < e → pow10 e = .error .indexOutOfBounds) := by
  constructor
  · rintro n rfl hn
    have : ∀ n : Nat, n ≤ 17 → pow10 (n : Int) = .ok (10 ^ n) := by decide +kernel
    exact this n hn
  · intro h
    unfold pow10
    split
    · rfl
    · rw [List.getElem?_eq_none (show pow10Table.length ≤ e.toNat by show 18 ≤ _; omega)]

/-- **C87 (constants).** The constants are the floors of the scaled logarithms. -/
theorem C87_constants : C_10 = ⌊Real.logb 10 2 * 2 ^ Q_10⌋ ∧ A_10 = ⌊Real.logb 10 (3 / 4) * 2 ^ Q_10⌋ ∧
    C_2 = ⌊Real.logb 2 10 * 2 ^ Q_2⌋ := by
  refine ⟨Eq.symm (Int.floor_eq_iff.mpr ⟨?_, ?_⟩), Eq.symm (Int.floor_eq_iff.mpr ⟨?_, ?_⟩),
    Eq.symm (Int.floor_eq_iff.mpr ⟨?_, ?_⟩)⟩
  · have := Logs.l3
    unfold Logs.L at this
    unfold C_10 Q_10
    push_cast
    linarith
  · have := Logs.l4
    unfold Logs.L at this
    unfold C_10 Q_10
    push_cast
    linarith
  · have := Logs.m3
    unfold Logs.M at this
    unfold A_10 Q_10
    push_cast
    linarith
  · have := Logs.m4
    unfold Logs.M at this
    unfold A_10 Q_10
    push_cast
    linarith
  · have h := Logs.l4
    have hp : 0 < Logs.L := by linarith [Logs.l1]
    rw [show Real.logb 2 10 = Logs.L⁻¹ from (Real.inv_logb 10 2).symm]
    unfold C_2 Q_2
    push_cast
    rw [inv_mul_eq_div, le_div_iff₀ hp]
    linarith
  · have h := Logs.l3
    have hp : 0 < Logs.L := by linarith [Logs.l1]
    rw [show Real.logb 2 10 = Logs.L⁻¹ from (Real.inv_logb 10 2).symm]
    unfold C_2 Q_2
    push_cast
    rw [inv_mul_eq_div, div_lt_iff₀ hp]
    linarith

/-! The smallest and the largest `double`; the ends of a range; the number for 10^0; an index that wraps round. -/

example : flog10pow2 (-1074) = -324 ∧ flog10pow2 971 = 292 ∧ flog10threeQuartersPow2 3 = 0 ∧
    flog10threeQuartersPow2 4 = 1 ∧ flog2pow10 3 = 9 ∧ flog2pow10 (-1) = -4 := by decide +kernel
example : FloorLog 10 (2 ^ (6432162 : Int)) 1936273 := by
  have := C87_flog10pow2 6432162 (by decide) (by decide)
  rwa [show flog10pow2 6432162 = 1936273 by decide +kernel] at this
example : FloorLog 10 (3 / 4 * 2 ^ (4 : Int)) 1 := by constructor <;> norm_num
example : ¬ FloorLog 10 (3 / 4 * 2 ^ (3 : Int)) 1 := fun h => absurd h.1 (by norm_num)
example : g1 0 = .ok 0x4000000000000000#64 ∧ g0 0 = .ok 1#64 := by decide +kernel
example : TenPower 0 (-125) (2 ^ 125 + 1) :=
  ⟨2 ^ 125, by norm_num, by norm_num, by norm_num, by
    rw [show (2 : ℚ) ^ 125 = ((2 ^ 125 : Int) : ℚ) by norm_num, Int.floor_intCast]
    norm_num⟩
example : g1 293 = .error .indexOutOfBounds ∧ g0 (-325) = .error .indexOutOfBounds ∧ g1 2147483324 = g1 (-324) ∧
    g1 intMin = g1 0 := by decide +kernel
example : pow10 17 = .ok 100000000000000000 ∧ pow10 18 = .error .indexOutOfBounds := by decide +kernel

end FastPrintf
