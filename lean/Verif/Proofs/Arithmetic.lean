/-
Conversion to `double`, sums and quotients, against the specification of rounding.
-/
import Verif.Spec.Readings
import Verif.Proofs.Nearest
import Verif.Proofs.Unique
import Verif.Proofs.DoubleFormat

namespace FastPrintf
open Spec

namespace Spec

theorem RoundsTo.le {x d y : ℚ} {ev : Prop} (h : RoundsTo x ev d) (hy : IsFloat y) (hyd : y ≤ d) :
    y ≤ x := by
  rcases h y hy with g | g | ⟨g, _⟩
  · exact g.le
  · rw [abs_of_nonneg (by linarith : 0 ≤ d - y)] at g
    have := abs_lt.1 g; linarith
  · rw [abs_of_nonneg (by linarith : 0 ≤ d - y)] at g
    have := abs_le.1 g.le; linarith

theorem RoundsTo.ge {x d y : ℚ} {ev : Prop} (h : RoundsTo x ev d) (hy : IsFloat y) (hyd : d ≤ y) :
    x ≤ y := by
  rcases h y hy with g | g | ⟨g, _⟩
  · exact g.ge
  · rw [abs_of_nonpos (by linarith : d - y ≤ 0)] at g
    have := abs_lt.1 g; linarith
  · rw [abs_of_nonpos (by linarith : d - y ≤ 0)] at g
    have := abs_le.1 g.le; linarith

theorem isFloat_zero : IsFloat 0 := ⟨0, 0, by norm_num, by norm_num, by norm_num⟩
theorem isFloat_one : IsFloat 1 := ⟨1, 0, by norm_num, by norm_num, by norm_num⟩
theorem isFloat_pow (k : Int) (h : -1074 ≤ k) : IsFloat (2 ^ k) := ⟨1, k, by norm_num, h, by simp⟩

theorem RoundsTo.zero {x : ℚ} {ev : Prop} (h : RoundsTo x ev 0) : x = 0 := by
  rcases h 0 isFloat_zero with g | g | ⟨g, _⟩
  · exact g.symm
  · simp only [sub_zero, abs_zero] at g; exact absurd g (not_lt.2 (abs_nonneg _))
  · simpa using g

/-- Sign and magnitude determine a finite `double`. -/
theorem bits_ext {b b' : BitVec 64} (hf : finite b) (hf' : finite b') (hs : negative b ↔ negative b')
    (hm : magnitude b = magnitude b') : b = b' := by
  have hE : expBits b < 2048 := Nat.mod_lt _ (by norm_num)
  have hE' : expBits b' < 2048 := Nat.mod_lt _ (by norm_num)
  have key : expBits b = expBits b' ∧ fracBits b = fracBits b' := by
    by_cases h0 : magnitude b = 0
    · have z : ∀ x : BitVec 64, magnitude x = 0 → expBits x = 0 ∧ fracBits x = 0 := by
        intro x hx
        unfold magnitude at hx
        rw [mul_eq_zero_iff_right (by positivity)] at hx
        have : doubleC x = 0 := by exact_mod_cast hx
        unfold doubleC at this
        split_ifs at this with g
        · exact ⟨g, this⟩
        · omega
      have a := z b h0; have a' := z b' (hm ▸ h0)
      exact ⟨by rw [a.1, a'.1], by rw [a.2, a'.2]⟩
    · have c := (double_canonical hf h0).1
      have c' := (double_canonical hf' (hm ▸ h0)).1
      have hcq : doubleC b = doubleC b' ∧ doubleQ b = doubleQ b' := by
        unfold magnitude at hm
        generalize doubleC b = x at *
        generalize doubleC b' = x' at *
        generalize doubleQ b = q at *
        generalize doubleQ b' = q' at *
        have lem : ∀ {x x' : Nat} {q q' : Int}, Canonical x q → Canonical x' q' →
            (x : ℚ) * 2 ^ q = x' * 2 ^ q' → q ≤ q' → x = x' ∧ q = q' := by
          intro x x' q q' c c' hm hle
          obtain ⟨k, rfl⟩ : ∃ k : Nat, q' = q + k := ⟨(q' - q).toNat, by omega⟩
          rw [zpow_add₀ (by norm_num), zpow_natCast, mul_left_comm, mul_comm (x : ℚ)] at hm
          have hm' : (x : ℚ) = x' * 2 ^ k := mul_left_cancel₀ (by positivity) hm
          have hm'' : x = x' * 2 ^ k := by exact_mod_cast hm'
          cases k with
          | zero => simp at hm''; exact ⟨hm'', by simp⟩
          | succ k =>
            exfalso
            have h1 := c.lt
            rcases c'.normal with g | g
            · have := c.min; omega
            · have : 2 ^ 52 * 2 ≤ x' * 2 ^ (k + 1) :=
                Nat.mul_le_mul g (by rw [pow_succ]; have := Nat.one_le_two_pow (n := k); omega)
              omega
        rcases le_total q q' with g | g
        · exact lem c c' hm g
        · have := lem c' c hm.symm g; exact ⟨this.1.symm, this.2.symm⟩
      obtain ⟨h1, h2⟩ := hcq
      have e : ∀ x : BitVec 64, expBits x = if doubleC x < 2 ^ 52 then 0 else (doubleQ x + 1075).toNat := by
        intro x
        have hT : fracBits x < 2 ^ 52 := Nat.mod_lt _ (by norm_num)
        unfold doubleC doubleQ
        by_cases g : expBits x = 0
        · rw [if_pos g, if_pos g, if_pos hT, g]
        · rw [if_neg g, if_neg g, if_neg (by omega)]; omega
      have he : expBits b = expBits b' := by rw [e, e, h1, h2]
      refine ⟨he, ?_⟩
      unfold doubleC at h1
      rw [he] at h1
      split_ifs at h1 <;> omega
  apply BitVec.eq_of_toNat_eq
  have l := b.isLt; have l' := b'.isLt
  unfold negative at hs
  unfold expBits fracBits at key
  omega

theorem NearestDouble.unique {x : ℚ} {b b' : BitVec 64} (h : NearestDouble x b) (h' : NearestDouble x b') :
    b = b' := by
  obtain ⟨f, s, r⟩ := h
  obtain ⟨f', s', r'⟩ := h'
  refine bits_ext f f' (s.trans s'.symm) ?_
  have pos : ∀ {b b' : BitVec 64}, finite b → finite b' →
      RoundsTo (magnitude b) (doubleC b % 2 = 0) |x| → RoundsTo (magnitude b') (doubleC b' % 2 = 0) |x| →
      ¬ magnitude b < magnitude b' := by
    intro b b' f f' r r' hlt
    have hb' : magnitude b' ≠ 0 := by
      have : 0 ≤ magnitude b := by unfold magnitude; positivity
      linarith
    by_cases h0 : magnitude b = 0
    · -- something between 0 and the smallest float
      have c' := (double_canonical f' hb').1
      have hmin : IsFloat (2 ^ (-1074 : Int)) := isFloat_pow _ (by norm_num)
      have hge : (2 : ℚ) ^ (-1074 : Int) ≤ magnitude b' := by
        unfold magnitude
        have h1 : (1 : ℚ) ≤ doubleC b' := by exact_mod_cast c'.pos
        have h2 : (2 : ℚ) ^ (-1074 : Int) ≤ 2 ^ doubleQ b' := zpow_le_zpow_right₀ (by norm_num) c'.min
        calc (2 : ℚ) ^ (-1074 : Int) ≤ 1 * 2 ^ doubleQ b' := by rw [one_mul]; exact h2
          _ ≤ _ := mul_le_mul_of_nonneg_right h1 (by positivity)
      have hx := abs_nonneg x
      generalize |x| = d at *
      have hp : (0 : ℚ) < 2 ^ (-1074 : Int) := by positivity
      have k1 := r _ hmin
      rw [h0] at k1
      have k2 := r' 0 isFloat_zero
      rw [sub_zero, abs_of_nonneg hx] at k1
      rw [sub_zero, abs_of_nonneg hx] at k2
      generalize hM : magnitude b' = M at *
      generalize hm : (2 : ℚ) ^ (-1074 : Int) = m at *
      -- d ≤ m / 2 from the first, so M - d ≥ m - d ≥ d
      have d1 : 2 * d ≤ m := by
        rcases k1 with g | g | ⟨g, _⟩
        · linarith
        · by_contra hc; push Not at hc
          have : |d - m| < d := abs_lt.2 ⟨by linarith, by linarith⟩
          linarith
        · by_contra hc; push Not at hc
          have : |d - m| < d := abs_lt.2 ⟨by linarith, by linarith⟩
          linarith
      have ab : |d - M| = M - d := by rw [abs_of_nonpos (by linarith)]; ring
      rw [ab] at k2
      rcases k2 with g | g | ⟨g, ev⟩
      · linarith
      · linarith
      · have hMm : M = m := by linarith
        -- the smallest float is odd
        have : doubleC b' = 1 := by
          have hq : doubleQ b' = -1074 := by
            rcases c'.normal with g' | g'
            · exact g'
            · exfalso
              have h2 : (2 : ℚ) ^ (-1074 : Int) ≤ 2 ^ doubleQ b' := zpow_le_zpow_right₀ (by norm_num) c'.min
              have h3 : (2 ^ 52 : ℚ) ≤ doubleC b' := by exact_mod_cast g'
              have h4 : (2 : ℚ) ^ 52 * 2 ^ (-1074 : Int) ≤ M := by
                rw [← hM]; unfold magnitude
                exact mul_le_mul h3 h2 (by positivity) (by positivity)
              rw [hm] at h4
              linarith
          have h5 : (doubleC b' : ℚ) * 2 ^ (-1074 : Int) = 1 * 2 ^ (-1074 : Int) := by
            have h6 : (doubleC b' : ℚ) * 2 ^ (-1074 : Int) = M := by
              rw [← hM]; unfold magnitude; rw [hq]
            rw [h6, one_mul, hm, hMm]
          have := mul_right_cancel₀ (by positivity) h5
          exact_mod_cast this
        omega
    · exact roundsTo_disjoint (double_canonical f h0).1 (double_canonical f' hb').1 hlt r r'
  rcases lt_trichotomy (magnitude b) (magnitude b') with g | g | g
  · exact (pos f f' r r' g).elim
  · exact g
  · exact (pos f' f r' r g).elim

end Spec

namespace JavaDouble

theorem nearest_lt (num den : Nat) : nearest num den < 2 ^ 63 := by
  unfold nearest
  dsimp only
  generalize (_ * 2 ^ 52 + roundHalfEven _ _ : Nat) = n
  omega

theorem ofRatio_nearest {num : Int} {den : Nat} (hd : 0 < den)
    (hlow : num ≠ 0 → (2 : ℚ) ^ (-1022 : Int) ≤ |(num : ℚ) / den|)
    (hhigh : |(num : ℚ) / den| < (2 : ℚ) ^ (1022 : Int)) : NearestDouble ((num : ℚ) / den) (ofRatio num den) := by
  by_cases h0 : num = 0
  · subst h0
    have e1 : magnitude 0#64 = 0 := by simp [magnitude, doubleC, expBits, fracBits]
    have e2 : ofRatio 0 den = 0#64 := by simp [ofRatio]
    rw [e2]
    refine ⟨by unfold finite; decide, ?_, ?_⟩
    · simp [negative]
    · intro y hy
      rw [e1]
      simp only [Int.cast_zero, zero_div, abs_zero, sub_zero, zero_sub, abs_neg]
      by_cases hy0 : y = 0
      · exact .inl hy0
      · exact .inr (.inl (abs_pos.2 hy0))
  · have hdq : (0 : ℚ) < den := by exact_mod_cast hd
    have habs : |(num : ℚ) / den| = (num.natAbs : ℚ) / den := by
      rw [abs_div, abs_of_pos hdq, Nat.cast_natAbs, Int.cast_abs]
    rw [habs] at hlow hhigh
    have hn : 0 < num.natAbs := by omega
    obtain ⟨x1, x2⟩ := floorLog2_spec hn hd
    have hl : -1022 ≤ floorLog2 num.natAbs den := by
      have := (zpow_lt_zpow_iff_right₀ (by norm_num : (1 : ℚ) < 2)).1 ((hlow h0).trans_lt x2)
      omega
    have hh : floorLog2 num.natAbs den ≤ 1022 :=
      ((zpow_lt_zpow_iff_right₀ (by norm_num : (1 : ℚ) < 2)).1 (x1.trans_lt hhigh)).le
    have hlt := nearest_lt num.natAbs den
    have hb : (ofRatio num den).toNat = (if num < 0 then 1 else 0) * 2 ^ 63 + nearest num.natAbs den := by
      unfold ofRatio
      rw [if_neg h0, BitVec.toNat_ofNat]
      split_ifs <;> rw [Nat.mod_eq_of_lt (by omega)] <;> omega
    obtain ⟨f, _, r⟩ := nearest_spec hn hd hl hh hb
    refine ⟨f, ?_, by rw [habs]; exact r⟩
    unfold negative
    rw [hb, div_lt_iff₀ hdq, zero_mul]
    have : ((num : ℚ) < 0) ↔ num < 0 := by exact_mod_cast Iff.rfl
    rw [this]
    split_ifs with g
    · simp [g]
    · simp [g]; omega

theorem one_le_abs_int {v : Int} (h : v ≠ 0) : (1 : ℚ) ≤ |(v : ℚ)| := by
  have : (1 : Int) ≤ |v| := Int.one_le_abs h
  exact_mod_cast this

theorem ofInt_nearest {v : Int} (h : |v| ≤ 2 ^ 63) : NearestDouble v (ofInt v) := by
  have hv : |(v : ℚ)| ≤ 2 ^ 63 := by exact_mod_cast h
  have := ofRatio_nearest (num := v) (den := 1) (by norm_num)
    (by
      intro h0
      rw [Nat.cast_one, div_one]
      refine le_trans ?_ (one_le_abs_int h0)
      exact zpow_le_one_of_nonpos₀ (by norm_num) (by norm_num))
    (by
      rw [Nat.cast_one, div_one]
      refine hv.trans_lt ?_
      rw [← zpow_natCast]
      exact zpow_lt_zpow_right₀ (by norm_num) (by norm_num))
  rwa [Nat.cast_one, div_one] at this

theorem magnitude_nonneg (bits : BitVec 64) : 0 ≤ magnitude bits := by unfold magnitude; positivity

theorem abs_doubleValue (bits : BitVec 64) : |doubleValue bits| = magnitude bits := by
  unfold doubleValue signed
  split_ifs
  · rw [abs_neg, abs_of_nonneg (magnitude_nonneg bits)]
  · rw [abs_of_nonneg (magnitude_nonneg bits)]

theorem scaled_eq (bits : BitVec 64) : (scaled bits : ℚ) = doubleValue bits * 2 ^ 1074 := by
  have hq : -1074 ≤ doubleQ bits := by
    unfold doubleQ; split_ifs <;> omega
  have hm : ((doubleC bits * 2 ^ (doubleQ bits + 1074).toNat : Nat) : ℚ) = magnitude bits * 2 ^ 1074 := by
    unfold magnitude
    rw [Nat.cast_mul, Nat.cast_pow, mul_assoc, ← zpow_natCast, ← zpow_natCast (2 : ℚ) 1074,
      ← zpow_add₀ (by norm_num)]
    congr 2
    omega
  unfold scaled doubleValue signed
  have e1 : significand bits = doubleC bits := rfl
  have e2 : exponent bits = doubleQ bits := rfl
  have e3 : signBit bits = decide (negative bits) := rfl
  rw [e1, e2, e3]
  dsimp only
  by_cases hn : negative bits
  · rw [if_pos (by simp [hn]), if_pos (by simp [hn]), Int.cast_neg, Int.cast_natCast, hm,
      neg_mul]
  · rw [if_neg (by simp [hn]), if_neg (by simp [hn]), Int.cast_natCast, hm]

/-- The quotient of a `double` by a positive integer, when neither too small nor too large. -/
theorem divNat_nearest {a : BitVec 64} {n : Nat} (hn : 0 < n)
    (hlow : doubleValue a ≠ 0 → (2 : ℚ) ^ (-1022 : Int) ≤ |doubleValue a / n|)
    (hhigh : |doubleValue a / n| < (2 : ℚ) ^ (1022 : Int)) :
    NearestDouble (doubleValue a / n) (divNat a n) := by
  have e : (scaled a : ℚ) / ((2 ^ 1074 * n : Nat) : ℚ) = doubleValue a / n := by
    rw [scaled_eq, Nat.cast_mul, Nat.cast_pow, Nat.cast_ofNat, mul_comm (doubleValue a)]
    exact mul_div_mul_left _ _ (by positivity)
  have := ofRatio_nearest (num := scaled a) (den := 2 ^ 1074 * n) (by positivity)
    (by
      rw [e]
      intro h; refine hlow (fun h' => h ?_)
      have h2 := scaled_eq a
      rw [h', zero_mul] at h2
      exact_mod_cast h2)
    (by rw [e]; exact hhigh)
  rwa [e] at this

theorem add_nearest {a b : BitVec 64}
    (hlow : doubleValue a + doubleValue b ≠ 0 →
      (2 : ℚ) ^ (-1022 : Int) ≤ |doubleValue a + doubleValue b|)
    (hhigh : |doubleValue a + doubleValue b| < (2 : ℚ) ^ (1022 : Int)) :
    NearestDouble (doubleValue a + doubleValue b) (add a b) := by
  have e : ((scaled a + scaled b : Int) : ℚ) / ((2 ^ 1074 : Nat) : ℚ) = doubleValue a + doubleValue b := by
    rw [Int.cast_add, scaled_eq, scaled_eq, Nat.cast_pow, Nat.cast_ofNat, ← add_mul]
    exact mul_div_cancel_right₀ _ (by positivity)
  have := ofRatio_nearest (num := scaled a + scaled b) (den := 2 ^ 1074) (by positivity)
    (by
      rw [e]
      intro h; refine hlow (fun h' => h ?_)
      rw [h', div_eq_zero_iff] at e
      rcases e with e | e
      · exact_mod_cast e
      · exact absurd e (by positivity))
    (by rw [e]; exact hhigh)
  rwa [e] at this

end JavaDouble
end FastPrintf
