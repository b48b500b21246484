/-
The decimals that round to a given binary64 form an interval.
-/
import Verif.Proofs.Shortest

namespace FastPrintf.Spec

/-- `c * 2^q` is the canonical form of a nonzero magnitude. -/
structure Canonical (c : Nat) (q : Int) : Prop where
  pos : 0 < c
  lt : c < 2 ^ 53
  min : -1074 ≤ q
  normal : q = -1074 ∨ 2 ^ 52 ≤ c

/-- Half the distance to the next smaller magnitude, in quarters of `2^q`: 2, but 1 at the lower end of
a binade. -/
def lowQuarters (c : Nat) (q : Int) : Nat := if c = 2 ^ 52 ∧ q ≠ -1074 then 1 else 2

theorem two_zpow_pos (q : Int) : (0 : ℚ) < 2 ^ q := by positivity

theorem zpow_split {q q' : Int} (h : q ≤ q') : (2 : ℚ) ^ q' = ((2 ^ (q' - q).toNat : Nat) : ℚ) * 2 ^ q := by
  have e : q' = ((q' - q).toNat : Int) + q := by omega
  conv_lhs => rw [e, zpow_add₀ (by norm_num), zpow_natCast]
  rw [Nat.cast_pow]; rfl

/-- The neighbours: every other magnitude is at least this far away. -/
theorem gap {c : Nat} {q : Int} (h : Canonical c q) {y : ℚ} (hy : IsFloat y) (hne : y ≠ c * 2 ^ q) :
    (c + 1) * 2 ^ q ≤ y ∨ y ≤ (c - lowQuarters c q / 2) * 2 ^ q := by
  obtain ⟨c', q', h1, h2, rfl⟩ := hy
  have hp := two_zpow_pos q
  have hlow : ((lowQuarters c q : Nat) : ℚ) ≤ 2 := by
    unfold lowQuarters; split_ifs <;> norm_num
  rcases le_or_gt q q' with hq | hq
  · rw [zpow_split hq, ← mul_assoc]
    rw [zpow_split hq, ← mul_assoc] at hne
    rcases Nat.lt_trichotomy (c' * 2 ^ (q' - q).toNat) c with hlt | heq | hgt
    · right
      have : ((c' * 2 ^ (q' - q).toNat : Nat) : ℚ) + 1 ≤ c := by exact_mod_cast hlt
      push_cast at this ⊢
      refine mul_le_mul_of_nonneg_right ?_ hp.le
      linarith
    · exfalso; apply hne
      rw [← heq]; push_cast; ring
    · left
      have : (c : ℚ) + 1 ≤ ((c' * 2 ^ (q' - q).toNat : Nat) : ℚ) := by exact_mod_cast hgt
      push_cast at this ⊢
      exact mul_le_mul_of_nonneg_right this hp.le
  · right
    have hc : 2 ^ 52 ≤ c := by
      rcases h.normal with hn | hn
      · exfalso; have := h.min; omega
      · exact hn
    have hs : (2 : ℚ) ^ (q - 1) = 2 ^ q / 2 := by rw [zpow_sub₀ (by norm_num)]; norm_num
    have hq' : (2 : ℚ) ^ q' ≤ 2 ^ q / 2 := by
      rw [← hs]; exact zpow_le_zpow_right₀ (by norm_num) (by omega)
    have hc' : (c' : ℚ) ≤ 2 ^ 53 - 1 := by
      have : ((c' + 1 : Nat) : ℚ) ≤ ((2 ^ 53 : Nat) : ℚ) := by exact_mod_cast h1
      push_cast at this; linarith
    have hp' := two_zpow_pos q'
    have key : (c' : ℚ) * 2 ^ q' ≤ (2 ^ 53 - 1) * (2 ^ q / 2) := by
      apply mul_le_mul hc' hq' hp'.le; norm_num
    refine key.trans ?_
    unfold lowQuarters
    split_ifs with hir
    · rw [hir.1]; push_cast; linarith
    · have : 2 ^ 52 + 1 ≤ c := by
        have : c ≠ 2 ^ 52 := fun e => hir ⟨e, by omega⟩
        omega
      have : ((2 ^ 52 + 1 : Nat) : ℚ) ≤ c := by exact_mod_cast this
      push_cast at this ⊢
      have : ((2 : ℚ) ^ 52 + 1 - 1) * 2 ^ q ≤ (c - 2 / 2) * 2 ^ q := by
        apply mul_le_mul_of_nonneg_right _ hp.le; linarith
      linarith

theorem above_isFloat {c : Nat} {q : Int} (h : Canonical c q) : IsFloat ((c + 1) * 2 ^ q) := by
  rcases Nat.lt_or_ge (c + 1) (2 ^ 53) with hlt | hge
  · exact ⟨c + 1, q, hlt, h.min, by push_cast; ring⟩
  · have : c + 1 = 2 ^ 53 := by have := h.lt; omega
    refine ⟨2 ^ 52, q + 1, by norm_num, by have := h.min; omega, ?_⟩
    rw [zpow_add₀ (by norm_num)]
    have : (c : ℚ) + 1 = 2 ^ 53 := by exact_mod_cast this
    rw [this]; push_cast; ring

theorem below_isFloat {c : Nat} {q : Int} (h : Canonical c q) :
    IsFloat ((c - lowQuarters c q / 2) * 2 ^ q) := by
  unfold lowQuarters
  split_ifs with hir
  · refine ⟨2 ^ 53 - 1, q - 1, by norm_num, by have := h.min; omega, ?_⟩
    rw [zpow_sub₀ (by norm_num), hir.1]
    push_cast
    ring
  · refine ⟨c - 1, q, by have := h.lt; omega, h.min, ?_⟩
    rw [Nat.cast_sub h.pos]
    push_cast; ring

/-- The decimals that round to `c * 2^q`. -/
theorem roundsTo_iff {c : Nat} {q : Int} (h : Canonical c q) (d : ℚ) :
    RoundsTo (c * 2 ^ q) (c % 2 = 0) d ↔
      In (c % 2 = 0) ((4 * c - lowQuarters c q) * (2 ^ q / 4)) ((4 * c + 2) * (2 ^ q / 4)) d := by
  have hp := two_zpow_pos q
  have hl1 : (1 : ℚ) ≤ ((lowQuarters c q : Nat) : ℚ) := by
    unfold lowQuarters; split_ifs <;> norm_num
  generalize hw : (2 : ℚ) ^ q = w at *
  generalize hlq : ((lowQuarters c q : Nat) : ℚ) = l at *
  constructor
  · intro hR
    have ha := hR _ (hw ▸ above_isFloat h)
    have hb := hR _ (hw ▸ hlq ▸ below_isFloat h)
    have hlw : 0 < l * w := by positivity
    refine ⟨?_, ?_⟩
    · rcases hb with hb | hb | ⟨hb, he⟩
      · exfalso; nlinarith
      · left
        rcases abs_cases (d - c * w) with ⟨e1, e2⟩ | ⟨e1, e2⟩ <;>
          rcases abs_cases (d - (c - l / 2) * w) with ⟨e3, e4⟩ | ⟨e3, e4⟩ <;> nlinarith
      · rcases abs_cases (d - c * w) with ⟨e1, e2⟩ | ⟨e1, e2⟩ <;>
          rcases abs_cases (d - (c - l / 2) * w) with ⟨e3, e4⟩ | ⟨e3, e4⟩
        · exfalso; nlinarith
        · left; nlinarith
        · right; exact ⟨he, by nlinarith⟩
        · exfalso; nlinarith
    · rcases ha with ha | ha | ⟨ha, he⟩
      · exfalso; nlinarith
      · left
        rcases abs_cases (d - c * w) with ⟨e1, e2⟩ | ⟨e1, e2⟩ <;>
          rcases abs_cases (d - (c + 1) * w) with ⟨e3, e4⟩ | ⟨e3, e4⟩ <;> nlinarith
      · rcases abs_cases (d - c * w) with ⟨e1, e2⟩ | ⟨e1, e2⟩ <;>
          rcases abs_cases (d - (c + 1) * w) with ⟨e3, e4⟩ | ⟨e3, e4⟩
        · exfalso; nlinarith
        · right; exact ⟨he, by nlinarith⟩
        · left; nlinarith
        · exfalso; nlinarith
  · rintro ⟨h1, h2⟩ y hy
    by_cases hne : y = c * w
    · exact .inl hne
    right
    have hlw : 0 < l * w := by positivity
    have hg := gap h hy (hw ▸ hne)
    rw [hw, hlq] at hg
    rcases hg with hg | hg
    · rcases h2 with h2 | ⟨he, h2⟩
      · left
        rcases abs_cases (d - c * w) with ⟨e1, e2⟩ | ⟨e1, e2⟩ <;>
          rcases abs_cases (d - y) with ⟨e3, e4⟩ | ⟨e3, e4⟩ <;> nlinarith
      · have : d - c * w = w / 2 := by rw [h2]; ring
        rw [abs_of_nonneg (by linarith : 0 ≤ d - c * w), abs_of_nonpos (by linarith : d - y ≤ 0)]
        rcases lt_or_eq_of_le hg with hlt | heq
        · left; linarith
        · right; exact ⟨by linarith, he⟩
    · rcases h1 with h1 | ⟨he, h1⟩
      · left
        rcases abs_cases (d - c * w) with ⟨e1, e2⟩ | ⟨e1, e2⟩ <;>
          rcases abs_cases (d - y) with ⟨e3, e4⟩ | ⟨e3, e4⟩ <;> nlinarith
      · have : d - c * w = - (l * w / 4) := by rw [← h1]; ring
        have hy' : y ≤ c * w - l * w / 2 := by linarith
        rw [abs_of_nonpos (by linarith : d - c * w ≤ 0), abs_of_nonneg (by linarith : 0 ≤ d - y)]
        rcases lt_or_eq_of_le hy' with hlt | heq
        · left; linarith
        · right; exact ⟨by linarith, he⟩

/-- Every finite nonzero binary64 is in canonical form. -/
theorem double_canonical {bits : BitVec 64} (hf : finite bits) (h0 : magnitude bits ≠ 0) :
    Canonical (doubleC bits) (doubleQ bits) ∧ doubleQ bits ≤ 971 := by
  have hE : expBits bits < 2048 := Nat.mod_lt _ (by norm_num)
  have hT : fracBits bits < 2 ^ 52 := Nat.mod_lt _ (by norm_num)
  have hc : doubleC bits ≠ 0 := fun h => h0 (by simp [magnitude, h])
  unfold finite at hf
  refine ⟨⟨by omega, ?_, ?_, ?_⟩, ?_⟩
  · unfold doubleC; split_ifs <;> omega
  · unfold doubleQ; split_ifs <;> omega
  · unfold doubleQ doubleC; split_ifs <;> omega
  · unfold doubleQ; split_ifs <;> omega

theorem Chosen.congr {R R' : ℚ → Prop} (h : ∀ e, R e ↔ R' e) {x d : ℚ} (hc : Chosen R x d) :
    Chosen R' x d := by
  have : R = R' := funext fun e => propext (h e)
  rwa [← this]

end FastPrintf.Spec
