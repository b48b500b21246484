/-
Choosing the decimal for a binary64, as arithmetic on rationals: the decision procedure of Schubfach
yields the decimal prescribed by `Spec.Chosen`.
-/
import Verif.Spec.Double
import Mathlib.Tactic.Linarith
import Mathlib.Tactic.Ring
import Mathlib.Tactic.FieldSimp
import Mathlib.Tactic.Positivity
import Mathlib.Tactic.NormNum
import Mathlib.Tactic.Zify
import Mathlib.Data.Nat.Log

namespace FastPrintf.Spec

theorem HasLength.succ {n : Nat} (hn : 1 ≤ n) {d : ℚ} (h : HasLength n d) : HasLength (n + 1) d := by
  obtain ⟨s, i, h1, h2, h3⟩ := h
  obtain ⟨n, rfl⟩ : ∃ k, n = k + 1 := ⟨n - 1, by omega⟩
  refine ⟨s * 10, i - 1, ?_, ?_, ?_⟩
  · simp only [Nat.add_sub_cancel] at h1 ⊢
    rw [pow_succ]; omega
  · rw [pow_succ]; omega
  · rw [h3, zpow_sub₀ (by norm_num)]
    push_cast
    field_simp

theorem HasLength.mono {n m : Nat} (hn : 1 ≤ n) (hm : n ≤ m) {d : ℚ} (h : HasLength n d) :
    HasLength m d := by
  induction m, hm using Nat.le_induction with
  | base => exact h
  | succ k hk ih => exact ih.succ (by omega)

theorem HasLength.scale {n : Nat} {d : ℚ} (h : HasLength n d) (k : Int) : HasLength n (d * 10 ^ k) := by
  obtain ⟨s, i, h1, h2, h3⟩ := h
  exact ⟨s, i + k, h1, h2, by rw [h3, zpow_add₀ (by norm_num)]; ring⟩

theorem HasEvenLength.scale {n : Nat} {d : ℚ} (h : HasEvenLength n d) (k : Int) :
    HasEvenLength n (d * 10 ^ k) := by
  obtain ⟨s, i, h1, h2, h3, h4⟩ := h
  exact ⟨s, i + k, h1, h2, h3, by rw [h4, zpow_add₀ (by norm_num)]; ring⟩

theorem HasLength.of_scale {n : Nat} {d : ℚ} {k : Int} (h : HasLength n (d * 10 ^ k)) :
    HasLength n d := by
  have := h.scale (-k)
  rwa [mul_assoc, ← zpow_add₀ (by norm_num), add_neg_cancel, zpow_zero, mul_one] at this

/-- The choice does not depend on the unit. -/
theorem Chosen.scale {R : ℚ → Prop} {x d : ℚ} (k : Int)
    (h : Chosen (fun e => R (e * 10 ^ k)) x d) : Chosen R (x * 10 ^ k) (d * 10 ^ k) := by
  have hk : (0 : ℚ) < 10 ^ k := by positivity
  have back : ∀ e : ℚ, e * 10 ^ (-k) * 10 ^ k = e := fun e => by
    rw [mul_assoc, ← zpow_add₀ (by norm_num), neg_add_cancel, zpow_zero, mul_one]
  have habs : ∀ a b : ℚ, |a * 10 ^ k - b * 10 ^ k| = |a - b| * 10 ^ k := fun a b => by
    rw [← sub_mul, abs_mul, abs_of_pos hk]
  obtain ⟨m, ⟨⟨hm1, d', hd', hl'⟩, hmin⟩, hR, hl, hc⟩ := h
  refine ⟨m, ⟨⟨hm1, _, hd', hl'.scale k⟩, ?_⟩, hR, hl.scale k, ?_⟩
  · rintro m' ⟨h1, e, he, hle⟩
    refine hmin ⟨h1, e * 10 ^ (-k), ?_, hle.scale (-k)⟩
    simpa only [back] using he
  · intro e he hle
    have he' : R (e * 10 ^ (-k) * 10 ^ k) := by rw [back]; exact he
    have e1 : |e - x * 10 ^ k| = |e * 10 ^ (-k) - x| * 10 ^ k := by
      rw [← habs, back]
    rw [habs, e1]
    rcases hc _ he' (hle.scale (-k)) with h | h | ⟨h1, h2⟩
    · left; rw [← h, back]
    · right; left; exact mul_lt_mul_of_pos_right h hk
    · right; right; exact ⟨by rw [h1], h2.scale k⟩

/-- An interval with its end points (`closed`) or without. -/
def In (closed : Prop) (L U d : ℚ) : Prop := (L < d ∨ (closed ∧ L = d)) ∧ (d < U ∨ (closed ∧ d = U))

theorem In.le {c : Prop} {L U d : ℚ} (h : In c L U d) : L ≤ d ∧ d ≤ U := by
  obtain ⟨h1 | ⟨_, h1⟩, h2 | ⟨_, h2⟩⟩ := h <;> constructor <;> linarith

theorem In.between {c : Prop} {L U a b e : ℚ} (ha : In c L U a) (hb : In c L U b) (h1 : a ≤ e)
    (h2 : e ≤ b) : In c L U e := by
  obtain ⟨a1, _⟩ := ha
  obtain ⟨_, b2⟩ := hb
  refine ⟨?_, ?_⟩
  · rcases a1 with a1 | ⟨hc, a1⟩
    · left; linarith
    · rcases lt_or_eq_of_le h1 with h | h
      · left; linarith
      · right; exact ⟨hc, by linarith⟩
  · rcases b2 with b2 | ⟨hc, b2⟩
    · left; linarith
    · rcases lt_or_eq_of_le h2 with h | h
      · left; linarith
      · right; exact ⟨hc, by linarith⟩

/-- A decimal `s * 10^i` with `i ≥ 0` is an integer, with `i ≥ 1` a multiple of ten. -/
theorem zpow_nat {i : Int} (hi : 0 ≤ i) (s : Nat) : (s : ℚ) * 10 ^ i = ((s * 10 ^ i.toNat : Nat) : ℚ) := by
  obtain ⟨j, rfl⟩ := Int.eq_ofNat_of_zero_le hi
  push_cast
  simp

theorem zpow_neg_le {i : Int} (hi : i ≤ 0) (s : Nat) : (s : ℚ) * 10 ^ i ≤ s := by
  have h1 : (10 : ℚ) ^ i ≤ 1 := zpow_le_one_of_nonpos₀ (by norm_num) hi
  have h0 : (0 : ℚ) ≤ s := Nat.cast_nonneg s
  nlinarith

theorem zpow_neg_lt {i : Int} (hi : i < 0) {s n : Nat} (h : s < 10 ^ (n + 1)) :
    (s : ℚ) * 10 ^ i < 10 ^ n := by
  have h1 : (10 : ℚ) ^ i ≤ 10 ^ (-1 : Int) := zpow_le_zpow_right₀ (by norm_num) (by omega)
  have h0 : (0 : ℚ) ≤ s := Nat.cast_nonneg s
  have h2 : (s : ℚ) < 10 ^ (n + 1) := by exact_mod_cast h
  have h3 : (10 : ℚ) ^ (-1 : Int) = 1 / 10 := by norm_num
  rw [h3] at h1
  rw [pow_succ] at h2
  nlinarith

theorem hasLength_nat {n s : Nat} (h1 : 10 ^ (n - 1) ≤ s) (h2 : s < 10 ^ n) : HasLength n (s : ℚ) :=
  ⟨s, 0, h1, h2, by simp⟩

/-- The nearest integer, ties to even, among the integers of a convex set that contains `s` or `s + 1`,
the neighbours of `x`. -/
structure Nearest (R : ℚ → Prop) (x : ℚ) (s D : Nat) : Prop where
  floor : (s : ℚ) ≤ x
  ceil : x < s + 1
  mem : R D
  low : D = s → ¬ R ((s + 1 : Nat) : ℚ) ∨ x - s < s + 1 - x ∨ (x - s = s + 1 - x ∧ s % 2 = 0)
  high : D = s + 1 → ¬ R (s : ℚ) ∨ s + 1 - x < x - s ∨ (x - s = s + 1 - x ∧ s % 2 = 1)
  cases : D = s ∨ D = s + 1

theorem Nearest.closest {c : Prop} {L U x : ℚ} {s D : Nat} (h : Nearest (In c L U) x s D) (d' : Nat)
    (hd : In c L U d') :
    d' = D ∨ |(D : ℚ) - x| < |(d' : ℚ) - x| ∨ (|(D : ℚ) - x| = |(d' : ℚ) - x| ∧ D % 2 = 0) := by
  have hf := h.floor
  have hc := h.ceil
  rcases h.cases with rfl | rfl
  · rw [abs_of_nonpos (show (D : ℚ) - x ≤ 0 by linarith)]
    rcases Nat.lt_trichotomy d' D with hlt | heq | hgt
    · right; left
      have : (d' : ℚ) + 1 ≤ D := by exact_mod_cast hlt
      rw [abs_of_nonpos (by linarith)]; linarith
    · exact .inl heq
    · have hle : (D : ℚ) + 1 ≤ d' := by exact_mod_cast hgt
      rw [abs_of_nonneg (by linarith : (0 : ℚ) ≤ d' - x)]
      rcases h.low rfl with hn | hl | ⟨he, hev⟩
      · exact absurd (In.between h.mem hd (by push_cast; linarith) (by push_cast; linarith)) hn
      · right; left; linarith
      · rcases lt_or_eq_of_le hle with hlt | heq
        · right; left; linarith
        · right; right; exact ⟨by linarith, hev⟩
  · push_cast
    rw [abs_of_nonneg (show (0 : ℚ) ≤ (s : ℚ) + 1 - x by linarith)]
    rcases Nat.lt_trichotomy d' (s + 1) with hlt | heq | hgt
    · have hle : (d' : ℚ) ≤ s := by exact_mod_cast Nat.lt_succ_iff.1 hlt
      rw [abs_of_nonpos (by linarith : (d' : ℚ) - x ≤ 0)]
      rcases h.high rfl with hn | hl | ⟨he, hev⟩
      · exact absurd (In.between hd h.mem hle (by push_cast; linarith)) hn
      · right; left; linarith
      · rcases lt_or_eq_of_le hle with hlt | heq
        · right; left; linarith
        · right; right; exact ⟨by linarith, by omega⟩
    · exact .inl heq
    · right; left
      have : (s : ℚ) + 1 + 1 ≤ d' := by exact_mod_cast hgt
      rw [abs_of_nonneg (by linarith)]; linarith

/-- The least length, found from any element. -/
theorem exists_least {R : ℚ → Prop} {n : Nat} (hn : 1 ≤ n) {d : ℚ} (hd : R d) (hl : HasLength n d) :
    ∃ m, IsLeast {m | 1 ≤ m ∧ ∃ d', R d' ∧ HasLength m d'} m ∧ m ≤ n := by
  classical
  have hex : ∃ m, 1 ≤ m ∧ ∃ d', R d' ∧ HasLength m d' := ⟨n, hn, d, hd, hl⟩
  exact ⟨Nat.find hex, ⟨Nat.find_spec hex, fun m hm => Nat.find_min' hex hm⟩,
    Nat.find_min' hex ⟨hn, d, hd, hl⟩⟩

/-- Two digits suffice: the nearest integer. -/
theorem chosen_small {c : Prop} {L U x : ℚ} {s D : Nat} (h : Nearest (In c L U) x s D) (hL : 10 ≤ L)
    (hs : s < 100) : Chosen (In c L U) x D := by
  have hD : 10 ≤ D := by
    have := h.mem.le.1
    have : (10 : ℚ) ≤ D := by linarith
    exact_mod_cast this
  have hD' : D ≤ 100 := by rcases h.cases with h | h <;> omega
  have rep : ∃ (r : Nat) (i : Int), 10 ≤ r ∧ r < 100 ∧ (D : ℚ) = r * 10 ^ i ∧ (D % 2 = 0 → r % 2 = 0) := by
    rcases Nat.lt_or_ge D 100 with hlt | hge
    · exact ⟨D, 0, hD, hlt, by simp, id⟩
    · obtain rfl : D = 100 := by omega
      exact ⟨10, 1, by omega, by omega, by norm_num, by omega⟩
  obtain ⟨r, i, r1, r2, r3, r4⟩ := rep
  have hl : HasLength 2 (D : ℚ) := ⟨r, i, by norm_num; exact r1, by norm_num; exact r2, r3⟩
  obtain ⟨m, hm, hm2⟩ := exists_least (by omega) h.mem hl
  have e : max m 2 = 2 := by omega
  refine ⟨m, hm, h.mem, by rw [e]; exact hl, ?_⟩
  intro d' hd' hl'
  rw [e] at hl' ⊢
  obtain ⟨s', i', a1, a2, a3⟩ := hl'
  have hi : 0 ≤ i' := by
    by_contra hneg
    have := zpow_neg_lt (n := 1) (by omega : i' < 0) (by simpa using a2)
    rw [← a3] at this
    have := hd'.le.1
    norm_num at *
    linarith
  rw [zpow_nat hi] at a3
  subst a3
  rcases h.closest _ hd' with h1 | h1 | ⟨h1, h2⟩
  · left; exact_mod_cast h1
  · right; left; exact h1
  · right; right; exact ⟨h1, r, i, by norm_num; exact r1, by norm_num; exact r2, r4 h2, r3⟩

/-- No multiple of ten is in reach: the nearest integer. -/
theorem chosen_units {c : Prop} {L U x : ℚ} {s D : Nat} (h : Nearest (In c L U) x s D) (hx : In c L U x)
    (hs : 100 ≤ s) (hu : ¬ In c L U ((10 * (s / 10) : Nat) : ℚ))
    (hw : ¬ In c L U ((10 * (s / 10) + 10 : Nat) : ℚ)) : Chosen (In c L U) x D := by
  obtain ⟨j, hj⟩ : ∃ j, j = Nat.log 10 s := ⟨_, rfl⟩
  have j1 : 10 ^ j ≤ s := by rw [hj]; exact Nat.pow_log_le_self _ (by omega)
  have j2 : s < 10 ^ (j + 1) := by rw [hj]; exact Nat.lt_pow_succ_log_self (by omega) _
  have j3 : 2 ≤ j := by
    by_contra hlt
    have : 10 ^ (j + 1) ≤ 10 ^ 2 := Nat.pow_le_pow_right (by omega) (by omega)
    omega
  obtain ⟨t, ht⟩ : ∃ t, 10 ^ j = 10 * t := ⟨10 ^ (j - 1), by rw [← pow_succ']; congr 1; omega⟩
  have hfl := h.floor
  have hce := h.ceil
  -- everything in the interval lies strictly between the two multiples of ten
  have lo : ∀ e, In c L U e → ((10 * (s / 10) : Nat) : ℚ) < e := by
    intro e he
    by_contra hle
    have hle' : e ≤ ((10 * (s / 10) : Nat) : ℚ) := by linarith
    refine hu (In.between he hx hle' ?_)
    have : ((10 * (s / 10) : Nat) : ℚ) ≤ s := by exact_mod_cast Nat.mul_div_le s 10
    linarith
  have hi : ∀ e, In c L U e → e < ((10 * (s / 10) + 10 : Nat) : ℚ) := by
    intro e he
    by_contra hle
    have hle' : ((10 * (s / 10) + 10 : Nat) : ℚ) ≤ e := by linarith
    refine hw (In.between hx he ?_ hle')
    have : ((s + 1 : Nat) : ℚ) ≤ ((10 * (s / 10) + 10 : Nat) : ℚ) := by
      exact_mod_cast (by omega : s + 1 ≤ 10 * (s / 10) + 10)
    push_cast at this ⊢
    linarith
  have lo' : ∀ e, In c L U e → (10 : ℚ) ^ j < e := by
    intro e he
    have h1 := lo e he
    have h2 : 10 ^ j ≤ 10 * (s / 10) := by omega
    have h3 : ((10 ^ j : Nat) : ℚ) ≤ ((10 * (s / 10) : Nat) : ℚ) := by exact_mod_cast h2
    push_cast at h1 h3
    linarith
  have hi' : ∀ e, In c L U e → e < (10 : ℚ) ^ (j + 1) := by
    intro e he
    have h1 := hi e he
    have h2 : 10 * (s / 10) + 10 ≤ 10 ^ (j + 1) := by
      have : 10 ^ (j + 1) = 10 * (10 * t) := by rw [pow_succ, ht]; ring
      omega
    have h3 : ((10 * (s / 10) + 10 : Nat) : ℚ) ≤ ((10 ^ (j + 1) : Nat) : ℚ) := by exact_mod_cast h2
    push_cast at h1 h3
    linarith
  -- a decimal in the interval
  have key : ∀ d' m, 1 ≤ m → In c L U d' → HasLength m d' → j + 1 ≤ m ∧
      (m = j + 1 → ∃ r : Nat, d' = r) := by
    rintro d' m hm1 hd' ⟨s', i', a1, a2, a3⟩
    have hi0 : i' ≤ 0 := by
      by_contra hpos
      have h10 : d' = ((10 * (s' * 10 ^ (i' - 1).toNat) : Nat) : ℚ) := by
        rw [a3, zpow_nat (by omega)]
        have : i'.toNat = (i' - 1).toNat + 1 := by omega
        rw [this, pow_succ]
        push_cast; ring
      have b1 := lo d' hd'
      have b2 := hi d' hd'
      rw [h10] at b1 b2
      have b1 : 10 * (s / 10) < 10 * (s' * 10 ^ (i' - 1).toNat) := by exact_mod_cast b1
      have b2 : 10 * (s' * 10 ^ (i' - 1).toNat) < 10 * (s / 10) + 10 := by exact_mod_cast b2
      omega
    have hle : d' ≤ s' := by rw [a3]; exact zpow_neg_le hi0 s'
    have hm : j + 1 ≤ m := by
      by_contra hlt
      have b1 := lo' d' hd'
      have b2 : (10 : ℚ) ^ m ≤ 10 ^ j := pow_le_pow_right₀ (by norm_num) (by omega)
      have b3 : (s' : ℚ) < 10 ^ m := by exact_mod_cast a2
      linarith
    refine ⟨hm, fun he => ?_⟩
    subst he
    rcases lt_or_eq_of_le hi0 with hneg | hz
    · have := zpow_neg_lt hneg a2
      rw [← a3] at this
      have := lo' d' hd'
      linarith
    · exact ⟨s', by rw [a3, hz]; simp⟩
  have hl : HasLength (j + 1) (D : ℚ) := by
    refine hasLength_nat ?_ ?_
    · have := lo' _ h.mem
      have : 10 ^ j < D := by exact_mod_cast this
      simp only [Nat.add_sub_cancel]; omega
    · have := hi' _ h.mem
      exact_mod_cast this
  obtain ⟨m, hm, hmle⟩ := exists_least (by omega) h.mem hl
  obtain ⟨⟨hm1, dm, hdm, hlm⟩, _⟩ := id hm
  have hmeq : m = j + 1 := le_antisymm hmle (key dm m hm1 hdm hlm).1
  have e : max m 2 = j + 1 := by omega
  refine ⟨m, hm, h.mem, by rw [e]; exact hl, ?_⟩
  intro d' hd' hl'
  rw [e] at hl' ⊢
  obtain ⟨r, rfl⟩ := (key d' (j + 1) (by omega) hd' hl').2 rfl
  rcases h.closest _ hd' with h1 | h1 | ⟨h1, h2⟩
  · left; exact_mod_cast h1
  · right; left; exact h1
  · right; right
    refine ⟨h1, D, 0, ?_, ?_, h2, by simp⟩
    · have := lo' _ h.mem
      have : 10 ^ j < D := by exact_mod_cast this
      simp only [Nat.add_sub_cancel]; omega
    · have := hi' _ h.mem
      exact_mod_cast this

/-- Exactly one multiple of ten is in reach: that one. -/
theorem chosen_tens {c : Prop} {L U x : ℚ} {s D : Nat} (hx : In c L U x) (hf : (s : ℚ) ≤ x)
    (hs : 100 ≤ s) (hw : U - L < 10)
    (hD : In c L U (D : ℚ)) (hcase : D = 10 * (s / 10) ∨ D = 10 * (s / 10) + 10 ∧
      ¬ In c L U ((10 * (s / 10) : Nat) : ℚ)) : Chosen (In c L U) x D := by
  have hx := hx
  have hDs : 100 ≤ D ∧ D % 10 = 0 := by omega
  -- the only multiple of ten
  have uniq : ∀ r : Nat, In c L U ((10 * r : Nat) : ℚ) → 10 * r = D := by
    intro r hr
    obtain ⟨a1, a2⟩ := hr.le
    obtain ⟨b1, b2⟩ := hD.le
    have h1 : ((10 * r : Nat) : ℚ) - D < 10 := by linarith
    have h2 : (D : ℚ) - ((10 * r : Nat) : ℚ) < 10 := by linarith
    have h1 : ((10 * r : Nat) : ℚ) < ((D + 10 : Nat) : ℚ) := by push_cast at *; linarith
    have h2 : (D : ℚ) < ((10 * r + 10 : Nat) : ℚ) := by push_cast at *; linarith
    have h1 : 10 * r < D + 10 := by exact_mod_cast h1
    have h2 : D < 10 * r + 10 := by exact_mod_cast h2
    omega
  obtain ⟨j, hj⟩ : ∃ j, j = Nat.log 10 D := ⟨_, rfl⟩
  have j1 : 10 ^ j ≤ D := by rw [hj]; exact Nat.pow_log_le_self _ (by omega)
  have j2 : D < 10 ^ (j + 1) := by rw [hj]; exact Nat.lt_pow_succ_log_self (by omega) _
  have j3 : 2 ≤ j := by
    by_contra hlt
    have : 10 ^ (j + 1) ≤ 10 ^ 2 := Nat.pow_le_pow_right (by omega) (by omega)
    omega
  obtain ⟨t, ht⟩ : ∃ t, 10 ^ j = 10 * t := ⟨10 ^ (j - 1), by rw [← pow_succ']; congr 1; omega⟩
  have htj : t = 10 ^ (j - 1) := by
    have : 10 ^ j = 10 * 10 ^ (j - 1) := by rw [← pow_succ']; congr 1; omega
    omega
  have hlj : HasLength j (D : ℚ) := by
    refine ⟨D / 10, 1, ?_, ?_, ?_⟩
    · rw [← htj]; omega
    · rw [pow_succ] at j2; omega
    · have : D = D / 10 * 10 := by omega
      calc (D : ℚ) = ((D / 10 * 10 : Nat) : ℚ) := by exact_mod_cast this
        _ = _ := by push_cast; simp
  -- other decimals in the interval
  have other : ∀ d' m, 1 ≤ m → In c L U d' → HasLength m d' → d' ≠ D → d' < (10 : ℚ) ^ m := by
    rintro d' m hm1 hd' ⟨s', i', a1, a2, a3⟩ hne
    have hi0 : i' ≤ 0 := by
      by_contra hpos
      have h10 : d' = ((10 * (s' * 10 ^ (i' - 1).toNat) : Nat) : ℚ) := by
        rw [a3, zpow_nat (by omega)]
        have : i'.toNat = (i' - 1).toNat + 1 := by omega
        rw [this, pow_succ]
        push_cast; ring
      rw [h10] at hd' hne
      exact hne (by exact_mod_cast uniq _ hd')
    have hle : d' ≤ s' := by rw [a3]; exact zpow_neg_le hi0 s'
    have b3 : (s' : ℚ) < 10 ^ m := by exact_mod_cast a2
    linarith
  -- if another decimal is at most as long as `D`, then `D` is a power of ten
  have power : ∀ d' m, 1 ≤ m → In c L U d' → HasLength m d' → d' ≠ D → m ≤ j → D = 10 ^ j := by
    intro d' m hm1 hd' hl hne hmj
    have h1 := other d' m hm1 hd' hl hne
    have h2 : (10 : ℚ) ^ m ≤ 10 ^ j := pow_le_pow_right₀ (by norm_num) hmj
    have h3 : ((10 ^ j : Nat) : ℚ) ≤ D := by exact_mod_cast j1
    have h4 : In c L U ((10 * t : Nat) : ℚ) := by
      rw [← ht]
      refine In.between hd' hD ?_ h3
      push_cast; linarith
    rw [ht]; exact (uniq t h4).symm
  have one : D = 10 ^ j → HasLength 1 (D : ℚ) := by
    intro h
    refine ⟨1, j, by norm_num, by norm_num, ?_⟩
    rw [h]; push_cast; simp
  obtain ⟨m, hm, hmle⟩ := exists_least (by omega) hD hlj
  obtain ⟨⟨hm1, dm, hdm, hlm⟩, hmin⟩ := id hm
  have hDl : HasLength m (D : ℚ) := by
    by_cases hne : dm = D
    · rw [← hne]; exact hlm
    · exact (one (power dm m hm1 hdm hlm hne hmle)).mono (by omega) hm1
  refine ⟨m, hm, hD, hDl.mono hm1 (le_max_left _ _), ?_⟩
  intro d' hd' hl'
  by_cases hne : d' = D
  · exact .inl hne
  · right; left
    have hnj : max m 2 ≤ j := by omega
    have hp := power d' _ (by omega) hd' hl' hne hnj
    have hm1' : m = 1 := le_antisymm (hmin ⟨le_refl 1, D, hD, one hp⟩) hm1
    have hlt := other d' _ (by omega) hd' hl' hne
    have e : max m 2 = 2 := by omega
    rw [e] at hlt
    have hs' : (100 : ℚ) ≤ s := by exact_mod_cast hs
    have hlt : d' < 100 := by norm_num at hlt; exact hlt
    rw [abs_of_nonpos (by linarith : d' - x ≤ 0)]
    rcases hcase with hc | ⟨hc, hno⟩
    · have : (D : ℚ) ≤ s := by exact_mod_cast (by omega : D ≤ s)
      have : (100 : ℚ) ≤ D := by exact_mod_cast hDs.1
      rw [abs_of_nonpos (by linarith)]
      linarith
    · exfalso
      refine hno (In.between hd' hx ?_ ?_)
      · have : (100 : ℚ) ≤ ((10 * (s / 10) : Nat) : ℚ) := by
          exact_mod_cast (by omega : 100 ≤ 10 * (s / 10))
        linarith
      · have : ((10 * (s / 10) : Nat) : ℚ) ≤ s := by exact_mod_cast Nat.mul_div_le s 10
        linarith

end FastPrintf.Spec
