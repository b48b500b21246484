/-
Rounding the decimal of a `double` half up against rounding the `double` itself correctly.
-/
import Verif.Spec.CFloat
import Verif.Proofs.DecimalUnique
import Mathlib.Tactic.Linarith
import Mathlib.Tactic.Push
import Mathlib.Algebra.Order.Archimedean.Basic

namespace FastPrintf
open Spec

/-! ### Correct rounding -/

theorem Spec.NearestEven.unique {y : ℚ} {m m' : Nat} (h : NearestEven y m) (h' : NearestEven y m') : m = m' := by
  have key : ∀ {a b : Nat}, NearestEven y a → NearestEven y b → ¬ a < b := by
    intro a b ha hb hab
    have hab' : (a : ℚ) + 1 ≤ b := by exact_mod_cast hab
    have la : |(a : ℚ) - y| ≤ 1 / 2 := by rcases ha with h | h; exacts [h.le, h.1.le]
    have lb : |(b : ℚ) - y| ≤ 1 / 2 := by rcases hb with h | h; exacts [h.le, h.1.le]
    rw [abs_le] at la lb
    rcases ha with ha | ⟨ha, ea⟩
    · rw [abs_lt] at ha; linarith
    · rcases hb with hb | ⟨hb, eb⟩
      · rw [abs_lt] at hb; linarith
      · have : (b : ℚ) = (a + 1 : Nat) := by push_cast; linarith
        have : b = a + 1 := by exact_mod_cast this
        omega
  exact Nat.le_antisymm (by have := key h' h; omega) (by have := key h h'; omega)

theorem nearestEven_exists {y : ℚ} (hy : 0 ≤ y) : ∃ m, NearestEven y m := by
  have l := Nat.floor_le hy
  have u := Nat.lt_floor_add_one y
  generalize ⌊y⌋₊ = k at l u
  rcases lt_trichotomy (y - k) (1 / 2) with h | h | h
  · exact ⟨k, .inl (by rw [abs_lt]; constructor <;> linarith)⟩
  · rcases Nat.mod_two_eq_zero_or_one k with e | e
    · refine ⟨k, .inr ⟨?_, e⟩⟩
      rw [abs_sub_comm, h]; norm_num
    · refine ⟨k + 1, .inr ⟨?_, by omega⟩⟩
      push_cast
      rw [show (k : ℚ) + 1 - y = 1 / 2 by linarith]; norm_num
  · refine ⟨k + 1, .inl ?_⟩
    push_cast
    rw [abs_lt]; constructor <;> linarith

theorem Spec.NearestEven.bounds {y : ℚ} {m : Nat} (h : NearestEven y m) : (m : ℚ) - 1 / 2 ≤ y ∧ y ≤ m + 1 / 2 := by
  have l : |(m : ℚ) - y| ≤ 1 / 2 := by rcases h with h | h; exacts [h.le, h.1.le]
  rw [abs_le] at l
  constructor <;> linarith

theorem Spec.NearestEven.of_lt {y : ℚ} {m : Nat} (h1 : (m : ℚ) - 1 / 2 < y) (h2 : y < m + 1 / 2) : NearestEven y m :=
  .inl (by rw [abs_lt]; constructor <;> linarith)

/-! ### Nothing shorter lies between a `double` and its decimal -/

theorem roundsTo_between {x q b : ℚ} {even : Prop} (h : RoundsTo x even q)
    (hb : (x ≤ b ∧ b ≤ q) ∨ (q ≤ b ∧ b ≤ x)) : RoundsTo x even b := by
  intro y hy
  have hq : |q - x| = |q - b| + |b - x| := by
    rcases hb with ⟨h1, h2⟩ | ⟨h1, h2⟩
    · rw [abs_of_nonneg (by linarith), abs_of_nonneg (by linarith), abs_of_nonneg (by linarith)]; ring
    · rw [abs_of_nonpos (by linarith), abs_of_nonpos (by linarith), abs_of_nonpos (by linarith)]; ring
  have ht : |q - y| ≤ |q - b| + |b - y| := by
    have := abs_add_le (q - b) (b - y)
    rwa [show q - b + (b - y) = q - y by ring] at this
  rcases h y hy with h | h | ⟨h, he⟩
  · exact .inl h
  · exact .inr (.inl (by linarith))
  · rcases lt_or_eq_of_le (show |b - x| ≤ |b - y| by linarith) with h' | h'
    · exact .inr (.inl h')
    · exact .inr (.inr ⟨h', he⟩)

/-- Trailing zeros make up for missing digits. -/
theorem hasLength_of_lt {t n : Nat} {i : Int} (h0 : 0 < t) (h : t < 10 ^ n) : HasLength n ((t : ℚ) * 10 ^ i) := by
  have h10 : (10 : ℚ) ≠ 0 := by norm_num
  induction n with
  | zero => simp at h; omega
  | succ n ih =>
    by_cases hl : 10 ^ n ≤ t
    · exact ⟨t, i, by simpa using hl, h, rfl⟩
    · obtain ⟨s, j, l, u, e⟩ := ih (by omega)
      cases n with
      | zero => simp at hl; omega
      | succ n =>
        refine ⟨s * 10, j - 1, ?_, ?_, ?_⟩
        · simp only [Nat.add_sub_cancel] at l ⊢
          rw [pow_succ]; omega
        · rw [pow_succ _ (n + 1)]; omega
        · rw [e, zpow_sub_one₀ h10]; push_cast; field_simp

/-- The decimal is `s * 10^i`, and no other multiple of `10^i` lies between it and the number. -/
theorem chosen_between {x q : ℚ} {even : Prop} (h : Chosen (RoundsTo x even) x q) :
    ∃ (s : Nat) (i : Int), 10 ≤ s ∧ q = s * 10 ^ i ∧ ∀ t : Nat, 0 < t →
      ¬ ((x ≤ t * 10 ^ i ∧ t * 10 ^ i < q) ∨ (q < t * 10 ^ i ∧ t * 10 ^ i ≤ x)) := by
  obtain ⟨m, hm, hr, ⟨s, i, l, u, hq⟩, hbest⟩ := h
  have hn : 2 ≤ max m 2 := le_max_right _ _
  generalize max m 2 = n at *
  have hi : (0 : ℚ) < 10 ^ i := by positivity
  have hs : 10 ≤ s := le_trans (by simpa using Nat.pow_le_pow_right (show 0 < 10 by omega) (show 1 ≤ n - 1 by omega)) l
  -- a decimal of that length in between would be closer
  have no : ∀ d, HasLength n d → ¬ ((x ≤ d ∧ d < q) ∨ (q < d ∧ d ≤ x)) := by
    intro d hd hb
    have hrd : RoundsTo x even d := by
      refine roundsTo_between hr ?_
      rcases hb with h | h
      · exact .inl ⟨h.1, h.2.le⟩
      · exact .inr ⟨h.1.le, h.2⟩
    have hlt : |d - x| < |q - x| := by
      rcases hb with ⟨h1, h2⟩ | ⟨h1, h2⟩
      · rw [abs_of_nonneg (by linarith), abs_of_nonneg (by linarith)]; linarith
      · rw [abs_of_nonpos (by linarith), abs_of_nonpos (by linarith)]; linarith
    rcases hbest d hrd hd with h | h | h
    · subst h; exact lt_irrefl _ hlt
    · linarith
    · linarith [h.1]
  refine ⟨s, i, hs, hq, fun t ht hb => ?_⟩
  by_cases htn : t < 10 ^ n
  · exact no _ (hasLength_of_lt ht htn) hb
  · -- then a power of ten lies in between
    have hst : (s : ℚ) < (10 ^ n : Nat) := by exact_mod_cast u
    have htq : ((10 ^ n : Nat) : ℚ) ≤ t := by exact_mod_cast (not_lt.1 htn)
    have h1 : q < ((10 ^ n : Nat) : ℚ) * 10 ^ i := by rw [hq]; exact mul_lt_mul_of_pos_right hst hi
    have h2 : ((10 ^ n : Nat) : ℚ) * 10 ^ i ≤ t * 10 ^ i := mul_le_mul_of_nonneg_right htq hi.le
    have h3 : HasLength n (((10 ^ n : Nat) : ℚ) * 10 ^ i) := by
      have h10 : (10 : ℚ) ≠ 0 := by norm_num
      have := hasLength_of_lt (t := 1) (n := n) (i := i + n) one_pos (Nat.one_lt_pow (by omega) (by norm_num))
      rw [zpow_add₀ h10, zpow_natCast] at this
      convert this using 1
      push_cast; ring
    rcases hb with h | h
    · linarith [h.2]
    · exact no _ h3 (.inr ⟨h1, h2.trans h.2⟩)

/-! ### The two roundings -/

theorem halfUp_bounds {q : ℚ} (hq : 0 ≤ q) (p : Int) :
    (halfUp q p : ℚ) - 1 / 2 ≤ q * 10 ^ p ∧ q * 10 ^ p < halfUp q p + 1 / 2 := by
  have h0 : 0 ≤ q * 10 ^ p + 1 / 2 := by positivity
  have l := Nat.floor_le h0
  have u := Nat.lt_floor_add_one (q * 10 ^ p + 1 / 2)
  unfold halfUp
  constructor <;> linarith

theorem halfUp_of_bounds {q : ℚ} {p : Int} {m : Nat} (h1 : (m : ℚ) - 1 / 2 ≤ q * 10 ^ p) (h2 : q * 10 ^ p < m + 1 / 2) :
    halfUp q p = m := by
  unfold halfUp
  rw [Nat.floor_eq_iff (by linarith [(Nat.cast_nonneg m : (0 : ℚ) ≤ m)])]
  constructor <;> linarith

theorem deviates_iff {x q : ℚ} {even : Prop} (hx : 0 < x) (h : Chosen (RoundsTo x even) x q) {p : Int} {m : Nat}
    (hm : NearestEven (x * 10 ^ p) m) : halfUp q p = m ↔ ¬ Deviates x q p := by
  have h10 : (10 : ℚ) ≠ 0 := by norm_num
  have hT : (0 : ℚ) < 10 ^ p := by positivity
  obtain ⟨s, i, hs, hq, hno⟩ := chosen_between h
  have hq0 : 0 < q := by
    have : (0 : ℚ) < s := by exact_mod_cast (by omega : 0 < s)
    rw [hq]; positivity
  constructor
  · rintro rfl (⟨k, hk, hn⟩ | ⟨k, hk, hc⟩)
    · have : halfUp q p = k := halfUp_of_bounds (by rw [hk]; linarith) (by rw [hk]; linarith)
      rw [this] at hm
      exact hn hm
    · have : halfUp q p = k + 1 :=
        halfUp_of_bounds (by rw [hk]; push_cast; linarith) (by rw [hk]; push_cast; linarith)
      rw [this] at hm
      have hle : x ≤ q := by rcases hc with h | h; exacts [h.le, h.1.le]
      have hxy : x * 10 ^ p ≤ k + 1 / 2 := hk ▸ mul_le_mul_of_nonneg_right hle hT.le
      rcases hm with hm | ⟨hm, he⟩
      · rw [abs_lt] at hm; push_cast at hm; linarith
      · rcases hc with hc | ⟨-, hc⟩
        · have : x * 10 ^ p < k + 1 / 2 := hk ▸ mul_lt_mul_of_pos_right hc hT
          have := hm.le
          rw [abs_le] at this; push_cast at this; linarith
        · omega
  · intro hd
    unfold Deviates at hd
    push Not at hd
    obtain ⟨hd1, hd2⟩ := hd
    by_cases hi : -p ≤ i
    · -- the decimal has no digit past the place
      have hk : q * 10 ^ p = ((s * 10 ^ (i + p).toNat : Nat) : ℚ) := by
        rw [hq, mul_assoc, ← zpow_add₀ h10, ← Int.toNat_of_nonneg (show 0 ≤ i + p by omega), zpow_natCast]
        push_cast; rfl
      have := hm.unique (hd1 _ hk)
      rw [this]
      exact halfUp_of_bounds (by rw [hk]; linarith) (by rw [hk]; linarith)
    · obtain ⟨j, hj⟩ : ∃ j : Nat, i + j = -(p + 1) := ⟨(-(p + 1) - i).toNat, by omega⟩
      -- the midpoints are multiples of the last place of the decimal
      have hmid : ∀ k : Nat, ((k : ℚ) + 1 / 2) = (((2 * k + 1) * 5 * 10 ^ j : Nat) : ℚ) * 10 ^ i * 10 ^ p := by
        intro k
        have e : (10 : ℚ) ^ j * 10 ^ i * 10 ^ p = 10⁻¹ := by
          rw [← zpow_natCast, ← zpow_add₀ h10, ← zpow_add₀ h10, show (j : Int) + i + p = -1 by omega, zpow_neg_one]
        push_cast
        calc (k : ℚ) + 1 / 2 = (2 * k + 1) * 5 * 10⁻¹ := by norm_num; ring
          _ = (2 * k + 1) * 5 * (10 ^ j * 10 ^ i * 10 ^ p) := by rw [e]
          _ = _ := by ring
      have hpos : ∀ k : Nat, 0 < (2 * k + 1) * 5 * 10 ^ j := fun k => by positivity
      obtain ⟨hu1, hu2⟩ := halfUp_bounds hq0.le p
      obtain ⟨m1, m2⟩ := hm.bounds
      rcases lt_trichotomy (halfUp q p) m with hlt | heq | hgt
      · exfalso
        obtain ⟨k, rfl⟩ : ∃ k, m = k + 1 := ⟨m - 1, by omega⟩
        have hc : (halfUp q p : ℚ) ≤ k := by exact_mod_cast Nat.lt_succ_iff.1 hlt
        refine hno _ (hpos k) (.inr ⟨?_, ?_⟩)
        · have : q * 10 ^ p < (((2 * k + 1) * 5 * 10 ^ j : Nat) : ℚ) * 10 ^ i * 10 ^ p := by
            rw [← hmid k]; linarith
          exact lt_of_mul_lt_mul_right this hT.le
        · have : (((2 * k + 1) * 5 * 10 ^ j : Nat) : ℚ) * 10 ^ i * 10 ^ p ≤ x * 10 ^ p := by
            rw [← hmid k]; push_cast at m1; linarith
          exact le_of_mul_le_mul_right this hT
      · exact heq
      · exfalso
        obtain ⟨k, hk⟩ : ∃ k, halfUp q p = k + 1 := ⟨halfUp q p - 1, by omega⟩
        have hc : (m : ℚ) ≤ k := by
          rw [hk] at hgt; exact_mod_cast Nat.lt_succ_iff.1 hgt
        rw [hk] at hu1 hu2
        push_cast at hu1 hu2
        have hxb : x ≤ (((2 * k + 1) * 5 * 10 ^ j : Nat) : ℚ) * 10 ^ i := by
          have : x * 10 ^ p ≤ (((2 * k + 1) * 5 * 10 ^ j : Nat) : ℚ) * 10 ^ i * 10 ^ p := by
            rw [← hmid k]; linarith
          exact le_of_mul_le_mul_right this hT
        have hbq : (((2 * k + 1) * 5 * 10 ^ j : Nat) : ℚ) * 10 ^ i ≤ q := by
          have : (((2 * k + 1) * 5 * 10 ^ j : Nat) : ℚ) * 10 ^ i * 10 ^ p ≤ q * 10 ^ p := by
            rw [← hmid k]; linarith
          exact le_of_mul_le_mul_right this hT
        rcases hbq.lt_or_eq with hlt | heq
        · exact hno _ (hpos k) (.inl ⟨hxb, hlt⟩)
        · have ha : q * 10 ^ p = k + 1 / 2 := by rw [hmid k, heq]
          obtain ⟨hge, hodd⟩ := hd2 k ha
          have hxq : x = q := le_antisymm (hxb.trans heq.le) hge
          have hko := hodd hxq
          rw [hxq, ha] at hm
          have := hm.unique (show NearestEven ((k : ℚ) + 1 / 2) (k + 1) from .inr ⟨by push_cast; norm_num, by omega⟩)
          omega

/-! ### Significant digits -/

theorem normal_unique {n m m' : Nat} {a b : Int} (hn : 1 ≤ n) (h1 : 10 ^ (n - 1) ≤ m) (h2 : m < 10 ^ n)
    (h1' : 10 ^ (n - 1) ≤ m') (h2' : m' < 10 ^ n) (h : (m : ℚ) * 10 ^ a = m' * 10 ^ b) : m = m' ∧ a = b := by
  have h10 : (10 : ℚ) ≠ 0 := by norm_num
  have e : 10 ^ n = 10 ^ (n - 1) * 10 := by rw [← pow_succ]; congr 1; omega
  have key : ∀ {m m' : Nat} {a b : Int}, m < 10 ^ n → 10 ^ (n - 1) ≤ m' →
      (m : ℚ) * 10 ^ a = m' * 10 ^ b → ¬ a < b := by
    intro m m' a b h2 h1' h hab
    obtain ⟨j, rfl⟩ : ∃ j : Nat, b = a + 1 + j := ⟨(b - a - 1).toNat, by omega⟩
    have hp : (10 : ℚ) ^ a ≠ 0 := by positivity
    have : (m : ℚ) = ((m' * 10 * 10 ^ j : Nat) : ℚ) := by
      apply mul_right_cancel₀ hp
      rw [h, zpow_add₀ h10, zpow_add₀ h10, zpow_natCast, zpow_one]
      push_cast; ring
    have hm : m = m' * 10 * 10 ^ j := by exact_mod_cast this
    have : 1 ≤ 10 ^ j := Nat.one_le_pow _ _ (by norm_num)
    have : m' * 10 ≤ m := by rw [hm]; exact Nat.le_mul_of_pos_right _ (by omega)
    omega
  have hab : a = b := le_antisymm (by have := key h2' h1 h.symm; omega) (by have := key h2 h1' h; omega)
  subst hab
  have hp : (10 : ℚ) ^ a ≠ 0 := by positivity
  exact ⟨by exact_mod_cast mul_right_cancel₀ hp h, rfl⟩

/-- A number of `n` digits before the point rounds to at most `10^n` and at least `10^(n-1)`. -/
theorem nearestEven_digits {x : ℚ} {n m : Nat} {e : Int} (hn : 1 ≤ n) (l : (10 : ℚ) ^ e ≤ x) (u : x < 10 ^ (e + 1))
    (h : NearestEven (x * 10 ^ ((n : Int) - 1 - e)) m) : 10 ^ (n - 1) ≤ m ∧ m ≤ 10 ^ n := by
  have h10 : (10 : ℚ) ≠ 0 := by norm_num
  have hT : (0 : ℚ) < 10 ^ ((n : Int) - 1 - e) := by positivity
  have l' : ((10 ^ (n - 1) : Nat) : ℚ) ≤ x * 10 ^ ((n : Int) - 1 - e) := by
    have := mul_le_mul_of_nonneg_right l hT.le
    rw [← zpow_add₀ h10, show e + ((n : Int) - 1 - e) = ((n - 1 : Nat) : Int) by omega, zpow_natCast] at this
    exact_mod_cast this
  have u' : x * 10 ^ ((n : Int) - 1 - e) < ((10 ^ n : Nat) : ℚ) := by
    have := mul_lt_mul_of_pos_right u hT
    rw [← zpow_add₀ h10, show e + 1 + ((n : Int) - 1 - e) = n by ring, zpow_natCast] at this
    exact_mod_cast this
  obtain ⟨b1, b2⟩ := h.bounds
  constructor
  · have : ((10 ^ (n - 1) : Nat) : ℚ) < ((m + 1 : Nat) : ℚ) := by push_cast at *; linarith
    have : 10 ^ (n - 1) < m + 1 := by exact_mod_cast this
    omega
  · have : (m : ℚ) < ((10 ^ n + 1 : Nat) : ℚ) := by push_cast at *; linarith
    have : m < 10 ^ n + 1 := by exact_mod_cast this
    omega

theorem cSignificant_exists {x : ℚ} (hx : 0 < x) {n : Nat} (hn : 1 ≤ n) : ∃ m e, CSignificant x n m e := by
  have h10 : (10 : ℚ) ≠ 0 := by norm_num
  obtain ⟨e0, l, u⟩ := exists_mem_Ico_zpow hx (show (1 : ℚ) < 10 by norm_num)
  obtain ⟨m0, h0⟩ := nearestEven_exists (show 0 ≤ x * 10 ^ ((n : Int) - 1 - e0) by positivity)
  obtain ⟨b1, b2⟩ := nearestEven_digits hn l u h0
  rcases b2.lt_or_eq with h | h
  · exact ⟨m0, e0, b1, h, e0, m0, l, u, h0, rfl⟩
  · refine ⟨10 ^ (n - 1), e0 + 1, le_refl _, Nat.pow_lt_pow_right (by norm_num) (by omega), e0, m0, l, u, h0, ?_⟩
    rw [h]; push_cast
    rw [← zpow_natCast, ← zpow_natCast, ← zpow_add₀ h10, ← zpow_add₀ h10]
    congr 1; omega

theorem decade_unique {x : ℚ} {a b : Int} (l : (10 : ℚ) ^ a ≤ x) (u : x < 10 ^ (a + 1)) (l' : (10 : ℚ) ^ b ≤ x)
    (u' : x < 10 ^ (b + 1)) : a = b := by
  have := zpow10_lt (lt_of_le_of_lt l u')
  have := zpow10_lt (lt_of_le_of_lt l' u)
  omega

theorem Spec.CSignificant.unique {x : ℚ} {n m m' : Nat} {e e' : Int} (hn : 1 ≤ n) (h : CSignificant x n m e)
    (h' : CSignificant x n m' e') : m = m' ∧ e = e' := by
  obtain ⟨a1, a2, e0, m0, l, u, hm, he⟩ := h
  obtain ⟨b1, b2, e0', m0', l', u', hm', he'⟩ := h'
  obtain rfl := decade_unique l u l' u'
  obtain rfl := hm.unique hm'
  obtain ⟨h1, h2⟩ := normal_unique hn a1 a2 b1 b2 (he.trans he'.symm)
  exact ⟨h1, by omega⟩

/-- Rounding again at the place of the last digit gives the same digits. -/
theorem Spec.CSignificant.again {x : ℚ} {n m : Nat} {e : Int} (hn : 1 ≤ n) (h : CSignificant x n m e) :
    NearestEven (x * 10 ^ ((n : Int) - 1 - e)) m := by
  have h10 : (10 : ℚ) ≠ 0 := by norm_num
  obtain ⟨a1, a2, e0, m0, l, u, hm, he⟩ := h
  obtain ⟨b1, b2⟩ := nearestEven_digits hn l u hm
  rcases b2.lt_or_eq with h | h
  · obtain ⟨rfl, h2⟩ := normal_unique hn a1 a2 b1 h he
    obtain rfl : e = e0 := by omega
    exact hm
  · have : (m0 : ℚ) * 10 ^ (e0 - ((n : Int) - 1)) = ((10 ^ (n - 1) : Nat) : ℚ) * 10 ^ (e0 + 1 - ((n : Int) - 1)) := by
      rw [h]; push_cast
      rw [← zpow_natCast, ← zpow_natCast, ← zpow_add₀ h10, ← zpow_add₀ h10]
      congr 1; omega
    obtain ⟨h1, h2⟩ := normal_unique hn a1 a2 (le_refl _) (Nat.pow_lt_pow_right (by norm_num) (by omega)) (he.trans this)
    obtain rfl : e = e0 + 1 := by omega
    have e1 : x * 10 ^ ((n : Int) - 1 - e0) = x * 10 ^ ((n : Int) - 1 - (e0 + 1)) * 10 := by
      rw [mul_assoc, ← zpow_add_one₀ h10]; congr 2; ring
    have e2 : (m0 : ℚ) = m * 10 := by
      rw [h, h1]; push_cast; rw [← pow_succ]; congr 1; omega
    obtain ⟨c1, c2⟩ := hm.bounds
    rw [e1, e2] at c1 c2
    exact .of_lt (by linarith) (by linarith)

/-- The digits the library prints, seen at the place of the last digit of the binary value. -/
theorem significant_at {x q : ℚ} {even : Prop} (h : Chosen (RoundsTo x even) x q) {n M : Nat} {X e : Int}
    (hn : 1 ≤ n) (hs : Significant q n M X) (l : (10 : ℚ) ^ e ≤ x) (u : x < 10 ^ (e + 1)) :
    (M : ℚ) * 10 ^ (X - ((n : Int) - 1)) = halfUp q (n - 1 - e) * 10 ^ (e - ((n : Int) - 1)) := by
  have h10 : (10 : ℚ) ≠ 0 := by norm_num
  obtain ⟨-, -, x0, l0, u0, he⟩ := hs
  obtain ⟨s, i, hs, hq, hno⟩ := chosen_between h
  have pow : ∀ k : Int, i ≤ k → (10 : ℚ) ^ k = ((10 ^ (k - i).toNat : Nat) : ℚ) * 10 ^ i := by
    intro k hk
    push_cast
    rw [← zpow_natCast, ← zpow_add₀ h10]; congr 1; omega
  rcases lt_trichotomy x0 e with g | g | g
  · exfalso
    have a1 : q < 10 ^ e := u0.trans_le (zpow_le_zpow_right₀ (by norm_num) (by omega))
    have hi : i ≤ e := by
      by_contra hc
      have : (10 : ℚ) ^ e ≤ 10 ^ i := zpow_le_zpow_right₀ (by norm_num) (by omega)
      have : (1 : ℚ) ≤ s := by exact_mod_cast (by omega : 1 ≤ s)
      have : (10 : ℚ) ^ i ≤ q := by rw [hq]; exact le_mul_of_one_le_left (by positivity) this
      linarith
    refine hno _ (show 0 < 10 ^ (e - i).toNat by positivity) (.inr ?_)
    rw [← pow e hi]
    exact ⟨a1, l⟩
  · subst g; exact he
  · have a1 : (10 : ℚ) ^ (e + 1) ≤ q := le_trans (zpow_le_zpow_right₀ (by norm_num) (by omega)) l0
    have hi : i ≤ e + 1 := by
      by_contra hc
      have b1 : (10 : ℚ) ^ (e + 1) ≤ 10 ^ i := zpow_le_zpow_right₀ (by norm_num) (by omega)
      refine hno 1 one_pos (.inl ⟨by rw [Nat.cast_one, one_mul]; linarith, ?_⟩)
      have : (1 : ℚ) < s := by exact_mod_cast (by omega : 1 < s)
      rw [Nat.cast_one, hq]
      exact mul_lt_mul_of_pos_right this (by positivity)
    have a2 : q ≤ 10 ^ (e + 1) := by
      by_contra hc
      refine hno _ (show 0 < 10 ^ (e + 1 - i).toNat by positivity) (.inl ?_)
      rw [← pow _ hi]
      exact ⟨u.le, not_le.1 hc⟩
    obtain rfl : q = 10 ^ (e + 1) := le_antisymm a2 a1
    obtain rfl : x0 = e + 1 := decade_unique l0 u0 (le_refl _) (zpow_lt_zpow_right₀ (by norm_num) (by omega))
    have up : ∀ k : Nat, ∀ j : Int, e + 1 + j = k → halfUp ((10 : ℚ) ^ (e + 1)) j = 10 ^ k := by
      intro k j hj
      apply halfUp_of_bounds
      all_goals
        rw [← zpow_add₀ h10, hj, zpow_natCast]
        push_cast
        linarith
    rw [he, up (n - 1) _ (by omega), up n _ (by omega)]
    push_cast
    rw [← zpow_natCast, ← zpow_natCast, ← zpow_add₀ h10, ← zpow_add₀ h10]
    congr 1; omega

/-- The library's digits are the correct ones exactly if the roundings at that place agree. -/
theorem significant_iff {x q : ℚ} {even : Prop} (hx : 0 < x) (h : Chosen (RoundsTo x even) x q) {n M m : Nat}
    {X e e0 : Int} (hn : 1 ≤ n) (hs : Significant q n M X) (hc : CSignificant x n m e) (l : (10 : ℚ) ^ e0 ≤ x)
    (u : x < 10 ^ (e0 + 1)) :
    ((M : ℚ) * 10 ^ (X - ((n : Int) - 1)) = m * 10 ^ (e - ((n : Int) - 1)) ↔ ¬ Deviates x q (n - 1 - e0)) ∧
      ((M : ℚ) * 10 ^ (X - ((n : Int) - 1)) = m * 10 ^ (e - ((n : Int) - 1)) → M = m ∧ X = e) := by
  obtain ⟨c1, c2, e0', m0, l', u', hm, he⟩ := hc
  obtain rfl := decade_unique l u l' u'
  constructor
  · rw [significant_at h hn hs l u, he, ← deviates_iff hx h hm]
    have hp : (10 : ℚ) ^ (e0 - ((n : Int) - 1)) ≠ 0 := by positivity
    constructor
    · intro h; exact_mod_cast mul_right_cancel₀ hp h
    · intro h; rw [h]
  · intro h
    obtain ⟨h1, h2⟩ := normal_unique hn hs.1 hs.2.1 c1 c2 h
    exact ⟨h1, by omega⟩

end FastPrintf
