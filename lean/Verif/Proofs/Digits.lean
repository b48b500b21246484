/-
The JDK's positional rendering, as modelled by `toRadix`, against the reading of numerals.
-/
import Mathlib.Data.Nat.Digits.Lemmas
import Verif.Model.Digits
import Verif.Spec.Numeral

namespace FastPrintf
open Spec

theorem digitVal_digitChar {d : Nat} (h : d < 16) : digitVal (digitChar d) = d := by
  unfold digitVal digitChar
  split_ifs <;> omega

theorem isDigitIn_digitChar {b d : Nat} (hb : b ≤ 16) (h : d < b) : IsDigitIn b (digitChar d) := by
  refine ⟨?_, by rw [digitVal_digitChar (by omega)]; exact h⟩
  unfold digitChar
  split_ifs <;> omega

theorem digitChar_eq_zero {d : Nat} : digitChar d = 48 ↔ d = 0 := by
  unfold digitChar
  split_ifs <;> omega

theorem digitChar_digitVal {b c : Nat} (h : IsDigitIn b c) : digitChar (digitVal c) = c := by
  unfold IsDigitIn digitVal at h
  unfold digitChar digitVal
  split_ifs at h ⊢ <;> omega

theorem valueIn_append (b : Nat) (s t : JStr) :
    valueIn b (s ++ t) = valueIn b s * b ^ t.length + valueIn b t := by
  induction s with
  | nil => simp [valueIn]
  | cons c s ih => simp only [List.cons_append, valueIn, ih, List.length_append, pow_add]; ring

theorem valueIn_replicate_zero (b n : Nat) : valueIn b (List.replicate n 48) = 0 := by
  induction n with
  | zero => rfl
  | succ n ih => simp [List.replicate_succ, valueIn, ih, digitVal]

theorem valueIn_map_reverse (b : Nat) (ds : List Nat) (h : ∀ d ∈ ds, d < 16) :
    valueIn b (ds.reverse.map digitChar) = Nat.ofDigits b ds := by
  induction ds with
  | nil => rfl
  | cons d ds ih =>
    rw [List.reverse_cons, List.map_append, valueIn_append, ih (fun x hx => h x (by simp [hx])),
      Nat.ofDigits_cons]
    simp [valueIn, digitVal_digitChar (h d (by simp))]
    ring

theorem valueIn_toRadix {b : Nat} (h2 : 2 ≤ b) (h16 : b ≤ 16) (n : Nat) :
    valueIn b (toRadix b n) = n := by
  unfold toRadix
  split_ifs with h
  · simp [h, valueIn, digitVal]
  · rw [valueIn_map_reverse _ _ (fun d hd => by
      have := Nat.digits_lt_base (b := b) (m := n) (by omega) hd; omega), Nat.ofDigits_digits]

theorem toRadix_isNumeral {b : Nat} (h2 : 2 ≤ b) (h16 : b ≤ 16) (n : Nat) :
    IsNumeral b (toRadix b n) := by
  unfold toRadix
  split_ifs with h
  · refine ⟨by simp, ?_⟩
    intro c hc
    simp at hc
    subst hc
    exact ⟨by omega, by simp [digitVal]; omega⟩
  · refine ⟨by simpa [Nat.digits_ne_nil_iff_ne_zero] using (Nat.digits_ne_nil_iff_ne_zero (b := b)).2 h, ?_⟩
    intro c hc
    simp only [List.mem_map, List.mem_reverse] at hc
    obtain ⟨d, hd, rfl⟩ := hc
    exact isDigitIn_digitChar h16 (Nat.digits_lt_base (by omega) hd)

theorem toRadix_minimal {b : Nat} (_h2 : 2 ≤ b) (n : Nat) : NoExtraZero (toRadix b n) := by
  unfold toRadix NoExtraZero
  split_ifs with h
  · left; rfl
  · right
    have hne : Nat.digits b n ≠ [] := Nat.digits_ne_nil_iff_ne_zero.2 h
    rw [List.head?_map, List.head?_reverse, List.getLast?_eq_some_getLast hne]
    simp only [Option.map_some, ne_eq, Option.some.injEq, digitChar_eq_zero]
    exact Nat.getLast_digit_ne_zero b h

theorem toRadix_ne_nil (b n : Nat) : toRadix b n ≠ [] := by
  unfold toRadix
  split_ifs with h
  · simp
  · simpa using (Nat.digits_ne_nil_iff_ne_zero (b := b)).2 h

theorem toRadix_head_ne {b : Nat} (h2 : 2 ≤ b) {n : Nat} (hn : n ≠ 0) :
    (toRadix b n).head? ≠ some 48 := by
  rcases toRadix_minimal h2 n with h | h
  · unfold toRadix at h
    rw [if_neg hn] at h
    exfalso
    have := congrArg List.head? h
    have hne : Nat.digits b n ≠ [] := Nat.digits_ne_nil_iff_ne_zero.2 hn
    rw [List.head?_map, List.head?_reverse, List.getLast?_eq_some_getLast hne] at this
    simp only [Option.map_some, List.head?_cons, Option.some.injEq, digitChar_eq_zero] at this
    exact Nat.getLast_digit_ne_zero b hn this
  · exact h

theorem valueIn_lt {b : Nat} (hb : 1 ≤ b) (s : JStr) (h : ∀ c ∈ s, digitVal c < b) :
    valueIn b s < b ^ s.length := by
  induction s with
  | nil => simp [valueIn]
  | cons c s ih =>
    have h1 := ih (fun x hx => h x (by simp [hx]))
    have h2 := h c (by simp)
    simp only [valueIn, List.length_cons, pow_succ]
    have hp : 0 < b ^ s.length := Nat.pow_pos hb
    nlinarith

/-- Two numerals of the same length with the same value are the same text. -/
theorem valueIn_inj_length {b : Nat} (hb : 1 ≤ b) {s t : JStr} (hs : ∀ c ∈ s, IsDigitIn b c)
    (ht : ∀ c ∈ t, IsDigitIn b c) (hl : s.length = t.length) (h : valueIn b s = valueIn b t) :
    s = t := by
  induction s generalizing t with
  | nil => cases t with
    | nil => rfl
    | cons => simp at hl
  | cons c s ih =>
    cases t with
    | nil => simp at hl
    | cons d t =>
      simp only [List.length_cons, Nat.add_right_cancel_iff] at hl
      simp only [valueIn, hl] at h
      have h1 := valueIn_lt hb s (fun x hx => (hs x (by simp [hx])).2)
      have h2 := valueIn_lt hb t (fun x hx => (ht x (by simp [hx])).2)
      rw [hl] at h1
      have hp : 0 < b ^ t.length := Nat.pow_pos hb
      have e1 : digitVal c = digitVal d := by
        have a1 := Nat.div_eq_of_lt h1
        have a2 := Nat.div_eq_of_lt h2
        have := congrArg (· / b ^ t.length) h
        simp only [Nat.add_comm (digitVal _ * _)] at this
        rw [Nat.add_mul_div_right _ _ hp, Nat.add_mul_div_right _ _ hp, a1, a2] at this
        omega
      have e2 : valueIn b s = valueIn b t := by rw [e1] at h; omega
      rw [ih (fun x hx => hs x (by simp [hx])) (fun x hx => ht x (by simp [hx])) hl e2]
      rw [← digitChar_digitVal (hs c (by simp)), e1, digitChar_digitVal (ht d (by simp))]

/-- The minimal numeral of a number is unique: any digit string without superfluous zero is what
`toRadix` prints for its value. -/
theorem toRadix_unique {b : Nat} (h2 : 2 ≤ b) (h16 : b ≤ 16) {s : JStr} (hs : IsNumeral b s)
    (hm : NoExtraZero s) : toRadix b (valueIn b s) = s := by
  have low : ∀ {t : JStr}, IsNumeral b t → t.head? ≠ some 48 →
      b ^ (t.length - 1) ≤ valueIn b t := by
    intro t ht hz
    cases t with
    | nil => exact absurd rfl ht.1
    | cons c t =>
      simp only [List.length_cons, Nat.add_sub_cancel, valueIn]
      have : digitVal c ≠ 0 := by
        intro h0
        have := digitChar_digitVal (ht.2 c (by simp))
        rw [h0] at this
        exact hz (by rw [← this]; rfl)
      have : 1 ≤ digitVal c := by omega
      nlinarith [Nat.pow_pos (n := t.length) (show 0 < b by omega)]
  rcases hm with rfl | hz
  · rfl
  have hpos : valueIn b s ≠ 0 := by
    have := low hs hz
    have := Nat.pow_pos (n := s.length - 1) (show 0 < b by omega)
    omega
  have hr := toRadix_isNumeral h2 h16 (valueIn b s)
  have hrz := toRadix_head_ne h2 hpos
  have hv := valueIn_toRadix h2 h16 (valueIn b s)
  refine valueIn_inj_length (by omega) hr.2 hs.2 ?_ hv
  have a1 := low hs hz
  have a2 := low hr hrz
  have a3 := valueIn_lt (by omega) s (fun x hx => (hs.2 x hx).2)
  have a4 := valueIn_lt (by omega) _ (fun x hx => (hr.2 x hx).2)
  rw [hv] at a2 a4
  have l1 := (Nat.pow_lt_pow_iff_right (by omega : 1 < b)).1 (lt_of_le_of_lt a1 a4)
  have l2 := (Nat.pow_lt_pow_iff_right (by omega : 1 < b)).1 (lt_of_le_of_lt a2 a3)
  have : s.length ≠ 0 := by simpa using hs.1
  have : (toRadix b (valueIn b s)).length ≠ 0 := by simpa using hr.1
  omega

theorem toRadix_inj {b : Nat} (h2 : 2 ≤ b) (h16 : b ≤ 16) {m n : Nat}
    (h : toRadix b m = toRadix b n) : m = n := by
  have := congrArg (valueIn b) h
  rwa [valueIn_toRadix h2 h16, valueIn_toRadix h2 h16] at this

theorem toRadix_length_le {b : Nat} (h2 : 2 ≤ b) (h16 : b ≤ 16) {n k : Nat} (hk : 0 < k) :
    (toRadix b n).length ≤ k ↔ n < b ^ k := by
  have hr := toRadix_isNumeral h2 h16 n
  have a4 := valueIn_lt (by omega) _ (fun x hx => (hr.2 x hx).2)
  rw [valueIn_toRadix h2 h16] at a4
  constructor
  · intro h
    exact lt_of_lt_of_le a4 (Nat.pow_le_pow_right (by omega) h)
  · intro h
    unfold toRadix
    split_ifs with h0
    · simp; omega
    · simp only [List.length_map, List.length_reverse]
      exact (Nat.digits_length_le_iff (by omega) n).2 h

end FastPrintf
