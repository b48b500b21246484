/-
How the text transformations of `SeqFormatter` (padding to a precision, stripping zeros) act on decimal
texts.
-/
import Verif.Proofs.Conversions
import Verif.Proofs.Digits
import Verif.Spec.Decimal
import Mathlib.Tactic.Ring
import Mathlib.Tactic.FieldSimp

namespace FastPrintf
open Spec SeqFormatter

theorem Spec.IsDigitIn.ne_dot {c : JChar} (h : IsDigitIn 10 c) : c ≠ 46 := by
  rintro rfl; revert h; unfold IsDigitIn; decide

theorem isDigit_zero : IsDigitIn 10 48 := by unfold IsDigitIn; decide

/-- `t` is written as `ip` or `ip.fp`. -/
structure Written (t ip fp : JStr) : Prop where
  int : IsNumeral 10 ip
  digits : ∀ c ∈ fp, IsDigitIn 10 c
  eq : t = ip ++ 46 :: fp ∨ (t = ip ∧ fp = [])

theorem Written.no_dot {t ip fp : JStr} (h : Written t ip fp) : 46 ∉ ip :=
  fun hc => (h.int.2 _ hc).ne_dot rfl

theorem firstIndex_dot {ip fp : JStr} (h : 46 ∉ ip) : firstIndex (ip ++ 46 :: fp) 46 = ip.length := by
  induction ip with
  | nil => simp [firstIndex]
  | cons a t ih =>
    simp only [List.mem_cons, not_or] at h
    rw [List.cons_append, firstIndex, if_neg (fun hc => h.1 hc.symm), ih h.2]
    simp only [List.length_cons]
    rw [if_neg (by omega)]
    push_cast; omega

theorem fracText_point {ip fp : JStr} (h : 46 ∉ ip) (p : Nat) (alt : Bool) :
    fracText (ip ++ 46 :: fp) p alt = ip ++ 46 :: (fp ++ List.replicate (p - fp.length) 48) := by
  unfold fracText
  rw [if_pos (by simp), firstIndex_dot h]
  have : (((ip ++ 46 :: fp).length : Int) - (ip.length + 1)).toNat = fp.length := by
    simp only [List.length_append, List.length_cons]; push_cast; omega
  rw [this]; simp

theorem fracText_none {ip : JStr} (h : 46 ∉ ip) (p : Nat) (alt : Bool) :
    fracText ip p alt = ip ++ fraction alt (List.replicate p 48) := by
  unfold fracText fraction
  rw [if_neg h]
  by_cases hp : p = 0
  · subst hp; cases alt <;> simp
  · rw [if_neg hp, if_neg (by simp [hp])]; simp

theorem digits_append_zeros {fp : JStr} (h : ∀ c ∈ fp, IsDigitIn 10 c) (k : Nat) :
    ∀ c ∈ fp ++ List.replicate k 48, IsDigitIn 10 c := by
  intro c hc
  rcases List.mem_append.1 hc with hc | hc
  · exact h c hc
  · rw [(List.mem_replicate.1 hc).2]; exact isDigit_zero

theorem valueIn_zeros (s : JStr) (k : Nat) :
    valueIn 10 (s ++ List.replicate k 48) = valueIn 10 s * 10 ^ k := by
  rw [valueIn_append, valueIn_replicate_zero, List.length_replicate]; rfl

theorem fixed_point {ip fp : JStr} (h : IsNumeral 10 ip) (hz : NoExtraZero ip)
    (hd : ∀ c ∈ fp, IsDigitIn 10 c) (k : Nat) (alt : Bool) (ha : fp.length + k = 0 → alt = true) :
    FixedText (valueIn 10 (ip ++ fp) * 10 ^ k) (fp.length + k) alt
      (ip ++ 46 :: (fp ++ List.replicate k 48)) := by
  refine ⟨ip, fp ++ List.replicate k 48, ?_, h, hz, digits_append_zeros hd k, by simp, ?_⟩
  · unfold fraction
    rw [if_neg]
    rintro ⟨h1, h2⟩
    have := congrArg List.length h1
    simp only [List.length_append, List.length_replicate, List.length_nil] at this
    rw [ha this] at h2; cases h2
  · rw [← List.append_assoc, valueIn_zeros]

/-- **Padding to `p` places.** -/
theorem Written.fixed {t ip fp : JStr} (h : Written t ip fp) (hz : NoExtraZero ip) {p : Nat}
    (hp : fp.length ≤ p) (hp0 : p ≠ 0 ∨ t = ip) (alt : Bool) :
    FixedText (valueIn 10 (ip ++ fp) * 10 ^ (p - fp.length)) p alt (fracText t p alt) := by
  rcases h.eq with rfl | ⟨rfl, rfl⟩
  · rw [fracText_point h.no_dot]
    have hp0' : p ≠ 0 := by
      rcases hp0 with h | h
      · exact h
      · have := congrArg List.length h; simp at this
    have := fixed_point h.int hz h.digits (p - fp.length) alt (by omega)
    rwa [show fp.length + (p - fp.length) = p by omega] at this
  · rw [fracText_none h.no_dot]
    refine ⟨t, List.replicate p 48, rfl, h.int, hz, ?_, by simp, ?_⟩
    · intro c hc; rw [(List.mem_replicate.1 hc).2]; exact isDigit_zero
    · rw [valueIn_zeros]; simp

/-! ### Stripping zeros -/

theorem dropTrailing_eq (c : JChar) (t : JStr) :
    ∃ k, t = dropTrailing c t ++ List.replicate k c ∧ (dropTrailing c t).getLast? ≠ some c := by
  induction t using List.reverseRecOn with
  | nil => exact ⟨0, by simp [dropTrailing], by simp [dropTrailing]⟩
  | append_singleton t a ih =>
    by_cases h : a = c
    · subst h
      obtain ⟨k, h1, h2⟩ := ih
      refine ⟨k + 1, ?_, by rwa [dropTrailing_snoc_same]⟩
      rw [dropTrailing_snoc_same, List.replicate_succ', ← List.append_assoc, ← h1]
    · exact ⟨0, by rw [dropTrailing_snoc_ne h]; simp, by rw [dropTrailing_snoc_ne h]; simpa using h⟩

theorem dropTrailing_append {c x : JChar} (h : x ≠ c) (s t : JStr) :
    dropTrailing c (s ++ x :: t) = s ++ x :: dropTrailing c t := by
  induction t using List.reverseRecOn with
  | nil => rw [dropTrailing_snoc_ne h]; simp [dropTrailing]
  | append_singleton t a ih =>
    rw [show s ++ x :: (t ++ [a]) = (s ++ x :: t) ++ [a] by simp]
    by_cases ha : a = c
    · subst ha; rw [dropTrailing_snoc_same, dropTrailing_snoc_same, ih]
    · rw [dropTrailing_snoc_ne ha, dropTrailing_snoc_ne ha]; simp

theorem stripText_point {ip fp : JStr} (h : 46 ∉ ip) :
    stripText (ip ++ 46 :: fp) = ip ++ fraction false (dropTrailing 48 fp) := by
  unfold stripText fraction
  rw [if_pos (by simp), firstIndex_dot h, dropTrailing_append (by decide)]
  by_cases hd : dropTrailing 48 fp = []
  · rw [hd, if_pos (by simp), if_pos (by simp)]
    simp
  · rw [if_neg, if_neg (by simp [hd])]
    simp only [List.length_append, List.length_cons]
    have : 0 < (dropTrailing 48 fp).length := List.length_pos_of_ne_nil hd
    push_cast; omega

/-- **Stripping the zeros of the fraction.** -/
theorem Written.minimal {t ip fp : JStr} (h : Written t ip fp) (hz : NoExtraZero ip) {v : ℚ}
    (hv : (valueIn 10 (ip ++ fp) : ℚ) = v * 10 ^ fp.length) : MinimalText v (stripText t) := by
  rcases h.eq with rfl | ⟨rfl, rfl⟩
  · obtain ⟨k, h1, h2⟩ := dropTrailing_eq 48 fp
    rw [stripText_point h.no_dot]
    refine ⟨ip, dropTrailing 48 fp, rfl, h.int, hz, ?_, h2, ?_⟩
    · intro c hc; apply h.digits; rw [h1]; exact List.mem_append_left _ hc
    · have e : valueIn 10 (ip ++ fp) = valueIn 10 (ip ++ dropTrailing 48 fp) * 10 ^ k := by
        rw [← valueIn_zeros, List.append_assoc, ← h1]
      have el : fp.length = (dropTrailing 48 fp).length + k := by
        have := congrArg List.length h1; simpa using this
      rw [e, el, pow_add] at hv
      push_cast at hv
      have hk : (10 : ℚ) ^ k ≠ 0 := by positivity
      apply mul_right_cancel₀ hk
      rw [hv]; ring
  · refine ⟨t, [], ?_, h.int, hz, by simp, by simp, by simpa using hv⟩
    unfold stripText
    rw [if_neg h.no_dot]; simp [fraction]

/-! ### Counting significant digits -/

theorem countFrom_true {t : JStr} (h : 46 ∉ t) : countFrom t true = t.length := by
  induction t with
  | nil => rfl
  | cons c t ih =>
    simp only [List.mem_cons, not_or] at h
    have : (c != 46) = true := by simpa using fun hc => h.1 hc.symm
    simp only [countFrom, Bool.true_or, this, Bool.and_self, if_true, ih h.2, List.length_cons]
    omega

theorem countFrom_append_true {s : JStr} (h : 46 ∉ s) (t : JStr) :
    countFrom (s ++ t) true = s.length + countFrom t true := by
  induction s with
  | nil => simp
  | cons c s ih =>
    simp only [List.mem_cons, not_or] at h
    have : (c != 46) = true := by simpa using fun hc => h.1 hc.symm
    simp only [List.cons_append, countFrom, Bool.true_or, this, Bool.and_self, if_true, ih h.2,
      List.length_cons]
    omega

theorem countFrom_dot (t : JStr) (seen : Bool) : countFrom (46 :: t) seen = countFrom t seen := by
  cases seen <;> simp [countFrom]

theorem countFrom_zeros (k : Nat) (t : JStr) :
    countFrom (List.replicate k 48 ++ t) false = countFrom t false := by
  induction k with
  | zero => rfl
  | succ k ih => rw [List.replicate_succ, List.cons_append]; simp [countFrom, ih]

theorem countFrom_lead {c : JChar} (h1 : 49 ≤ c) (h2 : c ≤ 57) (t : JStr) :
    countFrom (c :: t) false = 1 + countFrom t true := by
  have : (c != 46) = true := by simp; omega
  simp [countFrom, h1, h2, this]

theorem sigDigits_pos {t : JStr} (h : 0 < countFrom t false) : sigDigits t = countFrom t false := by
  unfold sigDigits
  rw [if_pos]
  by_contra hc
  rw [countFrom_zero (by simpa using hc)] at h
  omega

end FastPrintf
