/-
How long the texts of numbers are.
-/
import Verif.Proofs.DecimalUnique
import Verif.Spec.Hex

namespace FastPrintf.Spec

/-- A numeral without superfluous zeros is as long as its value needs. -/
theorem numeral_length {b : Nat} (hb : 2 ≤ b) {s : JStr} (h : IsNumeral b s) (hz : NoExtraZero s) {k : Nat}
    (hk : 1 ≤ k) (hv : valueIn b s < b ^ k) : s.length ≤ k := by
  rcases hz with rfl | hz
  · simpa using hk
  obtain ⟨h0, hd⟩ := h
  cases s with
  | nil => exact absurd rfl h0
  | cons c t =>
    have hc := hd c (by simp)
    have h1 : 1 ≤ digitVal c := by
      have hne : c ≠ 48 := by simpa using hz
      unfold digitVal
      rcases hc.1 with h | h <;> split_ifs <;> omega
    have h2 : b ^ t.length < b ^ k := by
      refine lt_of_le_of_lt ?_ hv
      simp only [valueIn]
      nlinarith [Nat.pow_pos (n := t.length) (show 0 < b by omega)]
    have := (Nat.pow_lt_pow_iff_right (show 1 < b by omega)).1 h2
    simpa using this

theorem shortest_length {b n : Nat} (hb : 2 ≤ b) {s : JStr} (h : Shortest b n s) {k : Nat} (hk : 1 ≤ k)
    (hn : n < b ^ k) : s.length ≤ k :=
  numeral_length hb h.1 h.2.1 hk (h.2.2 ▸ hn)

theorem whole_length {ip fp : JStr} (h : IsNumeral 10 ip) (hz : NoExtraZero ip) {k : Nat} (hk : 1 ≤ k)
    (hv : valueIn 10 (ip ++ fp) < 10 ^ (k + fp.length)) : ip.length ≤ k := by
  refine numeral_length (by norm_num) h hz hk ?_
  rw [valueIn_append, pow_add] at hv
  have hp : 0 < 10 ^ fp.length := by positivity
  by_contra hc
  push Not at hc
  nlinarith [Nat.mul_le_mul_right (10 ^ fp.length) hc]

theorem fraction_length (alt : Bool) (fp : JStr) : (fraction alt fp).length ≤ fp.length + 1 := by
  unfold fraction
  split_ifs <;> simp

theorem fixedText_length {m p : Nat} {alt : Bool} {s : JStr} (h : FixedText m p alt s) {k : Nat} (hk : 1 ≤ k)
    (hm : m < 10 ^ (k + p)) : s.length ≤ k + 1 + p := by
  obtain ⟨ip, fp, rfl, h1, h2, -, h4, h5⟩ := h
  have := whole_length h1 h2 hk (fp := fp) (by rw [h5, h4]; exact hm)
  have := fraction_length alt fp
  rw [List.length_append]
  omega

/-- The fraction of a minimal text has no more digits than the value has places. -/
theorem minimalText_length {v : ℚ} {s : JStr} (h : MinimalText v s) {N p k : Nat} (hv : v * 10 ^ p = N)
    (hk : 1 ≤ k) (hN : N < 10 ^ (k + p)) : s.length ≤ k + 1 + p := by
  obtain ⟨ip, fp, rfl, h1, h2, h3, h4, h5⟩ := h
  have hp : fp.length ≤ p := by
    by_contra hc
    obtain ⟨j, hj⟩ : ∃ j, fp.length = p + (j + 1) := ⟨fp.length - p - 1, by omega⟩
    have e : valueIn 10 (ip ++ fp) = N * 10 ^ (j + 1) := by
      have : (valueIn 10 (ip ++ fp) : ℚ) = N * 10 ^ (j + 1) := by rw [h5, hj, ← hv, pow_add]; ring
      exact_mod_cast this
    have hd : 10 ∣ valueIn 10 fp := by
      rw [valueIn_append, hj] at e
      have d1 : 10 ∣ valueIn 10 ip * 10 ^ (p + (j + 1)) := Dvd.dvd.mul_left (dvd_pow_self 10 (by omega)) _
      have d2 : 10 ∣ N * 10 ^ (j + 1) := Dvd.dvd.mul_left (dvd_pow_self 10 (by omega)) _
      rw [← e] at d2
      exact (Nat.dvd_add_right d1).1 d2
    have hne : fp ≠ [] := by rintro rfl; simp at hj
    exact h4 (last_zero hne h3 hd)
  have hw : valueIn 10 (ip ++ fp) < 10 ^ (k + fp.length) := by
    obtain ⟨j, rfl⟩ : ∃ j, p = fp.length + j := ⟨p - fp.length, by omega⟩
    have e : valueIn 10 (ip ++ fp) * 10 ^ j = N := by
      have : (valueIn 10 (ip ++ fp) : ℚ) * 10 ^ j = N := by rw [h5, ← hv, pow_add]; ring
      exact_mod_cast this
    rw [← e, ← add_assoc, pow_add 10 (k + fp.length)] at hN
    exact lt_of_mul_lt_mul_right hN (Nat.zero_le _)
  have := whole_length h1 h2 hk hw
  have := fraction_length false fp
  rw [List.length_append]
  omega

theorem exponentText_length {x : Int} {s : JStr} (h : ExponentText x s) (hx : |x| < 1000) : s.length ≤ 4 := by
  obtain ⟨ds, h1, rfl⟩ := h
  have := shortest_length (by norm_num) h1 (k := 3) (by norm_num) (by rw [abs_lt] at hx; omega)
  simp only [List.length_cons, List.length_append, List.length_replicate]
  omega

theorem signText_length (fl : Flags) (neg : Bool) : (signText fl neg).length ≤ 1 := by
  unfold signText
  split_ifs <;> simp

theorem padded_length (left : Bool) (w : Nat) (s : JStr) : (padded left w s).length = max w s.length := by
  unfold padded
  split_ifs <;> simp <;> omega

theorem cut_take (s : JStr) (p : Nat) : (s.take p).length ≤ p := by simp

theorem withPrecision_length (p : Option Nat) (z : Bool) (ds : JStr) :
    (withPrecision p z ds).length ≤ max (p.getD 1) ds.length := by
  unfold withPrecision
  split_ifs
  · simp
  · simp; omega

theorem alternative_length (c : UConv) (alt : Bool) (v : Nat) (ds : JStr) :
    (alternative c alt v ds).1.length + (alternative c alt v ds).2.length ≤ ds.length + 2 := by
  cases c with
  | u => simp [alternative]
  | o => simp only [alternative]; split_ifs <;> simp
  | x => simp only [alternative]; split_ifs <;> simp <;> omega

end FastPrintf.Spec
