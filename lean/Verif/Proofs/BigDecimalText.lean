/-
What `BigDecimalWrapper` writes for `unscaled * 10^-scale`, and how `java.math.BigDecimal` rounds.
-/
import Verif.Model.BigDecimal
import Verif.Proofs.DecimalFormat
import Verif.Proofs.Library

namespace FastPrintf
open Spec SeqFormatter

/-- `u` has `n` decimal digits; zero has one. -/
structure Digits (u n : Nat) : Prop where
  pos : 1 ≤ n
  lt : u < 10 ^ n
  lead : 10 ^ (n - 1) ≤ u ∨ (u = 0 ∧ n = 1)

theorem Digits.toRadix (u : Nat) : Digits u (toRadix 10 u).length := by
  have hp : 0 < (FastPrintf.toRadix 10 u).length := List.length_pos_of_ne_nil (toRadix_ne_nil _ _)
  have hl := (toRadix_length_le (b := 10) (n := u) (by omega) (by omega) hp).1 le_rfl
  refine ⟨hp, hl, ?_⟩
  by_cases h1 : (FastPrintf.toRadix 10 u).length = 1
  · by_cases hu : u = 0
    · right; exact ⟨hu, h1⟩
    · left; rw [h1]; simp; omega
  · left
    by_contra hc
    have := (toRadix_length_le (b := 10) (n := u) (k := (FastPrintf.toRadix 10 u).length - 1) (by omega) (by omega) (by omega)).2 (by omega)
    omega

theorem Digits.length {u n : Nat} (h : Digits u n) : (FastPrintf.toRadix 10 u).length = n := by
  have h1 := Digits.toRadix u
  have a := (toRadix_length_le (b := 10) (n := u) (by omega) (by omega) h.pos).2 h.lt
  rcases h.lead with h2 | ⟨_, h2⟩
  · by_contra hc
    have h3 : (FastPrintf.toRadix 10 u).length ≤ n - 1 := by omega
    have := h1.lt
    have := Nat.pow_le_pow_right (n := 10) (by omega) h3
    omega
  · have := h1.pos; omega

theorem Digits.eq {u n : Nat} (h : Digits u n) : FastPrintf.toRadix 10 u = FormattedFPDecimal.digitsOf n u := by
  have hp := h.pos
  rcases h.lead with h2 | ⟨rfl, rfl⟩
  · obtain ⟨j, rfl⟩ : ∃ j, n = j + 1 := ⟨n - 1, by omega⟩
    exact FormattedFPDecimal.toRadix_eq_digitsOf (by simpa using h2) h.lt
  · decide

namespace BigDecimalWrapper
open FormattedFPDecimal BigDec

/-- The plain decimal text of `f * 10^e`. -/
def plainText (f : Nat) (e : Int) : JStr :=
  if 0 ≤ e then toRadix 10 (f * 10 ^ e.toNat)
  else toRadix 10 (f / 10 ^ (-e).toNat) ++ ch! '.' :: digitsOf (-e).toNat f

theorem plainText_eq {x : Dec} {f n : Nat} {e : Int} (h : x.Ok f n e) : plainChars x = .ok (plainText f e) := by
  unfold plainText
  by_cases he : 0 ≤ e
  · rw [if_pos he, plainChars_int h he]
  · rw [if_neg he, plainChars_frac h (m := (-e).toNat) (by omega) (by omega)]

theorem dec_ok {f n : Nat} (h : Digits f n) (hf : f ≠ 0) (e : Int) : Dec.Ok { f := f, e := e, n := n } f n e := by
  refine ⟨rfl, h.pos, h.lt, .inl ?_⟩
  rcases h.lead with h | ⟨h, _⟩
  · exact h
  · exact absurd h hf

theorem plainText_fixed {f : Nat} {e : Int} (hz : f ≠ 0 ∨ e ≤ 0) {p : Nat} (hp : 0 ≤ e + p) (alt : Bool) :
    FixedText (f * 10 ^ (e + p).toNat) p alt (fracText (plainText f e) p alt) := by
  by_cases hf : f = 0
  · subst hf
    have he : e ≤ 0 := by tauto
    unfold plainText
    by_cases h0 : e = 0
    · subst h0
      have w : Written (js! "0") (js! "0") [] := ⟨⟨by decide, by decide⟩, by simp, .inr ⟨rfl, rfl⟩⟩
      have := w.fixed (.inl rfl) (p := p) (by simp) (.inr rfl) alt
      simpa [valueIn, digitVal, show toRadix 10 0 = js! "0" by decide] using this
    · rw [if_neg (by omega)]
      have w : Written (toRadix 10 (0 / 10 ^ (-e).toNat) ++ ch! '.' :: digitsOf (-e).toNat 0) (js! "0") (digitsOf (-e).toNat 0) := by
        refine ⟨⟨by decide, by decide⟩, digitsOf_isDigit _ _, .inl ?_⟩
        rw [Nat.zero_div]; rfl
      have := w.fixed (.inl rfl) (p := p) (by simp; omega) (.inl (by omega)) alt
      rw [valueIn_append, valueIn_digitsOf] at this
      simpa [valueIn, digitVal] using this
  · obtain ⟨t, t1, t2⟩ := plainChars_fixed (dec_ok (Digits.toRadix f) hf e) hp alt
    rw [plainText_eq (dec_ok (Digits.toRadix f) hf e)] at t1
    cases t1; exact t2

theorem plainText_minimal {f : Nat} {e : Int} (hf : f ≠ 0) : MinimalText ((f : ℚ) * 10 ^ e) (stripText (plainText f e)) := by
  obtain ⟨t, t1, t2⟩ := plainChars_minimal (dec_ok (Digits.toRadix f) hf e)
  rw [plainText_eq (dec_ok (Digits.toRadix f) hf e)] at t1
  cases t1; exact t2

/-! ### The plain layout -/

theorem wrap32_id {x : Int} (h1 : -2147483648 ≤ x) (h2 : x ≤ 2147483647) : wrap32 x = x := by
  unfold wrap32
  exact Int.bmod_eq_of_le (by omega) (by omega)

theorem decimalLayout0_text {u n : Nat} {σ : Int} (hd : Digits u n) (h1 : -2147483647 ≤ σ - n)
    (h2 : σ ≤ 2147483647) :
    ∃ m, decimalLayout0 ⟨u, σ⟩ = .ok ⟨m, none⟩ ∧
      (u ≠ 0 ∨ 0 ≤ σ → m.text = plainText u (-σ)) ∧
      (u = 0 ∧ σ < 0 → m.text = List.replicate (1 + (-σ).toNat) 48) := by
  have hn := hd.length
  have hp := hd.pos
  unfold decimalLayout0
  simp only [digits, hn]
  by_cases h0 : σ = 0
  · subst h0
    exact ⟨_, rfl, fun _ => by simp [plainText, Seq.wrap_text], by omega⟩
  rw [if_neg h0, wrap32_id (x := σ - n) (by omega) (by omega)]
  by_cases hpad : σ - n ≥ 0
  · rw [if_pos hpad]
    have hσ : σ = ((σ.toNat : Nat) : Int) := by omega
    have hlt : u < 10 ^ σ.toNat := lt_of_lt_of_le hd.lt (Nat.pow_le_pow_right (by omega) (by omega))
    have key : plainText u (-σ) = js! "0." ++ (List.replicate (σ - n).toNat 48 ++ toRadix 10 u) := by
      unfold plainText
      rw [if_neg (by omega), neg_neg, Nat.div_eq_of_lt hlt, digitsOf_small hd.lt (by omega), hd.eq,
        show σ.toNat - n = (σ - n).toNat by omega]
      rfl
    by_cases hpos : σ - n > 0
    · obtain ⟨q, q1, q2, q3⟩ := Seq.repeated_ok (c := 48) (n := σ - n) (by omega)
      rw [if_pos hpos, q1]
      refine ⟨_, rfl, fun _ => ?_, by omega⟩
      rw [key, Seq.prepend_text (Seq.wrap_wf _).sane, Seq.prepend_text q2.sane, q3, Seq.wrap_text, Seq.wrap_text]
    · rw [if_neg hpos]
      refine ⟨_, rfl, fun _ => ?_, by omega⟩
      rw [key, Seq.prepend_text (Seq.wrap_wf _).sane, Seq.wrap_text, Seq.wrap_text,
        show (σ - n).toNat = 0 by omega]
      rfl
  · rw [if_neg hpad, wrap32_id (by omega) (by omega)]
    by_cases hmid : -(σ - n) < n
    · rw [if_pos hmid]
      obtain ⟨a, a1, a2, a3⟩ := Atomic.wrapRange_ok (s := toRadix 10 u) (i := 0) (j := -(σ - n)) (by omega)
      obtain ⟨b, b1, b2, b3⟩ := Atomic.wrapRange_ok (s := toRadix 10 u) (i := -(σ - n)) (j := n) (by omega)
      rw [a1, b1]
      refine ⟨_, rfl, fun _ => ?_, by omega⟩
      have hb : (Seq.atom b).Sane := Seq.WF.sane (s := .atom b) b2
      rw [Seq.append_text hb, Seq.append_text (Seq.ch_wf _).sane, Seq.ch_text]
      have ea : (Seq.atom a).text = a.text := rfl
      have eb : (Seq.atom b).text = b.text := rfl
      rw [ea, eb, a3, b3]
      obtain ⟨s, hs⟩ : ∃ s : Nat, σ = s := ⟨σ.toNat, by omega⟩
      obtain ⟨j, hj⟩ : ∃ j : Nat, n = (j + 1) + s := ⟨n - s - 1, by omega⟩
      have e1 : (-(σ - (n : Int))).toNat = j + 1 := by omega
      have hu : u ≠ 0 := by
        rintro rfl
        rcases hd.lead with h | ⟨_, h⟩
        · have : 0 < 10 ^ (n - 1) := by positivity
          omega
        · omega
      have hlead : 10 ^ (n - 1) ≤ u := by
        rcases hd.lead with h | ⟨h, _⟩
        · exact h
        · exact absurd h hu
      have e2 : toRadix 10 u = toRadix 10 (u / 10 ^ s) ++ digitsOf s u := by
        rw [hd.eq, hj, digitsOf_append]
        congr 1
        refine (toRadix_eq_digitsOf ?_ ?_).symm
        · rw [Nat.le_div_iff_mul_le (by positivity), ← pow_add]
          rwa [show j + s = n - 1 by omega]
        · rw [Nat.div_lt_iff_lt_mul (by positivity), ← pow_add, ← hj]; exact hd.lt
      have e3 : (toRadix 10 (u / 10 ^ s)).length = j + 1 := by
        have := congrArg List.length e2
        rw [hn, List.length_append, digitsOf_length] at this
        omega
      unfold plainText
      rw [if_neg (by omega), neg_neg, e1, Int.toNat_natCast, Int.toNat_zero, show σ.toNat = s by omega, e2]
      unfold Spec.sub
      rw [List.drop_zero, List.drop_append_of_le_length (by omega), ← e3, List.drop_length]
      simp [hj, e3]
    · rw [if_neg hmid, wrap32_id (by omega) (by omega)]
      obtain ⟨q, q1, q2, q3⟩ := Seq.repeated_ok (c := 48) (n := -σ) (by omega)
      rw [q1]
      refine ⟨_, rfl, fun h => ?_, fun h => ?_⟩
      · have hu : u ≠ 0 := by omega
        have hlead : 10 ^ (n - 1) ≤ u := by
          rcases hd.lead with h | ⟨h, _⟩
          · exact h
          · exact absurd h hu
        rw [Seq.append_text q2.sane, q3, Seq.wrap_text]
        unfold plainText
        rw [if_pos (by omega), hd.eq]
        obtain ⟨j, hj⟩ : ∃ j : Nat, n = j + 1 := ⟨n - 1, by omega⟩
        generalize (-σ).toNat = m
        rw [toRadix_eq_digitsOf (k := j + m), hj, show j + m + 1 = j + 1 + m by omega, digitsOf_mul]
        · rw [pow_add]; exact Nat.mul_le_mul_right _ (by rwa [hj] at hlead)
        · rw [show j + m + 1 = n + m by omega, pow_add]
          exact Nat.mul_lt_mul_of_pos_right hd.lt (by positivity)
      · rw [Seq.append_text q2.sane, q3, Seq.wrap_text, h.1, show toRadix 10 0 = List.replicate 1 48 by decide,
          List.replicate_append_replicate]

/-! ### Rounding -/

theorem divHalfUp_eq (u : Nat) {k : Nat} (hk : 0 < k) : divHalfUp u k = roundNat u (-(k : Int)) := by
  unfold divHalfUp roundNat
  rw [if_neg (by omega), neg_neg, Int.toNat_natCast]
  obtain ⟨j, rfl⟩ : ∃ j, k = j + 1 := ⟨k - 1, by omega⟩
  have h2 : 10 ^ (j + 1) = 2 * (10 ^ (j + 1) / 2) := by rw [pow_succ]; omega
  have e : 2 * u + 10 ^ (j + 1) = 2 * (u + 10 ^ (j + 1) / 2) := by omega
  rw [e, Nat.mul_div_mul_left _ _ (by omega)]

theorem divHalfUp_bounds {u n k : Nat} (h1 : 10 ^ (n - 1) ≤ u) (h2 : u < 10 ^ n) (hk : k < n) :
    10 ^ (n - k - 1) ≤ divHalfUp u k ∧ divHalfUp u k ≤ 10 ^ (n - k) := by
  unfold divHalfUp
  have hp : 0 < 2 * 10 ^ k := by positivity
  have hk1 : 0 < 10 ^ k := by positivity
  constructor
  · rw [Nat.le_div_iff_mul_le hp]
    have : 10 ^ (n - k - 1) * (2 * 10 ^ k) = 2 * 10 ^ (n - 1) := by
      rw [mul_left_comm, ← pow_add]; congr 2; omega
    omega
  · rw [← Nat.lt_succ_iff, Nat.div_lt_iff_lt_mul hp, Nat.succ_eq_add_one, Nat.add_mul, one_mul]
    have : 10 ^ (n - k) * (2 * 10 ^ k) = 2 * 10 ^ n := by
      rw [mul_left_comm, ← pow_add]; congr 2; omega
    omega

theorem precision_eq {u n : Nat} (hd : Digits u n) (σ : Int) : precision ⟨u, σ⟩ = n := hd.length

theorem checkScale_ok {s : Int} (h1 : -2147483648 ≤ s) (h2 : s ≤ 2147483647) : checkScale s = .ok s := by
  unfold checkScale
  have e1 : intMin = -2147483648 := rfl
  have e2 : intMax = 2147483647 := rfl
  rw [if_neg (by omega)]

/-- Rounding to `P` digits, fewer than there are. -/
theorem roundTo_ok {u n P : Nat} {σ : Int} (hd : Digits u n) (hP : 1 ≤ P) (hlt : P < n)
    (h1 : -2147483647 ≤ σ - n) (h2 : σ ≤ 2147483647) :
    ∃ u' k, roundTo P 2 ⟨u, σ⟩ = .ok ⟨u', σ - (n - P : Nat) - (k : Nat)⟩ ∧ k ≤ 1 ∧ Digits u' P ∧ u' ≠ 0 ∧
      u' * 10 ^ k = divHalfUp u (n - P) := by
  have hn := hd.length
  have hlead : 10 ^ (n - 1) ≤ u := by
    rcases hd.lead with h | ⟨_, h⟩
    · exact h
    · omega
  obtain ⟨b1, b2⟩ := divHalfUp_bounds hlead hd.lt (k := n - P) (by omega)
  rw [show n - (n - P) = P by omega] at b1 b2
  have hpp : 0 < 10 ^ (P - 1) := by positivity
  have step : roundTo P 2 ⟨u, σ⟩ = roundTo P 1 ⟨divHalfUp u (n - P), σ - (n - P : Nat)⟩ := by
    rw [roundTo, if_pos (by rw [precision_eq hd]; exact hlt), precision_eq hd]
    dsimp only
    rw [checkScale_ok (by omega) (by omega), bind_ok]
  rw [step, roundTo]
  by_cases hc : divHalfUp u (n - P) = 10 ^ P
  · have hd1 : Digits (10 ^ P) (P + 1) := ⟨by omega, Nat.pow_lt_pow_right (by omega) (by omega), .inl (by simp)⟩
    rw [hc, if_pos (by rw [precision_eq hd1]; omega), precision_eq hd1, show P + 1 - P = 1 by omega]
    dsimp only
    rw [checkScale_ok (by omega) (by omega), bind_ok]
    have e : divHalfUp (10 ^ P) 1 = 10 ^ (P - 1) := by
      obtain ⟨j, rfl⟩ : ∃ j, P = j + 1 := ⟨P - 1, by omega⟩
      unfold divHalfUp
      rw [pow_succ, Nat.add_sub_cancel]
      omega
    refine ⟨10 ^ (P - 1), 1, ?_, by omega, ⟨hP, Nat.pow_lt_pow_right (by omega) (by omega), .inl le_rfl⟩, by positivity, ?_⟩
    · rw [e]; rfl
    · rw [← pow_add]; congr 1; omega
  · have hd1 : Digits (divHalfUp u (n - P)) P := ⟨hP, by omega, .inl b1⟩
    rw [if_neg (by rw [precision_eq hd1]; omega)]
    exact ⟨_, 0, by simp, by omega, hd1, by omega, by simp⟩

/-- Rounding to at most `P` digits is rounding to `P` significant digits. -/
theorem withMathContext_ok {u n : Nat} {σ : Int} (hd : Digits u n) (hu : u ≠ 0) {P : Nat} (hP : 1 ≤ P)
    (h1 : -2147483646 ≤ σ - n) (h2 : σ ≤ 2147483647) {c : Int} (hc : c = min (P : Int) n) :
    ∃ u' n' σ', withMathContext c ⟨u, σ⟩ = .ok ⟨u', σ'⟩ ∧ Digits u' n' ∧ u' ≠ 0 ∧ n' = min P n ∧
      -2147483647 ≤ σ' - n' ∧ σ' ≤ σ ∧ (P ≥ n → u' = u ∧ σ' = σ) ∧ (n : Int) - σ ≤ n' - σ' ∧ (n' : Int) - σ' ≤ n - σ + 1 ∧
      Significant ((u : ℚ) * 10 ^ (-σ)) P (u' * 10 ^ (P - n')) (n' - σ' - 1) := by
  have h10 : (10 : ℚ) ≠ 0 := by norm_num
  have hp := hd.pos
  have hlead : 10 ^ (n - 1) ≤ u := by
    rcases hd.lead with h | ⟨h, _⟩
    · exact h
    · exact absurd h hu
  unfold withMathContext
  rw [if_neg (by omega), if_neg (by omega)]
  by_cases hlt : P < n
  · obtain ⟨u', k, r1, r2, r3, r4, r5⟩ := roundTo_ok (σ := σ) hd hP hlt (by omega) h2
    rw [show c.toNat = P by omega, r1]
    have hval : (u' : ℚ) * 10 ^ (-(σ - (n - P : Nat) - (k : Nat))) =
        roundNat u ((P : Int) - n) * 10 ^ ((n : Int) + (-σ) - P) := by
      rw [show (P : Int) - n = -((n - P : Nat) : Int) by omega, ← divHalfUp_eq u (by omega), ← r5]
      push_cast
      rw [mul_assoc, ← zpow_natCast, ← zpow_add₀ h10]
      congr 2; omega
    have s := significant_of hd.pos hlead hd.lt hP hP (by
      rcases r3.lead with h | ⟨h, _⟩
      · exact h
      · exact absurd h r4) r3.lt le_rfl hval
    refine ⟨u', P, _, rfl, r3, r4, by omega, by omega, by omega, by omega, by omega, by omega, ?_⟩
    rw [show (P : Int) - (σ - (n - P : Nat) - (k : Nat)) - 1 = P + -(σ - (n - P : Nat) - (k : Nat)) - 1 by omega]
    exact s
  · have hval : (u : ℚ) * 10 ^ (-σ) = roundNat u ((P : Int) - n) * 10 ^ ((n : Int) + (-σ) - P) := by
      unfold roundNat
      rw [if_pos (by omega)]
      push_cast
      rw [mul_assoc, ← zpow_natCast, ← zpow_add₀ h10]
      congr 2; omega
    have s := significant_of hd.pos hlead hd.lt hP hd.pos hlead hd.lt (by omega) hval
    have e : roundTo c.toNat 2 ⟨u, σ⟩ = .ok ⟨u, σ⟩ := by
      rw [roundTo, if_neg (by rw [precision_eq hd]; omega)]
    rw [e]
    refine ⟨u, n, σ, rfl, hd, hu, by omega, by omega, le_rfl, fun _ => ⟨rfl, rfl⟩, le_rfl, by omega, ?_⟩
    rw [show (n : Int) - σ - 1 = n + -σ - 1 by omega]
    exact s

/-! ### The scientific layout -/

theorem insertDot_ok {s : JStr} (h : 1 < s.length) :
    ∃ q, insertDotAfterFirstChar s = .ok q ∧ q.text = s.take 1 ++ 46 :: s.drop 1 := by
  unfold insertDotAfterFirstChar
  have hc := Atomic.charAtRaw_ok (s := s) (i := 0) (by omega)
  obtain ⟨a, a1, a2, a3⟩ := Atomic.wrapRange_ok (s := s) (i := 1) (j := s.length) (by omega)
  rw [hc, a1]
  refine ⟨_, rfl, ?_⟩
  have ha : (Seq.atom a).Sane := Seq.WF.sane (s := .atom a) a2
  have ea : (Seq.atom a).text = a.text := rfl
  rw [Seq.append_text ha, Seq.append_text (Seq.ch_wf _).sane, Seq.ch_text, Seq.ch_text, ea, a3]
  unfold Spec.sub
  rw [Int.toNat_natCast]
  cases s with
  | nil => simp at h
  | cons c t => simp

theorem exponentText_lt {x : Int} (h : x.natAbs < 10) :
    ExponentText x ((if x < 0 then 45 else 43) :: 48 :: toRadix 10 x.natAbs) := by
  refine ⟨toRadix 10 x.natAbs, ⟨toRadix_isNumeral (by omega) (by omega) _, toRadix_minimal (by omega) _,
    valueIn_toRadix (by omega) (by omega) _⟩, ?_⟩
  have h1 : (toRadix 10 x.natAbs).length = 1 := by
    apply Digits.length
    exact ⟨le_rfl, by omega, by simp; omega⟩
  rw [h1]; rfl

theorem exponentText_ge {x : Int} (h : 10 ≤ x.natAbs) :
    ExponentText x ((if x < 0 then 45 else 43) :: toRadix 10 x.natAbs) := by
  refine ⟨toRadix 10 x.natAbs, ⟨toRadix_isNumeral (by omega) (by omega) _, toRadix_minimal (by omega) _,
    valueIn_toRadix (by omega) (by omega) _⟩, ?_⟩
  have h1 : ¬ (toRadix 10 x.natAbs).length ≤ 1 := by
    rw [toRadix_length_le (by omega) (by omega) (by omega)]; omega
  rw [show 2 - (toRadix 10 x.natAbs).length = 0 by omega]; rfl

theorem exponentSeq_text (x : Int) : ExponentText x (exponentSeq x).text := by
  unfold exponentSeq
  by_cases h0 : x = 0
  · subst h0
    rw [if_neg (by omega), Seq.wrap_text]
    exact exponentText_lt (x := 0) (by omega)
  · rw [if_pos h0]
    dsimp only
    rw [Seq.append_text (Seq.wrap_wf _).sane, Seq.wrap_text]
    by_cases h1 : x.natAbs < 10
    · rw [if_pos h1, Seq.append_text (Seq.ch_wf _).sane, Seq.ch_text, Seq.ch_text]
      exact exponentText_lt h1
    · rw [if_neg h1, Seq.ch_text]
      exact exponentText_ge (by omega)

/-- The exponent the layout prints: with a scale of 0 and ten digits its zero is missing. -/
def PrintedExponent (n : Nat) (σ : Int) (s : JStr) : Prop :=
  if σ = 0 ∧ n = 10 then s = js! "+9" else ExponentText ((n : Int) - 1 - σ) s

theorem scientificLayout0_text {u n : Nat} {σ : Int} (hd : Digits u n) :
    ∃ m ex ip fp, scientificLayout0 ⟨u, σ⟩ = .ok ⟨m, some ex⟩ ∧ Written m.text ip fp ∧ NoExtraZero ip ∧
      fp.length = n - 1 ∧ valueIn 10 (ip ++ fp) = u ∧ m.text = ip ++ fraction false fp ∧
      PrintedExponent n σ ex.text := by
  have hn := hd.length
  have hp := hd.pos
  have hnum := toRadix_isNumeral (b := 10) (by omega) (by omega) u
  have hmin := toRadix_minimal (b := 10) (by omega) u
  have hval := valueIn_toRadix (b := 10) (by omega) (by omega) u
  -- the mantissa
  have mant1 : ∀ m : Seq, ¬ (toRadix 10 u).length > 1 → m.text = toRadix 10 u →
      Written m.text (toRadix 10 u) [] ∧ NoExtraZero (toRadix 10 u) ∧ ([] : JStr).length = n - 1 ∧
        valueIn 10 (toRadix 10 u ++ []) = u ∧ m.text = toRadix 10 u ++ fraction false [] := by
    intro m h hm
    refine ⟨⟨hnum, by simp, .inr ⟨hm, rfl⟩⟩, hmin, ?_, by rw [List.append_nil, hval], by rw [hm]; simp [fraction]⟩
    simp; omega
  have mant2 : ∀ m : Seq, (toRadix 10 u).length > 1 → m.text = (toRadix 10 u).take 1 ++ 46 :: (toRadix 10 u).drop 1 →
      Written m.text ((toRadix 10 u).take 1) ((toRadix 10 u).drop 1) ∧ NoExtraZero ((toRadix 10 u).take 1) ∧
        ((toRadix 10 u).drop 1).length = n - 1 ∧ valueIn 10 ((toRadix 10 u).take 1 ++ (toRadix 10 u).drop 1) = u ∧
        m.text = (toRadix 10 u).take 1 ++ fraction false ((toRadix 10 u).drop 1) := by
    intro m h hm
    have hne : (toRadix 10 u).drop 1 ≠ [] := by
      intro hc; have := congrArg List.length hc; simp at this; omega
    refine ⟨⟨⟨?_, fun c hc => hnum.2 c (List.mem_of_mem_take hc)⟩, fun c hc => hnum.2 c (List.mem_of_mem_drop hc), .inl hm⟩,
      ?_, by simp [hn], by rw [List.take_append_drop, hval], by rw [hm]; simp only [fraction, hne, false_and, if_false]⟩
    · cases ht : toRadix 10 u with
      | nil => rw [ht] at h; simp at h
      | cons c t => simp
    · rcases hmin with hm | hm
      · rw [hm] at h; simp at h
      · right
        rwa [List.head?_take, if_neg (by omega)]
  have he : scientificLayout0 ⟨u, σ⟩ = (
      if σ = 0 then
        if (toRadix 10 u).length > 1 then do
          let mant ← insertDotAfterFirstChar (toRadix 10 u)
          let n := toRadix 10 ((toRadix 10 u).length - 1)
          let exp := if (toRadix 10 u).length < 10 then Seq.wrap (js! "+0" ++ n) else Seq.wrap (js! "+" ++ n)
          return { mantissa := mant, exponent := some exp }
        else .ok { mantissa := Seq.wrap (toRadix 10 u), exponent := some (Seq.wrap (js! "+00")) }
      else do
        let mant ← if (toRadix 10 u).length > 1 then insertDotAfterFirstChar (toRadix 10 u)
          else pure (Seq.wrap (toRadix 10 u))
        return { mantissa := mant, exponent := some (exponentSeq (-σ + ((toRadix 10 u).length - 1))) }) := rfl
  rw [he]
  by_cases h0 : σ = 0
  · subst h0
    rw [if_pos rfl]
    by_cases h1 : (toRadix 10 u).length > 1
    · obtain ⟨q, q1, q2⟩ := insertDot_ok h1
      rw [if_pos h1, q1, bind_ok]
      obtain ⟨m1, m2, m3, m4, m5⟩ := mant2 q h1 q2
      refine ⟨_, _, _, _, rfl, m1, m2, m3, m4, m5, ?_⟩
      unfold PrintedExponent
      by_cases h10 : n = 10
      · rw [if_pos ⟨rfl, h10⟩, if_neg (by omega), Seq.wrap_text, hn, h10]; decide
      · rw [if_neg (by tauto), hn]
        by_cases hl : n < 10
        · rw [if_pos hl, Seq.wrap_text]
          have := exponentText_lt (x := (n : Int) - 1 - 0) (by omega)
          rw [if_neg (by omega), show ((n : Int) - 1 - 0).natAbs = n - 1 by omega] at this
          exact this
        · rw [if_neg hl, Seq.wrap_text]
          have := exponentText_ge (x := (n : Int) - 1 - 0) (by omega)
          rw [if_neg (by omega), show ((n : Int) - 1 - 0).natAbs = n - 1 by omega] at this
          exact this
    · rw [if_neg h1]
      obtain ⟨m1, m2, m3, m4, m5⟩ := mant1 _ h1 (Seq.wrap_text _)
      refine ⟨_, _, _, _, rfl, m1, m2, m3, m4, m5, ?_⟩
      unfold PrintedExponent
      rw [if_neg (by omega), Seq.wrap_text, show (n : Int) - 1 - 0 = 0 by omega]
      exact exponentText_lt (x := 0) (by omega)
  · rw [if_neg h0]
    have hex : PrintedExponent n σ (exponentSeq (-σ + (((toRadix 10 u).length : Int) - 1))).text := by
      unfold PrintedExponent
      rw [if_neg (by tauto), hn, show (n : Int) - 1 - σ = -σ + (n - 1) by omega]
      exact exponentSeq_text _
    by_cases h1 : (toRadix 10 u).length > 1
    · obtain ⟨q, q1, q2⟩ := insertDot_ok h1
      rw [if_pos h1, q1]
      obtain ⟨m1, m2, m3, m4, m5⟩ := mant2 q h1 q2
      exact ⟨_, _, _, _, rfl, m1, m2, m3, m4, m5, hex⟩
    · rw [if_neg h1]
      obtain ⟨m1, m2, m3, m4, m5⟩ := mant1 _ h1 (Seq.wrap_text _)
      exact ⟨_, _, _, _, rfl, m1, m2, m3, m4, m5, hex⟩

end BigDecimalWrapper
end FastPrintf
