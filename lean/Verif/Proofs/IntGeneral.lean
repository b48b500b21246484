/-
The layouts `%g` starts from are short: no longer than the number's digits and the precision.
-/
import Verif.Proofs.IntForms
import Verif.Proofs.DoubleFormat
import Verif.Proofs.BigDecimalFormat

namespace FastPrintf
namespace Narrow

open FastPrintf.Seq BigDec Spec FormattedFPDecimal
open FastPrintf.BigDecimalWrapper (plainText plainText_eq divHalfUp_le divHalfUp_eq wrap32_id geTenPow_iff geTenPow_zero
  decimalLayout_text)

theorem plainText_length {f n : Nat} {e : Int} (hf : f < 10 ^ n) (hn : 1 ≤ n) :
    ((plainText f e).length : Int) ≤ max 1 (n + e) + 1 + max 0 (-e) := by
  unfold plainText
  by_cases he : 0 ≤ e
  · rw [if_pos he]
    have : (toRadix 10 (f * 10 ^ e.toNat)).length ≤ n + e.toNat := by
      rw [toRadix_length_le (by omega) (by omega) (by omega), pow_add]
      exact Nat.mul_lt_mul_of_pos_right hf (by positivity)
    omega
  · rw [if_neg he]
    have : (toRadix 10 (f / 10 ^ (-e).toNat)).length ≤ (max 1 ((n : Int) + e)).toNat := by
      rw [toRadix_length_le (by omega) (by omega) (by omega), Nat.div_lt_iff_lt_mul (by positivity), ← pow_add]
      exact lt_of_lt_of_le hf (Nat.pow_le_pow_right (by omega) (by omega))
    simp only [List.length_append, List.length_cons, digitsOf_length]
    omega

theorem setAt_length {a b : JStr} {i : Int} {c : JChar} (h : setAt a i c = .ok b) : b.length = a.length := by
  unfold setAt at h
  split_ifs at h
  cases h; simp

theorem scientificChars_length {x : Dec} {f n : Nat} {e : Int} (h : x.Ok f n e) {p : Int} {t s : JStr}
    (hs : scientificChars x p = .ok (t, s)) : t.length ≤ n + 1 := by
  have hpos := h.pos
  unfold scientificChars at hs
  split_ifs at hs
  · rw [scientificCharsWithFraction_ok h] at hs
    simp only [bind_ok] at hs
    obtain ⟨ex, _, hs⟩ := bind_eq_ok.1 hs
    cases hs
    simp; omega
  · obtain ⟨m, hm, hs⟩ := bind_eq_ok.1 hs
    obtain ⟨ex, _, hs⟩ := bind_eq_ok.1 hs
    cases hs
    unfold scientificCharsNoFraction at hm
    obtain ⟨a, ha, hm⟩ := bind_eq_ok.1 hm
    rw [setAt_length hm]
    have : newArray 1 = .ok [0] := by decide
    rw [this] at ha; cases ha; simp

theorem double_general_short {bits : BitVec 64} (hf : finite bits) {P : Nat} (hP : 1 ≤ P) (hP2 : P ≤ 65536)
    {l : FloatLayout} (h : DoubleWrapper.generalLayout bits P = .ok l) : l.mantissa.length ≤ 200000 := by
  by_cases h0 : magnitude bits = 0
  · unfold DoubleWrapper.generalLayout at h
    rw [if_pos ((magnitude_zero_iff bits).1 h0)] at h
    cases h
    show (1 : Int) ≤ 200000
    omega
  · unfold DoubleWrapper.generalLayout at h
    rw [if_neg (fun h => h0 ((magnitude_zero_iff bits).2 h))] at h
    obtain ⟨x, f, n, e, h1, h2, h3, h4⟩ := ofBits_nonzero hf h0
    rw [h1, bind_ok] at h
    obtain ⟨⟨m, ex⟩, hg, h⟩ := bind_eq_ok.1 h
    cases h
    have hl := (DoubleWrapper.toSeq_wf m).length_text
    rw [DoubleWrapper.toSeq_text] at hl
    show (DoubleWrapper.toSeq m).length ≤ _
    rw [hl]
    obtain ⟨x', f', n', e', r1, r2, r3, r4, r5, r6, r7⟩ := round_significant h2 hP
    have h17 := h2.le
    have her : exponentRounded x' = n' + e' - 1 := by rw [r2.eq]; rfl
    unfold general at hg
    rw [r1, bind_ok] at hg
    simp only [her] at hg
    split_ifs at hg
    · rw [plainText_eq r2, bind_ok] at hg
      cases hg
      have := plainText_length (e := e') r2.lt r2.pos
      omega
    · obtain ⟨⟨t, s⟩, hs, hg⟩ := bind_eq_ok.1 hg
      cases hg
      have := scientificChars_length r2 hs
      dsimp only
      omega

theorem roundTo_le {p : Nat} : ∀ (fuel : Nat) {v v' : BigDec}, roundTo p fuel v = .ok v' → v'.unscaled ≤ v.unscaled
  | 0, v, v', h => by cases h; exact le_rfl
  | fuel + 1, v, v', h => by
    unfold roundTo at h
    split_ifs at h with hc
    · obtain ⟨s, h1, h⟩ := bind_eq_ok.1 h
      exact (roundTo_le fuel h).trans (divHalfUp_le _ (by omega))
    · cases h; exact le_rfl

theorem context_le {p : Int} {v v' : BigDec} (h : withMathContext p v = .ok v') : v'.unscaled ≤ v.unscaled := by
  unfold withMathContext at h
  split_ifs at h
  · cases h; exact le_rfl
  · exact roundTo_le 2 h

theorem digits_mono {v v' : BigDec} (h : v'.unscaled ≤ v.unscaled) : v'.digits.length ≤ v.digits.length := by
  have hd := Digits.toRadix v.unscaled
  unfold digits
  rw [toRadix_length_le (by omega) (by omega) hd.pos]
  exact lt_of_le_of_lt h hd.lt

theorem wrap_length (t : JStr) : (Seq.wrap t).length = t.length := by
  have := (wrap_wf t).length_text
  rwa [wrap_text] at this

theorem scientific0_short {v : BigDec} {l : FloatLayout} (h : BigDecimalWrapper.scientificLayout0 v = .ok l) :
    l.mantissa.length ≤ v.digits.length + 1 := by
  unfold BigDecimalWrapper.scientificLayout0 at h
  by_cases h0 : v.scale = 0
  · simp only [if_pos h0] at h
    by_cases h1 : v.digits.length > 1
    · rw [if_pos h1] at h
      obtain ⟨m, hm, h⟩ := bind_eq_ok.1 h
      cases h
      exact (insertDot_length hm).le
    · rw [if_neg h1] at h
      cases h
      dsimp only
      rw [wrap_length]; omega
  · simp only [if_neg h0] at h
    by_cases h1 : v.digits.length > 1
    · rw [if_pos h1] at h
      obtain ⟨m, hm, h⟩ := bind_eq_ok.1 h
      cases h
      exact (insertDot_length hm).le
    · rw [if_neg h1] at h
      cases h
      dsimp only
      rw [wrap_length]; omega

theorem bigDecimal_general_short {u : Nat} {σ : Int} {P : Nat} (hP : 1 ≤ P)
    (hP2 : P ≤ 65536) (hn : (toRadix 10 u).length ≤ 2147000000) {l : FloatLayout}
    (h : BigDecimalWrapper.generalLayout ⟨u, σ⟩ P = .ok l) : l.mantissa.length ≤ 2147483647 := by
  unfold BigDecimalWrapper.generalLayout at h
  split_ifs at h with hc
  · rcases hc with ⟨h1, h2⟩ | ⟨h1, h2⟩
    · simp only at h1 h2
      subst h1 h2
      have e : wrap32 (wrap32 (-(⟨0, 0⟩ : BigDec).scale) + ((digits ⟨0, 0⟩).length - 1)) = 0 := by decide
      dsimp only at h e
      rw [e, wrap32_id (by omega) (by omega)] at h
      unfold BigDecimalWrapper.decimalLayout at h
      rw [if_neg (by dsimp only; omega)] at h
      have : BigDecimalWrapper.decimalLayout0 ⟨0, 0⟩ = .ok ⟨Seq.wrap (js! "0"), none⟩ := rfl
      rw [this] at h
      cases h
      dsimp only
      rw [wrap_length]; decide
    · have hu : u ≠ 0 := by
        rintro rfl
        rw [geTenPow_zero] at h1; cases h1
      have hd := Digits.toRadix u
      generalize hnn : (toRadix 10 u).length = n at hd hn
      have hpos := hd.pos
      have g1 := (geTenPow_iff (σ := σ) hd hu _).1 h1
      have g2 : ¬ ((P : Int) ≤ (n : Int) - 1 - σ) := fun hh => h2 ((geTenPow_iff hd hu _).2 hh)
      obtain ⟨p', hp'⟩ : ∃ p' : Nat, (p' : Int) = (P : Int) - 1 - (n - 1 - σ) :=
        ⟨((P : Int) - 1 - (n - 1 - σ)).toNat, by omega⟩
      have hw : wrap32 ((P : Int) - wrap32 (wrap32 (-σ) + ((digits ⟨u, σ⟩).length - 1)) - 1) = p' := by
        have : (digits ⟨u, σ⟩).length = n := hd.length
        rw [this, wrap32_id (x := -σ) (by omega) (by omega), wrap32_id (x := -σ + _) (by omega) (by omega),
          wrap32_id (by omega) (by omega)]
        omega
      dsimp only at h
      rw [hw] at h
      obtain ⟨m, m1, m2, m3⟩ := decimalLayout_text (σ := σ) hd (by omega) (by omega) p'
      rw [h] at m1; cases m1
      obtain ⟨u', σ', a1, a2, a3, a4, aL, a5⟩ := m2 (.inl hu)
      have hm := (BigDecimalWrapper.decimalLayout_wf h).1.length_text
      dsimp only at hm ⊢
      rw [hm, a1]
      clear m2 m3 aL h
      rcases a5 with ⟨c1, rfl, rfl⟩ | ⟨c1, c2, rfl⟩ | ⟨c1, c2, c3⟩
      · have := plainText_length (e := -σ') hd.lt hpos
        omega
      · have hu' : u' < 10 ^ n := by
          have e1 : ((p' : Int) - p').toNat = 0 := by omega
          rw [e1, pow_zero, Nat.mul_one] at a4
          obtain ⟨k, hk⟩ : ∃ k : Nat, (p' : Int) - σ = -(k : Int) := ⟨(σ - p').toNat, by omega⟩
          have hk0 : 0 < k := by omega
          rw [a4, hk, ← divHalfUp_eq u hk0]
          exact lt_of_le_of_lt (divHalfUp_le u (by omega)) hd.lt
        have := plainText_length (e := -(p' : Int)) hu' hpos
        omega
      · have := plainText_length (e := -σ') c3.lt c3.pos
        have hpow : u' * 10 ^ ((p' : Int) - σ').toNat < 10 ^ n := by
          obtain ⟨k, hk⟩ : ∃ k : Nat, (p' : Int) - σ = -(k : Int) := ⟨(σ - p').toNat, by omega⟩
          have hk0 : 0 < k := by omega
          rw [a4, hk, ← divHalfUp_eq u hk0]
          exact lt_of_le_of_lt (divHalfUp_le u (by omega)) hd.lt
        rcases c3.lead with c4 | ⟨c4, c5⟩
        · have h4 : 10 ^ (((n : Int) - (σ - p')).toNat - 1 + ((p' : Int) - σ').toNat) < 10 ^ n := by
            rw [pow_add]; exact lt_of_le_of_lt (Nat.mul_le_mul_right _ c4) hpow
          have h5 := (Nat.pow_lt_pow_iff_right (a := 10) (by omega)).1 h4
          omega
        · have : 0 ≤ σ' := by rcases a2 with a2 | a2 <;> [exact absurd c4 a2; exact a2]
          omega
  · unfold BigDecimalWrapper.scientificLayout at h
    obtain ⟨x, hx, h⟩ := bind_eq_ok.1 h
    have h1 := scientific0_short h
    have h2 := digits_mono (context_le hx)
    have h3 : (digits ⟨u, σ⟩).length = (toRadix 10 u).length := rfl
    omega

end Narrow
end FastPrintf
