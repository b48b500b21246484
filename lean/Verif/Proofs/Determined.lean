/-
The texts of `Spec/Semantics` are determined by what they are texts of.
-/
import Verif.Spec.Semantics
import Verif.Proofs.DecimalUnique
import Verif.Proofs.HexFormat
import Verif.Proofs.BigDecimalFormat
import Verif.Proofs.Unique
import Verif.Proofs.DoubleFormat
import Mathlib.Tactic.FieldSimp

namespace FastPrintf
open Spec

theorem Spec.Shortest.unique {b n : Nat} {s s' : JStr} (h2 : 2 ≤ b) (h16 : b ≤ 16) (h : Shortest b n s)
    (h' : Shortest b n s') : s = s' := by rw [h.eq h2 h16, h'.eq h2 h16]

theorem Spec.CSigned.unique {fl : Flags} {w : Nat} {p : Option Nat} {v : Int} {s s' : JStr}
    (h : CSigned fl w p v s) (h' : CSigned fl w p v s') : s = s' := by
  obtain ⟨ds, h1, rfl⟩ := h
  obtain ⟨ds', h1', rfl⟩ := h'
  rw [h1.unique (by omega) (by omega) h1']

theorem Spec.CUnsigned.unique {c : UConv} {fl : Flags} {w : Nat} {p : Option Nat} {v : Nat} {s s' : JStr}
    (h : CUnsigned c fl w p v s) (h' : CUnsigned c fl w p v s') : s = s' := by
  obtain ⟨ds, h1, rfl⟩ := h
  obtain ⟨ds', h1', rfl⟩ := h'
  rw [h1.unique (by cases c <;> decide) (by cases c <;> decide) h1']

theorem signedNumberText_unique {fl : Flags} {w : Nat} {p : Option Nat} {v : Int} {s s' : JStr}
    (h : SignedNumberText fl w p v s) (h' : SignedNumberText fl w p v s') : s = s' := by
  unfold SignedNumberText at h h'
  by_cases hc : v = 0 ∧ p = some 0 ∧ fl.leadingSpace = true ∧ fl.plus = false ∧ w = 0
  · rw [if_pos hc] at h h'; rw [h, h']
  · rw [if_neg hc] at h h'; exact h.unique h'

theorem unsignedNumberText_unique {c : UConv} {fl : Flags} {w : Nat} {p : Option Nat} {v : Nat}
    {s s' : JStr} (h : UnsignedNumberText c fl w p v s) (h' : UnsignedNumberText c fl w p v s') : s = s' := by
  rcases h with ⟨h1, h2, rfl⟩ | ⟨h1, h2⟩ <;> rcases h' with ⟨h1', h2', rfl⟩ | ⟨h1', h2'⟩
  · rfl
  · exact absurd ⟨h1, h2⟩ h1'
  · exact absurd ⟨h1', h2'⟩ h1
  · exact h2.unique h2'

theorem Spec.DigitCount.unique {u n n' : Nat} (h : DigitCount u n) (h' : DigitCount u n') : n = n' := by
  obtain ⟨ds, h1, rfl⟩ := h
  obtain ⟨ds', h1', rfl⟩ := h'
  rw [h1.unique (by omega) (by omega) h1']

theorem bigExponentText_unique {k : Nat} {x : Int} {s s' : JStr} (h : BigExponentText k x s)
    (h' : BigExponentText k x s') : s = s' := by
  unfold BigExponentText at h h'
  by_cases hc : k = 10 ∧ x = 9
  · rw [if_pos hc] at h h'; rw [h, h']
  · rw [if_neg hc] at h h'; exact h.unique h'

/-- The place of the first digit. -/
theorem place_unique {d : ℚ} {x x' : Int} (h1 : 10 ^ x ≤ d) (h2 : d < 10 ^ (x + 1)) (h1' : 10 ^ x' ≤ d)
    (h2' : d < 10 ^ (x' + 1)) : x = x' := by
  have a := zpow10_lt (lt_of_le_of_lt h1 h2')
  have b := zpow10_lt (lt_of_le_of_lt h1' h2)
  omega

theorem lastPlace_unique {b : BitVec 64} {e e' : Int} (h : LastPlace b e) (h' : LastPlace b e') : e = e' := by
  unfold LastPlace at h h'
  by_cases h1 : magnitude b < 2 ^ 52 ∧ (magnitude b).den = 1
  · rw [if_pos h1] at h h'; omega
  · rw [if_neg h1] at h h'
    by_cases h2 : doubleC b < 3
    · rw [if_pos h2] at h h'; omega
    · rw [if_neg h2] at h h'
      exact place_unique h.1 h.2 h'.1 h'.2

theorem digitsDownTo_unique {d : ℚ} {e : Int} {n n' : Nat} (h : DigitsDownTo d e n)
    (h' : DigitsDownTo d e n') : n = n' := by
  have := place_unique (x := e + n - 1) (x' := e + n' - 1) h.1 (by rw [sub_add_cancel]; exact h.2) h'.1
    (by rw [sub_add_cancel]; exact h'.2)
  omega

theorem generalText_unique {P n : Nat} {alt : Bool} {m : Nat} {x : Int} {s s' : JStr}
    (h : GeneralText P n alt m x s) (h' : GeneralText P n alt m x s') : s = s' := by
  unfold GeneralText at h h'
  by_cases hs : -4 ≤ x ∧ x < P
  · rw [if_pos hs] at h h'
    cases alt with
    | true => exact FixedText.unique h h'
    | false => exact MinimalText.unique h h'
  · rw [if_neg hs] at h h'
    obtain ⟨ms, xs, rfl, h1, h2⟩ := h
    obtain ⟨ms', xs', rfl, h1', h2'⟩ := h'
    obtain rfl := h1.unique h1'
    cases alt with
    | true =>
      obtain ⟨m1, e1, h3⟩ := h2
      obtain ⟨m2, e2, h3'⟩ := h2'
      have : m1 = m2 := Nat.eq_of_mul_eq_mul_right (by positivity) (e1.symm.trans e2)
      subst this
      rw [FixedText.unique h3 h3']
    | false => rw [MinimalText.unique h2 h2']

theorem bigGeneralText_unique {P n : Nat} {alt : Bool} {x0 : Int} {m : Nat} {x : Int} {s s' : JStr}
    (h : BigGeneralText P n alt x0 m x s) (h' : BigGeneralText P n alt x0 m x s') : s = s' := by
  unfold BigGeneralText at h h'
  by_cases hs : -4 ≤ x0 ∧ x0 < P
  · rw [if_pos hs] at h h'
    cases alt with
    | true =>
      obtain ⟨m1, e1, h3⟩ := h
      obtain ⟨m2, e2, h3'⟩ := h'
      have : m1 = m2 := by exact_mod_cast mul_right_cancel₀ (by positivity) (e1.trans e2.symm)
      subst this
      exact FixedText.unique h3 h3'
    | false => exact MinimalText.unique h h'
  · rw [if_neg hs] at h h'
    obtain ⟨ms, xs, rfl, h1, h2⟩ := h
    obtain ⟨ms', xs', rfl, h1', h2'⟩ := h'
    obtain rfl := h1.unique h1'
    cases alt with
    | true =>
      obtain ⟨m1, e1, h3⟩ := h2
      obtain ⟨m2, e2, h3'⟩ := h2'
      have : m1 = m2 := Nat.eq_of_mul_eq_mul_right (by positivity) (e1.symm.trans e2)
      subst this
      rw [FixedText.unique h3 h3']
    | false => rw [MinimalText.unique h2 h2']

/-- A fraction in hexadecimal is determined by its value and either its length or its having no
superfluous zero. -/
theorem hexDigits_unique {lead : Nat} {x : Int} {fp fp' : JStr} (hd : ∀ c ∈ fp, IsDigitIn 16 c)
    (hd' : ∀ c ∈ fp', IsDigitIn 16 c) (h : hexValue lead fp x = hexValue lead fp' x)
    (hl : fp.length = fp'.length ∨
      (fp ≠ [] ∧ (fp = js! "0" ∨ fp.getLast? ≠ some 48)) ∧ fp' ≠ [] ∧ (fp' = js! "0" ∨ fp'.getLast? ≠ some 48)) :
    fp = fp' := by
  have hv : valueIn 16 fp * 16 ^ fp'.length = valueIn 16 fp' * 16 ^ fp.length := by
    unfold hexValue at h
    have h1 := add_left_cancel (mul_right_cancel₀ (by positivity) h)
    have a : (16 : ℚ) ^ fp.length ≠ 0 := by positivity
    have b : (16 : ℚ) ^ fp'.length ≠ 0 := by positivity
    rw [div_eq_div_iff a b] at h1
    exact_mod_cast h1
  have eq : fp.length = fp'.length → fp = fp' := by
    intro hl
    rw [hl] at hv
    exact valueIn_inj_length (by norm_num) hd hd' hl (Nat.eq_of_mul_eq_mul_right (by positivity) hv)
  rcases hl with hl | ⟨⟨h1, h2⟩, h1', h2'⟩
  · exact eq hl
  -- the shorter one is not continued by zeros
  have last : ∀ {g : JStr}, (∀ c ∈ g, IsDigitIn 16 c) → g ≠ [] → 16 ∣ valueIn 16 g → g.getLast? = some 48 := by
    intro g hg hne hdv
    induction g using List.reverseRecOn with
    | nil => exact absurd rfl hne
    | append_singleton t c _ =>
      have hc := hg c (by simp)
      rw [valueIn_append, List.length_singleton, pow_one] at hdv
      have e : valueIn 16 [c] = digitVal c := by simp [valueIn]
      rw [e] at hdv
      have h0 : digitVal c = 0 := by
        have := hc.2; omega
      have : c = 48 := by
        have h1 := hc.1; have h2 := hc.2
        unfold digitVal at h0 h2
        split_ifs at h0 h2 <;> omega
      simp [this]
  have key : ∀ {g g' : JStr}, (∀ c ∈ g, IsDigitIn 16 c) → g ≠ [] → g' ≠ [] →
      (g = js! "0" ∨ g.getLast? ≠ some 48) → valueIn 16 g * 16 ^ g'.length = valueIn 16 g' * 16 ^ g.length →
      g.length ≤ g'.length := by
    intro g g' hg hne hne' hlast hgv
    by_contra hlt
    rcases hlast with rfl | hlast
    · have := List.length_pos_iff.2 hne'
      simp only [List.length_singleton] at hlt; omega
    · obtain ⟨k, hk⟩ : ∃ k, g.length = g'.length + (k + 1) := ⟨g.length - g'.length - 1, by omega⟩
      have e : valueIn 16 g = valueIn 16 g' * 16 ^ k * 16 := by
        have : (0 : Nat) < 16 ^ g'.length := by positivity
        refine Nat.eq_of_mul_eq_mul_right this ?_
        rw [hgv, hk, pow_add, pow_succ]; ring
      exact hlast (last hg hne (e ▸ Nat.dvd_mul_left 16 _))
  exact eq (le_antisymm (key hd h1 h1' h2 hv) (key hd' h1' h1 h2' hv.symm))

/-- The text of a number under a floating-point conversion is determined. -/
theorem Spec.FloatText.unique {d : Directive} {x : Floating} {r r' : Res JStr} (h : FloatText d x r)
    (h' : FloatText d x r') : r = r' := by
  cases h with
  | nonFinite hf => cases h' with
    | nonFinite => rfl
    | _ => contradiction
  | fixed hc hf hq hb => cases h' with
    | fixed _ _ hq' hb' =>
      have : ∀ {q q' : ℚ} {b : BitVec 64}, finite b → DecimalOf b q → DecimalOf b q' → q = q' := by
        intro q q' b hf h h'
        rcases h with ⟨h1, rfl⟩ | ⟨h1, h2⟩ <;> rcases h' with ⟨h1', rfl⟩ | ⟨h1', h2'⟩
        · rfl
        · exact absurd h1 h1'
        · exact absurd h1' h1
        · exact h2.unique hf h1 h2'
      obtain rfl := this hf hq hq'
      rw [FixedText.unique hb hb']
    | nonFinite hf' => exact absurd hf hf'
    | _ => exfalso; omega
  | scientificZero hc hf hz hm => cases h' with
    | scientificZero _ _ _ hm' => rw [FixedText.unique hm hm']
    | nonFinite hf' => exact absurd hf hf'
    | scientific _ _ hz' => exact absurd hz hz'
    | _ => exfalso; omega
  | scientific hc hf hz hq hs hm hx => cases h' with
    | scientific _ _ _ hq' hs' hm' hx' =>
      obtain rfl := JavaDecimal.unique hf hz hq hq'
      obtain ⟨rfl, rfl⟩ := hs.unique hs'
      rw [FixedText.unique hm hm', hx.unique hx']
    | nonFinite hf' => exact absurd hf hf'
    | scientificZero _ _ hz' => exact absurd hz' hz
    | _ => exfalso; omega
  | generalZero hc hf hz hb => cases h' with
    | generalZero _ _ _ hb' =>
      by_cases ha : (flagSet d.flags).alternate = true
      · rw [if_pos ha] at hb hb'; rw [FixedText.unique hb hb']
      · rw [if_neg ha] at hb hb'; rw [hb, hb']
    | nonFinite hf' => exact absurd hf hf'
    | general _ _ hz' => exact absurd hz hz'
    | _ => exfalso; omega
  | general hc hf hz hq hs hl hn hb => cases h' with
    | general _ _ _ hq' hs' hl' hn' hb' =>
      obtain rfl := JavaDecimal.unique hf hz hq hq'
      obtain ⟨rfl, rfl⟩ := hs.unique hs'
      obtain rfl := lastPlace_unique hl hl'
      obtain rfl := digitsDownTo_unique hn hn'
      rw [generalText_unique hb hb']
    | nonFinite hf' => exact absurd hf hf'
    | generalZero _ _ hz' => exact absurd hz' hz
    | _ => exfalso; omega
  | hexExact hc hf hp hb hv hx hn hl => cases h' with
    | hexExact _ _ hp' hb' hv' hx' hn' hl' =>
      obtain rfl := hx.trans hx'.symm
      have := hexDigits_unique hb.2.1 hb'.2.1 (hv.trans hv'.symm) (by
        cases hpr : d.prec.precision with
        | none => exact .inr ⟨hn hpr, hn' hpr⟩
        | some p => left; rw [hl p hpr, hl' p hpr])
      subst this
      rw [hb.unique hb']
    | hexRounded _ _ hz' hp' h12 => rcases hp _ hp' with h | h; exacts [absurd h hz', by omega]
    | nonFinite hf' => exact absurd hf hf'
    | _ => exfalso; omega
  | hexRounded hc hf hz hp h12 hb hl hr => cases h' with
    | hexRounded _ _ _ hp' _ hb' hl' hr' =>
      cases hp.symm.trans hp'
      obtain ⟨rfl, rfl⟩ := hexValue_inj hb.2.1 hb'.2.1 (by omega) (hr.unique hr')
      rw [hb.unique hb']
    | hexExact _ _ hp' => rcases hp' _ hp with h | h; exacts [absurd h hz, by omega]
    | nonFinite hf' => exact absurd hf hf'
    | _ => exfalso; omega
  | bigFixed hc hz hb => cases h' with
    | bigFixed _ _ hb' => rw [FixedText.unique hb hb']
    | bigFixedZero _ hs => exfalso; omega
    | _ => exfalso; omega
  | bigFixedZero hc hs => cases h' with
    | bigFixed _ hz' => exfalso; omega
    | bigFixedZero _ hs => rfl
    | _ => exfalso; omega
  | bigScientific hc hz hn hs hm hx => cases h' with
    | bigScientific _ _ hn' hs' hm' hx' =>
      obtain rfl := hn.unique hn'
      obtain ⟨rfl, rfl⟩ := hs.unique hs'
      rw [FixedText.unique hm hm', bigExponentText_unique hx hx']
    | bigScientificZero => exact absurd rfl hz
    | _ => exfalso; omega
  | bigScientificZero hc hm hx => cases h' with
    | bigScientificZero _ hm' hx' => rw [FixedText.unique hm hm', hx.unique hx']
    | bigScientific _ hz => exact absurd rfl hz
    | _ => exfalso; omega
  | bigGeneral hc hz hn h1 h2 hs hb => cases h' with
    | bigGeneral _ _ hn' h1' h2' hs' hb' =>
      obtain rfl := hn.unique hn'
      obtain ⟨rfl, rfl⟩ := hs.unique hs'
      obtain rfl := place_unique h1 h2 h1' h2'
      rw [bigGeneralText_unique hb hb']
    | bigGeneralZero => exact absurd rfl hz
    | _ => exfalso; omega
  | @bigGeneralZero hc scale body h0 h1 => cases h' with
    | @bigGeneralZero _ _ body' h0' h1' =>
      have : body = body' := by
        by_cases hs : scale = 0
        · have := h0 hs
          have h2 := h0' hs
          by_cases ha : (flagSet d.flags).alternate = true
          · rw [if_pos ha] at this h2; rw [FixedText.unique this h2]
          · rw [if_neg ha] at this h2; rw [this, h2]
        · obtain ⟨xs, rfl, h3⟩ := h1 hs
          obtain ⟨xs', rfl, h3'⟩ := h1' hs
          rw [h3.unique h3']
      rw [this]
    | bigGeneral _ hz => exact absurd rfl hz
    | _ => exfalso; omega
  | bigHex hc => cases h' with
    | bigHex => rfl
    | _ => exfalso; omega

end FastPrintf
