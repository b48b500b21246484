/-
`%a` of a `double`, from its layout to the printed field.
-/
import Verif.Proofs.HexLayout

namespace FastPrintf
open Spec SeqFormatter DefaultAppender DoubleWrapper JavaDouble

theorem aPrecision_eq {d : Directive} (h : d.Plain) :
    aPrecision d.context = ((max 1 (d.prec.precision.getD 13) : Nat) : Int) ∧
      (d.context.precision = UNSET ↔ d.prec.precision = none) := by
  unfold aPrecision
  have e := h.prec_eq
  rcases h.precOK with hu | hp
  · rw [← e]; simp [precOf, FormatContext.isPrecisionSet, hu]
  · have e1 : UNSET = -1 := rfl
    have hn : d.context.precision ≠ UNSET := by omega
    rw [← e, if_pos (isPrecisionSet_iff _ |>.2 hn)]
    simp only [precOf, hn, if_false, Option.getD_some]
    refine ⟨?_, by simp⟩
    by_cases h0 : d.context.precision = 0
    · rw [if_pos h0, h0]; rfl
    · rw [if_neg h0]; omega

/-- Thirteen digits or more, and zero: the layout is that of `Double.toHexString`. -/
theorem hexLayout_simple {bits : BitVec 64} {p : Int} (h : magnitude bits = 0 ∨ 13 ≤ p) :
    hexLayout bits p = simpleHexLayout bits := by
  unfold hexLayout
  rw [if_pos]
  rcases h with h | h
  · rw [(magnitude_zero_iff bits).1 h]; simp
  · simp [h]

theorem hexText_ok {lead : Nat} {fp : JStr} (hl : lead ≤ 1) (hd : ∀ c ∈ fp, IsDigitIn 16 c) (x : Int) :
    HexText lead fp x ((48 + lead) :: 46 :: fp ++ js! "p" ++ expText x) :=
  ⟨hl, hd, natToString x.natAbs, shortest_toRadix (by norm_num) (by norm_num) _, by simp [expText]⟩

theorem digits16_append_zeros {fp : JStr} (h : ∀ c ∈ fp, IsDigitIn 16 c) (k : Nat) :
    ∀ c ∈ fp ++ List.replicate k 48, IsDigitIn 16 c := by
  intro c hc
  rcases List.mem_append.1 hc with hc | hc
  · exact h c hc
  · rw [(List.mem_replicate.1 hc).2]; unfold IsDigitIn; decide

theorem hexValue_zeros (lead : Nat) (fp : JStr) (k : Nat) (x : Int) :
    hexValue lead (fp ++ List.replicate k 48) x = hexValue lead fp x := by
  unfold hexValue
  rw [valueIn_append, valueIn_replicate_zero, List.length_append, List.length_replicate]
  push_cast
  rw [pow_add]
  congr 2
  field_simp
  ring

theorem no_dot_lead {lead : Nat} : 46 ∉ [48 + lead] := by simp; omega

/-- `%a` of a finite `double`. -/
theorem printf_a {dates : DateSyntax} (env : DateEnv) {d : Directive} (h : d.Ok dates) (hp : d.Plain)
    (hc : d.conv = ch! 'a') {v : Traits} {bits : BitVec 64}
    (hv : v.asFloatForm = .ok (FloatForm.ofDouble bits)) (hf : finite bits) (rest : List Traits) :
    ∃ lead fp x body, printf dates env d.text (v :: rest) =
        .ok (d.field (signText (flagSet d.flags) (decide (negative bits)) ++ js! "0x") body) ∧
      HexText lead fp x body ∧
      match d.prec.precision with
      | none => hexValue lead fp x = magnitude bits ∧ lead = hexLead bits ∧ x = hexExp bits ∧ fp ≠ [] ∧
          (fp = js! "0" ∨ fp.getLast? ≠ some 48)
      | some p => fp.length = max 1 p ∧
          if magnitude bits = 0 ∨ 13 ≤ p then
            hexValue lead fp x = magnitude bits ∧ lead = hexLead bits ∧ x = hexExp bits
          else lead = 1 ∧ HexRounded (magnitude bits) (max 1 p) (hexValue lead fp x) := by
  have hlead : hexLead bits ≤ 1 := by unfold hexLead; split_ifs <;> omega
  have hlt : fracBits bits < 2 ^ 52 := Nat.mod_lt _ (by positivity)
  obtain ⟨ap, aset⟩ := aPrecision_eq hp
  -- what is printed for a layout
  have print : ∀ m ex, (FloatForm.ofDouble bits).hexLayout (aPrecision d.context) = .ok ⟨m, some ex⟩ →
      printf dates env d.text (v :: rest) =
        .ok (d.field (signText (flagSet d.flags) (decide (negative bits)) ++ js! "0x")
          ((if d.context.precision = UNSET then m.text
            else fracText m.text (aPrecision d.context).toNat (flagSet d.flags).alternate) ++ js! "p" ++ ex.text)) := by
    intro m ex hl
    have hw := DoubleWrapper.hexLayout_wf hl
    obtain ⟨r, r1, r2, r3⟩ := a_ok hp.precOK (v := FloatForm.ofDouble bits) ((finite_iff bits).1 hf) hl hw.1
      (hw.2 ex rfl)
    have hs : formatterFor env (convOf d.conv) d.context v = .ok r := by
      rw [hc, show convOf (ch! 'a') = .a from rfl]
      simp only [formatterFor, hv, bind_ok, r1]
    rw [printf_plain_ok h hp hs r2.sane, r3, hp.width_eq]
    have : decide ((FloatForm.ofDouble bits).signum < 0) = decide (negative bits) := by
      rw [decide_eq_decide]; exact compareZero_neg hf
    rw [this]
    rfl
  cases hpr : d.prec.precision with
  | none =>
    obtain ⟨m, ex, l1, l2, l3⟩ := simpleHexLayout_ok bits
    have hu := aset.2 hpr
    have := print m ex (by
      rw [ap, hpr]; show hexLayout _ _ = _
      rw [hexLayout_simple (.inr (by simp)), l1])
    rw [if_pos hu] at this
    obtain ⟨f1, f2, f3, -, -⟩ := hexFrac_ok hlt
    refine ⟨hexLead bits, hexFrac (fracBits bits), hexExp bits, _, this, ?_, hexValue_exact bits, rfl, rfl,
      f2, f3⟩
    rw [l2, l3]
    exact hexText_ok hlead f1 _
  | some p =>
    have hu : d.context.precision ≠ UNSET := fun hx => by rw [aset.1 hx] at hpr; cases hpr
    rw [hpr] at ap
    by_cases hz : magnitude bits = 0 ∨ 13 ≤ p
    · obtain ⟨m, ex, l1, l2, l3⟩ := simpleHexLayout_ok bits
      have hz' : magnitude bits = 0 ∨ 13 ≤ aPrecision d.context := by
        rw [ap]; refine hz.imp_right fun h => ?_
        rw [Option.getD_some]; omega
      have := print m ex (by
        show hexLayout _ _ = _
        rw [hexLayout_simple hz', l1])
      rw [if_neg hu, ap, Int.toNat_natCast, l2, Option.getD_some] at this
      obtain ⟨f1, f2, f3, f4, -⟩ := hexFrac_ok hlt
      have hlen : (hexFrac (fracBits bits)).length ≤ max 1 p := by
        rcases hz with hz | hz
        · have := (magnitude_zero_iff bits).1 hz
          simp only [isZero, Bool.and_eq_true, decide_eq_true_eq] at this
          rw [← fracField_eq, this.2]; simp [hexFrac]
        · omega
      rw [hexMant, show (48 + hexLead bits) :: 46 :: hexFrac (fracBits bits) =
          [48 + hexLead bits] ++ 46 :: hexFrac (fracBits bits) from rfl, fracText_point no_dot_lead] at this
      refine ⟨hexLead bits, hexFrac (fracBits bits) ++ List.replicate (max 1 p - (hexFrac (fracBits bits)).length) 48,
        hexExp bits, _, this, ?_, ?_, ?_⟩
      · rw [l3]
        exact hexText_ok hlead (digits16_append_zeros f1 _) _
      · simp; omega
      · rw [if_pos hz, hexValue_zeros]
        exact ⟨hexValue_exact bits, rfl, rfl⟩
    · push Not at hz
      obtain ⟨m, ex, fp, x, l1, l2, l3, l4, l5, l6⟩ := hexLayout_rounded hf hz.1 (q := max 1 p) (by omega) (by omega)
      have := print m ex (by rw [ap]; exact l1)
      rw [if_neg hu, ap, Int.toNat_natCast, l2, Option.getD_some,
        show (49 :: 46 :: fp : JStr) = [48 + 1] ++ 46 :: fp from rfl, fracText_point no_dot_lead] at this
      refine ⟨1, fp ++ List.replicate (max 1 p - fp.length) 48, x, _, this, ?_, ?_, ?_⟩
      · rw [l5]
        exact hexText_ok (by omega) (digits16_append_zeros l3 _) _
      · simp; omega
      · rw [if_neg (by push Not; exact hz), hexValue_zeros]
        exact ⟨rfl, l6⟩

/-! ### The rounded value and the digits are determined -/

theorem Spec.HexRounded.unique {v w w' : ℚ} {q : Nat} (h : HexRounded v q w) (h' : HexRounded v q w') :
    w = w' := by
  obtain ⟨E, k, h1, h2, h3, h4, h5⟩ := h
  obtain ⟨E', k', h1', h2', h3', h4', h5'⟩ := h'
  have hE : E = E' := by
    have a := (zpow_lt_zpow_iff_right₀ (by norm_num : (1 : ℚ) < 2)).1 (lt_of_le_of_lt h1 h2')
    have b := (zpow_lt_zpow_iff_right₀ (by norm_num : (1 : ℚ) < 2)).1 (lt_of_le_of_lt h1' h2)
    omega
  subst hE
  have hu : (0 : ℚ) < 2 ^ (E - 4 * q) := by positivity
  generalize (2 : ℚ) ^ (E - 4 * q) = u at *
  have hd : |w - w'| ≤ u := by
    have : w - w' = (v - w') - (v - w) := by ring
    rw [this]
    refine le_trans (abs_sub _ _) (by linarith)
  have hk : |(k : ℚ) - k'| ≤ 1 := by
    have : w - w' = ((k : ℚ) - k') * u := by rw [h3, h3']; ring
    rw [this, abs_mul, abs_of_pos hu] at hd
    nlinarith
  by_cases hkk : k = k'
  · rw [h3, h3', hkk]
  · exfalso
    have hk2 : |(k : ℤ) - k'| ≤ 1 := by exact_mod_cast hk
    -- they differ by one unit, so both are ties
    have h1 : |w - w'| = u := by
      have e : w - w' = ((k : ℚ) - k') * u := by rw [h3, h3']; ring
      rw [e, abs_mul, abs_of_pos hu]
      have : |(k : ℤ) - k'| = 1 := by
        have : 0 < |(k : ℤ) - k'| := abs_pos.2 (by omega)
        omega
      have : |(k : ℚ) - k'| = 1 := by exact_mod_cast this
      rw [this, one_mul]
    have h6 : |w - w'| ≤ |v - w'| + |v - w| := by
      have : w - w' = (v - w') - (v - w) := by ring
      rw [this]; exact abs_sub _ _
    have ha := h5 (by linarith)
    have hb := h5' (by linarith)
    have : |(k : ℤ) - k'| = 1 := by
      have : 0 < |(k : ℤ) - k'| := abs_pos.2 (by omega)
      omega
    rw [abs_eq (by norm_num)] at this
    omega

theorem Spec.HexText.unique {lead : Nat} {fp : JStr} {x : Int} {s s' : JStr} (h : HexText lead fp x s)
    (h' : HexText lead fp x s') : s = s' := by
  obtain ⟨-, -, ds, h1, rfl⟩ := h
  obtain ⟨-, -, ds', h1', rfl⟩ := h'
  rw [h1.eq (by norm_num) (by norm_num), h1'.eq (by norm_num) (by norm_num)]

/-- With the leading digit 1 and a number of digits, the value determines the digits and the exponent. -/
theorem Spec.hexValue_inj {fp fp' : JStr} {x x' : Int} (hd : ∀ c ∈ fp, IsDigitIn 16 c)
    (hd' : ∀ c ∈ fp', IsDigitIn 16 c) (hl : fp.length = fp'.length)
    (h : hexValue 1 fp x = hexValue 1 fp' x') : fp = fp' ∧ x = x' := by
  have hv := valueIn_lt (b := 16) (by norm_num) fp (fun c hc => (hd c hc).2)
  have hv' := valueIn_lt (b := 16) (by norm_num) fp' (fun c hc => (hd' c hc).2)
  unfold hexValue at h
  have bound : ∀ (g : JStr) (y : Int), valueIn 16 g < 16 ^ g.length →
      (2 : ℚ) ^ y ≤ (((1 : ℕ) : ℚ) + (valueIn 16 g : ℚ) / 16 ^ g.length) * 2 ^ y ∧
        (((1 : ℕ) : ℚ) + (valueIn 16 g : ℚ) / 16 ^ g.length) * 2 ^ y < 2 ^ (y + 1) := by
    intro g y hg
    have h0 : (0 : ℚ) ≤ (valueIn 16 g : ℚ) / 16 ^ g.length := by positivity
    have h1 : (valueIn 16 g : ℚ) / 16 ^ g.length < 1 := by
      rw [div_lt_one (by positivity)]; exact_mod_cast hg
    have hz : (0 : ℚ) < 2 ^ y := by positivity
    rw [zpow_add₀ (by norm_num), zpow_one]
    constructor
    · rw [add_mul]; push_cast
      have := mul_nonneg h0 hz.le
      linarith
    · push_cast
      nlinarith
  have b := bound fp x hv
  have b' := bound fp' x' hv'
  rw [h] at b
  have hx : x = x' := by
    have a1 := (zpow_lt_zpow_iff_right₀ (by norm_num : (1 : ℚ) < 2)).1 (lt_of_le_of_lt b.1 b'.2)
    have a2 := (zpow_lt_zpow_iff_right₀ (by norm_num : (1 : ℚ) < 2)).1 (lt_of_le_of_lt b'.1 b.2)
    omega
  subst hx
  refine ⟨?_, rfl⟩
  have := mul_right_cancel₀ (by positivity) h
  rw [hl] at this
  have h2 : (valueIn 16 fp : ℚ) = valueIn 16 fp' := by
    have h16 : (16 : ℚ) ^ fp'.length ≠ 0 := by positivity
    have := add_left_cancel this
    field_simp at this
    exact this
  exact valueIn_inj_length (by norm_num) hd hd' hl (by exact_mod_cast h2)

end FastPrintf
