/-
The `assert` statements of the library hold in its own use.
-/
import Verif.Spec.Assertions
import Verif.Proofs.BigLimits
import Verif.Proofs.Failures

namespace FastPrintf
namespace Assertions
open Spec JavaDouble DoubleWrapper

theorem assertThat_off (c : Bool) : assertThat false c = .ok () := rfl

theorem assertThat_true (ea : Bool) : assertThat ea true = .ok () := by cases ea <;> rfl

theorem assertThat_holds (ea : Bool) {c : Bool} (h : c = true) : assertThat ea c = .ok () := by
  rw [h]; exact assertThat_true ea

theorem hexString_finite {bits : BitVec 64} (hf : finite bits) : hexString bits = toHexString bits := by
  have h := (finite_iff bits).1 hf
  simp only [Bool.or_eq_false_iff] at h
  unfold hexString
  rw [h.1, h.2]; rfl

theorem index_nonneg (bits : BitVec 64) : 0 ≤ indexOfFrom (toHexString bits) (ch! 'p') 0 := by
  obtain ⟨m, h1, h2, h3, h4⟩ := cut_ok (signBit bits) (M := hexMant bits) (X := intToString (hexExp bits))
    (hexMant_no_p bits)
  rw [← toHexString_eq] at h3
  exact h3

theorem simple_finite (ea : Bool) {bits : BitVec 64} (hf : finite bits) :
    simpleHexLayout ea bits = DoubleWrapper.simpleHexLayout bits := by
  unfold simpleHexLayout DoubleWrapper.simpleHexLayout
  simp only [hexString_finite hf]
  rw [assertThat_holds ea (by simpa using index_nonneg bits), bind_ok]

theorem hexString_special {bits : BitVec 64} (hf : ¬ finite bits) :
    hexString bits = js! "NaN" ∨ hexString bits = js! "-Infinity" ∨ hexString bits = js! "Infinity" := by
  have h : (isNaN bits || isInfinite bits) = true := (Bool.not_eq_false _).mp (mt (finite_iff bits).2 hf)
  unfold hexString
  by_cases h1 : isNaN bits = true
  · rw [if_pos h1]; exact .inl rfl
  · rw [if_neg h1]
    have h2 : isInfinite bits = true := by simpa [h1] using h
    rw [if_pos h2]
    cases signBit bits
    · exact .inr (.inr rfl)
    · exact .inr (.inl rfl)

theorem simple_special (ea : Bool) {bits : BitVec 64} (hf : ¬ finite bits) :
    simpleHexLayout ea bits = .error (if ea then .assertion else .indexOutOfBounds) := by
  unfold simpleHexLayout
  rcases hexString_special hf with h | h | h <;> rw [h] <;> cases ea <;> rfl

theorem distance_eq {shift : Int} {k : Nat} (h : shift % 64 = k) : distance shift = k := by
  unfold distance; omega

theorem roundBits_eq (d : BitVec 64) {shift : Int} {q : Nat} (h1 : 1 ≤ q) (h2 : q ≤ 12) (hs : 1 < shift)
    (hq : shift % 64 = 52 - 4 * q) : roundBits d shift = DoubleWrapper.roundBits d q := by
  have e1 : distance shift = 53 - (1 + q * 4) := distance_eq (by omega)
  have e2 : distance (shift - 1) = 53 - (1 + q * 4) - 1 := distance_eq (by omega)
  unfold roundBits DoubleWrapper.roundBits
  dsimp only
  rw [e1, e2, decide_eq_true hs, decide_eq_true (show 53 - (1 + q * 4) > 1 by omega)]
  have m1 : expMask ||| signifMask = 0x7FFFFFFFFFFFFFFF#64 := by decide
  have m2 : ~~~0#64 = -1#64 := by decide
  have m3 : signMask = 0x8000000000000000#64 := by decide
  rw [m1, m2, m3]

theorem shiftDistance_eq {p : Int} (h1 : -500000000 ≤ p) (h2 : p ≤ 500000000) : shiftDistance p = 52 - 4 * p := by
  have e : ∀ x : Int, -2147483648 ≤ x → x ≤ 2147483647 → wrap32 x = x := by
    intro x hx hx'
    unfold wrap32
    rw [Int.bmod_eq_of_le (by norm_num; omega) (by norm_num; omega)]
  unfold shiftDistance
  rw [e (p * 4) (by omega) (by omega), e (1 + p * 4) (by omega) (by omega), e _ (by omega) (by omega)]
  omega

/-- The rounded bits are never those of a `NaN`. -/
theorem roundBits_finite {d : BitVec 64} {q : Nat} (h1 : 1 ≤ q) (h2 : q ≤ 12) (hd : expBits d ≠ 0) (hf : finite d)
    (hi : isInfinite (DoubleWrapper.roundBits d q) = false) : finite (DoubleWrapper.roundBits d q) := by
  obtain ⟨k1, k0, k2, k3, k4⟩ := roundBits_fields h1 h2 hd hf
  intro he
  unfold isInfinite at hi
  rw [expField_eq, fracField_eq, he, k3 he] at hi
  simp at hi

/-- With a precision that is not negative no assertion fails, for finite values. -/
theorem hexLayout_same (ea : Bool) {bits : BitVec 64} (hf : finite bits) {p : Int} (hp : 0 ≤ p) :
    hexLayout ea bits p = DoubleWrapper.hexLayout bits p := by
  unfold hexLayout DoubleWrapper.hexLayout
  by_cases hc : (isNaN bits || isInfinite bits || isZero bits || decide (p = 0) || decide (p ≥ 13)) = true
  · rw [if_pos hc, if_pos hc, simple_finite ea hf]
  rw [if_neg hc, if_neg hc]
  simp only [Bool.or_eq_true, decide_eq_true_eq, not_or] at hc
  obtain ⟨⟨⟨-, hz⟩, h0⟩, h13⟩ := hc
  obtain ⟨q, rfl⟩ := Int.eq_ofNat_of_zero_le hp
  have h1 : 1 ≤ q := by omega
  have h2 : q ≤ 12 := by omega
  have hsh : shiftDistance q = 52 - 4 * (q : Int) := shiftDistance_eq (by omega) (by omega)
  have hsub : getExponent bits = -1023 ↔ expBits bits = 0 := by
    unfold getExponent; rw [expField_eq]; omega
  rw [assertThat_holds ea (by simp; omega), bind_ok]
  dsimp only
  rw [hsh, assertThat_holds ea (c := decide (52 - 4 * (q : Int) ≥ 1) && decide (52 - 4 * (q : Int) < 53)) (by simp; omega)]
  simp only [roundBits_eq _ h1 h2 (show 1 < 52 - 4 * (q : Int) by omega) (by omega), Int.toNat_natCast, bind_ok]
  by_cases h : expBits bits = 0
  · have hfr : fracBits bits ≠ 0 := by
      intro hfr; unfold isZero at hz; rw [expField_eq, fracField_eq, h, hfr] at hz; simp at hz
    obtain ⟨s1, s2, s3⟩ := scaleUp54_ok h hfr
    have hg := hsub.2 h
    have he : getExponent (scaleUp54 bits) = (expBits (scaleUp54 bits) : Int) - 1023 := by
      unfold getExponent; rw [expField_eq]
    simp only [hg, if_true, decide_true, Bool.not_true, Bool.false_eq_true, if_false]
    rw [assertThat_holds ea (by rw [he]; simp; omega), bind_ok]
    by_cases hi : isInfinite (DoubleWrapper.roundBits (scaleUp54 bits) q) = true
    · rw [if_pos hi, if_pos hi]; rfl
    · rw [if_neg hi, if_neg hi,
        hexString_finite (roundBits_finite h1 h2 s1 (by unfold finite; omega) (by simpa using hi))]
  · have hg : ¬ getExponent bits = -1023 := fun hg => h (hsub.1 hg)
    simp only [hg, if_false, decide_false, Bool.not_false, if_true, pure_eq_ok, bind_ok]
    by_cases hi : isInfinite (DoubleWrapper.roundBits bits q) = true
    · rw [if_pos hi, if_pos hi]
    · rw [if_neg hi, if_neg hi, simple_finite ea (roundBits_finite h1 h2 h hf (by simpa using hi))]

/-- With assertions off, a negative precision is taken modulo 16. -/
theorem hexLayout_negative {bits : BitVec 64} (hf : finite bits) {p : Int} (hp : p < 0) (hb : -500000000 ≤ p)
    (h1 : 1 ≤ p % 16) (h2 : p % 16 ≤ 12) (h0 : magnitude bits ≠ 0) :
    hexLayout false bits p = hexLayout false bits (p % 16) := by
  have hfin := (finite_iff bits).1 hf
  have hz : isZero bits = false := by
    rw [← Bool.not_eq_true]; exact fun h => h0 ((magnitude_zero_iff bits).2 h)
  obtain ⟨q, hq⟩ := Int.eq_ofNat_of_zero_le (show 0 ≤ p % 16 by omega)
  have c1 : ¬ (isNaN bits || isInfinite bits || isZero bits || decide (p = 0) || decide (p ≥ 13)) = true := by
    rw [hfin, hz]; simp; omega
  have c2 : ¬ (isNaN bits || isInfinite bits || isZero bits || decide (p % 16 = 0) || decide (p % 16 ≥ 13)) = true := by
    rw [hfin, hz]; simp; omega
  unfold hexLayout
  rw [if_neg c1, if_neg c2]
  simp only [assertThat_off, bind_ok]
  rw [shiftDistance_eq hb (by omega), shiftDistance_eq (p := p % 16) (by omega) (by omega)]
  have e1 : ∀ d, roundBits d (52 - 4 * p) = DoubleWrapper.roundBits d q :=
    fun d => roundBits_eq d (by omega) (by omega) (by omega) (by omega)
  have e2 : ∀ d, roundBits d (52 - 4 * (p % 16)) = DoubleWrapper.roundBits d q :=
    fun d => roundBits_eq d (by omega) (by omega) (by omega) (by omega)
  rw [e1, e2]

/-- With assertions on, a negative precision is refused. -/
theorem hexLayout_refused {bits : BitVec 64} (hf : finite bits) {p : Int} (hp : p < 0) (h0 : magnitude bits ≠ 0) :
    hexLayout true bits p = .error .assertion := by
  have hfin := (finite_iff bits).1 hf
  have hz : isZero bits = false := by
    rw [← Bool.not_eq_true]; exact fun h => h0 ((magnitude_zero_iff bits).2 h)
  unfold hexLayout
  rw [if_neg (by rw [hfin, hz]; simp; omega)]
  have : (decide (p ≥ 1) && decide (p ≤ 12)) = false := by simp; omega
  rw [this]; rfl

theorem hexLayout_special (ea : Bool) {bits : BitVec 64} (hf : ¬ finite bits) (p : Int) :
    hexLayout ea bits p = .error (if ea then .assertion else .indexOutOfBounds) := by
  have h : (isNaN bits || isInfinite bits) = true := (Bool.not_eq_false _).mp (mt (finite_iff bits).2 hf)
  unfold hexLayout
  rw [if_pos (by rw [h]; rfl), simple_special ea hf]

theorem hexLayout_zero (ea : Bool) {bits : BitVec 64} (h0 : magnitude bits = 0) (p : Int) :
    hexLayout ea bits p = DoubleWrapper.simpleHexLayout bits := by
  have hz := (magnitude_zero_iff bits).1 h0
  have hf : finite bits := by
    simp only [isZero, Bool.and_eq_true, decide_eq_true_eq] at hz
    rw [expField_eq] at hz
    unfold finite; omega
  unfold hexLayout
  rw [if_pos (by rw [hz]; simp), simple_finite ea hf]

/-! ### Sequences -/

theorem subSequence_same (ea : Bool) {s : Seq} (h : s.WF) (i j : Int) : subSequence ea s i j = s.subSequence i j := by
  have go : ∀ s : Seq, s.WF → (∀ a, s ≠ .atom a) → subSequence ea s i j = s.subSequence i j := by
    intro s h ha
    by_cases hij : 0 ≤ i ∧ i ≤ j ∧ j ≤ s.text.length
    · obtain ⟨t, h1, -⟩ := Seq.subSequence_ok h hij
      have hu : s.subSequence i j = (do
          let length := s.length
          checkPositionIndexes i j length
          if i = j then return Seq.empty
          if i = 0 ∧ j = length then return s
          let (buffer, start, stop) ← Seq.subLoop (← s.leaves) i j []
          match buffer with
          | [] => .error .assertion
          | [a] => return Seq.atom a
          | buffer => return Seq.array buffer (stop - start)) := by
        cases s with
        | atom a => exact absurd rfl (ha a)
        | concat => rfl
        | array => rfl
      have hu' : subSequence ea s i j = (do
          let length := s.length
          checkPositionIndexes i j length
          if i = j then return Seq.empty
          if i = 0 ∧ j = length then return s
          let (buffer, start, stop) ← Seq.subLoop (← s.leaves) i j []
          assertThat ea (!buffer.isEmpty)
          match buffer with
          | [a] => return Seq.atom a
          | buffer => return Seq.array buffer (stop - start)) := by
        cases s with
        | atom a => exact absurd rfl (ha a)
        | concat => rfl
        | array => rfl
      rw [hu']
      rw [hu] at h1 ⊢
      cases hc : checkPositionIndexes i j s.length with
      | error e => dsimp only; rw [hc]; rfl
      | ok u =>
        dsimp only at h1 ⊢
        rw [hc, bind_ok] at h1
        rw [hc, bind_ok, bind_ok]
        split_ifs at h1 ⊢
        · rfl
        · rfl
        · cases hl : s.leaves with
          | error e => rfl
          | ok ls =>
            rw [hl, bind_ok] at h1
            simp only [bind_ok]
            cases hb : Seq.subLoop ls i j [] with
            | error e => rfl
            | ok r =>
              obtain ⟨buffer, start, stop⟩ := r
              rw [hb] at h1
              simp only [bind_ok]
              match buffer with
              | [] => cases h1
              | [a] => cases ea <;> rfl
              | a :: b :: rest => cases ea <;> rfl
    · have hl := h.length_text
      have hc : checkPositionIndexes i j s.length = .error .indexOutOfBounds := by
        unfold checkPositionIndexes; rw [if_pos (by omega)]
      cases s with
      | atom a => exact absurd rfl (ha a)
      | concat => unfold subSequence Seq.subSequence; dsimp only; rw [hc]; rfl
      | array => unfold subSequence Seq.subSequence; dsimp only; rw [hc]; rfl
  cases s with
  | atom a => rfl
  | concat l r n k => exact go _ h (by simp)
  | array es n => exact go _ h (by simp)

/-! ### Whole calls -/

theorem a_same (ea : Bool) {ctx : FormatContext} (hr : Ready ctx) (bits : BitVec 64) :
    SeqFormatter.a ctx (ofDouble ea bits) = SeqFormatter.a ctx (FloatForm.ofDouble bits) := by
  unfold SeqFormatter.a
  have e : ((ofDouble ea bits).isNaN || (ofDouble ea bits).isInfinite) =
      ((FloatForm.ofDouble bits).isNaN || (FloatForm.ofDouble bits).isInfinite) := rfl
  rw [e]
  by_cases hn : ((FloatForm.ofDouble bits).isNaN || (FloatForm.ofDouble bits).isInfinite) = true
  · rw [if_pos hn, if_pos hn]; rfl
  · rw [if_neg hn, if_neg hn]
    obtain ⟨p, hp1, hp⟩ := (precisions hr).2.2
    have hx : (ofDouble ea bits).hexLayout (SeqFormatter.aPrecision ctx) =
        (FloatForm.ofDouble bits).hexLayout (SeqFormatter.aPrecision ctx) :=
      hexLayout_same ea ((finite_iff bits).2 ((Bool.not_eq_true _).mp hn)) (by omega)
    rw [hx]; rfl

theorem alike (env : DateEnv) (ea : Bool) {v v' : Traits} (h : Spec.Asserting ea v v') : AlikeWhenReady env v' v := by
  cases h with
  | same v => exact ⟨rfl, fun _ _ _ => rfl⟩
  | @double bits v hv =>
    refine ⟨rfl, fun sp ctx hr => ?_⟩
    have ha := a_same ea hr bits
    cases sp <;> try rfl
    all_goals simp only [DefaultAppender.formatterFor, hv, bind_ok, ha]
    all_goals rfl


end Assertions
end FastPrintf
