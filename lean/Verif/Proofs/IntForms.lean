/-
The readings of doubles and `BigDecimal`s with lengths kept in `int`s.
-/
import Verif.Proofs.IntLeaves

namespace FastPrintf
namespace Narrow

open FastPrintf.Seq BigDec

/-! ### Doubles: every layout is a leaf, so no length is ever added -/

theorem good3 {s : Seq} (h : Good 1 s) : Good 3 s := h.mono (by omega)

theorem good_range {s : JStr} {i j : Int} {q : Seq} (h : DoubleWrapper.wrapRange s i j = .ok q) : Good 3 q := by
  unfold DoubleWrapper.wrapRange at h
  obtain ⟨a, ha, h⟩ := bind_eq_ok.1 h
  cases h; exact good3 (good_atom (Atomic.wrapRange_wf ha))

theorem good_addPlus (s : JStr) : Good 3 (DoubleWrapper.addPlus s) := by
  unfold DoubleWrapper.addPlus; split_ifs <;> exact good3 (good_wrap _)

theorem good_toSeq (a : JStr) : Good 3 (DoubleWrapper.toSeq a) := good3 (good_atom (DoubleWrapper.toSeq_wf a))

theorem good_simpleHex {bits : BitVec 64} {l : FloatLayout}
    (h : DoubleWrapper.simpleHexLayout bits = .ok l) : LayoutGood l := by
  unfold DoubleWrapper.simpleHexLayout at h
  obtain ⟨q, h1, h2⟩ := bind_eq_ok.1 h
  cases h2
  exact ⟨good_range h1, by rintro e ⟨⟩; exact good_addPlus _⟩

theorem good_double_general {bits : BitVec 64} {p : Int} {l : FloatLayout}
    (h : DoubleWrapper.generalLayout bits p = .ok l) : LayoutGood l := by
  unfold DoubleWrapper.generalLayout at h
  by_cases hz : JavaDouble.isZero bits = true
  · rw [if_pos hz] at h; cases h
    exact ⟨good3 (good_ch _), by simp⟩
  · rw [if_neg hz] at h
    obtain ⟨x, _, h⟩ := bind_eq_ok.1 h
    obtain ⟨⟨m, ex⟩, _, h⟩ := bind_eq_ok.1 h
    cases h
    refine ⟨good_toSeq _, ?_⟩
    intro e he
    dsimp only at he
    cases ex with
    | none => cases he
    | some y => cases he; exact good_toSeq _

theorem good_double_scientific {bits : BitVec 64} {p : Int} {l : FloatLayout}
    (h : DoubleWrapper.scientificLayout bits p = .ok l) : LayoutGood l := by
  unfold DoubleWrapper.scientificLayout at h
  by_cases hz : JavaDouble.isZero bits = true
  · rw [if_pos hz] at h; cases h
    exact ⟨good3 (good_ch _), by rintro e ⟨⟩; exact good3 (good_wrap _)⟩
  · rw [if_neg hz] at h
    obtain ⟨x, _, h⟩ := bind_eq_ok.1 h
    obtain ⟨⟨m, ex⟩, _, h⟩ := bind_eq_ok.1 h
    cases h
    exact ⟨good_toSeq _, by rintro e ⟨⟩; exact good_toSeq _⟩

theorem good_double_decimal {bits : BitVec 64} {p : Int} {l : FloatLayout}
    (h : DoubleWrapper.decimalLayout bits p = .ok l) : LayoutGood l := by
  unfold DoubleWrapper.decimalLayout at h
  obtain ⟨x, _, h⟩ := bind_eq_ok.1 h
  obtain ⟨m, _, h⟩ := bind_eq_ok.1 h
  cases h
  exact ⟨good_toSeq _, by simp⟩

theorem good_double_hex {bits : BitVec 64} {p : Int} {l : FloatLayout}
    (h : DoubleWrapper.hexLayout bits p = .ok l) : LayoutGood l := by
  unfold DoubleWrapper.hexLayout at h
  split at h
  · exact good_simpleHex h
  dsimp only at h
  generalize DoubleWrapper.roundBits (if JavaDouble.getExponent bits = -1023 then JavaDouble.scaleUp54 bits else bits)
    p.toNat = r at h
  split at h
  · cases h; exact ⟨good3 (good_wrap _), by rintro e ⟨⟩; exact good3 (good_wrap _)⟩
  split at h
  · exact good_simpleHex h
  · split at h
    swap
    · cases h
    obtain ⟨q, h1, h2⟩ := bind_eq_ok.1 h
    cases h2
    exact ⟨good_range h1, by rintro e ⟨⟩; exact good_addPlus _⟩

theorem LayoutGood.counted {l : FloatLayout} (h : LayoutGood l) :
    l.mantissa.Counted ∧ ∀ ex, l.exponent = some ex → ex.Counted :=
  ⟨h.1.counted, fun ex hx => (h.2 ex hx).counted⟩

theorem formGood_double (bits : BitVec 64) : FormGood (FloatForm.ofDouble bits) := by
  rintro p l _ (h | h | h | h)
  · exact good_double_general h
  · exact good_double_scientific h
  · exact good_double_decimal h
  · exact good_double_hex h

theorem matches_double (bits : BitVec 64) : Matches (FloatForm.ofDouble bits) (FloatForm.ofDouble bits) := by
  refine ⟨rfl, rfl, rfl, ?_, ?_, ?_, ?_⟩ <;> intro p l h
  · have := (good_double_general h).counted; exact ⟨this.1, this.2, fun _ => h⟩
  · have := (good_double_scientific h).counted; exact ⟨this.1, this.2, fun _ => h⟩
  · have := (good_double_decimal h).counted; exact ⟨this.1, this.2, fun _ => h⟩
  · have := (good_double_hex h).counted; exact ⟨this.1, this.2, fun _ => h⟩

/-! ### `BigDecimal` -/

theorem good_insertDot {s : JStr} {q : Seq} (h : BigDecimalWrapper.insertDotAfterFirstChar s = .ok q) :
    Good 3 q := by
  unfold BigDecimalWrapper.insertDotAfterFirstChar at h
  obtain ⟨c, _, h⟩ := bind_eq_ok.1 h
  obtain ⟨a, ha, h⟩ := bind_eq_ok.1 h
  cases h
  exact good_append (good_append (good_ch _) (good_ch _)) (good_atom (Atomic.wrapRange_wf ha))

theorem insertDot_eq {s : JStr} {q : Seq} (h : BigDecimalWrapper.insertDotAfterFirstChar s = .ok q) (hf : Fits q) :
    insertDotAfterFirstChar s = .ok q := by
  unfold BigDecimalWrapper.insertDotAfterFirstChar at h
  unfold insertDotAfterFirstChar
  obtain ⟨c, h1, h⟩ := bind_eq_ok.1 h
  obtain ⟨a, ha, h⟩ := bind_eq_ok.1 h
  cases h
  have w1 := Atomic.wrapRange_wf ha
  have s1 := Seq.append_wf (Seq.ch_wf c) (Seq.ch_wf (ch! '.'))
  have c1 : ((Seq.ch c).append (Seq.ch (ch! '.'))).Counted := append_counted trivial trivial
  have w1' : (Seq.atom a).WF := w1
  obtain ⟨e1, f1⟩ := append_eq s1.sane w1'.sane c1 trivial hf
  obtain ⟨e2, _⟩ := append_eq (Seq.ch_wf c).sane (Seq.ch_wf (ch! '.')).sane trivial trivial f1
  simp only [h1, ha, bind_ok, e2, e1]
  rfl

theorem good_exponentSeq (n : Int) : Good 3 (BigDecimalWrapper.exponentSeq n) := by
  unfold BigDecimalWrapper.exponentSeq
  by_cases h : n ≠ 0
  · rw [if_pos h]
    dsimp only
    by_cases h1 : n.natAbs < 10
    · rw [if_pos h1]; exact good_append (good_append (good_ch _) (good_ch _)) (good_wrap _)
    · rw [if_neg h1]; exact (good_append (good_ch _) (good_wrap _)).mono (by omega)
  · rw [if_neg h]; exact good3 (good_wrap _)

theorem short_digits {n : Nat} (h : n < 10 ^ 11) : (toRadix 10 n).length ≤ 11 :=
  (toRadix_length_le (by omega) (by omega) (by omega)).2 h

theorem exponent_eq {n : Int} (h : n.natAbs < 10 ^ 11) : exponentSeq n = BigDecimalWrapper.exponentSeq n := by
  have hl := short_digits h
  unfold exponentSeq BigDecimalWrapper.exponentSeq
  by_cases h0 : n ≠ 0
  swap
  · rw [if_neg h0, if_neg h0]
  rw [if_pos h0, if_pos h0]
  dsimp only
  have hw : (Seq.wrap (toRadix 10 n.natAbs)).length ≤ 11 := by
    have := (wrap_wf (toRadix 10 n.natAbs)).length_text
    rw [wrap_text] at this; omega
  have hk : (Seq.wrap (toRadix 10 n.natAbs)).elementCount = 1 := by
    have := (wrap_counted (toRadix 10 n.natAbs)).eq
    rw [this]
    rfl
  have hs : ∀ c : JChar, append (Seq.ch c) (Seq.ch (ch! '0')) = (Seq.ch c).append (Seq.ch (ch! '0')) := by
    intro c; rfl
  rw [hs]
  generalize (if n < 0 then (45 : JChar) else 43) = c
  have key : ∀ q : Seq, q.WF → q.Counted → q.length ≤ 2 → q.elementCount ≤ 2 →
      append q (Seq.wrap (toRadix 10 n.natAbs)) = q.append (Seq.wrap (toRadix 10 n.natAbs)) := by
    intro q s1 c1 l1 k1
    refine (append_eq s1.sane (wrap_wf _).sane c1 trivial ⟨?_, ?_⟩).1
    · rw [append_length s1.sane]; omega
    · have := append_count_le c1 (wrap_counted (toRadix 10 n.natAbs)); omega
  by_cases h1 : n.natAbs < 10
  · rw [if_pos h1]
    exact key _ (Seq.append_wf (Seq.ch_wf c) (Seq.ch_wf (ch! '0'))) (append_counted trivial trivial)
      (show (2 : Int) ≤ 2 by omega) (show (2 : Int) ≤ 2 by omega)
  · rw [if_neg h1]
    exact key _ (Seq.ch_wf c) trivial (show (1 : Int) ≤ 2 by omega) (show (1 : Int) ≤ 2 by omega)

/-- An `int` scale. -/
def IntScale (s : Int) : Prop := -2147483648 ≤ s ∧ s ≤ 2147483647

theorem roundTo_scale {p : Nat} : ∀ (fuel : Nat) {v v' : BigDec}, roundTo p fuel v = .ok v' → IntScale v.scale →
    IntScale v'.scale
  | 0, v, v', h, hs => by cases h; exact hs
  | fuel + 1, v, v', h, hs => by
    unfold roundTo at h
    split_ifs at h
    · obtain ⟨s, h1, h⟩ := bind_eq_ok.1 h
      refine roundTo_scale fuel h ?_
      unfold checkScale at h1
      split_ifs at h1 with hc
      cases h1
      unfold intMin intMax at hc
      exact ⟨by dsimp only; omega, by dsimp only; omega⟩
    · cases h; exact hs

theorem context_scale {p : Int} {v v' : BigDec} (h : withMathContext p v = .ok v') (hs : IntScale v.scale) :
    IntScale v'.scale := by
  unfold withMathContext at h
  split_ifs at h
  · cases h; exact hs
  · exact roundTo_scale 2 h hs

theorem insertDot_length {s : JStr} {q : Seq} (h : BigDecimalWrapper.insertDotAfterFirstChar s = .ok q) :
    q.length = s.length + 1 := by
  cases s with
  | nil => cases h
  | cons x s =>
    unfold BigDecimalWrapper.insertDotAfterFirstChar at h
    obtain ⟨c, h1, h⟩ := bind_eq_ok.1 h
    obtain ⟨a, ha, h⟩ := bind_eq_ok.1 h
    cases h
    obtain ⟨b, h1, h2, h3⟩ := Atomic.wrapRange_ok (s := x :: s) (i := 1) (j := (x :: s).length)
      ⟨by omega, by simp, le_rfl⟩
    rw [ha] at h1; cases h1
    have hb : (Seq.atom a).WF := h2
    have hl := hb.length_text
    have ht : (Seq.atom a).text = s := by
      show a.text = s
      rw [h3]; simp [Spec.sub]
    rw [append_length (Seq.append_wf (Seq.ch_wf _) (Seq.ch_wf _)).sane, append_length (Seq.ch_wf _).sane]
    rw [ht] at hl
    have e1 : (Seq.ch c).length = 1 := rfl
    have e2 : (Seq.ch 46).length = 1 := rfl
    rw [e1, e2]
    simp only [List.length_cons]
    omega

theorem scientific0_match {v : BigDec} {l : FloatLayout} (h : BigDecimalWrapper.scientificLayout0 v = .ok l)
    (hs : IntScale v.scale) : LayoutGood l ∧ (Fits l.mantissa → scientificLayout0 v = .ok l) := by
  unfold BigDecimalWrapper.scientificLayout0 at h
  unfold scientificLayout0
  by_cases h0 : v.scale = 0
  · simp only [if_pos h0] at h ⊢
    by_cases h1 : v.digits.length > 1
    · rw [if_pos h1] at h ⊢
      obtain ⟨m, hm, h⟩ := bind_eq_ok.1 h
      cases h
      refine ⟨⟨good_insertDot hm, ?_⟩, fun hf => ?_⟩
      · rintro e ⟨⟩
        split_ifs <;> exact good3 (good_wrap _)
      · rw [insertDot_eq hm hf]; rfl
    · rw [if_neg h1] at h ⊢
      cases h
      exact ⟨⟨good3 (good_wrap _), by rintro e ⟨⟩; exact good3 (good_wrap _)⟩, fun _ => rfl⟩
  · simp only [if_neg h0] at h ⊢
    by_cases h1 : v.digits.length > 1
    · rw [if_pos h1] at h ⊢
      obtain ⟨m, hm, h⟩ := bind_eq_ok.1 h
      cases h
      refine ⟨⟨good_insertDot hm, by rintro e ⟨⟩; exact good_exponentSeq _⟩, fun hf => ?_⟩
      have hl := insertDot_length hm
      have hl2 := hf.length
      dsimp only at hl2
      rw [insertDot_eq hm hf, exponent_eq (by obtain ⟨_, _⟩ := hs; omega)]
      rfl
    · rw [if_neg h1] at h ⊢
      cases h
      refine ⟨⟨good3 (good_wrap _), by rintro e ⟨⟩; exact good_exponentSeq _⟩, fun hf => ?_⟩
      rw [exponent_eq (by obtain ⟨_, _⟩ := hs; omega)]
      rfl

theorem decimal0_match {v : BigDec} {l : FloatLayout} (h : BigDecimalWrapper.decimalLayout0 v = .ok l) :
    LayoutGood l ∧ (Fits l.mantissa → decimalLayout0 v = .ok l) := by
  unfold BigDecimalWrapper.decimalLayout0 at h
  unfold decimalLayout0
  by_cases h0 : v.scale = 0
  · simp only [if_pos h0] at h ⊢
    cases h; exact ⟨⟨good3 (good_wrap _), by simp⟩, fun _ => rfl⟩
  · simp only [if_neg h0] at h ⊢
    by_cases h1 : wrap32 (v.scale - v.digits.length) ≥ 0
    · rw [if_pos h1] at h ⊢
      by_cases h2 : wrap32 (v.scale - v.digits.length) > 0
      · rw [if_pos h2] at h ⊢
        obtain ⟨m, hm, h⟩ := bind_eq_ok.1 h
        obtain ⟨r, hr, hm⟩ := bind_eq_ok.1 hm
        cases hm
        cases h
        obtain ⟨r1, r2, r3, _⟩ := repeated_good hr
        have w1 := Seq.prepend_wf (Seq.wrap_wf v.digits) r1
        have c1 := prepend_counted (wrap_counted v.digits) r2
        refine ⟨⟨good_prepend (good_prepend (good_wrap _) (good_repeated hr)) (good_wrap _), by simp⟩, fun hf => ?_⟩
        obtain ⟨e1, f1⟩ := prepend_eq w1.sane (wrap_wf (js! "0.")).sane c1 trivial hf
        obtain ⟨e2, _⟩ := prepend_eq (wrap_wf v.digits).sane r1.sane trivial r2 f1
        simp only [hr, bind_ok, pure_eq_ok, e2, e1]
      · rw [if_neg h2] at h ⊢
        cases h
        refine ⟨⟨(good_prepend (good_wrap _) (good_wrap _)).mono (by omega), by simp⟩, fun hf => ?_⟩
        obtain ⟨e1, _⟩ := prepend_eq (wrap_wf v.digits).sane (wrap_wf (js! "0.")).sane trivial trivial hf
        simp only [pure_eq_ok, bind_ok, e1]
    · rw [if_neg h1] at h ⊢
      by_cases h2 : wrap32 (-wrap32 (v.scale - v.digits.length)) < v.digits.length
      · rw [if_pos h2] at h ⊢
        obtain ⟨a, ha, h⟩ := bind_eq_ok.1 h
        obtain ⟨b, hb, h⟩ := bind_eq_ok.1 h
        cases h
        have wa : (Seq.atom a).WF := Atomic.wrapRange_wf ha
        have wb : (Seq.atom b).WF := Atomic.wrapRange_wf hb
        have w1 := Seq.append_wf wa (Seq.ch_wf (ch! '.'))
        have c1 : ((Seq.atom a).append (Seq.ch (ch! '.'))).Counted := append_counted trivial trivial
        refine ⟨⟨good_append (good_append (good_atom (Atomic.wrapRange_wf ha)) (good_ch _)) (good_atom (Atomic.wrapRange_wf hb)), by simp⟩, fun hf => ?_⟩
        obtain ⟨e1, f1⟩ := append_eq w1.sane wb.sane c1 trivial hf
        obtain ⟨e2, _⟩ := append_eq wa.sane (Seq.ch_wf (ch! '.')).sane trivial trivial f1
        simp only [ha, hb, bind_ok, pure_eq_ok, e2, e1]
      · rw [if_neg h2] at h ⊢
        obtain ⟨r, hr, h⟩ := bind_eq_ok.1 h
        cases h
        obtain ⟨r1, r2, r3, _⟩ := repeated_good hr
        refine ⟨⟨(good_append (good_wrap _) (good_repeated hr)).mono (by omega), by simp⟩, fun hf => ?_⟩
        obtain ⟨e1, _⟩ := append_eq (wrap_wf v.digits).sane r1.sane trivial r2 hf
        simp only [hr, bind_ok, pure_eq_ok, e1]

theorem scientific_match {v : BigDec} {p : Int} {l : FloatLayout}
    (h : BigDecimalWrapper.scientificLayout v p = .ok l) (hs : IntScale v.scale) :
    LayoutGood l ∧ (Fits l.mantissa → scientificLayout v p = .ok l) := by
  unfold BigDecimalWrapper.scientificLayout at h
  unfold scientificLayout
  obtain ⟨x, hx, h⟩ := bind_eq_ok.1 h
  simp only [hx, bind_ok]
  exact scientific0_match h (context_scale hx hs)

theorem decimal_match {v : BigDec} {p : Int} {l : FloatLayout}
    (h : BigDecimalWrapper.decimalLayout v p = .ok l) :
    LayoutGood l ∧ (Fits l.mantissa → decimalLayout v p = .ok l) := by
  unfold BigDecimalWrapper.decimalLayout at h
  unfold decimalLayout
  split_ifs at h ⊢
  · exact decimal0_match h
  · obtain ⟨x, hx, h⟩ := bind_eq_ok.1 h
    rw [hx]
    exact decimal0_match h
  · exact decimal0_match h

theorem general_match {v : BigDec} {p : Int} {l : FloatLayout}
    (h : BigDecimalWrapper.generalLayout v p = .ok l) (hs : IntScale v.scale) :
    LayoutGood l ∧ (Fits l.mantissa → generalLayout v p = .ok l) := by
  unfold BigDecimalWrapper.generalLayout at h
  unfold generalLayout
  by_cases hc : (v.unscaled = 0 ∧ v.scale = 0) ∨ (v.geTenPow (-4) ∧ ¬ v.geTenPow p)
  · rw [if_pos hc] at h ⊢; exact decimal_match h
  · rw [if_neg hc] at h ⊢; exact scientific_match h hs

theorem formGood_bigDecimal {u s : Int} (hs : IntScale s) : FormGood (FloatForm.ofBigDecimal u s) := by
  rintro p l _ (h | h | h | h)
  · exact (general_match h hs).1
  · exact (scientific_match h hs).1
  · exact (decimal_match h).1
  · cases h

theorem matches_bigDecimal {u s : Int} (hs : IntScale s) :
    Matches (FloatForm.ofBigDecimal u s) (ofBigDecimal u s) := by
  refine ⟨rfl, rfl, rfl, ?_, ?_, ?_, ?_⟩ <;> intro p l h
  · have := general_match h hs; exact ⟨this.1.counted.1, this.1.counted.2, this.2⟩
  · have := scientific_match h hs; exact ⟨this.1.counted.1, this.1.counted.2, this.2⟩
  · have := decimal_match h; exact ⟨this.1.counted.1, this.1.counted.2, this.2⟩
  · cases h

end Narrow
end FastPrintf
