/-
The arguments made by the library are well behaved: their sequences report the right lengths and their
integer readings have at least one digit.
-/
import Verif.Proofs.Integers

namespace FastPrintf
open Spec

/-! ### The precomputed length of integers -/

theorem digits_length {v : Int} (hv : 0 ≤ v) {k : Nat} (hk : 1 ≤ k)
    (h1 : (10 : Int) ^ (k - 1) ≤ v ∨ k = 1) (h2 : v < 10 ^ k) :
    ((toRadix 10 v.toNat).length : Int) = k := by
  have hle : (toRadix 10 v.toNat).length ≤ k := by
    rw [toRadix_length_le (by omega) (by omega) (by omega)]
    have : ((v.toNat : Nat) : Int) < ((10 ^ k : Nat) : Int) := by push_cast; omega
    exact_mod_cast this
  have hpos := toRadix_length_pos 10 v.toNat
  rcases h1 with h1 | h1
  · by_cases hk1 : k = 1
    · omega
    · have : ¬ (toRadix 10 v.toNat).length ≤ k - 1 := by
        rw [toRadix_length_le (by omega) (by omega) (by omega)]
        have h3 : ((10 ^ (k - 1) : Nat) : Int) ≤ ((v.toNat : Nat) : Int) := by push_cast; omega
        have : 10 ^ (k - 1) ≤ v.toNat := by exact_mod_cast h3
        omega
      omega
  · omega

theorem stringSizeLoop64_eq {d v : Int} (hv : 0 ≤ v) (n : Nat) (i : Nat) (p : Int)
    (hi : 1 ≤ i) (hn : n + i = 19) (hp : n ≠ 0 → p = -(10 ^ i))
    (hlo : (10 : Int) ^ (i - 1) ≤ v ∨ i = 1) (hb : v ≤ 9223372036854775808) :
    stringSizeLoop64 d (-v) n i p = ((toRadix 10 v.toNat).length : Int) + d := by
  induction n generalizing i p with
  | zero =>
    have h19 : i = 19 := by omega
    subst h19
    unfold stringSizeLoop64
    rw [digits_length hv (by omega) hlo (by omega)]
  | succ n ih =>
    rw [hp (by omega)]
    unfold stringSizeLoop64
    by_cases h : -v > -((10 : Int) ^ i)
    · rw [if_pos h, digits_length hv hi hlo (by omega)]
    · rw [if_neg h]
      have := ih (i + 1) (wrap64 (10 * -(10 : Int) ^ i)) (by omega) (by omega) ?_ (.inl (by simp; omega))
      · push_cast at this
        exact this
      · intro h0
        have h18 : (10 : Int) ^ i ≤ 10 ^ 17 := pow_le_pow_right₀ (by omega) (by omega)
        have hpos : (0 : Int) < 10 ^ i := by positivity
        rw [wrap64_eq (by omega), pow_succ]; ring

/-- `stringSize` gives the length of the decimal text. -/
theorem stringSize64_eq {v : Int} (h : -9223372036854775808 ≤ v ∧ v < 9223372036854775808) :
    stringSize64 v = (intToString v).length := by
  unfold stringSize64 intToString natToString
  by_cases h0 : v ≥ 0
  · rw [if_pos h0, if_neg (by omega), wrap64_eq (by omega),
      show (1 : Int) = ((1 : Nat) : Int) from rfl,
      stringSizeLoop64_eq h0 _ 1 _ (by omega) (by omega) (by simp) (.inr rfl) (by omega)]
    have : v.toNat = v.natAbs := by omega
    rw [this]; simp
  · rw [if_neg h0, if_pos (by omega)]
    obtain ⟨w, hw⟩ : ∃ w, v = -w := ⟨-v, by omega⟩
    subst hw
    rw [show (1 : Int) = ((1 : Nat) : Int) from rfl,
      stringSizeLoop64_eq (by omega) _ 1 _ (by omega) (by omega) (by simp) (.inr rfl) (by omega)]
    have : w.toNat = (-w).natAbs := by omega
    rw [this]; simp

theorem stringSizeLoop32_eq {d v : Int} (hv : 0 ≤ v) (n : Nat) (i : Nat) (p : Int)
    (hi : 1 ≤ i) (hn : n + i = 10) (hp : n ≠ 0 → p = -(10 ^ i))
    (hlo : (10 : Int) ^ (i - 1) ≤ v ∨ i = 1) (hb : v ≤ 2147483648) :
    stringSizeLoop32 d (-v) n i p = ((toRadix 10 v.toNat).length : Int) + d := by
  induction n generalizing i p with
  | zero =>
    have h19 : i = 10 := by omega
    subst h19
    unfold stringSizeLoop32
    rw [digits_length hv (by omega) hlo (by omega)]
  | succ n ih =>
    rw [hp (by omega)]
    unfold stringSizeLoop32
    by_cases h : -v > -((10 : Int) ^ i)
    · rw [if_pos h, digits_length hv hi hlo (by omega)]
    · rw [if_neg h]
      have := ih (i + 1) (wrap32 (10 * -(10 : Int) ^ i)) (by omega) (by omega) ?_ (.inl (by simp; omega))
      · push_cast at this
        exact this
      · intro h0
        have h18 : (10 : Int) ^ i ≤ 10 ^ 8 := pow_le_pow_right₀ (by omega) (by omega)
        have hpos : (0 : Int) < 10 ^ i := by positivity
        rw [wrap32_eq (by omega), pow_succ]; ring

/-- `stringSize` gives the length of the decimal text. -/
theorem stringSize32_eq {v : Int} (h : -2147483648 ≤ v ∧ v < 2147483648) :
    stringSize32 v = (intToString v).length := by
  unfold stringSize32 intToString natToString
  by_cases h0 : v ≥ 0
  · rw [if_pos h0, if_neg (by omega), wrap32_eq (by omega),
      show (1 : Int) = ((1 : Nat) : Int) from rfl,
      stringSizeLoop32_eq h0 _ 1 _ (by omega) (by omega) (by simp) (.inr rfl) (by omega)]
    have : v.toNat = v.natAbs := by omega
    rw [this]; simp
  · rw [if_neg h0, if_pos (by omega)]
    obtain ⟨w, hw⟩ : ∃ w, v = -w := ⟨-v, by omega⟩
    subst hw
    rw [show (1 : Int) = ((1 : Nat) : Int) from rfl,
      stringSizeLoop32_eq (by omega) _ 1 _ (by omega) (by omega) (by simp) (.inr rfl) (by omega)]
    have : w.toNat = (-w).natAbs := by omega
    rw [this]; simp

/-! ### Layouts -/

theorem Atomic.wrapRange_wf {s : JStr} {i j : Int} {a : Atomic} (h : Atomic.wrapRange s i j = .ok a) :
    a.WF := by
  by_cases hr : 0 ≤ i ∧ i ≤ j ∧ j ≤ s.length
  · obtain ⟨b, h1, h2, _⟩ := Atomic.wrapRange_ok hr
    rw [h1] at h; cases h; exact h2
  · rw [Atomic.wrapRange_err hr] at h; cases h

theorem Seq.repeated_wf {c : JChar} {n : Int} {s : Seq} (h : Seq.repeated c n = .ok s) : s.WF := by
  by_cases hn : 1 ≤ n
  · obtain ⟨b, h1, h2, _⟩ := Seq.repeated_ok (c := c) hn
    rw [h1] at h; cases h; exact h2
  · unfold Seq.repeated at h
    rw [Atomic.mkRepeated_err hn] at h
    cases h

namespace SeqFormatter

theorem LayoutWF.mk {m : Seq} {ex : Option Seq} (hm : m.WF) (he : ∀ e, ex = some e → e.WF) :
    LayoutWF ⟨m, ex⟩ := ⟨hm, he⟩

end SeqFormatter
open SeqFormatter

namespace DoubleWrapper

theorem toSeq_wf (a : JStr) : (toSeq a).WF := (Atomic.forArray_spec a).1
theorem toSeq_text (a : JStr) : (toSeq a).text = a := (Atomic.forArray_spec a).2

theorem addPlus_wf (s : JStr) : (addPlus s).WF := by
  unfold addPlus; split_ifs <;> exact Seq.wrap_wf _

theorem wrapRange_wf {s : JStr} {i j : Int} {q : Seq} (h : wrapRange s i j = .ok q) : q.WF := by
  unfold wrapRange at h
  obtain ⟨a, h1, h2⟩ := bind_eq_ok.1 h
  cases h2
  exact Atomic.wrapRange_wf h1

theorem simpleHexLayout_wf {bits : BitVec 64} {l : FloatLayout} (h : simpleHexLayout bits = .ok l) :
    LayoutWF l := by
  unfold simpleHexLayout at h
  obtain ⟨q, h1, h2⟩ := bind_eq_ok.1 h
  cases h2
  exact ⟨wrapRange_wf h1, by rintro e ⟨⟩; exact addPlus_wf _⟩

theorem generalLayout_wf {bits : BitVec 64} {p : Int} {l : FloatLayout}
    (h : generalLayout bits p = .ok l) : LayoutWF l := by
  unfold generalLayout at h
  by_cases hz : JavaDouble.isZero bits = true
  · rw [if_pos hz] at h; cases h
    exact ⟨Seq.ch_wf _, by simp⟩
  · rw [if_neg hz] at h
    obtain ⟨x, _, h⟩ := bind_eq_ok.1 h
    obtain ⟨⟨m, ex⟩, _, h⟩ := bind_eq_ok.1 h
    cases h
    refine ⟨toSeq_wf _, ?_⟩
    intro e he
    dsimp only at he
    cases ex with
    | none => cases he
    | some y => cases he; exact toSeq_wf _

theorem scientificLayout_wf {bits : BitVec 64} {p : Int} {l : FloatLayout}
    (h : scientificLayout bits p = .ok l) : LayoutWF l := by
  unfold scientificLayout at h
  by_cases hz : JavaDouble.isZero bits = true
  · rw [if_pos hz] at h; cases h
    exact ⟨Seq.ch_wf _, by rintro e ⟨⟩; exact Seq.wrap_wf _⟩
  · rw [if_neg hz] at h
    obtain ⟨x, _, h⟩ := bind_eq_ok.1 h
    obtain ⟨⟨m, ex⟩, _, h⟩ := bind_eq_ok.1 h
    cases h
    exact ⟨toSeq_wf _, by rintro e ⟨⟩; exact toSeq_wf _⟩

theorem decimalLayout_wf {bits : BitVec 64} {p : Int} {l : FloatLayout}
    (h : decimalLayout bits p = .ok l) : LayoutWF l := by
  unfold decimalLayout at h
  obtain ⟨x, _, h⟩ := bind_eq_ok.1 h
  obtain ⟨m, _, h⟩ := bind_eq_ok.1 h
  cases h
  exact ⟨toSeq_wf _, by simp⟩

theorem hexLayout_wf {bits : BitVec 64} {p : Int} {l : FloatLayout}
    (h : hexLayout bits p = .ok l) : LayoutWF l := by
  unfold hexLayout at h
  split at h
  · exact simpleHexLayout_wf h
  dsimp only at h
  generalize roundBits (if JavaDouble.getExponent bits = -1023 then JavaDouble.scaleUp54 bits else bits)
    p.toNat = r at h
  split at h
  · cases h; exact ⟨Seq.wrap_wf _, by rintro e ⟨⟩; exact Seq.wrap_wf _⟩
  split at h
  · exact simpleHexLayout_wf h
  · split at h
    swap
    · cases h
    obtain ⟨q, h1, h2⟩ := bind_eq_ok.1 h
    cases h2
    exact ⟨wrapRange_wf h1, by rintro e ⟨⟩; exact addPlus_wf _⟩

end DoubleWrapper

theorem FloatForm.ofDouble_wf (bits : BitVec 64) : (FloatForm.ofDouble bits).WF := by
  rintro p l _ (h | h | h | h)
  · exact DoubleWrapper.generalLayout_wf h
  · exact DoubleWrapper.scientificLayout_wf h
  · exact DoubleWrapper.decimalLayout_wf h
  · exact DoubleWrapper.hexLayout_wf h

namespace BigDecimalWrapper

theorem insertDot_wf {s : JStr} {q : Seq} (h : insertDotAfterFirstChar s = .ok q) : q.WF := by
  unfold insertDotAfterFirstChar at h
  obtain ⟨c, _, h⟩ := bind_eq_ok.1 h
  obtain ⟨a, ha, h⟩ := bind_eq_ok.1 h
  cases h
  exact Seq.append_wf (Seq.append_wf (Seq.ch_wf _) (Seq.ch_wf _)) (Atomic.wrapRange_wf ha)

theorem exponentSeq_wf (n : Int) : (exponentSeq n).WF := by
  unfold exponentSeq
  by_cases h : n ≠ 0
  · rw [if_pos h]
    dsimp only
    refine Seq.append_wf ?_ (Seq.wrap_wf _)
    by_cases h1 : n.natAbs < 10
    · rw [if_pos h1]; exact Seq.append_wf (Seq.ch_wf _) (Seq.ch_wf _)
    · rw [if_neg h1]; exact Seq.ch_wf _
  · rw [if_neg h]; exact Seq.wrap_wf _

theorem scientificLayout0_wf {v : BigDec} {l : FloatLayout} (h : scientificLayout0 v = .ok l) :
    LayoutWF l := by
  unfold scientificLayout0 at h
  by_cases h0 : v.scale = 0
  · simp only [if_pos h0] at h
    by_cases h1 : v.digits.length > 1
    · rw [if_pos h1] at h
      obtain ⟨m, hm, h⟩ := bind_eq_ok.1 h
      cases h
      refine ⟨insertDot_wf hm, ?_⟩
      rintro e ⟨⟩
      split_ifs <;> exact Seq.wrap_wf _
    · rw [if_neg h1] at h
      cases h
      exact ⟨Seq.wrap_wf _, by rintro e ⟨⟩; exact Seq.wrap_wf _⟩
  · simp only [if_neg h0] at h
    by_cases h1 : v.digits.length > 1
    · rw [if_pos h1] at h
      obtain ⟨m, hm, h⟩ := bind_eq_ok.1 h
      cases h
      exact ⟨insertDot_wf hm, by rintro e ⟨⟩; exact exponentSeq_wf _⟩
    · rw [if_neg h1] at h
      cases h
      exact ⟨Seq.wrap_wf _, by rintro e ⟨⟩; exact exponentSeq_wf _⟩

theorem decimalLayout0_wf {v : BigDec} {l : FloatLayout} (h : decimalLayout0 v = .ok l) :
    LayoutWF l := by
  unfold decimalLayout0 at h
  by_cases h0 : v.scale = 0
  · simp only [if_pos h0] at h
    cases h; exact ⟨Seq.wrap_wf _, by simp⟩
  · simp only [if_neg h0] at h
    split at h
    · split at h
      · obtain ⟨m, hm, h⟩ := bind_eq_ok.1 h
        obtain ⟨r, hr, hm⟩ := bind_eq_ok.1 hm
        cases hm
        cases h
        exact ⟨Seq.prepend_wf (Seq.prepend_wf (Seq.wrap_wf _) (Seq.repeated_wf hr)) (Seq.wrap_wf _),
          by simp⟩
      · cases h; exact ⟨Seq.prepend_wf (Seq.wrap_wf _) (Seq.wrap_wf _), by simp⟩
    · split at h
      · obtain ⟨a, ha, h⟩ := bind_eq_ok.1 h
        obtain ⟨b, hb, h⟩ := bind_eq_ok.1 h
        cases h
        exact ⟨Seq.append_wf (Seq.append_wf (Atomic.wrapRange_wf ha) (Seq.ch_wf _))
          (Atomic.wrapRange_wf hb), by simp⟩
      · obtain ⟨r, hr, h⟩ := bind_eq_ok.1 h
        cases h
        exact ⟨Seq.append_wf (Seq.wrap_wf _) (Seq.repeated_wf hr), by simp⟩

theorem scientificLayout_wf {v : BigDec} {p : Int} {l : FloatLayout}
    (h : scientificLayout v p = .ok l) : LayoutWF l := by
  unfold scientificLayout at h
  obtain ⟨x, _, h⟩ := bind_eq_ok.1 h
  exact scientificLayout0_wf h

theorem decimalLayout_wf {v : BigDec} {p : Int} {l : FloatLayout}
    (h : decimalLayout v p = .ok l) : LayoutWF l := by
  unfold decimalLayout at h
  split at h
  · split at h
    · exact decimalLayout0_wf h
    · obtain ⟨x, _, h⟩ := bind_eq_ok.1 h
      exact decimalLayout0_wf h
  · exact decimalLayout0_wf h

theorem generalLayout_wf {v : BigDec} {p : Int} {l : FloatLayout}
    (h : generalLayout v p = .ok l) : LayoutWF l := by
  unfold generalLayout at h
  split at h
  · exact decimalLayout_wf h
  · exact scientificLayout_wf h

end BigDecimalWrapper

theorem FloatForm.ofBigDecimal_wf (u s : Int) : (FloatForm.ofBigDecimal u s).WF := by
  rintro p l _ (h | h | h | h)
  · exact BigDecimalWrapper.generalLayout_wf h
  · exact BigDecimalWrapper.scientificLayout_wf h
  · exact BigDecimalWrapper.decimalLayout_wf h
  · cases h

/-! ### Arguments -/

/-- An argument whose user-supplied parts are well behaved: a `Seq` must be a sane rope, and a user
implementation of `FormatTraits` must keep its promises.  Everything else qualifies. -/
def Spec.WellBehaved : Entry → Prop
  | .ref (.seq q _) => q.WF
  | .ref (.traits t) => t.WF ∧ t.HasDigits
  | _ => True

theorem mkLazy_text (s : JStr) {n : Int} (h : n = s.length) :
    ∃ a, Atomic.mkLazy s n = .ok a ∧ a.WF ∧ a.text = s := by
  subst h; exact Atomic.mkLazy_ok s

theorem Prim.traits_wf (jdk : JdkEnv) (ref : RefSlot) (p : Prim) : (p.traits jdk ref).WF := by
  cases p with
  | bool b => exact ⟨by rintro q ⟨⟩; exact Seq.wrap_wf _, by rintro f ⟨⟩; exact FloatForm.ofDouble_wf _⟩
  | char c => exact ⟨by rintro q ⟨⟩; exact Seq.ch_wf _, by rintro f ⟨⟩; exact FloatForm.ofDouble_wf _⟩
  | byte v => exact ⟨by rintro q ⟨⟩; exact Seq.wrap_wf _, by rintro f ⟨⟩; exact FloatForm.ofDouble_wf _⟩
  | short v => exact ⟨by rintro q ⟨⟩; exact Seq.wrap_wf _, by rintro f ⟨⟩; exact FloatForm.ofDouble_wf _⟩
  | int v =>
    refine ⟨?_, by rintro f ⟨⟩; exact FloatForm.ofDouble_wf _⟩
    intro q hq
    have h1 := v.toInt_lt; have h2 := v.le_toInt
    obtain ⟨a, ha, hw, _⟩ := mkLazy_text (intToString v.toInt) (stringSize32_eq (v := v.toInt) (by omega))
    simp only [Prim.traits, intTraits, ha, bind_ok] at hq
    cases hq; exact hw
  | long v =>
    refine ⟨?_, by rintro f ⟨⟩; exact FloatForm.ofDouble_wf _⟩
    intro q hq
    have h1 := v.toInt_lt; have h2 := v.le_toInt
    obtain ⟨a, ha, hw, _⟩ := mkLazy_text (intToString v.toInt) (stringSize64_eq (v := v.toInt) (by omega))
    simp only [Prim.traits, longTraits, ha, bind_ok] at hq
    cases hq; exact hw
  | float v => exact ⟨by rintro q ⟨⟩; exact Seq.wrap_wf _, by rintro f ⟨⟩; exact FloatForm.ofDouble_wf _⟩
  | double v => exact ⟨by rintro q ⟨⟩; exact Seq.wrap_wf _, by rintro f ⟨⟩; exact FloatForm.ofDouble_wf _⟩

theorem Spec.WellBehaved.wf {e : Entry} (h : WellBehaved e) (jdk : JdkEnv) : (e.toTraits jdk).WF := by
  cases e with
  | prim p => exact Prim.traits_wf jdk _ p
  | ref o =>
    cases o with
    | null => exact ⟨by rintro q ⟨⟩; exact Seq.wrap_wf _, by rintro f ⟨⟩⟩
    | boxed p id => exact Prim.traits_wf jdk _ p
    | string s id =>
      refine ⟨by rintro q ⟨⟩; exact Seq.wrap_wf _, ?_⟩
      intro f hf
      simp only [Entry.toTraits, Obj.toTraits, charSequenceTraits] at hf
      split at hf <;> cases hf
      exact FloatForm.ofDouble_wf _
    | seq q id =>
      refine ⟨by rintro q ⟨⟩; exact h, ?_⟩
      intro f hf
      obtain ⟨s, _, hf⟩ := bind_eq_ok.1 hf
      simp only [charSequenceTraits] at hf
      split at hf <;> cases hf
      exact FloatForm.ofDouble_wf _
    | charSeq s id =>
      refine ⟨?_, ?_⟩
      · intro q hq
        obtain ⟨a, ha, hw, _⟩ := mkLazy_text s rfl
        simp only [Entry.toTraits, Obj.toTraits, charSequenceTraits, ha, bind_ok] at hq
        cases hq; exact hw
      · intro f hf
        simp only [Entry.toTraits, Obj.toTraits, charSequenceTraits] at hf
        split at hf <;> cases hf
        exact FloatForm.ofDouble_wf _
    | bigInteger v id =>
      exact ⟨by rintro q ⟨⟩; exact Seq.wrap_wf _, by rintro f ⟨⟩; exact FloatForm.ofBigDecimal_wf _ _⟩
    | bigDecimal u s id =>
      exact ⟨by rintro q ⟨⟩; exact Seq.wrap_wf _, by rintro f ⟨⟩; exact FloatForm.ofBigDecimal_wf _ _⟩
    | temporal t text id =>
      refine ⟨?_, ?_⟩
      · intro q hq
        obtain ⟨x, _, hq⟩ := bind_eq_ok.1 hq
        cases hq; exact Seq.wrap_wf _
      · intro f hf
        simp only [Entry.toTraits, Obj.toTraits, temporalTraits] at hf
        split at hf <;> cases hf
        exact FloatForm.ofDouble_wf _
    | traits t => exact h.1
    | object kind text id =>
      refine ⟨?_, ?_⟩
      · intro q hq
        obtain ⟨x, _, hq⟩ := bind_eq_ok.1 hq
        cases hq; exact Seq.wrap_wf _
      · intro f hf
        simp only [Entry.toTraits, Obj.toTraits, objectTraits] at hf
        split at hf <;> cases hf <;> exact FloatForm.ofDouble_wf _

theorem IntForm.Means.hasDigits {f : IntForm} {v : Int} {u : Option Nat} (h : f.Means v u) :
    ∀ ds, (f.toDecimalString = .ok ds ∨ f.toHexString = .ok ds ∨ f.toOctalString = .ok ds ∨
      f.toUnsignedDecimalString = .ok ds) → ds ≠ [] := by
  intro ds hd
  rw [h.dec, h.hex, h.oct, h.uns] at hd
  rcases hd with hd | hd | hd | hd
  · cases hd; exact toRadix_ne_nil _ _
  all_goals
    cases u with
    | none => cases hd
    | some n => cases hd; exact toRadix_ne_nil _ _

theorem Prim.traits_hasDigits (jdk : JdkEnv) (ref : RefSlot) (p : Prim) :
    (p.traits jdk ref).HasDigits := by
  intro i hi
  cases p <;> cases hi
  · exact (IntForm.ofInt_means _).hasDigits
  · exact (IntForm.ofInt_means _).hasDigits
  · exact (IntForm.ofByte_means _).hasDigits
  · exact (IntForm.ofShort_means _).hasDigits
  · exact (IntForm.ofInt_means _).hasDigits
  · exact (IntForm.ofLong_means _).hasDigits
  · exact (IntForm.ofInt_means _).hasDigits
  · exact (IntForm.ofLong_means _).hasDigits

theorem charSequence_hasDigits (jdk : JdkEnv) (s : JStr) (q : Res Seq) (ref : RefSlot) :
    (charSequenceTraits jdk s q ref).HasDigits := by
  intro i hi
  obtain ⟨x, _, hi⟩ := bind_eq_ok.1 hi
  cases hi
  exact (IntForm.ofLong_means _).hasDigits

theorem Spec.WellBehaved.hasDigits {e : Entry} (h : WellBehaved e) (jdk : JdkEnv) :
    (e.toTraits jdk).HasDigits := by
  cases e with
  | prim p => exact Prim.traits_hasDigits jdk _ p
  | ref o =>
    cases o with
    | null => intro i hi; cases hi
    | boxed p id => exact Prim.traits_hasDigits jdk _ p
    | string s id => exact charSequence_hasDigits _ _ _ _
    | seq q id =>
      intro i hi
      obtain ⟨s, _, hi⟩ := bind_eq_ok.1 hi
      exact charSequence_hasDigits jdk s (.ok q) id.ref i hi
    | charSeq s id => exact charSequence_hasDigits _ _ _ _
    | bigInteger v id => intro i hi; cases hi; exact (IntForm.ofBigInteger_means _).hasDigits
    | bigDecimal u s id => intro i hi; cases hi; exact (IntForm.ofBigInteger_means _).hasDigits
    | temporal t text id =>
      intro i hi
      simp only [Entry.toTraits, Obj.toTraits, temporalTraits] at hi
      split at hi
      · cases hi
      · split at hi <;> cases hi
        exact (IntForm.ofLong_means _).hasDigits
    | traits t => exact h.2
    | object kind text id =>
      intro i hi
      simp only [Entry.toTraits, Obj.toTraits, objectTraits] at hi
      split at hi <;> cases hi <;> exact (IntForm.ofLong_means _).hasDigits

end FastPrintf
