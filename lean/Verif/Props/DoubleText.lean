/-
Property C53: the text of a `double` in the library's own `Double.toString`.
-/
import Verif.Proofs.DoubleToString
import Verif.Props.Double
import Verif.Proofs.Arithmetic

namespace FastPrintf
open Spec DoubleToDecimal

theorem slt_zero (bits : BitVec 64) : bits.slt 0#64 = decide (negative bits) := by
  rw [BitVec.slt_zero_eq_msb]
  unfold negative
  rw [BitVec.msb_eq_decide]
  rfl

theorem bits_of_fields {bits : BitVec 64} {E : Nat} (he : expBits bits = E) (hf : fracBits bits = 0) :
    bits = BitVec.ofNat 64 (E * 2 ^ 52 + if negative bits then 2 ^ 63 else 0) := by
  have hlt := bits.isLt
  unfold expBits at he
  unfold fracBits at hf
  apply BitVec.eq_of_toNat_eq
  rw [BitVec.toNat_ofNat]
  by_cases h : negative bits
  · rw [if_pos h]; unfold negative at h; omega
  · rw [if_neg h]; unfold negative at h; omega

theorem special_text (bits : BitVec 64) (h : ¬ (finite bits ∧ magnitude bits ≠ 0)) :
    ∃ s, DoubleText bits s ∧ DoubleToDecimal.toString bits = .ok s ∧
      ∀ sb, DoubleToDecimal.appendTo bits sb = .ok (sb ++ s) := by
  have spec := C26_special bits
  unfold DoubleToDecimal.toString toDecimalString DoubleToDecimal.appendTo
  by_cases hf : finite bits
  · have hm : magnitude bits = 0 := by by_contra hc; exact h ⟨hf, hc⟩
    refine ⟨_, .zero hf hm, ?_⟩
    have hc : doubleC bits = 0 := by
      unfold magnitude at hm
      rcases mul_eq_zero.1 hm with h | h
      · exact_mod_cast h
      · exact absurd h (by positivity)
    have he : expBits bits = 0 := by
      unfold doubleC at hc
      by_contra hne
      rw [if_neg hne] at hc
      omega
    have hfr : fracBits bits = 0 := by unfold doubleC at hc; rwa [if_pos he] at hc
    have hb := bits_of_fields he hfr
    by_cases hn : negative bits
    · rw [if_pos hn] at hb ⊢
      rw [spec.2.1 hb]
      exact ⟨rfl, fun sb => rfl⟩
    · rw [if_neg hn] at hb ⊢
      rw [spec.1 hb]
      exact ⟨rfl, fun sb => rfl⟩
  · have he : expBits bits = 2047 := by unfold finite at hf; simpa using hf
    by_cases hfr : fracBits bits = 0
    · refine ⟨_, .infinite he hfr, ?_⟩
      have hb := bits_of_fields he hfr
      by_cases hn : negative bits
      · rw [if_pos hn] at hb ⊢
        rw [spec.2.2.2.1 hb]
        exact ⟨rfl, fun sb => rfl⟩
      · rw [if_neg hn] at hb ⊢
        rw [spec.2.2.1 hb]
        exact ⟨rfl, fun sb => rfl⟩
    · refine ⟨_, .nan he hfr, ?_⟩
      rw [spec.2.2.2.2 he hfr]
      exact ⟨rfl, fun sb => rfl⟩

theorem number_text (bits : BitVec 64) (hf : finite bits) (h0 : magnitude bits ≠ 0) :
    ∃ s, DoubleText bits s ∧ DoubleToDecimal.toString bits = .ok s ∧
      ∀ sb, DoubleToDecimal.appendTo bits sb = .ok (sb ++ s) := by
  obtain ⟨f, e, n, h1, -, h3, h4, h5, h6, h7, h8, h9, -⟩ := (toDecimal_ok hf h0).out
  have hn17 : n ≤ 17 := by
    by_contra hgt
    have : 10 ^ 17 ≤ 10 ^ (n - 1) := Nat.pow_le_pow_right (by omega) (by omega)
    omega
  have hF1 : 10 ^ 16 ≤ f.toNat * 10 ^ (17 - n) := by
    calc 10 ^ 16 = 10 ^ (n - 1) * 10 ^ (17 - n) := by rw [← pow_add]; congr 1; omega
      _ ≤ f.toNat * 10 ^ (17 - n) := Nat.mul_le_mul_right _ h5
  have hF2 : f.toNat * 10 ^ (17 - n) < 10 ^ 17 := by
    calc f.toNat * 10 ^ (17 - n) < 10 ^ n * 10 ^ (17 - n) := Nat.mul_lt_mul_of_pos_right h6 (by positivity)
      _ = 10 ^ 17 := by rw [← pow_add]; congr 1; omega
  have ht := charsText_java hF1 hF2 (e + n)
  have ev : ((f.toNat * 10 ^ (17 - n) : Nat) : ℚ) * 10 ^ (e + n - 17) = f.toNat * 10 ^ e := by
    push_cast
    rw [mul_assoc, ← zpow_natCast, ← zpow_add₀ (by norm_num)]
    congr 2
    omega
  rw [ev] at ht
  refine ⟨_, .number hf h0 h9 ht, ?_⟩
  have hstart : Ends (Buf.start.appendIf (bits.slt 0#64) 45#32) (if negative bits then [45] else []) := by
    rw [slt_zero]
    unfold Buf.appendIf
    by_cases hn : negative bits
    · rw [if_pos (by simpa using hn), if_pos hn]
      exact start_has.append (c := 45#32) (by simp) (by decide)
    · rw [if_neg (by simpa using hn), if_neg hn]
      exact start_has.ends
  obtain ⟨b1, e1, hb1⟩ := hstart
  obtain ⟨b2, e2, hb2⟩ := toCharsAt_ok (e := e) h4 hn17 h6 (by omega) hb1 (by split_ifs <;> simp)
  have et : b2.bytes.take (b2.index + 1).toNat =
      if negative bits then 45 :: charsText (f.toNat * 10 ^ (17 - n)) (e + n)
      else charsText (f.toNat * 10 ^ (17 - n)) (e + n) := by
    rw [hb2.index, Int.toNat_natCast, hb2.text]
    split_ifs <;> simp
  unfold DoubleToDecimal.toString toDecimalString DoubleToDecimal.appendTo
  rw [h1]
  simp only [bind_ok, e1, e2, et, pure_eq_ok]
  exact ⟨trivial, fun sb => trivial⟩

/-- **C53.** For every `double`, the library's own conversion to a string ends normally (the 24 bytes of its
buffer suffice) with the text that the documentation of `Double.toString` prescribes. -/
theorem C53_double_text (bits : BitVec 64) :
    ∃ s, DoubleToDecimal.toString bits = .ok s ∧ DoubleText bits s := by
  by_cases h : finite bits ∧ magnitude bits ≠ 0
  · obtain ⟨s, h1, h2, -⟩ := number_text bits h.1 h.2; exact ⟨s, h2, h1⟩
  · obtain ⟨s, h1, h2, -⟩ := special_text bits h; exact ⟨s, h2, h1⟩

/-- **C53 (appending).** `appendTo` appends that text. -/
theorem C53_append (bits : BitVec 64) (sb : JStr) :
    ∃ s, DoubleToDecimal.appendTo bits sb = .ok (sb ++ s) ∧ DoubleText bits s := by
  by_cases h : finite bits ∧ magnitude bits ≠ 0
  · obtain ⟨s, h1, -, h2⟩ := number_text bits h.1 h.2; exact ⟨s, h2 sb, h1⟩
  · obtain ⟨s, h1, -, h2⟩ := special_text bits h; exact ⟨s, h2 sb, h1⟩

/-! ### The text identifies the double -/

theorem PointText.unique {v : ℚ} {s s' : JStr} (h : PointText v s) (h' : PointText v s') : s = s' := by
  obtain ⟨t, h1, rfl⟩ := h
  obtain ⟨t', h1', rfl⟩ := h'
  rw [MinimalText.unique h1 h1']

theorem SignedText.unique {x : Int} {s s' : JStr} (h : SignedText x s) (h' : SignedText x s') : s = s' := by
  obtain ⟨ds, h1, rfl⟩ := h
  obtain ⟨ds', h1', rfl⟩ := h'
  have : ds = ds' := by
    rw [← toRadix_unique (by omega) (by omega) h1.1 h1.2.1,
      ← toRadix_unique (by omega) (by omega) h1'.1 h1'.2.1, h1.2.2, h1'.2.2]
  rw [this]

theorem exponent_unique {d : ℚ} {x x' : Int} (h1 : 10 ^ x ≤ d) (h2 : d < 10 ^ (x + 1)) (h1' : 10 ^ x' ≤ d)
    (h2' : d < 10 ^ (x' + 1)) : x = x' := by
  have a := zpow10_lt (lt_of_le_of_lt h1 h2')
  have b := zpow10_lt (lt_of_le_of_lt h1' h2)
  omega

theorem JavaText.unique {d : ℚ} {s s' : JStr} (h : JavaText d s) (h' : JavaText d s') : s = s' := by
  unfold JavaText at h h'
  split_ifs at h h' with hp
  · exact PointText.unique h h'
  · obtain ⟨x, ms, xs, h1, h2, h3, h4, rfl⟩ := h
    obtain ⟨x', ms', xs', h1', h2', h3', h4', rfl⟩ := h'
    obtain rfl := exponent_unique h1 h2 h1' h2'
    rw [PointText.unique h3 h3', SignedText.unique h4 h4']

/-- **C53 (uniqueness).** The documentation leaves no choice. -/
theorem C53_unique {bits : BitVec 64} {s s' : JStr} (h : DoubleText bits s) (h' : DoubleText bits s') :
    s = s' := by
  cases h with
  | nan h hf =>
    cases h' with
    | nan h' hf' => rfl
    | infinite h' hf' => exact absurd hf' hf
    | zero hf' h' => exact absurd h hf'
    | number hf' h' hd ht => exact absurd h hf'
  | infinite h hf =>
    cases h' with
    | nan h' hf' => exact absurd hf hf'
    | infinite h' hf' => rfl
    | zero hf' h' => exact absurd h hf'
    | number hf' h' hd ht => exact absurd h hf'
  | zero hf h =>
    cases h' with
    | nan h' hf' => exact absurd h' hf
    | infinite h' hf' => exact absurd h' hf
    | zero hf' h' => rfl
    | number hf' h' hd ht => exact absurd h h'
  | number hf h hd ht =>
    cases h' with
    | nan h' hf' => exact absurd h' hf
    | infinite h' hf' => exact absurd h' hf
    | zero hf' h' => exact absurd h' h
    | number hf' h' hd' ht' =>
      obtain rfl := C26_unique hf h hd hd'
      rw [JavaText.unique ht ht']

theorem around_unique {c : JChar} {a b a' b' : JStr} (h : c ∉ a) (h' : c ∉ a')
    (he : a ++ c :: b = a' ++ c :: b') : a = a' ∧ b = b' := by
  induction a generalizing a' with
  | nil =>
    cases a' with
    | nil => simpa using he
    | cons y a' => simp at he h'; exact absurd he.1 h'.1
  | cons x a ih =>
    cases a' with
    | nil => simp at he h; exact absurd he.1.symm h.1
    | cons y a' =>
      simp only [List.cons_append, List.cons.injEq, List.mem_cons, not_or] at he h h'
      obtain ⟨rfl, he⟩ := he
      obtain ⟨rfl, rfl⟩ := ih h.2 h'.2 he
      exact ⟨rfl, rfl⟩

theorem pointText_parts {v : ℚ} {s : JStr} (h : PointText v s) :
    ∃ ip fp, s = ip ++ 46 :: fp ∧ IsNumeral 10 ip ∧ (∀ c ∈ fp, IsDigitIn 10 c) ∧
      (valueIn 10 (ip ++ fp) : ℚ) = v * 10 ^ fp.length := by
  obtain ⟨t, ⟨ip, fp, rfl, h1, -, h3, -, h5⟩, rfl⟩ := h
  have hd : 46 ∉ ip := fun hc => (h1.2 _ hc).ne_dot rfl
  by_cases hf : fp = []
  · subst hf
    refine ⟨ip, [48], ?_, h1, ?_, ?_⟩
    · simp [fraction, hd]
    · intro c hc; rw [List.mem_singleton.1 hc]; exact isDigit_zero
    · rw [valueIn_append, FormattedFPDecimal.valueIn_singleton]
      simp only [List.append_nil, List.length_nil, pow_zero, mul_one] at h5
      simp [digitVal, h5]
  · exact ⟨ip, fp, by simp [fraction, hf], h1, h3, h5⟩

theorem point_value {v v' : ℚ} {s : JStr} (h : PointText v s) (h' : PointText v' s) : v = v' := by
  obtain ⟨ip, fp, rfl, h1, h2, h3⟩ := pointText_parts h
  obtain ⟨ip', fp', he, h1', h2', h3'⟩ := pointText_parts h'
  obtain ⟨rfl, rfl⟩ := around_unique (fun hc => (h1.2 _ hc).ne_dot rfl) (fun hc => (h1'.2 _ hc).ne_dot rfl) he
  rw [h3] at h3'
  exact mul_right_cancel₀ (by positivity) h3'

theorem IsDigitIn.ten {c : JChar} (h : IsDigitIn 10 c) : 48 ≤ c ∧ c ≤ 57 := by
  unfold IsDigitIn digitVal at h
  obtain ⟨h1, h2⟩ := h
  split_ifs at h2 <;> omega

theorem point_no_E {v : ℚ} {s : JStr} (h : PointText v s) : 69 ∉ s := by
  obtain ⟨ip, fp, rfl, h1, h2, -⟩ := pointText_parts h
  intro hc
  simp only [List.mem_append, List.mem_cons] at hc
  rcases hc with hc | hc | hc
  · have := IsDigitIn.ten (h1.2 _ hc); omega
  · exact absurd hc (by decide)
  · have := IsDigitIn.ten (h2 _ hc); omega

theorem point_head {v : ℚ} {s : JStr} (h : PointText v s) : ∃ c cs, s = c :: cs ∧ 48 ≤ c ∧ c ≤ 57 := by
  obtain ⟨ip, fp, rfl, h1, -, -⟩ := pointText_parts h
  cases ip with
  | nil => exact absurd rfl h1.1
  | cons c cs => exact ⟨c, _, rfl, IsDigitIn.ten (h1.2 c (by simp))⟩

theorem signed_value {x x' : Int} {s : JStr} (h : SignedText x s) (h' : SignedText x' s) : x = x' := by
  obtain ⟨ds, h1, rfl⟩ := h
  obtain ⟨ds', h1', he⟩ := h'
  have hne : ∀ {ds : JStr} {n : Nat}, Shortest 10 n ds → ∀ t, ds ≠ 45 :: t := by
    rintro ds n h t rfl
    have := IsDigitIn.ten (h.1.2 45 (by simp))
    omega
  have v1 := h1.2.2
  have v2 := h1'.2.2
  split_ifs at he with a b b
  · injection he with _ he; subst he; omega
  · exact absurd he.symm (hne h1' _)
  · exact absurd he (hne h1 _)
  · subst he; omega

theorem java_value {d d' : ℚ} {s : JStr} (h : JavaText d s) (h' : JavaText d' s) : d = d' := by
  unfold JavaText at h h'
  split_ifs at h h' with a b b
  · exact point_value h h'
  · obtain ⟨x, ms, xs, -, -, h3, h4, rfl⟩ := h'
    exact absurd (by simp) (point_no_E h)
  · obtain ⟨x, ms, xs, -, -, h3, h4, rfl⟩ := h
    exact absurd (by simp) (point_no_E h')
  · obtain ⟨x, ms, xs, -, -, h3, h4, rfl⟩ := h
    obtain ⟨x', ms', xs', -, -, h3', h4', he⟩ := h'
    obtain ⟨rfl, rfl⟩ := around_unique (point_no_E h3) (point_no_E h3') he
    obtain rfl := signed_value h4 h4'
    exact mul_right_cancel₀ (by positivity) (point_value h3 h3')

theorem java_head {d : ℚ} {s : JStr} (h : JavaText d s) : ∃ c cs, s = c :: cs ∧ 48 ≤ c ∧ c ≤ 57 := by
  unfold JavaText at h
  split_ifs at h
  · exact point_head h
  · obtain ⟨x, ms, xs, -, -, h3, -, rfl⟩ := h
    obtain ⟨c, cs, rfl, h⟩ := point_head h3
    exact ⟨c, _, rfl, h⟩

theorem javaDecimal_pos {bits : BitVec 64} {d : ℚ} (h : JavaDecimal bits d) : 0 < d := by
  obtain ⟨m, -, -, ⟨s, i, h1, -, rfl⟩, -⟩ := h
  have : 0 < s := lt_of_lt_of_le (by positivity) h1
  positivity

theorem zero_text : PointText 0 (js! "0.0") :=
  ⟨js! "0", ⟨js! "0", [], by decide, by unfold IsNumeral; decide, by unfold NoExtraZero; decide, by decide,
    by decide, by norm_num [valueIn, digitVal]⟩, by decide⟩

/-- The part of a text after the sign, and whether there is a sign. -/
theorem sign_split {p q : Prop} [Decidable p] [Decidable q] {t t' : JStr} (h : ∃ c cs, t = c :: cs ∧ c ≠ 45)
    (h' : ∃ c cs, t' = c :: cs ∧ c ≠ 45)
    (he : (if p then ch! '-' :: t else t) = if q then ch! '-' :: t' else t') : (p ↔ q) ∧ t = t' := by
  obtain ⟨c, cs, rfl, hc⟩ := h
  obtain ⟨c', cs', rfl, hc'⟩ := h'
  split_ifs at he with a b b
  · exact ⟨iff_of_true a b, by simpa using he⟩
  · exact absurd (by simp at he; exact he.1.symm) hc'
  · exact absurd (by simp at he; exact he.1) hc
  · exact ⟨iff_of_false a b, he⟩

/-- The text after the sign for each kind of value that is not NaN. -/
inductive Unsigned (bits : BitVec 64) : JStr → Prop
  | infinite (h : expBits bits = 2047) (hf : fracBits bits = 0) : Unsigned bits (js! "Infinity")
  | zero (hf : finite bits) (h : magnitude bits = 0) : Unsigned bits (js! "0.0")
  | number (hf : finite bits) (h : magnitude bits ≠ 0) {d : ℚ} (hd : JavaDecimal bits d) {t : JStr}
      (ht : JavaText d t) : Unsigned bits t

theorem unsigned {bits : BitVec 64} {s : JStr} (h : DoubleText bits s) :
    (s = js! "NaN" ∧ expBits bits = 2047 ∧ fracBits bits ≠ 0) ∨
      ∃ t, Unsigned bits t ∧ s = if negative bits then ch! '-' :: t else t := by
  cases h with
  | nan h hf => exact .inl ⟨rfl, h, hf⟩
  | infinite h hf => exact .inr ⟨_, .infinite h hf, by split_ifs <;> rfl⟩
  | zero hf h => exact .inr ⟨_, .zero hf h, by split_ifs <;> rfl⟩
  | number hf h hd ht => exact .inr ⟨_, .number hf h hd ht, rfl⟩

theorem Unsigned.head {bits : BitVec 64} {t : JStr} (h : Unsigned bits t) :
    ∃ c cs, t = c :: cs ∧ c ≠ 45 ∧ c ≠ 78 := by
  cases h with
  | infinite => exact ⟨_, _, rfl, by decide, by decide⟩
  | zero => exact ⟨_, _, rfl, by decide, by decide⟩
  | number hf h hd ht =>
    obtain ⟨c, cs, rfl, h1, h2⟩ := java_head ht
    exact ⟨c, cs, rfl, by omega, by omega⟩

theorem zero_java {d : ℚ} (h : JavaText d (js! "0.0")) : d = 0 := by
  unfold JavaText at h
  split_ifs at h
  · exact point_value h zero_text
  · obtain ⟨x, ms, xs, -, -, -, -, he⟩ := h
    have : (69 : Nat) ∈ (js! "0.0") := by rw [he]; simp
    exact absurd this (by decide)

theorem bits_of_parts {b b' : BitVec 64} (hs : negative b ↔ negative b') (he : expBits b = expBits b')
    (hf : fracBits b = fracBits b') : b = b' := by
  apply BitVec.eq_of_toNat_eq
  unfold negative expBits fracBits at *
  have := b.isLt
  have := b'.isLt
  omega

/-- **C53 (round trip).** Two doubles with the same text are the same, or both NaN. -/
theorem C53_injective {bits bits' : BitVec 64} {s : JStr} (h : DoubleToDecimal.toString bits = .ok s)
    (h' : DoubleToDecimal.toString bits' = .ok s) :
    bits = bits' ∨ (s = js! "NaN" ∧ expBits bits = 2047 ∧ fracBits bits ≠ 0 ∧ expBits bits' = 2047 ∧
      fracBits bits' ≠ 0) := by
  obtain ⟨s1, e1, t1⟩ := C53_double_text bits
  obtain ⟨s2, e2, t2⟩ := C53_double_text bits'
  rw [h] at e1
  rw [h'] at e2
  cases e1; cases e2
  have hN : ∀ {b : BitVec 64} {t : JStr}, Unsigned b t →
      js! "NaN" ≠ (if negative b then ch! '-' :: t else t) := by
    intro b t hu
    obtain ⟨c, cs, rfl, -, hc⟩ := hu.head
    split_ifs
    · simp
    · intro he; injection he with he; exact hc he.symm
  rcases unsigned t1 with ⟨rfl, a1, a2⟩ | ⟨t, u, rfl⟩
  · rcases unsigned t2 with ⟨-, b1, b2⟩ | ⟨t', u', he⟩
    · exact .inr ⟨rfl, a1, a2, b1, b2⟩
    · exact absurd he (hN u')
  · left
    rcases unsigned t2 with ⟨he, b1, b2⟩ | ⟨t', u', he⟩
    · exact absurd he.symm (hN u)
    · obtain ⟨hs, rfl⟩ := sign_split (by obtain ⟨c, cs, h, h', -⟩ := u.head; exact ⟨c, cs, h, h'⟩)
        (by obtain ⟨c, cs, h, h', -⟩ := u'.head; exact ⟨c, cs, h, h'⟩) he
      cases u with
      | infinite a1 a2 =>
        generalize hw : (js! "Infinity") = w at u'
        cases u' with
        | infinite b1 b2 => exact bits_of_parts hs (a1.trans b1.symm) (a2.trans b2.symm)
        | zero => exact absurd hw (by decide)
        | number _ _ _ ht =>
          obtain ⟨c, cs, rfl, c1, c2⟩ := java_head ht
          injection hw with hw
          omega
      | zero hf h0 =>
        generalize hw : (js! "0.0") = w at u'
        cases u' with
        | infinite b1 b2 => exact absurd hw (by decide)
        | zero hf' h0' => exact bits_ext hf hf' hs (h0.trans h0'.symm)
        | number _ _ hd ht =>
          subst hw
          exact absurd (zero_java ht) (javaDecimal_pos hd).ne'
      | number hf h0 hd ht =>
        cases u' with
        | infinite b1 b2 =>
          obtain ⟨c, cs, hw, c1, c2⟩ := java_head ht
          injection hw with hw
          omega
        | zero hf' h0' => exact absurd (zero_java ht) (javaDecimal_pos hd).ne'
        | number hf' h0' hd' ht' =>
          obtain rfl := java_value ht ht'
          exact bits_ext hf hf' hs (C26_injective hf h0 hf' h0' hd hd')

example : DoubleToDecimal.toString 0x3FF8000000000000#64 = .ok (js! "1.5") := by decide +kernel
example : DoubleToDecimal.toString 0xC0C81CD6E631F8A1#64 = .ok (js! "-12345.6789") := by decide +kernel
example : DoubleToDecimal.toString 0x416312D000000000#64 = .ok (js! "1.0E7") := by decide +kernel
example : DoubleToDecimal.toString 0x0000000000000001#64 = .ok (js! "4.9E-324") := by decide +kernel
example : DoubleToDecimal.toString 0x7FEFFFFFFFFFFFFF#64 = .ok (js! "1.7976931348623157E308") := by decide +kernel
example : DoubleToDecimal.toString 0x8000000000000000#64 = .ok (js! "-0.0") := by decide +kernel
example : DoubleToDecimal.toString 0xFFF0000000000000#64 = .ok (js! "-Infinity") := by decide +kernel
example : DoubleToDecimal.toString 0x7FF8000000000001#64 = .ok (js! "NaN") := by decide +kernel
example : DoubleToDecimal.appendTo 0x3F50624DD2F1A9FC#64 (js! "x=") = .ok (js! "x=0.001") := by decide +kernel
/-- The longest texts fill the buffer: 24 characters. -/
example : ∃ s, DoubleToDecimal.toString 0x8010000000000000#64 = .ok s ∧ s.length = 24 :=
  ⟨js! "-2.2250738585072014E-308", by decide +kernel, by decide⟩

end FastPrintf
