/-
C84: a negative number prints like its absolute value, but for the sign.
-/
import Verif.Spec.Mirror
import Verif.Props.EqualNumbers
import Verif.Props.Hex
import Verif.Props.Determined

namespace FastPrintf
open Spec DefaultAppender

theorem mirrored_pad (fl : Flags) (left zero : Bool) (width n : Nat) (pre body : JStr) :
    Mirrored fl width (padWith left zero (width - ((signText fl false).length + n)) (signText fl false ++ pre) body)
      (padWith left zero (width - ((signText fl true).length + n)) (signText fl true ++ pre) body) := by
  unfold Mirrored
  by_cases hp : fl.plus
  · rw [if_pos hp]
    have e1 : signText fl false = js! "+" := by simp [signText, hp]
    have e2 : signText fl true = js! "-" := by simp [signText]
    rw [e1, e2]
    generalize width - _ = k
    unfold padWith
    cases left
    · cases zero
      · exact ⟨k, pre ++ body, by simp, by simp⟩
      · exact ⟨0, pre ++ (List.replicate k 48 ++ body), by simp, by simp⟩
    · exact ⟨0, pre ++ (body ++ List.replicate k 32), by simp, by simp⟩
  · rw [if_neg hp]
    by_cases hs : fl.leadingSpace
    · rw [if_pos hs]
      have e1 : signText fl false = js! " " := by simp [signText, hp, hs]
      have e2 : signText fl true = js! "-" := by simp [signText]
      rw [e1, e2]
      generalize width - _ = k
      unfold padWith
      cases left
      · cases zero
        · exact ⟨k, pre ++ body, by simp, by simp⟩
        · exact ⟨0, pre ++ (List.replicate k 48 ++ body), by simp, by simp⟩
      · exact ⟨0, pre ++ (body ++ List.replicate k 32), by simp, by simp⟩
    · rw [if_neg hs]
      rintro rfl
      have e1 : signText fl false = [] := by simp [signText, hp, hs]
      have e2 : signText fl true = js! "-" := by simp [signText]
      rw [e1, e2, Nat.zero_sub, Nat.zero_sub]
      simp [padWith]

theorem mirrored_field (fl : Flags) (left zero : Bool) (width : Nat) (pre body : JStr) :
    Mirrored fl width (field left zero width (signText fl false ++ pre) body)
      (field left zero width (signText fl true ++ pre) body) := by
  have := mirrored_pad fl left zero width (pre.length + body.length) pre body
  simpa only [field, padWith, List.length_append, Nat.add_assoc] using this

/-- **C84 (`%d`).** A positive integer and its negation, whatever the types. -/
theorem C84_d (dates : DateSyntax) (env : DateEnv) (jdk : JdkEnv) (d : Directive) (h : d.Ok dates) (hp : d.Plain)
    (hc : d.conv = ch! 'd' ∨ d.conv = ch! 'i') (v : Int) (hv : 0 < v) (e e' : Entry) (he : Counts jdk e v)
    (he' : Counts jdk e' (-v)) (rest rest' : List Traits) :
    ∃ pos neg, printf dates env d.text (e.toTraits jdk :: rest) = .ok pos ∧
      printf dates env d.text (e'.toTraits jdk :: rest') = .ok neg ∧
      Mirrored (flagSet d.flags) d.width.width pos neg := by
  refine ⟨_, _, he.d env h hp hc rest, he'.d env h hp hc rest', ?_⟩
  unfold dText
  rw [if_neg (by omega), if_neg (by omega), Int.natAbs_neg, show decide (v < 0) = false by simp; omega,
    show decide (-v < 0) = true by simp; omega, show decide (v = 0) = false by simp; omega,
    show decide (-v = 0) = false by simp; omega]
  have := mirrored_field (flagSet d.flags) (flagSet d.flags).leftJustify ((flagSet d.flags).zeroPad && d.prec.precision.isNone)
    d.width.width [] (withPrecision d.prec.precision (false = true) (toRadix 10 v.natAbs))
  simpa using this

section
variable {bits bits' : BitVec 64}

theorem Spec.Opposite.exp (h : Opposite bits bits') : expBits bits' = expBits bits := by
  unfold expBits; rw [h]; omega
theorem Spec.Opposite.frac (h : Opposite bits bits') : fracBits bits' = fracBits bits := by
  unfold fracBits; rw [h]; omega
theorem Spec.Opposite.neg (h : Opposite bits bits') : ¬ negative bits ∧ negative bits' := by
  have := bits'.isLt
  unfold negative; rw [h] at *; omega
theorem Spec.Opposite.c (h : Opposite bits bits') : doubleC bits' = doubleC bits := by
  unfold doubleC; rw [h.exp, h.frac]
theorem Spec.Opposite.q (h : Opposite bits bits') : doubleQ bits' = doubleQ bits := by
  unfold doubleQ; rw [h.exp]
theorem Spec.Opposite.mag (h : Opposite bits bits') : magnitude bits' = magnitude bits := by
  unfold magnitude; rw [h.c, h.q]
theorem Spec.Opposite.fin (h : Opposite bits bits') : finite bits' ↔ finite bits := by
  unfold finite; rw [h.exp]
theorem Spec.Opposite.java (h : Opposite bits bits') (q : ℚ) : JavaDecimal bits' q ↔ JavaDecimal bits q := by
  unfold JavaDecimal; rw [h.mag, h.c]
theorem Spec.Opposite.place (h : Opposite bits bits') (e : Int) : LastPlace bits' e ↔ LastPlace bits e := by
  unfold LastPlace; rw [h.mag, h.c, h.q]
end

/-- The texts the semantics gives to a number and its negation. -/
theorem opposite_text {d : Directive} {x x' : Floating} (ho : x.Opposite x') {r : Res JStr} (h : FloatText d x r)
    (ha : d.conv = ch! 'a' → ∀ u s, x ≠ .big u s) :
    ∃ pos neg, r = .ok pos ∧ FloatText d x' (.ok neg) ∧ Mirrored (flagSet d.flags) d.width.width pos neg := by
  have fieldM : ∀ body, Mirrored (flagSet d.flags) d.width.width (d.field (signText (flagSet d.flags) false) body)
      (d.field (signText (flagSet d.flags) true) body) := by
    intro body
    simpa [Directive.field] using mirrored_field (flagSet d.flags) (flagSet d.flags).leftJustify (flagSet d.flags).zeroPad d.width.width [] body
  have fieldX : ∀ body, Mirrored (flagSet d.flags) d.width.width (d.field (signText (flagSet d.flags) false ++ js! "0x") body)
      (d.field (signText (flagSet d.flags) true ++ js! "0x") body) :=
    fun body => mirrored_field (flagSet d.flags) (flagSet d.flags).leftJustify (flagSet d.flags).zeroPad d.width.width _ body
  cases ho with
  | @double b b' ho hf =>
    have hn : decide (negative b) = false := by simpa using ho.neg.1
    have hn' : decide (negative b') = true := by simpa using ho.neg.2
    have hf' := ho.fin.2 hf
    cases h with
    | nonFinite h => exact absurd hf h
    | fixed hc _ hq hb =>
      refine ⟨_, _, rfl, .fixed hc hf' ?_ hb, by rw [hn, hn']; exact fieldM _⟩
      unfold DecimalOf at hq ⊢
      rwa [ho.mag, ho.java]
    | scientificZero hc _ hz hm =>
      exact ⟨_, _, rfl, .scientificZero hc hf' (by rwa [ho.mag]) hm, by rw [hn, hn']; exact fieldM _⟩
    | scientific hc _ hz hq hs hm hx =>
      exact ⟨_, _, rfl, .scientific hc hf' (by rwa [ho.mag]) ((ho.java _).2 hq) hs hm hx, by rw [hn, hn']; exact fieldM _⟩
    | generalZero hc _ hz hb =>
      exact ⟨_, _, rfl, .generalZero hc hf' (by rwa [ho.mag]) hb, by rw [hn, hn']; exact fieldM _⟩
    | general hc _ hz hq hs hl hd hb =>
      exact ⟨_, _, rfl, .general hc hf' (by rwa [ho.mag]) ((ho.java _).2 hq) hs ((ho.place _).2 hl) hd hb,
        by rw [hn, hn']; exact fieldM _⟩
    | hexExact hc _ hp hb hv hx hk hl =>
      rw [← ho.exp] at hb hv hx
      rw [← ho.mag] at hv hx
      exact ⟨_, _, rfl, .hexExact hc hf' (by rwa [ho.mag]) hb hv hx hk hl, by rw [hn, hn']; exact fieldX _⟩
    | hexRounded hc _ hz hp hp12 hb hl hr =>
      exact ⟨_, _, rfl, .hexRounded hc hf' (by rwa [ho.mag]) hp hp12 hb hl (by rwa [ho.mag]),
        by rw [hn, hn']; exact fieldX _⟩
  | @big u s hu =>
    have hn : decide (u < 0) = false := by simp; omega
    have hn' : decide (-u < 0) = true := by simp; omega
    cases h with
    | bigFixed hc hz hb =>
      exact ⟨_, _, rfl, .bigFixed hc (u := -u) (.inl (by omega)) (by rwa [Int.natAbs_neg]),
        by rw [hn, hn']; exact fieldM _⟩
    | bigScientific hc hz hd hs hm hx =>
      exact ⟨_, _, rfl, .bigScientific hc (u := -u) (by omega) (by rwa [Int.natAbs_neg]) (by rwa [Int.natAbs_neg]) hm hx,
        by rw [hn, hn']; exact fieldM _⟩
    | bigGeneral hc hz hd h1 h2 hs hb =>
      refine ⟨_, _, rfl, .bigGeneral hc (u := -u) (by omega) (by rwa [Int.natAbs_neg]) (by rwa [Int.natAbs_neg])
        (by rwa [Int.natAbs_neg]) (by rwa [Int.natAbs_neg]) hb, ?_⟩
      rw [hn, hn']
      simpa using mirrored_pad (flagSet d.flags) (flagSet d.flags).leftJustify (flagSet d.flags).zeroPad d.width.width _ [] _
    | bigHex hc => exact absurd rfl (ha hc _ _)
    | bigFixedZero => omega
    | bigScientificZero => omega
    | bigGeneralZero => omega

/-- **C84.** A number and its negation under the floating conversions. -/
theorem C84_float (dates : DateSyntax) (env : DateEnv) (jdk : JdkEnv) (d : Directive) (h : d.Ok dates) (hp : d.Plain)
    (hc : d.conv ∈ floatConvs) (e e' : Entry) (he : Covered e) (he' : Covered e') (x x' : Floating)
    (hx : RealReading jdk e (.ok x)) (hx' : RealReading jdk e' (.ok x')) (ho : x.Opposite x')
    (ha : d.conv = ch! 'a' → ∀ u s, x ≠ .big u s) :
    ∃ pos neg, printf dates env d.text [e.toTraits jdk] = .ok pos ∧
      printf dates env d.text [e'.toTraits jdk] = .ok neg ∧ Mirrored (flagSet d.flags) d.width.width pos neg := by
  obtain ⟨pos, neg, h1, h2, h3⟩ := opposite_text ho (real_sound env h hp hc he hx) ha
  exact ⟨pos, neg, h1, (real_sound env h hp hc he' hx').unique h2, h3⟩

/-- The infinities: here the blank flag has no effect. -/
theorem C84_infinite (dates : DateSyntax) (env : DateEnv) (jdk : JdkEnv) (d : Directive) (h : d.Ok dates) (hp : d.Plain)
    (hc : d.conv ∈ floatConvs) (bits bits' : BitVec 64) (ho : Opposite bits bits') (hf : ¬ finite bits)
    (hn : fracBits bits = 0) (e e' : Entry) (he : IsDouble e bits) (he' : IsDouble e' bits') (rest rest' : List Traits) :
    ∃ pos neg, printf dates env d.text (e.toTraits jdk :: rest) = .ok pos ∧
      printf dates env d.text (e'.toTraits jdk :: rest') = .ok neg ∧
      Mirrored { flagSet d.flags with leadingSpace := false } d.width.width pos neg := by
  refine ⟨_, _, C30_nonfinite dates env jdk d h hp hc bits hf e he rest,
    C30_nonfinite dates env jdk d h hp hc bits' (fun g => hf (ho.fin.1 g)) e' he' rest', ?_⟩
  unfold nonFiniteName
  rw [ho.frac, if_neg (not_not.2 hn), if_neg ho.neg.1, if_neg (not_not.2 hn), if_pos ho.neg.2]
  unfold Mirrored
  dsimp only
  by_cases hpl : (flagSet d.flags).plus
  · rw [if_pos hpl, if_pos hpl]
    unfold field
    cases (flagSet d.flags).leftJustify
    · exact ⟨d.width.width - 9, js! "Infinity", by simp, by simp⟩
    · exact ⟨0, js! "Infinity" ++ List.replicate (d.width.width - 9) 32, by simp, by simp⟩
  · rw [if_neg hpl, if_neg hpl, if_neg (by simp)]
    intro hw
    rw [hw]
    unfold field
    cases (flagSet d.flags).leftJustify <;> simp

theorem mirrored_upper {fl : Flags} {width : Nat} {pos neg : JStr} (h : Mirrored fl width pos neg) :
    Mirrored fl width (pos.map Spec.upper) (neg.map Spec.upper) := by
  have u1 : Spec.upper 32 = 32 := by decide
  have u2 : Spec.upper 43 = 43 := by decide
  have u3 : Spec.upper 45 = 45 := by decide
  unfold Mirrored at h ⊢
  split_ifs at h ⊢
  · obtain ⟨k, q, rfl, rfl⟩ := h
    exact ⟨k, q.map Spec.upper, by simp [u1, u2], by simp [u1, u3]⟩
  · obtain ⟨k, q, rfl, rfl⟩ := h
    exact ⟨k, q.map Spec.upper, by simp [u1], by simp [u1, u3]⟩
  · intro hw
    rw [h hw]
    simp [u3]

/-- The upper-case conversions. -/
theorem C84_upper (dates : DateSyntax) (env : DateEnv) (jdk : JdkEnv) (d : Directive) (h : d.Ok dates)
    (up : JChar) (hu : (d.conv, up) ∈ casePairs) (e e' : Entry) (he : WellBehaved e) (he' : WellBehaved e')
    (pos neg : JStr) (h1 : printf dates env d.text [e.toTraits jdk] = .ok pos)
    (h2 : printf dates env d.text [e'.toTraits jdk] = .ok neg)
    (hm : Mirrored (flagSet d.flags) d.width.width pos neg) :
    ∃ pos' neg', printf dates env ({ d with conv := up } : Directive).text [e.toTraits jdk] = .ok pos' ∧
      printf dates env ({ d with conv := up } : Directive).text [e'.toTraits jdk] = .ok neg' ∧
      Mirrored (flagSet d.flags) d.width.width pos' neg' := by
  have key : ∀ e : Entry, WellBehaved e → ∀ s, printf dates env d.text [e.toTraits jdk] = .ok s →
      printf dates env ({ d with conv := up } : Directive).text [e.toTraits jdk] = .ok (s.map Spec.upper) := by
    intro e he s hs
    rcases (C19_upper_case dates env jdk d h up hu [e] (by simpa using he)).2 with g | ⟨-, g, -⟩
    · rw [List.map_singleton, hs] at g
      exact g
    · rw [List.map_singleton, hs] at g
      cases g
  exact ⟨_, _, key e he _ h1, key e' he' _ h2, mirrored_upper hm⟩

/-! ### Examples -/

example : Opposite 0x4004000000000000#64 0xC004000000000000#64 := by unfold Opposite; decide
example : Opposite 0#64 0x8000000000000000#64 := by unfold Opposite; decide
-- the least `int` and its negation, which is a `long`
example : Counts sampleJdk (.prim (.int 0x80000000#32)) (-2147483648) := ⟨.int 0x80000000#32, by decide, .inl (.prim rfl)⟩
example : Counts sampleJdk (.prim (.long 2147483648#64)) 2147483648 := ⟨.long 2147483648#64, by decide, .inl (.prim rfl)⟩
example : printf ⟨fun _ => true⟩ sampleDateEnv (js! "%d %d|%+d %+d") [(Prim.long 2147483648#64).traits sampleJdk .primitive,
    intArg 0x80000000#32, (Prim.long 2147483648#64).traits sampleJdk .primitive, intArg 0x80000000#32] =
    .ok (js! "2147483648 -2147483648|+2147483648 -2147483648") := rfl
example : printf ⟨fun _ => true⟩ sampleDateEnv (js! "%+8.1f|%+8.1f|% 08.1f|% 08.1f|%a %a|%g %g") [
    doubleArg 0x4004000000000000#64, doubleArg 0xC004000000000000#64,
    doubleArg 0x4004000000000000#64, doubleArg 0xC004000000000000#64,
    doubleArg 0x4004000000000000#64, doubleArg 0xC004000000000000#64, doubleArg 0#64, doubleArg 0x8000000000000000#64] =
    .ok (js! "    +2.5|    -2.5| 00002.5|-00002.5|0x1.4p+1 -0x1.4p+1|0 -0") := by decide +kernel
-- the rounding of a tie is symmetric, too
example : printf ⟨fun _ => true⟩ sampleDateEnv (js! "%.0f %.0f") [doubleArg 0x4004000000000000#64,
    doubleArg 0xC004000000000000#64] = .ok (js! "3 -3") := by decide +kernel
-- a width hides it, since the `-` takes the place of a blank or a zero
example : printf ⟨fun _ => true⟩ sampleDateEnv (js! "%4d|%4d|%04d|%04d") [intArg 25#32, intArg (-25#32), intArg 25#32,
    intArg (-25#32)] = .ok (js! "  25| -25|0025|-025") := rfl

/-- Under the unsigned conversions there is no such thing. -/
theorem C84_unsigned_witness : printf ⟨fun _ => true⟩ sampleDateEnv (js! "%u %u") [intArg 1#32, intArg (-1#32)] =
    .ok (js! "1 4294967295") := rfl

end FastPrintf
