/-
Lemmas for C98: how two fields can be told apart, in lower and in upper case.
-/
import Verif.Spec.JavaFormatter
import Verif.Props.Determined
import Verif.Props.CHex
import Verif.Props.Size
import Verif.Props.DoubleText
import Verif.Proofs.Alphabet

namespace FastPrintf
open Spec

namespace JavaFormatter

theorem alternate_eq (d : Directive) : (flagSet d.flags).alternate = decide (ch! '#' ∈ d.flags) := by simp [flagSet]
theorem left_eq (d : Directive) : (flagSet d.flags).leftJustify = decide (ch! '-' ∈ d.flags) := by simp [flagSet]
theorem zero_eq (d : Directive) : (flagSet d.flags).zeroPad = decide (ch! '0' ∈ d.flags) := by simp [flagSet]
theorem plus_eq (d : Directive) : (flagSet d.flags).plus = decide (ch! '+' ∈ d.flags) := by simp [flagSet]
theorem space_eq (d : Directive) : (flagSet d.flags).leadingSpace = decide (ch! ' ' ∈ d.flags) := by simp [flagSet]

/-- The characters of a field. -/
theorem mem_field {left zero : Bool} {w : Nat} {pre body : JStr} {c : JChar}
    (h : c ∈ Spec.field left zero w pre body) : c = 32 ∨ c = 48 ∨ c ∈ pre ∨ c ∈ body := by
  obtain ⟨a, z, b, e⟩ := field_shape left zero w pre body
  rw [e] at h
  simp only [List.mem_append, List.mem_replicate] at h
  tauto

theorem mem_field_pre {left zero : Bool} {w : Nat} {pre body : JStr} {c : JChar} (h : c ∈ pre) :
    c ∈ Spec.field left zero w pre body := by
  obtain ⟨a, z, b, e⟩ := field_shape left zero w pre body
  rw [e]
  simp only [List.mem_append, List.mem_replicate]
  tauto

/-- What a field shows from the first occurrence of a character on. -/
theorem field_from {left zero : Bool} {w : Nat} {pre a t : JStr} {c : JChar} (hc : c ≠ 32) (hz : c ≠ 48)
    (h1 : c ∉ pre) (h2 : c ∉ a) :
    ∃ k, (Spec.field left zero w pre (a ++ c :: t)).dropWhile (· != c) = c :: t ++ List.replicate k 32 := by
  obtain ⟨x, z, b, e⟩ := field_shape left zero w pre (a ++ c :: t)
  refine ⟨b, ?_⟩
  have e' : Spec.field left zero w pre (a ++ c :: t) =
      (List.replicate x 32 ++ pre ++ List.replicate z 48 ++ a) ++ (c :: t ++ List.replicate b 32) := by
    rw [e]; simp [List.append_assoc]
  rw [e', List.dropWhile_append_of_pos]
  · simp
  · intro y hy
    have : y ≠ c := by
      rintro rfl
      simp only [List.mem_append, List.mem_replicate] at hy
      rcases hy with ((⟨_, h⟩ | h) | ⟨_, h⟩) | h
      · exact hc h
      · exact h1 h
      · exact hz h
      · exact h2 h
    simpa using this

theorem dropWhile_nil {p : JChar → Bool} : ∀ {s : JStr}, (∀ y ∈ s, p y = true) → s.dropWhile p = []
  | [], _ => rfl
  | y :: s, h => by
    rw [List.dropWhile_cons_of_pos (h y (by simp))]
    exact dropWhile_nil fun z hz => h z (by simp [hz])

theorem field_without {left zero : Bool} {w : Nat} {pre body : JStr} {c : JChar} (hc : c ≠ 32) (hz : c ≠ 48)
    (h1 : c ∉ pre) (h2 : c ∉ body) : (Spec.field left zero w pre body).dropWhile (· != c) = [] := by
  refine dropWhile_nil ?_
  intro y hy
  have : y ≠ c := by
    rintro rfl
    rcases mem_field hy with h | h | h | h
    · exact hc h
    · exact hz h
    · exact h1 h
    · exact h2 h
  simpa using this

/-- Blanks at the end aside, texts without blanks are equal. -/
theorem strip_blanks {s t : JStr} (hs : 32 ∉ s) (ht : 32 ∉ t) {j k : Nat}
    (h : s ++ List.replicate j 32 = t ++ List.replicate k 32) : s = t := by
  have := congrArg (List.filter (· != 32)) h
  rw [List.filter_append, List.filter_append] at this
  have e : ∀ n, (List.replicate n 32).filter (· != 32) = ([] : JStr) := by intro n; simp
  rw [e, e, List.append_nil, List.append_nil] at this
  have k1 : ∀ u : JStr, 32 ∉ u → u.filter (· != 32) = u := by
    intro u hu
    rw [List.filter_eq_self]
    intro y hy
    have : y ≠ 32 := fun h => hu (h ▸ hy)
    simpa using this
  rwa [k1 s hs, k1 t ht] at this

/-- Two fields whose bodies differ after the same mark are different, also when raised to upper case. -/
theorem field_ne_after {left zero : Bool} {w : Nat} {pre a a' t t' : JStr} {c : JChar} (hc : c ≠ 32) (hz : c ≠ 48)
    (hp : c ∉ pre) (h : c ∉ a) (h' : c ∉ a') (ht : 32 ∉ t) (ht' : 32 ∉ t') (hne : t ≠ t') :
    Spec.field left zero w pre (a ++ c :: t) ≠ Spec.field left zero w pre (a' ++ c :: t') := by
  intro he
  obtain ⟨j, h1⟩ := field_from (left := left) (zero := zero) (w := w) (t := t) hc hz hp h
  obtain ⟨k, h2⟩ := field_from (left := left) (zero := zero) (w := w) (t := t') hc hz hp h'
  rw [he, h2] at h1
  have := strip_blanks (by simp only [List.mem_cons, not_or]; exact ⟨Ne.symm hc, ht'⟩)
    (by simp only [List.mem_cons, not_or]; exact ⟨Ne.symm hc, ht⟩) h1
  exact hne (List.cons.inj this).2.symm

theorem field_ne_mark {left zero : Bool} {w : Nat} {pre a t b : JStr} {c : JChar} (hc : c ≠ 32) (hz : c ≠ 48)
    (hp : c ∉ pre) (h : c ∉ a) (hb : c ∉ b) :
    Spec.field left zero w pre b ≠ Spec.field left zero w pre (a ++ c :: t) := by
  intro he
  obtain ⟨k, h2⟩ := field_from (left := left) (zero := zero) (w := w) (t := t) hc hz hp h
  have h1 := field_without (left := left) (zero := zero) (w := w) (pre := pre) (body := b) hc hz hp hb
  rw [he, h2] at h1
  exact absurd h1 (by simp)

/-- Raising does not change the number of zeros. -/
theorem count_upper (s : JStr) : (s.map Spec.upper).count 48 = s.count 48 := by
  induction s with
  | nil => rfl
  | cons c s ih =>
    rw [List.map_cons, List.count_cons, List.count_cons, ih]
    have : Spec.upper c = 48 ↔ c = 48 := by unfold Spec.upper; split_ifs <;> omega
    simp [this]

theorem upper_low {s : JStr} (h : ∀ c ∈ s, c < 97) : s.map Spec.upper = s := by
  rw [List.map_congr_left (g := id)]
  · simp
  · intro c hc
    have := h c hc
    unfold Spec.upper
    rw [if_neg (by omega)]; rfl

theorem sign_low (d : Directive) (n : Bool) : ∀ c ∈ d.sign n, c = 45 ∨ c = 43 ∨ c = 32 := by
  intro c hc
  unfold Directive.sign signText at hc
  split_ifs at hc <;> simp at hc <;> omega

theorem sign_upper (d : Directive) (n : Bool) : (d.sign n).map Spec.upper = d.sign n :=
  upper_low fun c hc => by rcases sign_low d n c hc with h | h | h <;> omega

theorem digits_low {s : JStr} (h : ∀ c ∈ s, IsDigitIn 10 c) : ∀ c ∈ s, 48 ≤ c ∧ c ≤ 57 := by
  intro c hc
  have h1 := isDigit10 (h c hc)
  simp only [List.mem_cons, List.not_mem_nil, or_false] at h1
  omega

theorem fraction_low {alt : Bool} {fp : JStr} (h : ∀ c ∈ fp, IsDigitIn 10 c) :
    ∀ c ∈ fraction alt fp, 46 ≤ c ∧ c ≤ 57 := by
  intro c hc
  unfold fraction at hc
  split_ifs at hc with hq
  · simp at hc
  · rcases List.mem_cons.1 hc with rfl | hc
    · decide
    · have := digits_low h c hc; omega

theorem fixed_low {m p : Nat} {alt : Bool} {s : JStr} (h : FixedText m p alt s) : ∀ c ∈ s, 46 ≤ c ∧ c ≤ 57 := by
  obtain ⟨ip, fp, rfl, h1, _, h3, _, _⟩ := h
  intro c hc
  rcases List.mem_append.1 hc with hc | hc
  · have := digits_low h1.2 c hc; omega
  · exact fraction_low h3 c hc

theorem minimal_low {v : ℚ} {s : JStr} (h : MinimalText v s) : ∀ c ∈ s, 46 ≤ c ∧ c ≤ 57 := by
  obtain ⟨ip, fp, rfl, h1, _, h3, _, _⟩ := h
  intro c hc
  rcases List.mem_append.1 hc with hc | hc
  · have := digits_low h1.2 c hc; omega
  · exact fraction_low h3 c hc

theorem exponent_low {x : Int} {s : JStr} (h : ExponentText x s) : ∀ c ∈ s, (c = 45 ∨ c = 43) ∨ (48 ≤ c ∧ c ≤ 57) := by
  obtain ⟨ds, h1, rfl⟩ := h
  intro c hc
  rcases List.mem_cons.1 hc with hc | hc
  · left; split_ifs at hc <;> simp [hc]
  · right
    rcases List.mem_append.1 hc with hc | hc
    · have := (List.mem_replicate.1 hc).2; omega
    · exact digits_low h1.1.2 c hc

/-- Two numbers with the same mantissa and different exponents. -/
theorem scientific_ne {d : Directive} {n : Bool} {m ex ex' : JStr} (hm : ∀ c ∈ m, 46 ≤ c ∧ c ≤ 57)
    (h1 : ∀ c ∈ ex, (c = 45 ∨ c = 43) ∨ (48 ≤ c ∧ c ≤ 57)) (h2 : ∀ c ∈ ex', (c = 45 ∨ c = 43) ∨ (48 ≤ c ∧ c ≤ 57))
    (hne : ex ≠ ex') : (d.field (d.sign n) (m ++ ch! 'e' :: ex)).map Spec.upper ≠
      (d.field (d.sign n) (m ++ ch! 'e' :: ex')).map Spec.upper := by
  unfold Directive.field
  rw [field_upper, field_upper, sign_upper, List.map_append, List.map_append, List.map_cons, List.map_cons,
    upper_low (s := m) (fun c hc => by have := hm c hc; omega),
    upper_low (s := ex) (fun c hc => by have := h1 c hc; omega),
    upper_low (s := ex') (fun c hc => by have := h2 c hc; omega)]
  have hu : Spec.upper (ch! 'e') = 69 := by decide
  rw [hu]
  exact field_ne_after (by decide) (by decide) (fun h => by have := sign_low d n _ h; omega)
    (fun h => by have := hm _ h; omega) (fun h => by have := hm _ h; omega)
    (fun h => by have := h1 _ h; omega) (fun h => by have := h2 _ h; omega) hne

/-- Zeros at the end of a fraction show. -/
theorem fixed_minimal {M k : Nat} {s s' : JStr} (h : FixedText M k false s)
    (h' : MinimalText ((M : ℚ) * 10 ^ (-(k : Int))) s') :
    (k = 0 ∨ M % 10 ≠ 0 → s' = s) ∧
    (k ≠ 0 → M % 10 = 0 → ∃ ip fp, s = ip ++ ch! '.' :: fp ∧ (∀ c ∈ ip, IsDigitIn 10 c) ∧ (∀ c ∈ fp, IsDigitIn 10 c) ∧
      ((∀ c ∈ s', IsDigitIn 10 c) ∨ ∃ ip' fp', s' = ip' ++ ch! '.' :: fp' ∧ (∀ c ∈ ip', IsDigitIn 10 c) ∧
        (∀ c ∈ fp', IsDigitIn 10 c) ∧ fp' ≠ fp)) := by
  obtain ⟨ip, fp, rfl, h1, h2, h3, h4, h5⟩ := h
  constructor
  · intro hk
    refine MinimalText.unique h' ⟨ip, fp, rfl, h1, h2, h3, ?_, ?_⟩
    · rcases hk with hk | hk
      · rw [hk] at h4
        rw [List.length_eq_zero_iff.1 h4]; simp
      · intro hl
        apply hk
        rw [← h5]
        have hne : fp ≠ [] := by rintro rfl; simp at hl
        obtain ⟨t, c, rfl⟩ : ∃ t c, fp = t ++ [c] := ⟨_, _, (List.dropLast_append_getLast hne).symm⟩
        rw [List.getLast?_append] at hl
        have hc : c = 48 := by simpa using hl
        rw [hc, ← List.append_assoc, valueIn_append]
        have : valueIn 10 [48] = 0 := by decide
        rw [this]; simp
    · rw [h5, h4, mul_assoc, ← zpow_natCast, ← zpow_add₀ (by norm_num)]
      simp
  · intro hk hM
    have hne : fp ≠ [] := by rintro rfl; exact hk (by simpa using h4.symm)
    have hz : fp.getLast? = some 48 := by
      refine last_zero hne h3 ?_
      have hv : 10 ∣ valueIn 10 (ip ++ fp) := by rw [h5]; exact Nat.dvd_of_mod_eq_zero hM
      rw [valueIn_append] at hv
      refine (Nat.dvd_add_right ?_).1 hv
      exact Dvd.dvd.mul_left (dvd_pow_self 10 (by omega)) _
    refine ⟨ip, fp, by simp [fraction, hne], h1.2, h3, ?_⟩
    obtain ⟨ip', fp', rfl, g1, g2, g3, g4, g5⟩ := h'
    by_cases hf : fp' = []
    · left
      subst hf
      simpa [fraction] using g1.2
    · right
      refine ⟨ip', fp', by simp [fraction, hf], g1.2, g3, ?_⟩
      rintro rfl
      exact g4 hz

/-- They show in a field, in either case, and with the same exponent after them. -/
theorem minimal_ne {d : Directive} {n : Bool} {M k : Nat} {s s' x : JStr} (h : FixedText M k false s)
    (h' : MinimalText ((M : ℚ) * 10 ^ (-(k : Int))) s') (hk : k ≠ 0) (hM : M % 10 = 0)
    (hx : ∀ c ∈ x, c ≠ 32 ∧ c ≠ 46) :
    (d.field (d.sign n) (s' ++ x)).map Spec.upper ≠ (d.field (d.sign n) (s ++ x)).map Spec.upper := by
  obtain ⟨ip, fp, rfl, h1, h2, h3⟩ := (fixed_minimal h h').2 hk hM
  have hxu : ∀ c ∈ x.map Spec.upper, c ≠ 32 ∧ c ≠ 46 := by
    intro c hc
    obtain ⟨y, hy, rfl⟩ := List.mem_map.1 hc
    have := hx y hy
    unfold Spec.upper; split_ifs <;> omega
  have dig : ∀ s : JStr, (∀ c ∈ s, IsDigitIn 10 c) → s.map Spec.upper = s := fun s hs =>
    upper_low fun c hc => by have := digits_low hs c hc; omega
  have hp : (46 : Nat) ∉ d.sign n := fun h => by have := sign_low d n _ h; omega
  have nd : ∀ (s : JStr) (y : Nat), (∀ c ∈ s, IsDigitIn 10 c) → y < 48 → y ∉ s := fun s y hs hy h => by
    have := digits_low hs _ h; omega
  unfold Directive.field
  rw [field_upper, field_upper, sign_upper, List.map_append, List.map_append, List.map_append, List.map_cons, dig ip h1,
    dig fp h2]
  have hu : Spec.upper (ch! '.') = 46 := by decide
  rw [hu, List.append_assoc, List.cons_append]
  rcases h3 with h3 | ⟨ip', fp', rfl, g1, g2, g3⟩
  · rw [dig s' h3]
    refine field_ne_mark (by decide) (by decide) hp (nd _ _ h1 (by decide)) ?_
    rw [List.mem_append, not_or]
    exact ⟨nd _ _ h3 (by decide), fun h => (hxu _ h).2 rfl⟩
  · rw [List.map_append, List.map_cons, dig ip' g1, dig fp' g2, hu, List.append_assoc, List.cons_append]
    refine field_ne_after (by decide) (by decide) hp (nd _ _ g1 (by decide)) (nd _ _ h1 (by decide)) ?_ ?_ ?_
    · rw [List.mem_append, not_or]; exact ⟨nd _ _ g2 (by decide), fun h => (hxu _ h).1 rfl⟩
    · rw [List.mem_append, not_or]; exact ⟨nd _ _ h2 (by decide), fun h => (hxu _ h).1 rfl⟩
    · intro he
      exact g3 (List.append_cancel_right he)

end JavaFormatter
end FastPrintf
