/-
The characters of the texts of numbers.
-/
import Verif.Spec.Alphabet

namespace FastPrintf
open Spec

theorem mem_padWith {left zero : Bool} {k : Nat} {pre body : JStr} {c : JChar} (h : c ∈ padWith left zero k pre body) :
    c = 32 ∨ c = 48 ∨ c ∈ pre ∨ c ∈ body := by
  unfold padWith at h
  cases left <;> cases zero <;> simp only [Bool.false_eq_true, if_false, if_true, List.mem_append, List.mem_replicate] at h <;>
    tauto

theorem mem_field {left zero : Bool} {w : Nat} {pre body : JStr} {c : JChar} (h : c ∈ field left zero w pre body) :
    c = 32 ∨ c = 48 ∨ c ∈ pre ∨ c ∈ body := mem_padWith (left := left) (zero := zero) h

theorem mem_padded {left : Bool} {w : Nat} {s : JStr} {c : JChar} (h : c ∈ padded left w s) : c = 32 ∨ c ∈ s := by
  unfold padded at h
  cases left <;> simp only [Bool.false_eq_true, if_false, if_true, List.mem_append, List.mem_replicate] at h <;> tauto

theorem mem_cut {p : Option Nat} {s : JStr} {c : JChar} (h : c ∈ cut p s) : c ∈ s := by
  cases p with
  | none => exact h
  | some p => exact List.mem_of_mem_take h

theorem mem_signText {fl : Flags} {neg : Bool} {c : JChar} (h : c ∈ signText fl neg) : c = 32 ∨ c ∈ js! "+-" := by
  unfold signText at h
  split_ifs at h <;> simp at h <;> subst h <;> decide

theorem isDigit10 {c : JChar} (h : IsDigitIn 10 c) : c ∈ js! "0123456789" := by
  obtain ⟨h1, h2⟩ := h
  unfold digitVal at h2
  have : 48 ≤ c ∧ c ≤ 57 := by
    split_ifs at h2 with h3
    · omega
    · omega
  simp only [List.mem_cons, List.not_mem_nil, or_false]
  omega

theorem isDigit8 {c : JChar} (h : IsDigitIn 8 c) : c ∈ js! "01234567" := by
  obtain ⟨h1, h2⟩ := h
  unfold digitVal at h2
  simp only [List.mem_cons, List.not_mem_nil, or_false]
  split_ifs at h2 with h3
  · omega
  · omega

theorem isDigit16 {c : JChar} (h : IsDigitIn 16 c) : c ∈ js! "0123456789abcdef" := by
  obtain ⟨h1, h2⟩ := h
  simp only [List.mem_cons, List.not_mem_nil, or_false]
  omega

theorem mem_fraction {alt : Bool} {fp : JStr} {c : JChar} (h : c ∈ fraction alt fp) : c = ch! '.' ∨ c ∈ fp := by
  unfold fraction at h
  split_ifs at h
  · simp at h
  · simpa using h

theorem Spec.FixedText.chars {m p : Nat} {alt : Bool} {s : JStr} (h : FixedText m p alt s) {c : JChar} (hc : c ∈ s) :
    c ∈ js! ".0123456789" := by
  obtain ⟨ip, fp, rfl, h1, -, h2, -⟩ := h
  rcases List.mem_append.1 hc with hc | hc
  · exact List.mem_cons_of_mem _ (isDigit10 (h1.2 c hc))
  · rcases mem_fraction hc with rfl | hc
    · decide
    · exact List.mem_cons_of_mem _ (isDigit10 (h2 c hc))

theorem Spec.MinimalText.chars {v : ℚ} {s : JStr} (h : MinimalText v s) {c : JChar} (hc : c ∈ s) :
    c ∈ js! ".0123456789" := by
  obtain ⟨ip, fp, rfl, h1, -, h2, -⟩ := h
  rcases List.mem_append.1 hc with hc | hc
  · exact List.mem_cons_of_mem _ (isDigit10 (h1.2 c hc))
  · rcases mem_fraction hc with rfl | hc
    · decide
    · exact List.mem_cons_of_mem _ (isDigit10 (h2 c hc))

theorem sub_chars {a b : JStr} (h : a.all (b.contains ·) = true) {c : JChar} (hc : c ∈ a) : c ∈ b := by
  have := List.all_eq_true.1 h c hc
  simpa using this

theorem Spec.ExponentText.chars {x : Int} {s : JStr} (h : ExponentText x s) {c : JChar} (hc : c ∈ s) :
    c ∈ js! "+-0123456789" := by
  obtain ⟨ds, h1, rfl⟩ := h
  rcases List.mem_cons.1 hc with rfl | hc
  · split_ifs <;> decide
  · rcases List.mem_append.1 hc with hc | hc
    · rw [List.eq_of_mem_replicate hc]; decide
    · exact sub_chars (by decide) (isDigit10 (h1.1.2 c hc))

theorem Spec.BigExponentText.chars {k : Nat} {x : Int} {s : JStr} (h : BigExponentText k x s) {c : JChar} (hc : c ∈ s) :
    c ∈ js! "+-0123456789" := by
  unfold BigExponentText at h
  split_ifs at h
  · subst h; exact sub_chars (by decide) hc
  · exact h.chars hc

theorem mem_exponential {ms xs : JStr} (hm : ∀ c ∈ ms, c ∈ js! ".0123456789") (hx : ∀ c ∈ xs, c ∈ js! "+-0123456789")
    {c : JChar} (hc : c ∈ ms ++ ch! 'e' :: xs) : c ∈ js! "+-.0123456789e" := by
  rcases List.mem_append.1 hc with hc | hc
  · exact sub_chars (by decide) (hm c hc)
  · rcases List.mem_cons.1 hc with rfl | hc
    · decide
    · exact sub_chars (by decide) (hx c hc)

theorem Spec.GeneralText.chars {P n m : Nat} {alt : Bool} {x : Int} {s : JStr} (h : GeneralText P n alt m x s)
    {c : JChar} (hc : c ∈ s) : c ∈ js! "+-.0123456789e" := by
  unfold GeneralText at h
  split_ifs at h
  · exact sub_chars (by decide) (h.chars hc)
  · exact sub_chars (by decide) (h.chars hc)
  · obtain ⟨ms, xs, rfl, hx, m', -, hm⟩ := h
    exact mem_exponential (fun _ h => hm.chars h) (fun _ h => hx.chars h) hc
  · obtain ⟨ms, xs, rfl, hx, hm⟩ := h
    exact mem_exponential (fun _ h => hm.chars h) (fun _ h => hx.chars h) hc

theorem Spec.BigGeneralText.chars {P n m : Nat} {alt : Bool} {x0 x : Int} {s : JStr}
    (h : BigGeneralText P n alt x0 m x s) {c : JChar} (hc : c ∈ s) : c ∈ js! "+-.0123456789e" := by
  unfold BigGeneralText at h
  dsimp only at h
  by_cases h1 : -4 ≤ x0 ∧ x0 < P
  · rw [if_pos h1] at h
    cases alt
    · rw [if_neg (by simp)] at h
      exact sub_chars (by decide) (h.chars hc)
    · rw [if_pos rfl] at h
      obtain ⟨m', -, h⟩ := h
      exact sub_chars (by decide) (h.chars hc)
  · rw [if_neg h1] at h
    obtain ⟨ms, xs, rfl, hx, hm⟩ := h
    cases alt
    · rw [if_neg (by simp)] at hm
      exact mem_exponential (fun _ h => hm.chars h) (fun _ h => hx.chars h) hc
    · rw [if_pos rfl] at hm
      obtain ⟨m', -, hm⟩ := hm
      exact mem_exponential (fun _ h => hm.chars h) (fun _ h => hx.chars h) hc

theorem Spec.HexText.chars {lead : Nat} {fp : JStr} {x : Int} {s : JStr} (h : HexText lead fp x s) {c : JChar}
    (hc : c ∈ s) : c ∈ js! "+-.0123456789abcdefxp" := by
  obtain ⟨h1, h2, ds, h3, rfl⟩ := h
  simp only [List.cons_append, List.mem_cons, List.mem_append] at hc
  rcases hc with rfl | rfl | hc | rfl | rfl | hc
  · have : lead = 0 ∨ lead = 1 := by omega
    rcases this with rfl | rfl <;> decide
  · decide
  · exact sub_chars (by decide) (isDigit16 (h2 c hc))
  · decide
  · split_ifs <;> decide
  · exact sub_chars (by decide) (isDigit10 (h3.1.2 c hc))

theorem mem_nonFiniteName {b : BitVec 64} {plus : Bool} {c : JChar} (h : c ∈ nonFiniteName b plus) :
    c ∈ js! "+-InfityNa" := by
  unfold nonFiniteName at h
  split_ifs at h <;> exact sub_chars (by decide) h

/-- The text of a number under a floating-point conversion. -/
theorem Spec.FloatText.chars {d : Directive} {x : Floating} {r : Res JStr} (h : FloatText d x r)
    (hd : d.conv ∈ floatConvs) {s : JStr} (hr : r = .ok s) {c : JChar} (hc : c ∈ s) :
    c = 32 ∨ c ∈ alphabet d.conv := by
  -- the parts of a field
  have fld : ∀ {pre body : JStr}, (∀ c ∈ pre, c = 32 ∨ c ∈ alphabet d.conv) → (∀ c ∈ body, c ∈ alphabet d.conv) →
      ∀ l z k, ∀ c ∈ padWith l z k pre body, c = 32 ∨ c ∈ alphabet d.conv := by
    intro pre body h1 h2 l z k c hc
    rcases mem_padWith hc with rfl | rfl | hc | hc
    · exact .inl rfl
    · right
      simp only [floatConvs, List.mem_cons, List.not_mem_nil, or_false] at hd
      rcases hd with hd | hd | hd | hd <;> rw [hd] <;> decide
    · exact h1 c hc
    · exact .inr (h2 c hc)
  have sgn : ∀ neg, ∀ c ∈ signText (flagSet d.flags) neg, c = 32 ∨ c ∈ alphabet d.conv := by
    intro neg c hc
    rcases mem_signText hc with hc | hc
    · exact .inl hc
    · right
      simp only [floatConvs, List.mem_cons, List.not_mem_nil, or_false] at hd
      rcases hd with hd | hd | hd | hd <;> rw [hd] <;> exact sub_chars (by decide) hc
  have sgn0 : ∀ neg, ∀ c ∈ signText (flagSet d.flags) neg ++ js! "0x", d.conv = ch! 'a' → c = 32 ∨ c ∈ alphabet d.conv := by
    intro neg c hc ha
    rcases List.mem_append.1 hc with hc | hc
    · exact sgn neg c hc
    · right; rw [ha]; exact sub_chars (by decide) hc
  cases h with
  | nonFinite hf =>
    cases hr
    rcases mem_padded hc with hc | hc
    · exact .inl hc
    · right
      have := mem_nonFiniteName hc
      simp only [floatConvs, List.mem_cons, List.not_mem_nil, or_false] at hd
      rcases hd with hd | hd | hd | hd <;> rw [hd] <;> exact sub_chars (by decide) this
  | fixed hx hf hq hb =>
    cases hr
    exact fld (sgn _) (fun c hc => by rw [hx]; exact sub_chars (by decide) (hb.chars hc)) _ _ _ c hc
  | scientificZero hx hf hz hm =>
    cases hr
    refine fld (sgn _) (fun c hc => ?_) _ _ _ c hc
    rw [hx]
    rcases List.mem_append.1 hc with hc | hc
    · exact sub_chars (by decide) (hm.chars hc)
    · exact sub_chars (by decide) hc
  | scientific hx hf hz hq hs hm he =>
    cases hr
    refine fld (sgn _) (fun c hc => ?_) _ _ _ c hc
    rw [hx]
    exact sub_chars (by decide) (mem_exponential (fun _ h => hm.chars h) (fun _ h => he.chars h) hc)
  | generalZero hx hf hz hb =>
    cases hr
    refine fld (sgn _) (fun c hc => ?_) _ _ _ c hc
    rw [hx]
    split_ifs at hb
    · exact sub_chars (by decide) (hb.chars hc)
    · subst hb; exact sub_chars (by decide) hc
  | general hx hf hz hq hs hl hn hb =>
    cases hr
    refine fld (sgn _) (fun c hc => ?_) _ _ _ c hc
    rw [hx]; exact sub_chars (by decide) (hb.chars hc)
  | hexExact hx hf hp hb hv hxx hn hl =>
    cases hr
    refine fld (fun c hc => sgn0 _ c hc hx) (fun c hc => ?_) _ _ _ c hc
    rw [hx]; exact sub_chars (by decide) (hb.chars hc)
  | hexRounded hx hf hz hp hp12 hb hl hrr =>
    cases hr
    refine fld (fun c hc => sgn0 _ c hc hx) (fun c hc => ?_) _ _ _ c hc
    rw [hx]; exact sub_chars (by decide) (hb.chars hc)
  | bigFixed hx hz hb =>
    cases hr
    exact fld (sgn _) (fun c hc => by rw [hx]; exact sub_chars (by decide) (hb.chars hc)) _ _ _ c hc
  | bigFixedZero hx hs =>
    cases hr
    refine fld (sgn _) (fun c hc => ?_) _ _ _ c hc
    rw [hx]
    rcases List.mem_append.1 hc with hc | hc
    · rw [List.eq_of_mem_replicate hc]; decide
    · rcases mem_fraction hc with rfl | hc
      · decide
      · rw [List.eq_of_mem_replicate hc]; decide
  | bigScientific hx hz hn hs hm he =>
    cases hr
    refine fld (sgn _) (fun c hc => ?_) _ _ _ c hc
    rw [hx]
    exact sub_chars (by decide) (mem_exponential (fun _ h => hm.chars h) (fun _ h => he.chars h) hc)
  | bigScientificZero hx hm he =>
    cases hr
    refine fld (sgn _) (fun c hc => ?_) _ _ _ c hc
    rw [hx]
    exact sub_chars (by decide) (mem_exponential (fun _ h => hm.chars h) (fun _ h => he.chars h) hc)
  | bigGeneral hx hz hn h1 h2 hs hb =>
    cases hr
    refine fld (sgn _) (fun c hc => ?_) _ _ _ c hc
    rw [hx]; exact sub_chars (by decide) (hb.chars hc)
  | bigGeneralZero hx h0 h1 =>
    cases hr
    rename_i scale body
    refine fld (sgn _) (fun c hc => ?_) _ _ _ c hc
    rw [hx]
    by_cases hsc : scale = 0
    · have := h0 hsc
      split_ifs at this
      · exact sub_chars (by decide) (this.chars hc)
      · subst this; exact sub_chars (by decide) hc
    · obtain ⟨xs, rfl, he⟩ := h1 hsc
      rcases List.mem_append.1 hc with hc | hc
      · exact sub_chars (by decide) hc
      · exact sub_chars (by decide) (he.chars hc)
  | bigHex hx => cases hr

theorem Spec.CSigned.chars {fl : Flags} {w : Nat} {p : Option Nat} {v : Int} {s : JStr} (h : CSigned fl w p v s)
    {c : JChar} (hc : c ∈ s) : c = 32 ∨ c ∈ js! "+-0123456789" := by
  obtain ⟨ds, h1, rfl⟩ := h
  rcases mem_field hc with hc | rfl | hc | hc
  · exact .inl hc
  · exact .inr (by decide)
  · rcases mem_signText hc with hc | hc
    · exact .inl hc
    · exact .inr (sub_chars (by decide) hc)
  · right
    unfold withPrecision at hc
    split_ifs at hc
    · simp at hc
    · rcases List.mem_append.1 hc with hc | hc
      · rw [List.eq_of_mem_replicate hc]; decide
      · exact sub_chars (by decide) (isDigit10 (h1.1.2 c hc))

theorem Spec.CUnsigned.chars {k : UConv} {fl : Flags} {w : Nat} {p : Option Nat} {v : Nat} {s : JStr}
    (h : CUnsigned k fl w p v s) {c : JChar} (hc : c ∈ s) : c = 32 ∨ c ∈ alphabet k.char := by
  obtain ⟨ds, h1, rfl⟩ := h
  have dig : ∀ c ∈ withPrecision p (v = 0) ds, c ∈ alphabet k.char := by
    intro c hc
    unfold withPrecision at hc
    split_ifs at hc
    · simp at hc
    · rcases List.mem_append.1 hc with hc | hc
      · rw [List.eq_of_mem_replicate hc]; cases k <;> decide
      · have := h1.1.2 c hc
        cases k
        · exact sub_chars (by decide) (isDigit10 this)
        · exact sub_chars (by decide) (isDigit8 this)
        · exact sub_chars (by decide) (isDigit16 this)
  generalize withPrecision p (v = 0) ds = t at *
  rcases mem_field hc with hc | rfl | hc | hc
  · exact .inl hc
  · right; cases k <;> decide
  · right
    cases k <;> simp only [alternative] at hc
    · simp at hc
    · simp at hc
    · split_ifs at hc
      · exact sub_chars (by decide) hc
      · simp at hc
  · right
    cases k <;> simp only [alternative] at hc
    · exact dig c hc
    · split_ifs at hc
      · rcases List.mem_cons.1 hc with rfl | hc
        · decide
        · exact dig c hc
      · exact dig c hc
    · exact dig c hc

end FastPrintf
