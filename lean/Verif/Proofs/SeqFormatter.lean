/-
Refinement lemmas: each rope-building helper of `SeqFormatter` produces a well-formed sequence whose
text is a plain string expression.
-/
import Verif.Model.SeqFormatter
import Verif.Spec.CPrintf
import Verif.Proofs.Seq

namespace FastPrintf.SeqFormatter

open Spec

theorem width_toNat (ctx : FormatContext) : (width ctx).toNat = ctx.width.toNat := by
  unfold width FormatContext.isWidthSet
  have e1 : UNSET = -1 := rfl
  by_cases h : ctx.width = UNSET
  · simp [h, e1]
  · simp [h]

@[simp] theorem hasFlag_left (c : FormatContext) : c.hasFlag .leftJustify = c.flags.leftJustify := id rfl
@[simp] theorem hasFlag_alt (c : FormatContext) : c.hasFlag .alternate = c.flags.alternate := id rfl
@[simp] theorem hasFlag_plus (c : FormatContext) : c.hasFlag .plus = c.flags.plus := id rfl
@[simp] theorem hasFlag_space (c : FormatContext) : c.hasFlag .leadingSpace = c.flags.leadingSpace := id rfl
@[simp] theorem hasFlag_zero (c : FormatContext) : c.hasFlag .zeroPad = c.flags.zeroPad := id rfl

theorem replicate_append_length (n : Nat) (c : JChar) (s : JStr) :
    (List.replicate n c ++ s).length = n + s.length := by simp

/-- `spaceJustify` with whatever length the sequence reports. -/
theorem spaceJustify_sane (ctx : FormatContext) {v0 : Seq} (h : v0.Sane) :
    ∃ r, spaceJustify ctx v0 = .ok r ∧ r.Sane ∧
      r.text = (if ctx.flags.leftJustify then
          v0.text ++ List.replicate (ctx.width.toNat - v0.length.toNat) 32
        else List.replicate (ctx.width.toNat - v0.length.toNat) 32 ++ v0.text) ∧
      r.length = max v0.length (ctx.width.toNat : Int) := by
  have hl := h.length_nonneg
  have hw := width_toNat ctx
  unfold spaceJustify
  by_cases hgt : width ctx > v0.length
  · rw [if_pos hgt]
    obtain ⟨p, hp, pwf, pt⟩ := Seq.repeated_ok (c := 32) (n := width ctx - v0.length) (by omega)
    have pl := pwf.length_text
    rw [pt] at pl
    simp only [List.length_replicate] at pl
    have hn : (width ctx - v0.length).toNat = ctx.width.toNat - v0.length.toNat := by omega
    simp only [hp, bind_ok, hasFlag_left]
    by_cases hf : ctx.flags.leftJustify = true
    · simp only [if_pos hf]
      refine ⟨_, rfl, Seq.append_sane h pwf.sane, ?_, ?_⟩
      · rw [Seq.append_text pwf.sane, pt, hn]
      · rw [Seq.append_length h, pl]; omega
    · simp only [if_neg hf]
      refine ⟨_, rfl, Seq.prepend_sane h pwf.sane, ?_, ?_⟩
      · rw [Seq.prepend_text pwf.sane, pt, hn]
      · rw [Seq.prepend_length pwf.sane, pl]; omega
  · rw [if_neg hgt]
    have hn : ctx.width.toNat - v0.length.toNat = 0 := by omega
    refine ⟨_, rfl, h, ?_, by omega⟩
    simp [hn]

theorem spaceJustify_ok (ctx : FormatContext) {v0 : Seq} (h : v0.WF) :
    ∃ r, spaceJustify ctx v0 = .ok r ∧ r.WF ∧
      r.text = field ctx.flags.leftJustify false ctx.width.toNat [] v0.text := by
  have hl := h.length_text
  have hw := width_toNat ctx
  obtain ⟨r, hr, rs, rt, rl⟩ := spaceJustify_sane ctx h.sane
  refine ⟨r, hr, ?_, ?_⟩
  · revert hr
    unfold spaceJustify
    by_cases hgt : width ctx > v0.length
    · rw [if_pos hgt]
      obtain ⟨p, hp, pwf, pt⟩ := Seq.repeated_ok (c := 32) (n := width ctx - v0.length) (by omega)
      simp only [hp, bind_ok]
      intro hr
      by_cases hf : ctx.hasFlag .leftJustify = true
      · rw [if_pos hf] at hr; cases hr; exact Seq.append_wf h pwf
      · rw [if_neg hf] at hr; cases hr; exact Seq.prepend_wf h pwf
    · rw [if_neg hgt]; intro hr; cases hr; exact h
  · rw [rt]
    unfold field
    have : v0.length.toNat = v0.text.length := by omega
    simp [this]

theorem sign_ok (ctx : FormatContext) {v0 : Seq} (h : v0.WF) (neg : Bool) :
    (sign ctx v0 neg).WF ∧ (sign ctx v0 neg).text = signText ctx.flags neg ++ v0.text := by
  unfold sign signText
  simp only [hasFlag_plus, hasFlag_space]
  split_ifs <;>
    simp_all [Seq.prepend_wf, Seq.ch_wf, Seq.prepend_text (Seq.ch_wf _).sane, Seq.ch_text]

theorem sign_sane (ctx : FormatContext) {v0 : Seq} (h : v0.Sane) (neg : Bool) :
    (sign ctx v0 neg).Sane ∧ (sign ctx v0 neg).text = signText ctx.flags neg ++ v0.text ∧
      (sign ctx v0 neg).length = (signText ctx.flags neg).length + v0.length := by
  have hl : ∀ c, (Seq.ch c).length = 1 := fun c => rfl
  unfold sign signText
  simp only [hasFlag_plus, hasFlag_space]
  split_ifs <;>
    simp_all [Seq.prepend_sane, (Seq.ch_wf _).sane, Seq.prepend_text (Seq.ch_wf _).sane, Seq.ch_text,
      Seq.prepend_length (Seq.ch_wf _).sane]

theorem zeroFill_sane (n : Int) {v0 : Seq} (h : v0.Sane) :
    ∃ r, zeroFill n v0 = .ok r ∧ r.Sane ∧
      r.text = List.replicate (n.toNat - v0.length.toNat) 48 ++ v0.text ∧
      r.length = max n v0.length := by
  have hl := h.length_nonneg
  unfold zeroFill
  by_cases hgt : n > v0.length
  · rw [if_pos hgt]
    obtain ⟨p, hp, pwf, pt⟩ := Seq.repeated_ok (c := 48) (n := n - v0.length) (by omega)
    have pl := pwf.length_text
    rw [pt] at pl
    simp only [List.length_replicate] at pl
    have hn : (n - v0.length).toNat = n.toNat - v0.length.toNat := by omega
    simp only [hp, bind_ok]
    refine ⟨_, rfl, Seq.prepend_sane h pwf.sane, ?_, ?_⟩
    · rw [Seq.prepend_text pwf.sane, pt, hn]
    · rw [Seq.prepend_length pwf.sane, pl]; omega
  · rw [if_neg hgt]
    have hn : n.toNat - v0.length.toNat = 0 := by omega
    exact ⟨_, rfl, h, by simp [hn], by omega⟩

theorem zeroFill_ok (n : Int) {v0 : Seq} (h : v0.WF) :
    ∃ r, zeroFill n v0 = .ok r ∧ r.WF ∧
      r.text = List.replicate (n.toNat - v0.text.length) 48 ++ v0.text := by
  have hl := h.length_text
  obtain ⟨r, hr, _, rt, _⟩ := zeroFill_sane n h.sane
  have : v0.length.toNat = v0.text.length := by omega
  rw [this] at rt
  refine ⟨r, hr, ?_, rt⟩
  revert hr
  unfold zeroFill
  by_cases hgt : n > v0.length
  · rw [if_pos hgt]
    obtain ⟨p, hp, pwf, pt⟩ := Seq.repeated_ok (c := 48) (n := n - v0.length) (by omega)
    simp only [hp, bind_ok]
    intro hr; cases hr; exact Seq.prepend_wf h pwf
  · rw [if_neg hgt]; intro hr; cases hr; exact h

theorem field_nil_append (left : Bool) (w : Nat) (a b : JStr) :
    field left false w [] (a ++ b) = field left false w a b := by
  unfold field
  simp [List.append_assoc]

/-- Sign, then pad: the form shared by `%f`, `%e`, `%g`. -/
theorem signAndJustify_ok (ctx : FormatContext) {v0 : Seq} (h : v0.WF) (neg : Bool) :
    ∃ r, signAndJustify ctx v0 neg = .ok r ∧ r.WF ∧
      r.text = field ctx.flags.leftJustify ctx.flags.zeroPad ctx.width.toNat
        (signText ctx.flags neg) v0.text := by
  obtain ⟨s1, s2⟩ := sign_ok ctx h neg
  unfold signAndJustify
  simp only [hasFlag_left, hasFlag_zero, hasFlag_plus, hasFlag_space]
  by_cases hz : (!ctx.flags.zeroPad || ctx.flags.leftJustify) = true
  · rw [if_pos hz]
    obtain ⟨r, h1, h2, h3⟩ := spaceJustify_ok ctx s1
    refine ⟨r, h1, h2, ?_⟩
    rw [h3, s2, field_nil_append]
    unfold field
    cases hl : ctx.flags.leftJustify <;> simp_all
  · rw [if_neg hz]
    have hw := width_toNat ctx
    generalize hn : (if (neg || ctx.flags.plus || ctx.flags.leadingSpace) = true then width ctx - 1
      else width ctx) = n
    obtain ⟨r, h1, h2, h3⟩ := zeroFill_ok n h
    obtain ⟨g1, g2⟩ := sign_ok ctx h2 neg
    simp only [h1, bind_ok, pure_eq_ok]
    refine ⟨_, rfl, g1, ?_⟩
    rw [g2, h3]
    have hl : ctx.flags.leftJustify = false := by simp at hz; exact hz.2
    have hzp : ctx.flags.zeroPad = true := by simp at hz; exact hz.1
    have e : n.toNat - v0.text.length =
        ctx.width.toNat - ((signText ctx.flags neg).length + v0.text.length) := by
      subst hn
      unfold signText
      cases neg <;> cases ctx.flags.plus <;> cases ctx.flags.leadingSpace <;> simp <;> omega
    simp only [field, hl, hzp, e, List.append_assoc]
    simp

/-- The text `formatFractionalPart` produces. -/
def fracText (t : JStr) (p : Nat) (alt : Bool) : JStr :=
  if 46 ∈ t then t ++ List.replicate (p - (t.length - (Spec.firstIndex t 46 + 1)).toNat) 48
  else if p = 0 then (if alt then t ++ js! "." else t)
  else t ++ js! "." ++ List.replicate p 48

theorem formatFractionalPart_ok {m : Seq} (h : m.WF) {p : Int} (hp : 0 ≤ p) (alt : Bool) :
    ∃ r, formatFractionalPart m p alt = .ok r ∧ r.WF ∧ r.text = fracText m.text p.toNat alt := by
  have hl := h.length_text
  have i1 := Atomic.firstIndex_ge m.text 46
  have i2 := Atomic.firstIndex_lt m.text 46
  have i3 := Atomic.firstIndex_eq_neg m.text 46
  unfold formatFractionalPart fracText
  simp only [Seq.indexOf_ok h.sane, bind_ok]
  by_cases hd : Spec.firstIndex m.text 46 = -1
  · have hm : 46 ∉ m.text := i3.1 hd
    rw [if_neg hm]
    have w1 := Seq.append_wf h (Seq.ch_wf 46)
    have t1 : (m.append (Seq.ch 46)).text = m.text ++ [46] := by
      rw [Seq.append_text (Seq.ch_wf 46).sane, Seq.ch_text]
    by_cases hp0 : p = 0
    · subst hp0
      simp only [hd, and_self, if_true, pure_eq_ok]
      refine ⟨_, rfl, ?_, ?_⟩
      · cases alt <;> simp [h, w1]
      · cases alt <;> simp [t1]
    · rw [if_neg (by simp [hp0]), hd]
      simp only [ge_iff_le]
      rw [if_neg (by omega : ¬ (0 : Int) ≤ -1), if_neg (by omega : ¬ p ≤ 0),
        if_pos (by omega : (-1 : Int) < 0), if_neg (by omega : ¬ p.toNat = 0)]
      obtain ⟨q, q1, q2, q3⟩ := Seq.repeated_ok (c := 48) (n := p - 0) (by omega)
      simp only [q1, bind_ok, pure_eq_ok]
      refine ⟨_, rfl, Seq.append_wf w1 q2, ?_⟩
      rw [Seq.append_text q2.sane, q3, t1]
      simp
  · have hm : 46 ∈ m.text := by by_contra hc; exact hd (i3.2 hc)
    rw [if_pos hm, if_neg (by simp [hd])]
    simp only [ge_iff_le]
    rw [if_pos (by omega : (0 : Int) ≤ Spec.firstIndex m.text 46)]
    by_cases hge : p ≤ m.length - (Spec.firstIndex m.text 46 + 1)
    · rw [if_pos hge]
      refine ⟨_, rfl, h, ?_⟩
      have : p.toNat - (m.text.length - (Spec.firstIndex m.text 46 + 1)).toNat = 0 := by omega
      simp [this]
    · rw [if_neg hge, if_neg (by omega : ¬ Spec.firstIndex m.text 46 < 0)]
      obtain ⟨q, q1, q2, q3⟩ := Seq.repeated_ok (c := 48)
        (n := p - (m.length - (Spec.firstIndex m.text 46 + 1))) (by omega)
      simp only [q1, bind_ok, pure_eq_ok]
      refine ⟨_, rfl, Seq.append_wf h q2, ?_⟩
      rw [Seq.append_text q2.sane, q3]
      congr 2
      omega

theorem appendExponent_ok {v0 ex : Seq} (h : v0.WF) (he : ex.WF) :
    ∃ r, appendExponent v0 (some ex) = .ok r ∧ r.WF ∧ r.text = v0.text ++ ex.text :=
  ⟨_, rfl, Seq.append_wf h he, Seq.append_text he.sane⟩

/-- The tail of `aJustify` once the number of digits to reach is known. -/
def aJustifyTail (ctx : FormatContext) (v0 : Seq) (neg : Bool) (n : Int) : Res Seq := do
  let v1 ← if n > v0.length then
      (do return (← Seq.repeated 48 (n - v0.length)).append v0)
    else pure v0
  return sign ctx (v1.prepend (Seq.wrap (js! "0x"))) neg

/-- The text `aJustify` produces. -/
theorem aJustify_ok (ctx : FormatContext) {v0 : Seq} (h : v0.WF) (neg : Bool) :
    ∃ r, aJustify ctx v0 neg = .ok r ∧ r.WF ∧
      r.text = field ctx.flags.leftJustify ctx.flags.zeroPad ctx.width.toNat
        (signText ctx.flags neg ++ js! "0x") v0.text := by
  have hl := h.length_text
  unfold aJustify
  simp only [hasFlag_left, hasFlag_zero, hasFlag_plus, hasFlag_space]
  by_cases hz : (ctx.flags.zeroPad && !ctx.flags.leftJustify) = true
  · rw [if_pos hz]
    have hlf : ctx.flags.leftJustify = false := by simp at hz; exact hz.2
    have hzp : ctx.flags.zeroPad = true := by simp at hz; exact hz.1
    generalize hn : (if (neg || ctx.flags.plus || ctx.flags.leadingSpace) = true then
      ctx.width - 2 - 1 else ctx.width - 2) = n
    have key : ∃ v1 : Seq, v1.WF ∧ aJustifyTail ctx v0 neg n =
          .ok (sign ctx (v1.prepend (Seq.wrap (js! "0x"))) neg) ∧
        v1.text = List.replicate (n.toNat - v0.text.length) 48 ++ v0.text := by
      unfold aJustifyTail
      by_cases hgt : n > v0.length
      · obtain ⟨q, q1, q2, q3⟩ := Seq.repeated_ok (c := 48) (n := n - v0.length) (by omega)
        refine ⟨q.append v0, Seq.append_wf q2 h, ?_, ?_⟩
        · simp only [if_pos hgt, q1, bind_ok, pure_eq_ok]
        · rw [Seq.append_text h.sane, q3]
          congr 2
          omega
      · refine ⟨v0, h, ?_, ?_⟩
        · simp only [if_neg hgt, pure_eq_ok]; rfl
        · have : n.toNat - v0.text.length = 0 := by omega
          simp [this]
    obtain ⟨v1, k2, k1, k3⟩ := key
    refine ⟨_, k1, ?_⟩
    obtain ⟨g1, g2⟩ := sign_ok ctx (Seq.prepend_wf k2 (Seq.wrap_wf (js! "0x"))) neg
    refine ⟨g1, ?_⟩
    rw [g2, Seq.prepend_text (Seq.wrap_wf _).sane, Seq.wrap_text, k3]
    have e : n.toNat - v0.text.length =
        ctx.width.toNat - ((signText ctx.flags neg ++ js! "0x").length + v0.text.length) := by
      subst hn
      unfold signText
      cases neg <;> cases ctx.flags.plus <;> cases ctx.flags.leadingSpace <;> simp <;> omega
    simp only [field, hlf, hzp, e, List.append_assoc]
    simp
  · rw [if_neg hz]
    obtain ⟨g1, g2⟩ := sign_ok ctx (Seq.prepend_wf h (Seq.wrap_wf (js! "0x"))) neg
    obtain ⟨r, h1, h2, h3⟩ := spaceJustify_ok ctx g1
    refine ⟨r, h1, h2, ?_⟩
    rw [h3, g2, Seq.prepend_text (Seq.wrap_wf _).sane, Seq.wrap_text, ← List.append_assoc,
      field_nil_append]
    unfold field
    cases hlf : ctx.flags.leftJustify <;> simp_all

theorem nanOrInfinity_ok (ctx : FormatContext) (v : FloatForm) :
    ∃ r, nanOrInfinity ctx v = .ok r ∧ r.WF ∧
      r.text = field ctx.flags.leftJustify false ctx.width.toNat []
        (if v.isNaN then js! "NaN" else if v.signum < 0 then js! "-Infinity"
         else if ctx.flags.plus then js! "+Infinity" else js! "Infinity") := by
  unfold nanOrInfinity
  simp only [hasFlag_plus]
  split_ifs <;>
  · obtain ⟨r, h1, h2, h3⟩ := spaceJustify_ok ctx (Seq.wrap_wf _)
    exact ⟨r, h1, h2, by rw [h3, Seq.wrap_text]⟩

end FastPrintf.SeqFormatter
