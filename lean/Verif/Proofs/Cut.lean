/-
The exact length of a sequence that was cut.
-/
import Verif.Proofs.Conversions
import Verif.Proofs.Compiler
import Verif.Spec.Cut

namespace FastPrintf
open Spec

namespace Seq

theorem leafTexts_eq (s : Seq) : leafTexts s = s.flat.map Atomic.text := by
  induction s with
  | atom a => rfl
  | concat l r n k ihl ihr => simp [leafTexts, flat, ihl, ihr]
  | array es n => rfl

theorem leafTexts_length (s : Seq) : (leafTexts s).length = s.flat.length := by rw [leafTexts_eq, List.length_map]

theorem leafTexts_text (s : Seq) : (leafTexts s).flatten = s.text := by
  rw [leafTexts_eq, ← flat_text, List.flatMap_def]

theorem subLoop_cut (es : List Atomic) (h : ∀ a ∈ es, a.WF) (j : Int) (buf : List Atomic)
    (h0 : 0 < j) (hj : j ≤ (es.flatMap Atomic.text).length) {r : List Atomic × Int × Int}
    (hr : subLoop es 0 j buf = .ok r) : r.2.2 - r.2.1 = cutLength (es.map Atomic.text) j.toNat := by
  induction es generalizing j buf with
  | nil => simp at hj; omega
  | cons a es ih =>
    have ha := h a (by simp)
    have hes : ∀ b ∈ es, b.WF := fun b hb => h b (List.mem_cons_of_mem _ hb)
    have hl := Atomic.length_text ha
    simp only [List.flatMap_cons, List.length_append] at hj
    unfold subLoop at hr
    simp only at hr
    rw [List.map_cons, cutLength]
    by_cases h1 : 0 < a.length
    · rw [if_pos h1] at hr
      by_cases h2 : j ≤ a.length
      · rw [if_pos h2] at hr
        obtain ⟨b, hb1, hb2, hb3⟩ := Atomic.subSequence_ok ha (i := 0) (j := j) (by omega)
        rw [hb1, bind_ok] at hr
        cases hr
        rw [if_pos (by omega)]
        dsimp only; omega
      · rw [if_neg h2] at hr
        obtain ⟨b, hb1, hb2, hb3⟩ := Atomic.subSequence_ok ha (i := 0) (j := a.length) (by omega)
        rw [hb1, bind_ok] at hr
        rw [if_neg (by omega), ih hes (j - a.length) _ (by omega) (by omega) hr]
        congr 2; omega
    · rw [if_neg h1, show (0 : Int) - a.length = 0 by omega] at hr
      rw [if_neg (by omega), ih hes (j - a.length) _ (by omega) (by omega) hr]
      congr 2; omega

/-- The length that the first `j` characters report. -/
theorem subSequence_cut {s : Seq} (h : s.WF) {j : Int} (h0 : 0 ≤ j) (hj : j < s.text.length) {t : Seq}
    (ht : s.subSequence 0 j = .ok t) : t.length = cutLength (leafTexts s) j.toNat := by
  have hl := h.length_text
  have zero : ∀ l : List JStr, cutLength l 0 = 0 := by intro l; cases l <;> simp [cutLength]
  cases s with
  | atom a =>
    obtain ⟨t', h1, h2, h3, _, h5, h6, _⟩ := subSequence_ok h (i := 0) (j := j) ⟨le_rfl, h0, hj.le⟩
    rw [ht] at h1; cases h1
    have := h6.2 (.inr (.inr ⟨[], a, [], rfl, by simp, by simpa [text] using hj.le⟩))
    have hj' : j < a.text.length := hj
    rw [this]; simp only [leafTexts, cutLength]; rw [if_pos (by omega)]; omega
  | concat l r n k => exact go h h0 hj ht hl zero (fun i j => rfl)
  | array es n => exact go h h0 hj ht hl zero (fun i j => rfl)
where
  go {s : Seq} (h : s.WF) {j : Int} (h0 : 0 ≤ j) (hj : j < s.text.length) {t : Seq}
      (ht : s.subSequence 0 j = .ok t) (hl : s.length = s.text.length)
      (zero : ∀ l : List JStr, cutLength l 0 = 0)
      (heq : ∀ i j, s.subSequence i j = (do
        let length := s.length
        checkPositionIndexes i j length
        if i = j then return empty
        if i = 0 ∧ j = length then return s
        let (buffer, start, stop) ← subLoop (← s.leaves) i j []
        match buffer with
        | [] => .error .assertion
        | [a] => return atom a
        | buffer => return array buffer (stop - start))) :
      t.length = cutLength (leafTexts s) j.toNat := by
    rw [heq] at ht
    simp only [hl, checkPositionIndexes_ok (show 0 ≤ (0 : Int) ∧ 0 ≤ j ∧ j ≤ s.text.length by omega), bind_ok] at ht
    by_cases h1 : 0 = j
    · subst h1
      rw [if_pos rfl] at ht
      cases ht
      simp [zero, empty, length, Atomic.length]
    rw [if_neg h1, if_neg (by omega), leaves_ok h.sane, bind_ok] at ht
    obtain ⟨ps, p, s', e', g1, g2, g3, g4, g5, g6, g7⟩ :=
      subLoop_spec s.flat (flat_wf h.sane) 0 j [] le_rfl (by omega) (by rw [flat_text]; exact hj.le)
    have hc := subLoop_cut s.flat (flat_wf h.sane) j [] (by omega) (by rw [flat_text]; exact hj.le) g1
    rw [← leafTexts_eq] at hc
    dsimp only at hc
    rw [g1, bind_ok] at ht
    simp only [List.nil_append] at ht
    match ps, ht with
    | [], ht =>
      cases ht
      change p.length = _
      rw [Atomic.length_text g3, ← hc, g6]
    | q :: qs, ht =>
      have hres : (match q :: (qs ++ [p]) with
          | [] => (Except.error .assertion : Res Seq)
          | [a] => pure (atom a)
          | buffer => pure (array buffer (e' - s'))) = .ok (array (q :: (qs ++ [p])) (e' - s')) := by
        cases qs <;> rfl
      have ht' : t = array (q :: (qs ++ [p])) (e' - s') := by
        have := hres.symm.trans ht
        cases this; rfl
      rw [ht', ← hc]; rfl

end Seq

namespace SeqFormatter

/-- `%s`, with the exact length the cut sequence reports. -/
theorem s_exact {ctx : FormatContext} (hp : PrecOK ctx) {v : Traits} {q : Seq}
    (hv : v.asSeq = .ok q) (hq : q.WF) :
    ∃ r, s ctx v = .ok r ∧ r.Sane ∧
      r.text = fieldBy ctx.flags.leftJustify false ctx.width.toNat (reportedLength q (precOf ctx)) []
        (q.text.take ((precOf ctx).getD q.text.length)) := by
  have hl := hq.length_text
  have eU : UNSET = -1 := rfl
  unfold s
  rw [hv, bind_ok]
  by_cases hc : (ctx.isPrecisionSet && decide (ctx.precision < q.length)) = true
  · rw [if_pos hc]
    rw [Bool.and_eq_true, isPrecisionSet_iff, decide_eq_true_eq] at hc
    have hge : 0 ≤ ctx.precision := by
      rcases hp with h | h
      · exact absurd h hc.1
      · exact h
    have hpo : precOf ctx = some ctx.precision.toNat := by
      simp [precOf, hc.1]
    rw [hpo]
    obtain ⟨t, t1, t2, t3, _, t5, t6, t7⟩ := Seq.subSequence_ok hq (i := 0) (j := ctx.precision)
      ⟨le_refl _, hge, by omega⟩
    have tt : t.text = q.text.take ctx.precision.toNat := by rw [t3]; simp [Spec.sub]
    have tc := Seq.subSequence_cut hq hge (by omega) t1
    obtain ⟨r, r1, r2, r3, r4⟩ := spaceJustify_sane ctx t2
    refine ⟨r, by rw [t1, bind_ok, r1], r2, ?_⟩
    have hrl : reportedLength q (some ctx.precision.toNat) = t.length.toNat := by
      rw [tc, Int.toNat_natCast]
      simp only [reportedLength]
      rw [if_pos (by omega)]
    rw [r3, tt, hrl]; simp [fieldBy]
  · obtain ⟨r, n, r1, r2, r3, r4, r5⟩ := s_sane hp hv hq
    unfold s at r1
    rw [hv, bind_ok] at r1
    refine ⟨r, r1, r2, ?_⟩
    rw [Bool.and_eq_true, isPrecisionSet_iff, decide_eq_true_eq] at hc
    have hrl : reportedLength q (precOf ctx) = q.text.length ∧
        q.text.length ≤ (precOf ctx).getD q.text.length := by
      unfold precOf reportedLength
      by_cases hu : ctx.precision = UNSET
      · simp [hu]
      · have hlt : ¬ ctx.precision < q.length := fun h => hc ⟨hu, h⟩
        rw [if_neg hu]
        simp only [Option.getD_some]
        rw [if_neg (by omega)]
        exact ⟨rfl, by omega⟩
    have hn := (r5 (.inr hrl.2)).1
    rw [r4, hn, hrl.1, List.length_take, Nat.min_eq_right hrl.2]

/-- The length that a mantissa reports without its trailing zeros. -/
def strippedLength (m : Seq) : Nat :=
  if stripText m.text = m.text then m.text.length else cutLength (leafTexts m) (stripText m.text).length

theorem stripTrailingZeros_cases {m r : Seq} (h : stripTrailingZeros m = .ok r) :
    r = m ∨ ∃ stop, m.subSequence 0 stop = .ok r := by
  unfold stripTrailingZeros at h
  obtain ⟨dot, _, h⟩ := bind_eq_ok.1 h
  by_cases hd : dot = -1
  · rw [if_pos hd] at h; cases h; exact .inl rfl
  · rw [if_neg hd] at h
    obtain ⟨last, _, h⟩ := bind_eq_ok.1 h
    exact .inr ⟨_, h⟩

theorem stripTrailingZeros_exact {m : Seq} (h : m.WF) :
    ∃ r, stripTrailingZeros m = .ok r ∧ r.Sane ∧ r.text = stripText m.text ∧ r.length = strippedLength m := by
  obtain ⟨r, r1, r2, r3, r4, r5⟩ := stripTrailingZeros_sane h
  refine ⟨r, r1, r2, r3, ?_⟩
  have hl := h.length_text
  unfold strippedLength
  rcases stripTrailingZeros_cases r1 with rfl | ⟨stop, hs⟩
  · rw [if_pos r3.symm]; exact hl
  · by_cases hb : 0 ≤ stop ∧ stop ≤ m.text.length
    · obtain ⟨t, t1, t2, t3, _, t5, t6, t7⟩ := Seq.subSequence_ok h (i := 0) (j := stop) ⟨le_rfl, hb.1, hb.2⟩
      rw [hs] at t1; cases t1
      have tt : r.text = m.text.take stop.toNat := by rw [t3]; simp [Spec.sub]
      rw [r3] at tt
      have tl : (stripText m.text).length = stop.toNat := by rw [tt, List.length_take]; omega
      by_cases he : stop = m.text.length
      · rw [if_pos (by rw [tt, he]; simp), t6.2 (.inr (.inl ⟨rfl, he⟩))]; omega
      · rw [if_neg (by intro hc; rw [hc] at tl; omega), tl]
        exact Seq.subSequence_cut h hb.1 (by omega) hs
    · exfalso
      obtain ⟨e, he⟩ := Seq.subSequence_err h (i := 0) (j := stop) (by omega)
      rw [hs] at he; cases he

/-- The length the body of `%g` reports. -/
def gLength (alt : Bool) (l : FloatLayout) (p : Nat) : Nat :=
  if alt then (gText alt l p).length
  else match l.exponent with
    | none => strippedLength l.mantissa
    | some ex => strippedLength l.mantissa + 1 + ex.text.length

theorem gBody_exact {ctx : FormatContext} (hp : PrecOK ctx) {l : FloatLayout} (hl : LayoutWF l) :
    ∃ q, gBody ctx l = .ok q ∧ q.Sane ∧ q.text = gText ctx.flags.alternate l (gPrecision ctx).toNat ∧
      q.length = gLength ctx.flags.alternate l (gPrecision ctx).toNat := by
  obtain ⟨q, q1, q2, q3, q4, q5⟩ := gBody_sane hp hl
  refine ⟨q, q1, q2, q3, ?_⟩
  unfold gLength
  by_cases ha : ctx.flags.alternate = true
  · rw [if_pos ha, ← q3]; exact (q5 (.inr ha)).length_text
  rw [if_neg ha]
  obtain ⟨hm, hex⟩ := hl
  obtain ⟨m, x⟩ := l
  simp only at hm hex
  obtain ⟨r, r1, r2, r3, r4⟩ := stripTrailingZeros_exact hm
  cases x with
  | none =>
    simp only [gBody, formatGDecimal, hasFlag_alt, if_neg ha, r1] at q1
    cases q1; exact r4
  | some ex =>
    have hx := hex ex rfl
    simp only [gBody, formatGScientific, hasFlag_alt, if_neg ha, r1, bind_ok, pure_eq_ok] at q1
    cases q1
    have s1 := Seq.append_sane r2 (Seq.ch_wf 101).sane
    rw [Seq.append_length s1, Seq.append_length r2, r4, hx.length_text]
    have : (Seq.ch 101).length = 1 := rfl
    dsimp only; omega

theorem g_exact {ctx : FormatContext} (hp : PrecOK ctx) {v : FloatForm}
    (hf : (v.isNaN || v.isInfinite) = false) {l : FloatLayout}
    (hl : v.generalLayout (gPrecision ctx) = .ok l) (hw : LayoutWF l) :
    ∃ r, g ctx v = .ok r ∧ r.Sane ∧
      r.text = fieldBy ctx.flags.leftJustify ctx.flags.zeroPad ctx.width.toNat
        (gLength ctx.flags.alternate l (gPrecision ctx).toNat)
        (signText ctx.flags (v.signum < 0)) (gText ctx.flags.alternate l (gPrecision ctx).toNat) := by
  obtain ⟨q, q1, q2, q3, q4⟩ := gBody_exact hp hw
  obtain ⟨r, r1, r2, r3⟩ := signAndJustify_sane ctx q2 v.isNegative
  refine ⟨r, ?_, r2, by rw [r3, q3, q4, Int.toNat_natCast]; rfl⟩
  rw [g_eq ctx v hf hl, q1, bind_ok, r1]

end SeqFormatter
end FastPrintf
