/-
The `int` arithmetic of `Model/IntLengths` against the unbounded one, operation by operation.
-/
import Verif.Model.IntLengths
import Verif.Proofs.Engine
import Verif.Proofs.Resources
import Verif.Proofs.BigDecimalFormat

namespace FastPrintf

namespace Narrow

open FastPrintf.Seq

/-- A sequence with consistent counters, both of which fit in an `int`. -/
structure Fits (s : Seq) : Prop where
  length : s.length ≤ 2147483647
  count : s.elementCount ≤ 2147483647

theorem wrap_id {x : Int} (h1 : -2147483648 ≤ x) (h2 : x ≤ 2147483647) : wrap32 x = x := by
  unfold wrap32
  exact Int.bmod_eq_of_le (by omega) (by omega)

theorem count_nonneg {s : Seq} (h : s.Counted) : 0 ≤ s.elementCount := by rw [h.eq]; omega

theorem concat0_eq {l r : Seq} (h0 : 0 ≤ l.length + r.length) (h1 : l.length + r.length ≤ 2147483647)
    (h2 : 0 ≤ l.elementCount + r.elementCount) (h3 : l.elementCount + r.elementCount ≤ 2147483647) :
    concat0 l r = Seq.concat0 l r := by
  unfold concat0 Seq.concat0
  rw [wrap_id (by omega) h1, wrap_id (by omega) h3]

theorem mkConcat_count {l r : Seq} (hl : l.Counted) :
    (Seq.mkConcat l r).elementCount = l.elementCount + r.elementCount := by
  cases l with
  | atom a => rfl
  | concat a b n k =>
    have := hl.2.2
    change a.elementCount + (b.elementCount + r.elementCount) = k + r.elementCount
    omega
  | array es n => rfl

theorem mkConcat_eq {l r : Seq} (sl : l.Sane) (sr : r.Sane) (cl : l.Counted) (cr : r.Counted)
    (h : Fits (Seq.mkConcat l r)) : mkConcat l r = Seq.mkConcat l r ∧ Fits l ∧ Fits r := by
  have e1 := mkConcat_length (r := r) sl
  have e2 := mkConcat_count (r := r) cl
  have l1 := h.length
  have l2 := h.count
  have a1 := sl.length_nonneg
  have a2 := sr.length_nonneg
  have b1 := count_nonneg cl
  have b2 := count_nonneg cr
  refine ⟨?_, ⟨by omega, by omega⟩, ⟨by omega, by omega⟩⟩
  cases l with
  | atom a => exact concat0_eq (by omega) (by omega) (by omega) (by omega)
  | array es n => exact concat0_eq (by omega) (by omega) (by omega) (by omega)
  | concat ll lr n k =>
    have n1 := sl.1.length_nonneg
    have n2 := sl.2.1.length_nonneg
    have n3 := sl.2.2
    have k1 := count_nonneg cl.1
    have k2 := count_nonneg cl.2.1
    have k3 := cl.2.2
    have q1 : (Seq.concat ll lr n k).length = n := rfl
    have q2 : (Seq.concat ll lr n k).elementCount = k := rfl
    have q3 : (Seq.concat0 lr r).length = lr.length + r.length := rfl
    have q4 : (Seq.concat0 lr r).elementCount = lr.elementCount + r.elementCount := rfl
    show concat0 ll (concat0 lr r) = Seq.concat0 ll (Seq.concat0 lr r)
    rw [concat0_eq (l := lr) (r := r) (by omega) (by omega) (by omega) (by omega)]
    exact concat0_eq (by omega) (by omega) (by omega) (by omega)

theorem fits_empty : Fits (.atom .empty) := ⟨by decide, by decide⟩

theorem fits_isEmpty {s : Seq} (h : s.isEmpty = true) (hc : s.elementCount ≤ 2147483647) : Fits s :=
  ⟨by simp only [isEmpty, beq_iff_eq] at h; omega, hc⟩

theorem append_eq {s t : Seq} (ss : s.Sane) (st : t.Sane) (cs : s.Counted) (ct : t.Counted)
    (h : Fits (s.append t)) : append s t = s.append t ∧ Fits s := by
  unfold append
  unfold Seq.append at h ⊢
  split
  · exact ⟨rfl, fits_empty⟩
  · next hne =>
    split at h
    · next he => exact absurd rfl (hne ·)
    split
    · next hh => rw [if_pos hh] at h; exact ⟨rfl, h⟩
    · next hh =>
      rw [if_neg hh] at h
      obtain ⟨h1, h2, _⟩ := mkConcat_eq ss st cs ct h
      exact ⟨h1, h2⟩

theorem prepend_eq {s t : Seq} (ss : s.Sane) (st : t.Sane) (cs : s.Counted) (ct : t.Counted)
    (h : Fits (s.prepend t)) : prepend s t = s.prepend t ∧ Fits s := by
  unfold prepend
  unfold Seq.prepend at h ⊢
  split
  · exact ⟨rfl, fits_empty⟩
  · next hne =>
    split at h
    · next he => exact absurd rfl (hne ·)
    split
    · next hh => rw [if_pos hh] at h; exact ⟨rfl, h⟩
    · next hh =>
      rw [if_neg hh] at h
      obtain ⟨h1, _, h2⟩ := mkConcat_eq st ss ct cs h
      exact ⟨h1, h2⟩

theorem indexOfLoop_eq (c : JChar) (es : List Atomic) (h : ∀ a ∈ es, a.WF) (k : Int) (h0 : 0 ≤ k)
    (h1 : k + (es.map Atomic.length).sum ≤ 2147483647) : indexOfLoop c es k = Seq.indexOfLoop c es k := by
  induction es generalizing k with
  | nil => rfl
  | cons a es ih =>
    have ha := h a (by simp)
    have hes : ∀ b ∈ es, b.WF := fun b hb => h b (List.mem_cons_of_mem _ hb)
    have hl := Atomic.length_text ha
    have hs := sum_lengths hes
    have i2 := Atomic.firstIndex_lt a.text c
    have i1 := Atomic.firstIndex_ge a.text c
    rw [List.map_cons, List.sum_cons] at h1
    rw [indexOfLoop, Seq.indexOfLoop, Atomic.indexOf_ok ha, bind_ok, bind_ok]
    split
    · next hne => rw [wrap_id (by omega) (by omega)]
    · rw [wrap_id (by omega) (by omega)]
      exact ih hes _ (by omega) (by omega)

theorem flat_sum {s : Seq} (h : s.WF) : (s.flat.map Atomic.length).sum = s.length := by
  rw [sum_lengths (flat_wf h.sane), flat_text, h.length_text]

theorem indexOf_eq {s : Seq} (h : s.WF) (hf : s.length ≤ 2147483647) (c : JChar) :
    indexOf s c = s.indexOf c := by
  have hs := flat_sum h
  cases s with
  | atom a => rfl
  | concat l r n k =>
    rw [indexOf, Seq.indexOf, leaves_ok h.sane, bind_ok, bind_ok,
      indexOfLoop_eq c _ (flat_wf h.sane) 0 (by omega) (by omega)] <;> simp
  | array es n =>
    rw [indexOf, Seq.indexOf, leaves_ok h.sane, bind_ok, bind_ok,
      indexOfLoop_eq c _ (flat_wf h.sane) 0 (by omega) (by omega)] <;> simp

theorem repeated_good {c : JChar} {n : Int} {s : Seq} (h : Seq.repeated c n = .ok s) :
    s.WF ∧ s.Counted ∧ s.length = n ∧ 1 ≤ n := by
  by_cases hn : 1 ≤ n
  · obtain ⟨q, h1, h2, h3⟩ := repeated_ok (c := c) hn
    rw [h] at h1; cases h1
    refine ⟨h2, ?_, ?_, hn⟩
    · unfold Seq.repeated at h
      obtain ⟨a, _, h⟩ := bind_eq_ok.1 h
      cases h; trivial
    · rw [h2.length_text, h3]; simp; omega
  · unfold Seq.repeated Atomic.mkRepeated at h
    rw [if_neg (by omega)] at h; cases h

theorem spaceJustify_eq {ctx : FormatContext} {v0 r : Seq} (hs : v0.Sane) (hc : v0.Counted)
    (h : SeqFormatter.spaceJustify ctx v0 = .ok r) (hr : Fits r) :
    spaceJustify ctx v0 = .ok r ∧ Fits v0 := by
  have h0 := hs.length_nonneg
  unfold SeqFormatter.spaceJustify at h
  unfold spaceJustify
  by_cases hw : SeqFormatter.width ctx > v0.length
  · rw [if_pos hw] at h ⊢
    obtain ⟨p, hp, h⟩ := bind_eq_ok.1 h
    obtain ⟨p1, p2, p3, p4⟩ := repeated_good hp
    by_cases hf : ctx.hasFlag .leftJustify = true
    · rw [if_pos hf] at h
      cases h
      have hl := append_length (t := p) hs
      have := hr.length
      obtain ⟨e1, e2⟩ := append_eq hs p1.sane hc p2 hr
      rw [wrap_id (by omega) (by omega), hp, bind_ok, if_pos hf, e1]
      exact ⟨rfl, e2⟩
    · rw [if_neg hf] at h
      cases h
      have hl := prepend_length (s := v0) p1.sane
      have := hr.length
      obtain ⟨e1, e2⟩ := prepend_eq hs p1.sane hc p2 hr
      rw [wrap_id (by omega) (by omega), hp, bind_ok, if_neg hf, e1]
      exact ⟨rfl, e2⟩
  · rw [if_neg hw] at h ⊢
    cases h; exact ⟨rfl, hr⟩

theorem sign_eq {ctx : FormatContext} {v0 : Seq} {neg : Bool} (hs : v0.Sane) (hc : v0.Counted)
    (hr : Fits (SeqFormatter.sign ctx v0 neg)) :
    sign ctx v0 neg = SeqFormatter.sign ctx v0 neg ∧ Fits v0 := by
  unfold SeqFormatter.sign at hr ⊢
  unfold sign
  split_ifs at hr ⊢
  · exact prepend_eq hs (ch_wf _).sane hc trivial hr
  · exact prepend_eq hs (ch_wf _).sane hc trivial hr
  · exact prepend_eq hs (ch_wf _).sane hc trivial hr
  · exact ⟨rfl, hr⟩

theorem sign_counted {ctx : FormatContext} {v0 : Seq} {neg : Bool} (hc : v0.Counted) :
    (SeqFormatter.sign ctx v0 neg).Counted := by
  unfold SeqFormatter.sign
  split_ifs
  · exact prepend_counted hc trivial
  · exact prepend_counted hc trivial
  · exact prepend_counted hc trivial
  · exact hc

theorem zeroFill_eq {n : Int} {v0 r : Seq} (hs : v0.Sane) (hc : v0.Counted)
    (h : SeqFormatter.zeroFill n v0 = .ok r) (hr : Fits r) :
    zeroFill n v0 = .ok r ∧ Fits v0 := by
  have h0 := hs.length_nonneg
  unfold SeqFormatter.zeroFill at h
  unfold zeroFill
  by_cases hw : n > v0.length
  · rw [if_pos hw] at h ⊢
    obtain ⟨p, hp, h⟩ := bind_eq_ok.1 h
    obtain ⟨p1, p2, p3, p4⟩ := repeated_good hp
    cases h
    have hl := prepend_length (s := v0) p1.sane
    have := hr.length
    obtain ⟨e1, e2⟩ := prepend_eq hs p1.sane hc p2 hr
    rw [wrap_id (by omega) (by omega), hp, bind_ok, e1]
    exact ⟨rfl, e2⟩
  · rw [if_neg hw] at h ⊢
    cases h; exact ⟨rfl, hr⟩

theorem zeroFill_counted {n : Int} {v0 r : Seq} (hc : v0.Counted)
    (h : SeqFormatter.zeroFill n v0 = .ok r) : r.Counted := by
  unfold SeqFormatter.zeroFill at h
  split_ifs at h
  · obtain ⟨p, hp, h⟩ := bind_eq_ok.1 h
    cases h
    exact prepend_counted hc (repeated_good hp).2.1
  · cases h; exact hc

theorem zeroFill_isSane {n : Int} {v0 r : Seq} (hs : v0.Sane)
    (h : SeqFormatter.zeroFill n v0 = .ok r) : r.Sane := by
  obtain ⟨q, q1, q2, _⟩ := SeqFormatter.zeroFill_sane n hs
  rw [h] at q1; cases q1; exact q2

theorem signAndJustify_eq {ctx : FormatContext} {v0 r : Seq} {neg : Bool} (hs : v0.Sane) (hc : v0.Counted)
    (h : SeqFormatter.signAndJustify ctx v0 neg = .ok r) (hr : Fits r) :
    signAndJustify ctx v0 neg = .ok r ∧ Fits v0 := by
  unfold SeqFormatter.signAndJustify at h
  unfold signAndJustify
  by_cases hz : (!ctx.hasFlag .zeroPad || ctx.hasFlag .leftJustify) = true
  · rw [if_pos hz] at h ⊢
    obtain ⟨e1, e2⟩ := spaceJustify_eq (SeqFormatter.sign_sane ctx hs neg).1 (sign_counted hc) h hr
    obtain ⟨e3, e4⟩ := sign_eq hs hc e2
    rw [e3]; exact ⟨e1, e4⟩
  · rw [if_neg hz] at h ⊢
    obtain ⟨v1, h1, h⟩ := bind_eq_ok.1 h
    cases h
    obtain ⟨e3, e4⟩ := sign_eq (zeroFill_isSane hs h1) (zeroFill_counted hc h1) hr
    obtain ⟨e1, e2⟩ := zeroFill_eq hs hc h1 e4
    simp only [e1, bind_ok, e3]
    exact ⟨rfl, e2⟩

theorem wrap_counted (t : JStr) : (Seq.wrap t).Counted := trivial

theorem d_eq {ctx : FormatContext} {v : IntForm} {r : Seq} (h : SeqFormatter.d ctx v = .ok r) (hr : Fits r) :
    d ctx v = .ok r := by
  unfold SeqFormatter.d at h
  unfold d
  split_ifs at h ⊢
  · exact (spaceJustify_eq (ch_wf _).sane trivial h hr).1
  · exact (spaceJustify_eq empty_wf.sane trivial h hr).1
  · obtain ⟨t, ht, h⟩ := bind_eq_ok.1 h
    obtain ⟨v1, h1, h⟩ := bind_eq_ok.1 h
    have g1 := zeroFill_isSane (wrap_wf t).sane h1
    have g2 := zeroFill_counted (wrap_counted t) h1
    obtain ⟨e1, e2⟩ := spaceJustify_eq (SeqFormatter.sign_sane ctx g1 _).1 (sign_counted g2) h hr
    obtain ⟨e3, e4⟩ := sign_eq g1 g2 e2
    obtain ⟨e5, _⟩ := zeroFill_eq (wrap_wf t).sane (wrap_counted t) h1 e4
    simp only [ht, bind_ok, e5, e3]
    exact e1

theorem unsigned_eq {ctx : FormatContext} {sg : Int} {x : Res JStr} {pre : JStr} {r : Seq}
    (h : SeqFormatter.formatUnsignedInteger ctx sg x pre = .ok r) (hr : Fits r) :
    formatUnsignedInteger ctx sg x pre = .ok r := by
  unfold SeqFormatter.formatUnsignedInteger at h
  unfold formatUnsignedInteger
  split_ifs at h ⊢ with c1 c2
  · exact (spaceJustify_eq empty_wf.sane trivial h hr).1
  · obtain ⟨t, ht, h⟩ := bind_eq_ok.1 h
    obtain ⟨v1, h1, h⟩ := bind_eq_ok.1 h
    have g1 := zeroFill_isSane (wrap_wf t).sane h1
    have g2 := zeroFill_counted (wrap_counted t) h1
    obtain ⟨e1, e2⟩ := spaceJustify_eq (prepend_sane g1 (wrap_wf pre).sane) (prepend_counted g2 trivial) h hr
    obtain ⟨e3, e4⟩ := prepend_eq g1 (wrap_wf pre).sane g2 trivial e2
    obtain ⟨e5, _⟩ := zeroFill_eq (wrap_wf t).sane (wrap_counted t) h1 e4
    simp only [ht, bind_ok, e5, e3]
    exact e1
  · obtain ⟨t, ht, h⟩ := bind_eq_ok.1 h
    obtain ⟨v1, h1, h⟩ := bind_eq_ok.1 h
    have g1 := zeroFill_isSane (wrap_wf t).sane h1
    have g2 := zeroFill_counted (wrap_counted t) h1
    obtain ⟨e1, e2⟩ := spaceJustify_eq g1 g2 h hr
    obtain ⟨e5, _⟩ := zeroFill_eq (wrap_wf t).sane (wrap_counted t) h1 e2
    simp only [ht, bind_ok, e5]
    exact e1

theorem nonFinite_eq {ctx : FormatContext} {v : FloatForm} {r : Seq}
    (h : SeqFormatter.nanOrInfinity ctx v = .ok r) (hr : Fits r) : nanOrInfinity ctx v = .ok r := by
  unfold SeqFormatter.nanOrInfinity at h
  unfold nanOrInfinity
  split_ifs at h ⊢ <;> exact (spaceJustify_eq (wrap_wf _).sane trivial h hr).1

theorem frac_cases {m r : Seq} {p : Int} {alt : Bool}
    (h : SeqFormatter.formatFractionalPart m p alt = .ok r) :
    ∃ dot, m.indexOf 46 = .ok dot ∧
      ((p = 0 ∧ dot = -1 ∧ r = if alt then m.append (Seq.ch 46) else m) ∨
       (¬ (p = 0 ∧ dot = -1) ∧ (if dot ≥ 0 then m.length - (dot + 1) else 0) ≥ p ∧ r = m) ∨
       (¬ (p = 0 ∧ dot = -1) ∧ ¬ (if dot ≥ 0 then m.length - (dot + 1) else 0) ≥ p ∧
        ∃ q, Seq.repeated 48 (p - (if dot ≥ 0 then m.length - (dot + 1) else 0)) = .ok q ∧
          r = (if dot < 0 then m.append (Seq.ch 46) else m).append q)) := by
  unfold SeqFormatter.formatFractionalPart at h
  obtain ⟨dot, hd, h⟩ := bind_eq_ok.1 h
  refine ⟨dot, hd, ?_⟩
  by_cases c1 : p = 0 ∧ dot = -1
  · rw [if_pos c1] at h
    cases h; exact .inl ⟨c1.1, c1.2, rfl⟩
  · rw [if_neg c1] at h
    by_cases c2 : (if dot ≥ 0 then m.length - (dot + 1) else 0) ≥ p
    · simp only [if_pos c2] at h
      cases h; exact .inr (.inl ⟨c1, c2, rfl⟩)
    · simp only [if_neg c2] at h
      obtain ⟨q, hq, h⟩ := bind_eq_ok.1 h
      cases h; exact .inr (.inr ⟨c1, c2, q, hq, rfl⟩)

theorem frac_counted {m r : Seq} {p : Int} {alt : Bool} (hc : m.Counted)
    (h : SeqFormatter.formatFractionalPart m p alt = .ok r) : r.Counted := by
  obtain ⟨dot, _, ⟨_, _, rfl⟩ | ⟨_, _, rfl⟩ | ⟨_, _, q, hq, rfl⟩⟩ := frac_cases h
  · split_ifs
    · exact append_counted hc trivial
    · exact hc
  · exact hc
  · refine append_counted ?_ (repeated_good hq).2.1
    split_ifs
    · exact append_counted hc trivial
    · exact hc

theorem frac_eq {m r : Seq} {p : Int} {alt : Bool} (hm : m.WF) (hc : m.Counted)
    (h : SeqFormatter.formatFractionalPart m p alt = .ok r) (hr : Fits r) :
    formatFractionalPart m p alt = .ok r ∧ Fits m := by
  obtain ⟨dot, hd, hcases⟩ := frac_cases h
  have hdot : dot = Spec.firstIndex m.text 46 := by
    rw [Seq.indexOf_ok hm.sane] at hd; cases hd; rfl
  have i1 := Atomic.firstIndex_ge m.text 46
  have i2 := Atomic.firstIndex_lt m.text 46
  have hl := hm.length_text
  have fm : Fits m := by
    rcases hcases with ⟨_, _, rfl⟩ | ⟨_, _, rfl⟩ | ⟨_, _, q, hq, rfl⟩
    · split_ifs at hr
      · exact (append_eq hm.sane (ch_wf _).sane hc trivial hr).2
      · exact hr
    · exact hr
    · obtain ⟨q1, q2, _⟩ := repeated_good hq
      split_ifs at hr
      · exact (append_eq hm.sane (ch_wf _).sane hc trivial
          (append_eq (append_sane hm.sane (ch_wf _).sane) q1.sane (append_counted hc trivial) q2 hr).2).2
      · exact (append_eq hm.sane q1.sane hc q2 hr).2
  refine ⟨?_, fm⟩
  have f1 := fm.length
  unfold formatFractionalPart
  rw [indexOf_eq hm f1, hd, bind_ok]
  have out : (if dot ≥ 0 then wrap32 (m.length - wrap32 (dot + 1)) else 0) =
      if dot ≥ 0 then m.length - (dot + 1) else 0 := by
    split_ifs
    · rw [wrap_id (x := dot + 1) (by omega) (by omega), wrap_id (by omega) (by omega)]
    · rfl
  rcases hcases with ⟨c1, c2, rfl⟩ | ⟨c1, c2, rfl⟩ | ⟨c1, c2, q, hq, rfl⟩
  · rw [if_pos ⟨c1, c2⟩]
    split_ifs at hr ⊢
    · rw [(append_eq hm.sane (ch_wf _).sane hc trivial hr).1]; rfl
    · rfl
  · rw [if_neg c1]
    simp only [out, if_pos c2]
    rfl
  · rw [if_neg c1]
    obtain ⟨q1, q2, q3, q4⟩ := repeated_good hq
    simp only [out, if_neg c2]
    have hq3 : q.length ≤ 2147483647 := by
      have := hr.length
      split_ifs at this
      · rw [append_length (append_sane hm.sane (ch_wf _).sane), append_length hm.sane] at this
        have e : (Seq.ch 46).length = 1 := rfl
        omega
      · rw [append_length hm.sane] at this; omega
    rw [wrap_id (by omega) (by omega), hq, bind_ok]
    split_ifs at hr ⊢
    · obtain ⟨e1, e2⟩ := append_eq (append_sane hm.sane (ch_wf _).sane) q1.sane (append_counted hc trivial) q2 hr
      rw [(append_eq hm.sane (ch_wf _).sane hc trivial e2).1, e1]; rfl
    · rw [(append_eq hm.sane q1.sane hc q2 hr).1]; rfl

/-- A layout function and its `int` counterpart. -/
def LayoutMatch (k k' : Int → Res FloatLayout) : Prop :=
  ∀ p l, k p = .ok l → l.mantissa.Counted ∧ (∀ ex, l.exponent = some ex → ex.Counted) ∧
    (Fits l.mantissa → k' p = .ok l)

/-- A floating-point reading and its `int` counterpart. -/
structure Matches (v v' : FloatForm) : Prop where
  nan : v'.isNaN = v.isNaN
  inf : v'.isInfinite = v.isInfinite
  sign : v'.signum = v.signum
  general : LayoutMatch v.generalLayout v'.generalLayout
  scientific : LayoutMatch v.scientificLayout v'.scientificLayout
  decimal : LayoutMatch v.decimalLayout v'.decimalLayout
  hex : LayoutMatch v.hexLayout v'.hexLayout

theorem nonFinite_match {ctx : FormatContext} {v v' : FloatForm} (hm : Matches v v') :
    nanOrInfinity ctx v' = nanOrInfinity ctx v := by
  unfold nanOrInfinity; rw [hm.nan, hm.sign]

theorem isNegative_match {v v' : FloatForm} (hm : Matches v v') : v'.isNegative = v.isNegative := by
  unfold FloatForm.isNegative; rw [hm.sign]

theorem f_eq {ctx : FormatContext} (hp : SeqFormatter.PrecOK ctx) {v v' : FloatForm} (hv : v.WF)
    (hm : Matches v v') {r : Seq} (h : SeqFormatter.f ctx v = .ok r) (hr : Fits r) : f ctx v' = .ok r := by
  unfold SeqFormatter.f at h
  unfold f
  rw [hm.nan, hm.inf]
  split_ifs at h ⊢ with c
  · rw [nonFinite_match hm]; exact nonFinite_eq h hr
  · obtain ⟨l, hl, h⟩ := bind_eq_ok.1 h
    obtain ⟨m, h1, h⟩ := bind_eq_ok.1 h
    have hw := (hv _ l (SeqFormatter.precision6_nonneg hp) (.inr (.inr (.inl hl)))).1
    obtain ⟨k1, k2, k3⟩ := hm.decimal _ l hl
    obtain ⟨q, q1, q2, _⟩ := SeqFormatter.formatFractionalPart_ok hw (SeqFormatter.precision6_nonneg hp)
      (ctx.hasFlag .alternate)
    rw [h1] at q1; cases q1
    obtain ⟨e1, e2⟩ := signAndJustify_eq q2.sane (frac_counted k1 h1) h hr
    obtain ⟨e3, e4⟩ := frac_eq hw k1 h1 e2
    rw [k3 e4, bind_ok, e3, bind_ok, isNegative_match hm, e1]

theorem e_eq {ctx : FormatContext} (hp : SeqFormatter.PrecOK ctx) {v v' : FloatForm} (hv : v.WF)
    (hm : Matches v v') {r : Seq} (h : SeqFormatter.e ctx v = .ok r) (hr : Fits r) : e ctx v' = .ok r := by
  unfold SeqFormatter.e at h
  unfold e
  rw [hm.nan, hm.inf]
  split_ifs at h ⊢ with c
  · rw [nonFinite_match hm]; exact nonFinite_eq h hr
  · obtain ⟨⟨m, ex⟩, hl, h⟩ := bind_eq_ok.1 h
    obtain ⟨v0, h1, h⟩ := bind_eq_ok.1 h
    obtain ⟨v2, h2, h⟩ := bind_eq_ok.1 h
    cases ex with
    | none => cases h2
    | some ex =>
      cases h2
      obtain ⟨hw, hwe⟩ := hv _ _ (SeqFormatter.precision6_nonneg hp) (.inr (.inl hl))
      obtain ⟨k1, k2, k3⟩ := hm.scientific _ _ hl
      have hxw := hwe ex rfl
      have hxc := k2 ex rfl
      obtain ⟨q, q1, q2, _⟩ := SeqFormatter.formatFractionalPart_ok hw (SeqFormatter.precision6_nonneg hp)
        (ctx.hasFlag .alternate)
      rw [h1] at q1; cases q1
      have c1 := frac_counted k1 h1
      have c2 := append_counted c1 (r := Seq.ch 101) trivial
      have s2 := append_sane q2.sane (ch_wf 101).sane
      obtain ⟨e1, e2⟩ := signAndJustify_eq (append_sane s2 hxw.sane) (append_counted c2 hxc) h hr
      obtain ⟨e3, e4⟩ := append_eq s2 hxw.sane c2 hxc e2
      obtain ⟨e5, e6⟩ := append_eq q2.sane (ch_wf 101).sane c1 trivial e4
      obtain ⟨e7, e8⟩ := frac_eq hw k1 h1 e6
      rw [k3 e8, bind_ok, e7, bind_ok, e5, appendExponent, e3, bind_ok, isNegative_match hm, e1]

theorem aJustify_eq {ctx : FormatContext} {v0 r : Seq} {neg : Bool} (hs : v0.Sane) (hc : v0.Counted)
    (hpos : 0 < v0.length)
    (h : SeqFormatter.aJustify ctx v0 neg = .ok r) (hr : Fits r) :
    aJustify ctx v0 neg = .ok r ∧ Fits v0 := by
  have h0 := hs.length_nonneg
  have pw := (wrap_wf (js! "0x")).sane
  unfold SeqFormatter.aJustify at h
  unfold aJustify
  by_cases hz : (ctx.hasFlag .zeroPad && !ctx.hasFlag .leftJustify) = true
  · rw [if_pos hz] at h ⊢
    simp only at h ⊢
    generalize (if (neg || ctx.hasFlag .plus || ctx.hasFlag .leadingSpace) = true then ctx.width - 2 - 1
      else ctx.width - 2) = w at h ⊢
    by_cases hw : w > v0.length
    · rw [if_pos hw] at h ⊢
      obtain ⟨v1, h1, h⟩ := bind_eq_ok.1 h
      obtain ⟨q, hq, h1⟩ := bind_eq_ok.1 h1
      cases h1; cases h
      obtain ⟨q1, q2, q3, q4⟩ := repeated_good hq
      have s1 := append_sane q1.sane hs
      have c1 := append_counted q2 hc
      obtain ⟨e1, e2⟩ := sign_eq (prepend_sane s1 pw) (prepend_counted c1 trivial) hr
      obtain ⟨e3, e4⟩ := prepend_eq s1 pw c1 trivial e2
      obtain ⟨e5, _⟩ := append_eq q1.sane hs q2 hc e4
      have hl := append_length (t := v0) q1.sane
      have := e4.length
      have hv : Fits v0 := by
        refine ⟨by omega, ?_⟩
        have hcnt := e4.count
        have t1 := (append_counted q2 hc).eq
        have t2 := hc.eq
        have : v0.flat.length ≤ (q.append v0).flat.length := by
          unfold Seq.append
          split
          · exact le_refl _
          · split
            · next hh => simp only [isEmpty, beq_iff_eq] at hh; omega
            · rw [mkConcat_flat]; simp
        omega
      rw [wrap_id (by omega) (by omega), hq]
      simp only [bind_ok, pure_eq_ok, e5, e3, e1]
      exact ⟨trivial, hv⟩
    · rw [if_neg hw] at h ⊢
      simp only [pure_eq_ok, bind_ok, Except.ok.injEq] at h ⊢
      subst h
      obtain ⟨e1, e2⟩ := sign_eq (prepend_sane hs pw) (prepend_counted hc trivial) hr
      obtain ⟨e3, e4⟩ := prepend_eq hs pw hc trivial e2
      rw [e3, e1]; exact ⟨rfl, e4⟩
  · rw [if_neg hz] at h ⊢
    have sp := prepend_sane hs pw
    have cp := prepend_counted (r := Seq.wrap (js! "0x")) hc trivial
    obtain ⟨e1, e2⟩ := spaceJustify_eq (SeqFormatter.sign_sane ctx sp neg).1 (sign_counted cp) h hr
    obtain ⟨e3, e4⟩ := sign_eq sp cp e2
    obtain ⟨e5, e6⟩ := prepend_eq hs pw hc trivial e4
    rw [e5, e3]; exact ⟨e1, e6⟩

theorem a_eq {ctx : FormatContext} (hp : SeqFormatter.PrecOK ctx) {v v' : FloatForm} (hv : v.WF)
    (hm : Matches v v') {r : Seq} (h : SeqFormatter.a ctx v = .ok r) (hr : Fits r) : a ctx v' = .ok r := by
  have hap := SeqFormatter.aPrecision_pos hp
  unfold SeqFormatter.a at h
  unfold a
  rw [hm.nan, hm.inf, hm.sign]
  split_ifs at h ⊢ with c c2
  · rw [nonFinite_match hm]; exact nonFinite_eq h hr
  all_goals
    obtain ⟨⟨m, ex⟩, hl, h⟩ := bind_eq_ok.1 h
    obtain ⟨v0, h1, h⟩ := bind_eq_ok.1 h
    obtain ⟨v2, h2, h⟩ := bind_eq_ok.1 h
    cases ex with
    | none => cases h2
    | some ex =>
      cases h2
      obtain ⟨hw, hwe⟩ := hv _ _ (by omega) (.inr (.inr (.inr hl)))
      obtain ⟨k1, k2, k3⟩ := hm.hex _ _ hl
      have hxw := hwe ex rfl
      have hxc := k2 ex rfl
      have q2 : v0.WF ∧ v0.Counted ∧ (Fits v0 → Fits m) := by
        first
          | (obtain ⟨q, q1, q2, _⟩ := SeqFormatter.formatFractionalPart_ok hw (p := SeqFormatter.aPrecision ctx)
               (by omega) (ctx.hasFlag .alternate)
             rw [h1] at q1; cases q1
             exact ⟨q2, frac_counted k1 h1, fun hf => (frac_eq hw k1 h1 hf).2⟩)
          | (cases h1; exact ⟨hw, k1, id⟩)
      obtain ⟨q2, c1, q3⟩ := q2
      have c2 := append_counted c1 (r := Seq.ch 112) trivial
      have s2 := append_sane q2.sane (ch_wf 112).sane
      have hpos : 0 < ((v0.append (Seq.ch 112)).append ex).length := by
        have t1 := append_length (t := ex) s2
        have t2 := append_length (t := Seq.ch 112) q2.sane
        have t3 : (Seq.ch 112).length = 1 := rfl
        have := q2.sane.length_nonneg
        have := hxw.sane.length_nonneg
        omega
      obtain ⟨e1, e2⟩ := aJustify_eq (append_sane s2 hxw.sane) (append_counted c2 hxc) hpos h hr
      obtain ⟨e3, e4⟩ := append_eq s2 hxw.sane c2 hxc e2
      obtain ⟨e5, e6⟩ := append_eq q2.sane (ch_wf 112).sane c1 trivial e4
      first
        | (have h1' : SeqFormatter.formatFractionalPart m (SeqFormatter.aPrecision ctx)
             (ctx.hasFlag .alternate) = .ok v0 := h1
           obtain ⟨e7, e8⟩ := frac_eq hw k1 h1' e6
           rw [k3 e8, bind_ok]
           simp only [e7, bind_ok, e5, appendExponent, e3, e1])
        | (cases h1
           rw [k3 e6, bind_ok]
           simp only [pure_eq_ok, bind_ok, e5, appendExponent, e3, e1])

theorem subSequence_counted {s r : Seq} {i j : Int} (hs : s.Counted) (h : s.subSequence i j = .ok r) :
    r.Counted := by
  have go : ∀ s : Seq, s.Counted → (do
      let length := s.length
      checkPositionIndexes i j length
      if i = j then return Seq.empty
      if i = 0 ∧ j = length then return s
      let (buffer, start, stop) ← subLoop (← s.leaves) i j []
      match buffer with
      | [] => .error .assertion
      | [a] => return atom a
      | buffer => return array buffer (stop - start) : Res Seq) = .ok r → r.Counted := by
    intro s hs h
    obtain ⟨_, _, h⟩ := bind_eq_ok.1 h
    split_ifs at h
    · cases h; trivial
    · cases h; exact hs
    · obtain ⟨es, _, h⟩ := bind_eq_ok.1 h
      obtain ⟨⟨b, x, y⟩, _, h⟩ := bind_eq_ok.1 h
      match b, h with
      | [a], h => cases h; trivial
      | a :: b :: t, h => cases h; trivial
  cases s with
  | atom a =>
    obtain ⟨b, _, h⟩ := bind_eq_ok.1 h
    cases h; trivial
  | concat l r n k => exact go _ hs h
  | array es n => exact go _ hs h

theorem strip_counted {m r : Seq} (hc : m.Counted) (h : SeqFormatter.stripTrailingZeros m = .ok r) : r.Counted := by
  unfold SeqFormatter.stripTrailingZeros at h
  obtain ⟨dot, _, h⟩ := bind_eq_ok.1 h
  split_ifs at h
  · cases h; exact hc
  · obtain ⟨last, _, h⟩ := bind_eq_ok.1 h
    exact subSequence_counted hc h

theorem strip_eq {m : Seq} (hm : m.WF) (hf : Fits m) : stripTrailingZeros m = SeqFormatter.stripTrailingZeros m := by
  have h1 := hf.length
  have h0 := hm.sane.length_nonneg
  unfold stripTrailingZeros SeqFormatter.stripTrailingZeros
  rw [indexOf_eq hm h1, wrap_id (x := m.length - 1) (by omega) (by omega)]

theorem countLoop_le {m : Seq} : ∀ (n : Nat) (i sig : Int) (seen : Bool) {x : Int × Bool},
    SeqFormatter.countLoop m n i sig seen = .ok x → sig ≤ x.1 ∧ x.1 ≤ sig + n := by
  intro n
  induction n with
  | zero => intro i sig seen x h; cases h; simp
  | succ n ih =>
    intro i sig seen x h
    rw [SeqFormatter.countLoop] at h
    obtain ⟨c, _, h⟩ := bind_eq_ok.1 h
    have := ih _ _ _ h
    split_ifs at this <;> push_cast <;> omega

theorem pad_eq {m r : Seq} {p : Int} (hm : m.WF) (hc : m.Counted) (hf : Fits m) (hp : 0 ≤ p)
    (h : SeqFormatter.padToPrecision m p = .ok r) (hr : Fits r) : padToPrecision m p = .ok r := by
  have h1 := hf.length
  have h0 := hm.sane.length_nonneg
  unfold SeqFormatter.padToPrecision at h
  unfold padToPrecision
  obtain ⟨⟨sig0, seen⟩, e1, h⟩ := bind_eq_ok.1 h
  have hb := countLoop_le _ _ _ _ e1
  simp only at h hb
  obtain ⟨z, e2, h⟩ := bind_eq_ok.1 h
  rw [e1, bind_ok]
  simp only [indexOf_eq hm h1, e2, bind_ok]
  have hsig : ∃ sig : Int, sig = (if (!seen && z != -1) = true then 1 else sig0) ∧ 0 ≤ sig ∧ sig ≤ 2147483647 := by
    refine ⟨_, rfl, ?_⟩
    split_ifs <;> omega
  obtain ⟨sig, hs, hs1, hs2⟩ := hsig
  rw [← hs] at h ⊢
  obtain ⟨dot, e3, h⟩ := bind_eq_ok.1 h
  rw [e3, bind_ok]
  have hm' : (if dot = -1 then m.append (Seq.ch 46) else m).Sane ∧
      (if dot = -1 then m.append (Seq.ch 46) else m).Counted := by
    split_ifs
    · exact ⟨append_sane hm.sane (ch_wf 46).sane, append_counted hc trivial⟩
    · exact ⟨hm.sane, hc⟩
  have key : Fits (if dot = -1 then m.append (Seq.ch 46) else m) →
      (if dot = -1 then append m (Seq.ch 46) else m) = if dot = -1 then m.append (Seq.ch 46) else m := by
    intro hh
    split_ifs at hh ⊢
    · exact (append_eq hm.sane (ch_wf 46).sane hc trivial hh).1
    · rfl
  by_cases hz : p - sig > 0
  · simp only [if_pos hz] at h
    obtain ⟨q, hq, h⟩ := bind_eq_ok.1 h
    cases h
    obtain ⟨q1, q2, q3, q4⟩ := repeated_good hq
    obtain ⟨e4, e5⟩ := append_eq hm'.1 q1.sane hm'.2 q2 hr
    have := hr.length
    rw [append_length hm'.1] at this
    have := hm'.1.length_nonneg
    simp only [wrap_id (x := p - sig) (by omega) (by omega), if_pos hz, hq, bind_ok, key e5, e4]
    rfl
  · simp only [if_neg hz] at h
    cases h
    simp only [wrap_id (x := p - sig) (by omega) (by omega), if_neg hz, key hr]
    rfl

theorem pad_counted {m r : Seq} {p : Int} (hc : m.Counted)
    (h : SeqFormatter.padToPrecision m p = .ok r) : r.Counted := by
  unfold SeqFormatter.padToPrecision at h
  obtain ⟨⟨sig0, seen⟩, e1, h⟩ := bind_eq_ok.1 h
  simp only at h
  obtain ⟨z, e2, h⟩ := bind_eq_ok.1 h
  obtain ⟨dot, e3, h⟩ := bind_eq_ok.1 h
  have hm' : (if dot = -1 then m.append (Seq.ch 46) else m).Counted := by
    split_ifs
    · exact append_counted hc trivial
    · exact hc
  by_cases hz : p - (if (!seen && z != -1) = true then 1 else sig0) > 0
  · simp only [if_pos hz] at h
    obtain ⟨q, hq, h⟩ := bind_eq_ok.1 h
    cases h
    exact append_counted hm' (repeated_good hq).2.1
  · simp only [if_neg hz] at h
    cases h; exact hm'

theorem g_eq {ctx : FormatContext} (hp : SeqFormatter.PrecOK ctx) {v v' : FloatForm} (hv : v.WF)
    (hm : Matches v v') (hg : (v.isNaN || v.isInfinite) = false → ∀ l, v.generalLayout (SeqFormatter.gPrecision ctx) = .ok l →
      Fits l.mantissa)
    {r : Seq} (h : SeqFormatter.g ctx v = .ok r) (hr : Fits r) : g ctx v' = .ok r := by
  have hap := SeqFormatter.gPrecision_pos hp
  unfold SeqFormatter.g at h
  unfold g
  rw [hm.nan, hm.inf]
  split_ifs at h ⊢ with c
  · rw [nonFinite_match hm]; exact nonFinite_eq h hr
  · obtain ⟨⟨m, ex⟩, hl, h⟩ := bind_eq_ok.1 h
    have hb : ∃ v0, SeqFormatter.gBody ctx ⟨m, ex⟩ = .ok v0 ∧
        SeqFormatter.signAndJustify ctx v0 v.isNegative = .ok r := by
      cases ex <;> exact bind_eq_ok.1 h
    clear h
    obtain ⟨v0, h1, h⟩ := hb
    obtain ⟨hw, hwe⟩ := hv _ _ (by omega) (.inl hl)
    obtain ⟨k1, k2, k3⟩ := hm.general _ _ hl
    have fm := hg (by simpa using c) _ hl
    simp only at fm hw k1
    rw [k3 fm, bind_ok]
    have bs : v0.Sane := by
      obtain ⟨q, q1, q2, _⟩ := SeqFormatter.gBody_sane hp ⟨hw, hwe⟩
      rw [h1] at q1; cases q1; exact q2
    unfold SeqFormatter.gBody at h1
    cases ex with
    | none =>
      simp only [SeqFormatter.formatGDecimal] at h1
      simp only [formatGDecimal]
      split_ifs at h1 ⊢ with hA
      · obtain ⟨e1, e2⟩ := signAndJustify_eq bs (pad_counted k1 h1) h hr
        rw [pad_eq hw k1 fm (by omega) h1 e2, bind_ok, isNegative_match hm, e1]
      · obtain ⟨e1, e2⟩ := signAndJustify_eq bs (strip_counted k1 h1) h hr
        rw [strip_eq hw fm, h1, bind_ok, isNegative_match hm, e1]
    | some ex =>
      have hxw := hwe ex rfl
      have hxc := k2 ex rfl
      simp only [SeqFormatter.formatGScientific] at h1
      simp only [formatGScientific]
      have hb : ∃ m', (if ctx.hasFlag .alternate = true then pure m else SeqFormatter.stripTrailingZeros m) =
          (.ok m' : Res Seq) ∧ v0 = (m'.append (Seq.ch 101)).append ex := by
        split_ifs at h1 ⊢
        · cases h1; exact ⟨m, rfl, rfl⟩
        · obtain ⟨m', h2, h1⟩ := bind_eq_ok.1 h1
          cases h1; exact ⟨m', h2, rfl⟩
      clear h1
      obtain ⟨m', h2, h1⟩ := hb
      have hm' : m'.Sane ∧ m'.Counted ∧
          (if ctx.hasFlag .alternate = true then pure m else stripTrailingZeros m) = (.ok m' : Res Seq) := by
        split_ifs at h2 ⊢ with hA
        · cases h2; exact ⟨hw.sane, k1, rfl⟩
        · obtain ⟨q, q1, q2, _⟩ := SeqFormatter.stripTrailingZeros_sane hw
          rw [h2] at q1; cases q1
          exact ⟨q2, strip_counted k1 h2, by rw [strip_eq hw fm, h2]⟩
      subst h1
      obtain ⟨t1, t2, t3⟩ := hm'
      have s2 := append_sane t1 (ch_wf 101).sane
      have c2 := append_counted t2 (r := Seq.ch 101) trivial
      obtain ⟨e1, e2⟩ := signAndJustify_eq bs (append_counted c2 hxc) h hr
      obtain ⟨e3, e4⟩ := append_eq s2 hxw.sane c2 hxc e2
      obtain ⟨e5, e6⟩ := append_eq t1 (ch_wf 101).sane t2 trivial e4
      split_ifs at t3 ⊢
      · cases t3
        simp only [bind_ok, pure_eq_ok, e5, e3, isNegative_match hm, e1]
      · simp only [t3, bind_ok, pure_eq_ok, e5, e3, isNegative_match hm, e1]

theorem c_eq {ctx : FormatContext} {v : Traits} {r : Seq} (h : SeqFormatter.c ctx v = .ok r) (hr : Fits r) :
    c ctx v = .ok r := by
  unfold SeqFormatter.c at h
  unfold c
  obtain ⟨x, hx, h⟩ := bind_eq_ok.1 h
  rw [hx, bind_ok]
  exact (spaceJustify_eq (ch_wf x).sane trivial h hr).1

theorem t_eq {env : DateEnv} {ctx : FormatContext} {v : Traits} {r : Seq} (h : SeqFormatter.t env ctx v = .ok r)
    (hr : Fits r) : t env ctx v = .ok r := by
  unfold SeqFormatter.t at h
  unfold t
  obtain ⟨x, hx, h⟩ := bind_eq_ok.1 h
  obtain ⟨⟨y, z⟩, hy, h⟩ := bind_eq_ok.1 h
  obtain ⟨w, hw, h⟩ := bind_eq_ok.1 h
  rw [hx, bind_ok, hy, bind_ok]
  simp only at hw ⊢
  rw [hw, bind_ok]
  exact (spaceJustify_eq (wrap_wf w).sane trivial h hr).1

theorem p_eq {ctx : FormatContext} {v : Traits} {r : Seq} (h : SeqFormatter.p ctx v = .ok r) (hr : Fits r) :
    p ctx v = .ok r := by
  unfold SeqFormatter.p at h
  unfold p
  cases hv : v.ref with
  | primitive => rw [hv] at h; cases h
  | null => rw [hv] at h; exact (spaceJustify_eq (wrap_wf _).sane trivial h hr).1
  | object name hash =>
    rw [hv] at h
    simp only at h ⊢
    have s1 := prepend_sane (wrap_wf (toRadix 16 hash.toNat)).sane (ch_wf 64).sane
    have c1 : ((Seq.wrap (toRadix 16 hash.toNat)).prepend (Seq.ch 64)).Counted := prepend_counted trivial trivial
    obtain ⟨e1, e2⟩ := spaceJustify_eq (prepend_sane s1 (wrap_wf name).sane) (prepend_counted c1 trivial) h hr
    obtain ⟨e3, e4⟩ := prepend_eq s1 (wrap_wf name).sane c1 trivial e2
    obtain ⟨e5, _⟩ := prepend_eq (wrap_wf _).sane (ch_wf 64).sane trivial trivial e4
    rw [e5, e3, e1]

theorem s_eq {ctx : FormatContext} (hp : SeqFormatter.PrecOK ctx) {v : Traits} (hv : v.WF)
    (hc : ∀ q, v.asSeq = .ok q → q.Counted) {r : Seq} (h : SeqFormatter.s ctx v = .ok r) (hr : Fits r) :
    s ctx v = .ok r := by
  unfold SeqFormatter.s at h
  unfold s
  obtain ⟨q, hq, h⟩ := bind_eq_ok.1 h
  have hw := hv.seq q hq
  have hk := hc q hq
  have hl := hw.length_text
  rw [hq, bind_ok]
  split_ifs at h ⊢ with c1
  · obtain ⟨q', h1, h⟩ := bind_eq_ok.1 h
    simp only [Bool.and_eq_true, decide_eq_true_eq] at c1
    have hp0 : 0 ≤ ctx.precision := by
      rcases hp with hp | hp
      · exact absurd hp (by simpa [FormatContext.isPrecisionSet] using c1.1)
      · exact hp
    obtain ⟨t, t1, t2, _⟩ := Seq.subSequence_ok hw (i := 0) (j := ctx.precision) (by omega)
    rw [h1] at t1; cases t1
    rw [h1, bind_ok]
    exact (spaceJustify_eq t2 (subSequence_counted hk h1) h hr).1
  · exact (spaceJustify_eq hw.sane hk h hr).1

end Narrow
end FastPrintf
