/-
How many leaves, and how long a text, the sequence of a conversion can have.
-/
import Verif.Proofs.IntLengths
import Verif.Proofs.Library

namespace FastPrintf
namespace Narrow

open FastPrintf.Seq BigDec

/-- A rope of at most `k` leaves that counts them right and whose length is not more than its text. -/
structure Good (k : Int) (s : Seq) : Prop where
  sane : s.Sane
  counted : s.Counted
  few : s.elementCount ≤ k
  short : s.length ≤ s.text.length

theorem Good.mono {k j : Int} {s : Seq} (h : Good k s) (hk : k ≤ j) : Good j s :=
  ⟨h.sane, h.counted, h.few.trans hk, h.short⟩

theorem Good.nonneg {k : Int} {s : Seq} (h : Good k s) : 0 ≤ k := (count_nonneg h.counted).trans h.few

theorem good_wf {k : Int} {s : Seq} (h : s.WF) (hc : s.Counted) (hk : s.elementCount ≤ k) : Good k s :=
  ⟨h.sane, hc, hk, h.length_text.le⟩

theorem good_atom {a : Atomic} (h : a.WF) : Good 1 (.atom a) :=
  good_wf (s := .atom a) h trivial (show (1 : Int) ≤ 1 by omega)

theorem good_wrap (t : JStr) : Good 1 (Seq.wrap t) := good_atom (wrap_wf t)

theorem good_ch (c : JChar) : Good 1 (Seq.ch c) := good_atom (ch_wf c)

theorem good_empty : Good 1 Seq.empty := good_atom (a := .empty) trivial

theorem good_repeated {c : JChar} {n : Int} {s : Seq} (h : Seq.repeated c n = .ok s) : Good 1 s := by
  obtain ⟨h1, h2, _, h4⟩ := repeated_good h
  refine good_wf h1 h2 ?_
  unfold Seq.repeated at h
  obtain ⟨a, _, h⟩ := bind_eq_ok.1 h
  cases h
  exact le_of_eq rfl

theorem append_count_le {s t : Seq} (hs : s.Counted) (ht : t.Counted) :
    (s.append t).elementCount ≤ s.elementCount + t.elementCount := by
  have h1 := count_nonneg hs
  have h2 := count_nonneg ht
  unfold Seq.append
  split
  · omega
  · split
    · omega
    · rw [mkConcat_count hs]

theorem good_append {k j : Int} {s t : Seq} (hs : Good k s) (ht : Good j t) : Good (k + j) (s.append t) := by
  refine ⟨append_sane hs.sane ht.sane, append_counted hs.counted ht.counted, ?_, ?_⟩
  · have := append_count_le hs.counted ht.counted
    have := hs.few; have := ht.few; omega
  · rw [append_length hs.sane, append_text ht.sane, List.length_append]
    have := hs.short; have := ht.short; omega

theorem prepend_count_le {s t : Seq} (hs : s.Counted) (ht : t.Counted) :
    (s.prepend t).elementCount ≤ s.elementCount + t.elementCount := by
  have h1 := count_nonneg hs
  have h2 := count_nonneg ht
  unfold Seq.prepend
  split
  · omega
  · split
    · omega
    · rw [mkConcat_count ht]; omega

theorem good_prepend {k j : Int} {s t : Seq} (hs : Good k s) (ht : Good j t) : Good (k + j) (s.prepend t) := by
  refine ⟨prepend_sane hs.sane ht.sane, prepend_counted hs.counted ht.counted, ?_, ?_⟩
  · have := prepend_count_le hs.counted ht.counted
    have := hs.few; have := ht.few; omega
  · rw [prepend_length ht.sane, prepend_text ht.sane, List.length_append]
    have := hs.short; have := ht.short; omega

theorem good_upper {k : Int} {s r : Seq} (hs : Good k s) (h : s.upperCase = .ok r) : Good k r := by
  obtain ⟨u, u1, u2, u3, u4⟩ := upperCase_sane hs.sane
  rw [h] at u1; cases u1
  refine ⟨u2, upperCase_counted h, ?_, by rw [u4, u3, List.length_map]; exact hs.short⟩
  refine le_trans (le_of_eq ?_) hs.few
  have hl := leaves_ok hs.sane
  have mapped : ∀ (es : List Atomic) {us : List Atomic}, es.mapM Atomic.upperCase = .ok us → us.length = es.length := by
    intro es
    induction es with
    | nil => intro us hu; cases hu; rfl
    | cons a es ih =>
      intro us hu
      rw [List.mapM_cons] at hu
      obtain ⟨b, _, hu⟩ := bind_eq_ok.1 hu
      obtain ⟨bs, hb, hu⟩ := bind_eq_ok.1 hu
      cases hu
      simp [ih hb]
  rw [hs.counted.eq]
  cases s with
  | atom a =>
    obtain ⟨b, _, h⟩ := bind_eq_ok.1 h
    cases h; rfl
  | concat l r' n m =>
    simp only [Seq.upperCase, hl, bind_ok] at h
    obtain ⟨us, hu, h⟩ := bind_eq_ok.1 h
    cases h
    exact congrArg Nat.cast (mapped _ hu)
  | array es n =>
    simp only [Seq.upperCase, hl, bind_ok] at h
    obtain ⟨us, hu, h⟩ := bind_eq_ok.1 h
    cases h
    exact congrArg Nat.cast (mapped _ hu)

theorem good_spaceJustify {k : Int} {ctx : FormatContext} {s r : Seq} (hs : Good k s)
    (h : SeqFormatter.spaceJustify ctx s = .ok r) : Good (k + 1) r := by
  unfold SeqFormatter.spaceJustify at h
  split_ifs at h
  · obtain ⟨p, hp, h⟩ := bind_eq_ok.1 h
    cases h
    exact good_append hs (good_repeated hp)
  · obtain ⟨p, hp, h⟩ := bind_eq_ok.1 h
    cases h
    exact good_prepend hs (good_repeated hp)
  · cases h; exact hs.mono (by omega)

theorem good_sign {k : Int} {ctx : FormatContext} {s : Seq} (hs : Good k s) (neg : Bool) :
    Good (k + 1) (SeqFormatter.sign ctx s neg) := by
  unfold SeqFormatter.sign
  split_ifs
  · exact good_prepend hs (good_ch _)
  · exact good_prepend hs (good_ch _)
  · exact good_prepend hs (good_ch _)
  · exact hs.mono (by omega)

theorem good_zeroFill {k n : Int} {s r : Seq} (hs : Good k s) (h : SeqFormatter.zeroFill n s = .ok r) :
    Good (k + 1) r := by
  unfold SeqFormatter.zeroFill at h
  split_ifs at h
  · obtain ⟨p, hp, h⟩ := bind_eq_ok.1 h
    cases h
    exact good_prepend hs (good_repeated hp)
  · cases h; exact hs.mono (by omega)

theorem good_signAndJustify {k : Int} {ctx : FormatContext} {s r : Seq} {neg : Bool} (hs : Good k s)
    (h : SeqFormatter.signAndJustify ctx s neg = .ok r) : Good (k + 2) r := by
  unfold SeqFormatter.signAndJustify at h
  split_ifs at h
  · exact (good_spaceJustify (good_sign hs neg) h).mono (by omega)
  all_goals
    obtain ⟨v, hv, h⟩ := bind_eq_ok.1 h
    cases h
    exact (good_sign (good_zeroFill hs hv) neg).mono (by omega)

theorem good_d {ctx : FormatContext} {v : IntForm} {r : Seq} (h : SeqFormatter.d ctx v = .ok r) : Good 4 r := by
  unfold SeqFormatter.d at h
  split_ifs at h
  · exact (good_spaceJustify (good_ch _) h).mono (by omega)
  · exact (good_spaceJustify good_empty h).mono (by omega)
  · obtain ⟨x, _, h⟩ := bind_eq_ok.1 h
    obtain ⟨v1, h1, h⟩ := bind_eq_ok.1 h
    exact (good_spaceJustify (good_sign (good_zeroFill (good_wrap x) h1) _) h).mono (by omega)

theorem good_unsigned {ctx : FormatContext} {sg : Int} {x : Res JStr} {pre : JStr} {r : Seq}
    (h : SeqFormatter.formatUnsignedInteger ctx sg x pre = .ok r) : Good 4 r := by
  unfold SeqFormatter.formatUnsignedInteger at h
  split_ifs at h
  · exact (good_spaceJustify good_empty h).mono (by omega)
  all_goals
    obtain ⟨x, _, h⟩ := bind_eq_ok.1 h
    obtain ⟨v1, h1, h⟩ := bind_eq_ok.1 h
    first
    | exact (good_spaceJustify (good_prepend (good_zeroFill (good_wrap x) h1) (good_wrap pre)) h).mono (by omega)
    | exact (good_spaceJustify (good_zeroFill (good_wrap x) h1) h).mono (by omega)

theorem good_nonFinite {ctx : FormatContext} {v : FloatForm} {r : Seq}
    (h : SeqFormatter.nanOrInfinity ctx v = .ok r) : Good 2 r := by
  unfold SeqFormatter.nanOrInfinity at h
  split_ifs at h <;> exact (good_spaceJustify (good_wrap _) h).mono (by omega)

theorem good_frac {k : Int} {m r : Seq} {p : Int} {alt : Bool} (hm : Good k m)
    (h : SeqFormatter.formatFractionalPart m p alt = .ok r) : Good (k + 2) r := by
  obtain ⟨dot, _, ⟨_, _, rfl⟩ | ⟨_, _, rfl⟩ | ⟨_, _, q, hq, rfl⟩⟩ := frac_cases h
  · split_ifs
    · exact (good_append hm (good_ch _)).mono (by omega)
    · exact hm.mono (by omega)
  · exact hm.mono (by omega)
  · have hq' := good_repeated hq
    split_ifs
    · exact (good_append (good_append hm (good_ch _)) hq').mono (by omega)
    · exact (good_append hm hq').mono (by omega)

/-- A layout of few leaves. -/
def LayoutGood (l : FloatLayout) : Prop := Good 3 l.mantissa ∧ ∀ ex, l.exponent = some ex → Good 3 ex

/-- A reading whose layouts have few leaves. -/
def FormGood (v : FloatForm) : Prop :=
  ∀ p l, 0 ≤ p → (v.generalLayout p = .ok l ∨ v.scientificLayout p = .ok l ∨ v.decimalLayout p = .ok l ∨
    v.hexLayout p = .ok l) → LayoutGood l

theorem good_f {ctx : FormatContext} (hp : SeqFormatter.PrecOK ctx) {v : FloatForm} (hv : FormGood v) {r : Seq}
    (h : SeqFormatter.f ctx v = .ok r) : Good 7 r := by
  unfold SeqFormatter.f at h
  split_ifs at h
  · exact (good_nonFinite h).mono (by omega)
  · obtain ⟨l, hl, h⟩ := bind_eq_ok.1 h
    obtain ⟨m, hm, h⟩ := bind_eq_ok.1 h
    have hg := hv _ _ (SeqFormatter.precision6_nonneg hp) (.inr (.inr (.inl hl)))
    exact (good_signAndJustify (good_frac hg.1 hm) h).mono (by omega)

theorem good_exponent {k : Int} {l : FloatLayout} (hl : LayoutGood l) {s r : Seq} (hs : Good k s)
    (h : SeqFormatter.appendExponent s l.exponent = .ok r) : Good (k + 3) r := by
  cases hx : l.exponent with
  | none => rw [hx] at h; cases h
  | some ex =>
    rw [hx] at h; cases h
    exact good_append hs (hl.2 ex hx)

theorem good_e {ctx : FormatContext} (hp : SeqFormatter.PrecOK ctx) {v : FloatForm} (hv : FormGood v) {r : Seq}
    (h : SeqFormatter.e ctx v = .ok r) : Good 12 r := by
  unfold SeqFormatter.e at h
  split_ifs at h
  · exact (good_nonFinite h).mono (by omega)
  · obtain ⟨l, hl, h⟩ := bind_eq_ok.1 h
    obtain ⟨m, hm, h⟩ := bind_eq_ok.1 h
    obtain ⟨m2, h2, h⟩ := bind_eq_ok.1 h
    have hg := hv _ _ (SeqFormatter.precision6_nonneg hp) (.inr (.inl hl))
    exact (good_signAndJustify (good_exponent hg (good_append (good_frac hg.1 hm) (good_ch _)) h2) h).mono (by omega)

theorem good_aJustify {k : Int} {ctx : FormatContext} {s r : Seq} {neg : Bool} (hs : Good k s)
    (h : SeqFormatter.aJustify ctx s neg = .ok r) : Good (k + 3) r := by
  unfold SeqFormatter.aJustify at h
  by_cases hz : (ctx.hasFlag .zeroPad && !ctx.hasFlag .leftJustify) = true
  · rw [if_pos hz] at h
    obtain ⟨v1, hv, h⟩ : ∃ v1, Good (k + 1) v1 ∧ r = SeqFormatter.sign ctx (v1.prepend (Seq.wrap (js! "0x"))) neg := by
      clear hz
      dsimp only at h
      split_ifs at h
      all_goals first
        | (obtain ⟨v1, h1, h⟩ := bind_eq_ok.1 h
           obtain ⟨q, hq, h1⟩ := bind_eq_ok.1 h1
           cases h1; cases h
           exact ⟨_, (good_append (good_repeated hq) hs).mono (by omega), rfl⟩)
        | (cases h; exact ⟨_, hs.mono (by omega), rfl⟩)
    subst h
    exact (good_sign (good_prepend hv (good_wrap _)) neg).mono (by omega)
  · rw [if_neg hz] at h
    exact (good_spaceJustify (good_sign (good_prepend hs (good_wrap _)) neg) h).mono (by omega)

theorem good_a {ctx : FormatContext} (hp : SeqFormatter.PrecOK ctx) {v : FloatForm} (hv : FormGood v) {r : Seq}
    (h : SeqFormatter.a ctx v = .ok r) : Good 12 r := by
  unfold SeqFormatter.a at h
  by_cases hn : (v.isNaN || v.isInfinite) = true
  · rw [if_pos hn] at h
    exact (good_nonFinite h).mono (by omega)
  · rw [if_neg hn] at h
    obtain ⟨l, hl, h⟩ := bind_eq_ok.1 h
    have := SeqFormatter.aPrecision_pos hp
    have hg := hv _ _ (by omega) (.inr (.inr (.inr hl)))
    obtain ⟨m, hm, h⟩ : ∃ m, Good 5 m ∧ (SeqFormatter.appendExponent (m.append (Seq.ch (ch! 'p'))) l.exponent >>=
        fun v2 => SeqFormatter.aJustify ctx v2 (v.signum < 0)) = .ok r := by
      split_ifs at h
      · obtain ⟨m, hm, h⟩ := bind_eq_ok.1 h
        exact ⟨m, good_frac hg.1 hm, h⟩
      · exact ⟨l.mantissa, hg.1.mono (by omega), h⟩
    obtain ⟨m2, h2, h⟩ := bind_eq_ok.1 h
    exact (good_aJustify (good_exponent hg (good_append hm (good_ch _)) h2) h).mono (by omega)

theorem subLoop_count : ∀ (es : List Atomic) (i j : Int) (b : List Atomic) {x : List Atomic × Int × Int},
    subLoop es i j b = .ok x → x.1.length ≤ b.length + es.length
  | [], i, j, b, x, h => by cases h; simp
  | a :: es, i, j, b, x, h => by
    unfold subLoop at h
    dsimp only at h
    split_ifs at h
    · obtain ⟨p, _, h⟩ := bind_eq_ok.1 h
      cases h
      simp
    · obtain ⟨p, _, h⟩ := bind_eq_ok.1 h
      have := subLoop_count es _ _ _ h
      simp only [List.length_append, List.length_cons, List.length_nil] at this ⊢
      omega
    · have := subLoop_count es _ _ _ h
      simp only [List.length_cons]
      omega

theorem subSequence_count {s r : Seq} {i j : Int} (hw : s.Sane) (hs : s.Counted) (h : s.subSequence i j = .ok r) :
    r.elementCount ≤ max 1 s.elementCount := by
  have hl := leaves_ok hw
  have go : (do
      let length := s.length
      checkPositionIndexes i j length
      if i = j then return Seq.empty
      if i = 0 ∧ j = length then return s
      let (buffer, start, stop) ← subLoop (← s.leaves) i j []
      match buffer with
      | [] => .error .assertion
      | [a] => return atom a
      | buffer => return array buffer (stop - start) : Res Seq) = .ok r → r.elementCount ≤ max 1 s.elementCount := by
    intro h
    obtain ⟨_, _, h⟩ := bind_eq_ok.1 h
    split_ifs at h
    · cases h; exact le_max_left _ _
    · cases h; exact le_max_right _ _
    · obtain ⟨es, h1, h⟩ := bind_eq_ok.1 h
      obtain ⟨⟨b, x, y⟩, h2, h5⟩ := bind_eq_ok.1 h
      clear h
      obtain rfl : s.flat = es := by rw [hl] at h1; cases h1; rfl
      have h3 := subLoop_count _ _ _ _ h2
      have h4 := hs.eq
      match b, h5 with
      | [a], h5 => cases h5; exact le_max_left _ _
      | a :: b :: t, h5 =>
        cases h5
        refine le_trans ?_ (le_max_right _ _)
        rw [h4]
        have h6 : (a :: b :: t).length ≤ s.flat.length := by simpa using h3
        show ((a :: b :: t).length : Int) ≤ s.flat.length
        omega
  cases s with
  | atom a =>
    obtain ⟨b, _, h⟩ := bind_eq_ok.1 h
    cases h; exact le_max_left _ _
  | concat l r n k => exact go h
  | array es n => exact go h

theorem good_prefix {k : Int} {s r : Seq} {p : Int} (hw : s.WF) (hc : s.Counted) (hk : s.elementCount ≤ k)
    (h1 : 1 ≤ k) (hp : 0 ≤ p ∧ p ≤ s.length) (h : s.subSequence 0 p = .ok r) : Good k r := by
  have hl := hw.length_text
  obtain ⟨t, t1, t2, t3, _, t5, _⟩ := Seq.subSequence_ok hw (i := 0) (j := p) ⟨le_refl _, hp.1, by omega⟩
  rw [h] at t1; cases t1
  refine ⟨t2, subSequence_counted hc h, (subSequence_count hw.sane hc h).trans (by omega), ?_⟩
  rw [t3]
  simp only [Spec.sub, Int.toNat_zero, List.drop_zero, List.length_take]
  omega

theorem good_strip {k : Int} {m r : Seq} (hw : m.WF) (hm : Good k m) (h1 : 1 ≤ k)
    (h : SeqFormatter.stripTrailingZeros m = .ok r) : Good k r := by
  obtain ⟨q, q1, q2, _, q4, _⟩ := SeqFormatter.stripTrailingZeros_sane hw
  rw [h] at q1; cases q1
  refine ⟨q2, strip_counted hm.counted h, ?_, q4⟩
  unfold SeqFormatter.stripTrailingZeros at h
  obtain ⟨dot, _, h⟩ := bind_eq_ok.1 h
  split_ifs at h
  · cases h; exact hm.few
  · obtain ⟨last, _, h⟩ := bind_eq_ok.1 h
    exact (subSequence_count hw.sane hm.counted h).trans (max_le h1 hm.few)

theorem good_pad {k : Int} {m r : Seq} {p : Int} (hm : Good k m)
    (h : SeqFormatter.padToPrecision m p = .ok r) : Good (k + 2) r := by
  unfold SeqFormatter.padToPrecision at h
  obtain ⟨⟨sig0, seen⟩, _, h⟩ := bind_eq_ok.1 h
  obtain ⟨zero, _, h⟩ := bind_eq_ok.1 h
  obtain ⟨dot, _, h⟩ := bind_eq_ok.1 h
  have hm' : Good (k + 1) (if dot = -1 then m.append (Seq.ch (ch! '.')) else m) := by
    split_ifs
    · exact good_append hm (good_ch _)
    · exact hm.mono (by omega)
  generalize (if dot = -1 then m.append (Seq.ch (ch! '.')) else m) = m' at h hm'
  generalize (p - if (!seen && zero != -1) = true then 1 else sig0) = z at h
  dsimp only at h
  split_ifs at h
  · obtain ⟨q, hq, h⟩ := bind_eq_ok.1 h
    cases h
    exact (good_append hm' (good_repeated hq)).mono (by omega)
  · cases h; exact hm'.mono (by omega)

theorem good_g {ctx : FormatContext} (hp : SeqFormatter.PrecOK ctx) {v : FloatForm} (hw : v.WF) (hv : FormGood v)
    {r : Seq} (h : SeqFormatter.g ctx v = .ok r) : Good 12 r := by
  have hap := SeqFormatter.gPrecision_pos hp
  unfold SeqFormatter.g at h
  by_cases hn : (v.isNaN || v.isInfinite) = true
  · rw [if_pos hn] at h
    exact (good_nonFinite h).mono (by omega)
  · rw [if_neg hn] at h
    obtain ⟨⟨m, ex⟩, hl, h⟩ := bind_eq_ok.1 h
    have hb : ∃ v0, SeqFormatter.gBody ctx ⟨m, ex⟩ = .ok v0 ∧
        SeqFormatter.signAndJustify ctx v0 v.isNegative = .ok r := by
      cases ex <;> exact bind_eq_ok.1 h
    clear h
    obtain ⟨v0, h1, h⟩ := hb
    have hmw := (hw _ _ (by omega) (.inl hl)).1
    have hg := hv _ _ (by omega) (.inl hl)
    have hg1 := hg.1
    simp only at hg1 hmw
    suffices Good 10 v0 from (good_signAndJustify this h).mono (by omega)
    unfold SeqFormatter.gBody at h1
    cases ex with
    | none =>
      simp only [SeqFormatter.formatGDecimal] at h1
      split_ifs at h1
      · exact (good_pad hg1 h1).mono (by omega)
      · exact (good_strip hmw hg1 (by omega) h1).mono (by omega)
    | some ex =>
      simp only [SeqFormatter.formatGScientific] at h1
      have hx := hg.2 ex rfl
      split_ifs at h1
      · cases h1
        exact (good_append (good_append hg1 (good_ch _)) hx).mono (by omega)
      · obtain ⟨m', h2, h1⟩ := bind_eq_ok.1 h1
        cases h1
        exact (good_append (good_append (good_strip hmw hg1 (by omega) h2) (good_ch _)) hx).mono (by omega)

theorem good_c {ctx : FormatContext} {v : Traits} {r : Seq} (h : SeqFormatter.c ctx v = .ok r) : Good 2 r := by
  unfold SeqFormatter.c at h
  obtain ⟨x, _, h⟩ := bind_eq_ok.1 h
  exact (good_spaceJustify (good_ch x) h).mono (by omega)

theorem good_t {env : DateEnv} {ctx : FormatContext} {v : Traits} {r : Seq} (h : SeqFormatter.t env ctx v = .ok r) :
    Good 2 r := by
  unfold SeqFormatter.t at h
  obtain ⟨x, _, h⟩ := bind_eq_ok.1 h
  obtain ⟨⟨f, ta⟩, _, h⟩ := bind_eq_ok.1 h
  obtain ⟨y, _, h⟩ := bind_eq_ok.1 h
  exact (good_spaceJustify (good_wrap y) h).mono (by omega)

theorem good_p {ctx : FormatContext} {v : Traits} {r : Seq} (h : SeqFormatter.p ctx v = .ok r) : Good 4 r := by
  unfold SeqFormatter.p at h
  cases hv : v.ref with
  | primitive => simp only [hv] at h; cases h
  | null => simp only [hv] at h; exact (good_spaceJustify (good_wrap _) h).mono (by omega)
  | object name hash =>
    simp only [hv] at h
    exact (good_spaceJustify (good_prepend (good_prepend (good_wrap _) (good_ch _)) (good_wrap _)) h).mono (by omega)

theorem good_s {k : Int} {ctx : FormatContext} (hp : SeqFormatter.PrecOK ctx) {v : Traits} (hv : v.WF)
    (hc : ∀ q, v.asSeq = .ok q → q.Counted ∧ q.elementCount ≤ k) (h1 : 1 ≤ k) {r : Seq}
    (h : SeqFormatter.s ctx v = .ok r) : Good (k + 1) r := by
  unfold SeqFormatter.s at h
  obtain ⟨q, hq, h⟩ := bind_eq_ok.1 h
  obtain ⟨c1, c2⟩ := hc q hq
  have hw := hv.seq q hq
  split_ifs at h with hs
  · obtain ⟨t, ht, h⟩ := bind_eq_ok.1 h
    refine good_spaceJustify (good_prefix hw c1 c2 h1 ?_ ht) h
    rw [Bool.and_eq_true, SeqFormatter.isPrecisionSet_iff, decide_eq_true_eq] at hs
    rcases hp with h0 | h0
    · exact absurd h0 hs.1
    · exact ⟨h0, by omega⟩
  · exact good_spaceJustify (good_wf hw c1 c2) h

/-- Every conversion yields a rope of few leaves. -/
theorem good_formatter {k : Int} {env : DateEnv} {sp : Specifier} {ctx : FormatContext} {v : Traits}
    (hp : SeqFormatter.PrecOK ctx) (hv : v.WF) (hf : ∀ f, v.asFloatForm = .ok f → FormGood f)
    (hc : ∀ q, v.asSeq = .ok q → q.Counted ∧ q.elementCount ≤ k) (hk : 11 ≤ k) {r : Seq}
    (h : DefaultAppender.formatterFor env sp ctx v = .ok r) : Good (k + 1) r := by
  have up : ∀ {α : Type} {x : Res α} {g : α → Res Seq} {q : Seq},
      (x >>= fun a => g a >>= fun s => s.upperCase) = .ok q →
      ∃ s, (x >>= g) = .ok s ∧ s.upperCase = .ok q := by
    intro α x g q hq
    obtain ⟨a, h1, h2⟩ := bind_eq_ok.1 hq
    obtain ⟨s, h3, h4⟩ := bind_eq_ok.1 h2
    exact ⟨s, bind_eq_ok.2 ⟨a, h1, h3⟩, h4⟩
  have int : ∀ {g : IntForm → Res Seq} {s : Seq}, (∀ i s, g i = .ok s → Good 4 s) →
      (v.asIntForm >>= g) = .ok s → Good (k + 1) s := by
    intro g s hg hs
    obtain ⟨i, _, h2⟩ := bind_eq_ok.1 hs
    exact (hg i s h2).mono (by omega)
  have flt : ∀ {g : FloatForm → Res Seq} {s : Seq}, (∀ i s, i.WF → FormGood i → g i = .ok s → Good 12 s) →
      (v.asFloatForm >>= g) = .ok s → Good (k + 1) s := by
    intro g s hg hs
    obtain ⟨i, h1, h2⟩ := bind_eq_ok.1 hs
    exact (hg i s (hv.float i h1) (hf i h1) h2).mono (by omega)
  cases sp with
  | d => exact int (fun _ _ => good_d) h
  | u => exact int (fun _ _ => good_unsigned) h
  | o => exact int (fun _ _ => good_unsigned) h
  | x => exact int (fun _ _ => good_unsigned) h
  | upperX => obtain ⟨s, h1, h2⟩ := up h; exact good_upper (int (fun _ _ => good_unsigned) h1) h2
  | f => exact flt (fun _ _ _ hi hs => (good_f hp hi hs).mono (by omega)) h
  | upperF => obtain ⟨s, h1, h2⟩ := up h; exact good_upper (flt (fun _ _ _ hi hs => (good_f hp hi hs).mono (by omega)) h1) h2
  | e => exact flt (fun _ _ _ hi hs => good_e hp hi hs) h
  | upperE => obtain ⟨s, h1, h2⟩ := up h; exact good_upper (flt (fun _ _ _ hi hs => good_e hp hi hs) h1) h2
  | g => exact flt (fun _ _ hw hi hs => good_g hp hw hi hs) h
  | upperG => obtain ⟨s, h1, h2⟩ := up h; exact good_upper (flt (fun _ _ hw hi hs => good_g hp hw hi hs) h1) h2
  | a => exact flt (fun _ _ _ hi hs => good_a hp hi hs) h
  | upperA => obtain ⟨s, h1, h2⟩ := up h; exact good_upper (flt (fun _ _ _ hi hs => good_a hp hi hs) h1) h2
  | c => exact (good_c h).mono (by omega)
  | s => exact good_s hp hv hc (by omega) h
  | upperS => obtain ⟨s, h1, h2⟩ := bind_eq_ok.1 h; exact good_upper (good_s hp hv hc (by omega) h1) h2
  | t => exact (good_t h).mono (by omega)
  | upperT => obtain ⟨s, h1, h2⟩ := bind_eq_ok.1 h; exact (good_upper (good_t h1) h2).mono (by omega)
  | n => cases h; exact good_empty.mono (by omega)
  | p => exact (good_p h).mono (by omega)
  | percent => cases h; exact (good_ch _).mono (by omega)

end Narrow
end FastPrintf
