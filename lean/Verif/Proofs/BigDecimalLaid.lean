/-
The pieces in which `BigDecimalWrapper` lays out a number.
-/
import Verif.Proofs.BigDecimalText
import Verif.Proofs.Laid

namespace FastPrintf
open Spec SeqFormatter

namespace BigDecimalWrapper
open FormattedFPDecimal BigDec

theorem toRadix_no_dot (u : Nat) : 46 ∉ toRadix 10 u := fun h =>
  ((toRadix_isNumeral (b := 10) (by omega) (by omega) u).2 46 h).ne_dot rfl

theorem toRadix_last (u : Nat) : (toRadix 10 u).getLast? = some 48 ↔ 10 ∣ u := by
  have hv := valueIn_toRadix (b := 10) (by omega) (by omega) u
  have hd := (toRadix_isNumeral (b := 10) (by omega) (by omega) u).2
  obtain ⟨x, hx⟩ : ∃ x, (toRadix 10 u).getLast? = some x := by
    cases hl : (toRadix 10 u).getLast? with
    | none => rw [List.getLast?_eq_none_iff] at hl; exact absurd hl (toRadix_ne_nil _ _)
    | some x => exact ⟨x, rfl⟩
  obtain ⟨a, ha⟩ := List.getLast?_eq_some_iff.1 hx
  rw [hx, Option.some.injEq]
  rw [ha, valueIn_append, List.length_singleton, pow_one, valueIn_singleton] at hv
  have hdx := hd x (by rw [ha]; simp)
  obtain ⟨k, hk, rfl⟩ : ∃ k, k < 10 ∧ x = 48 + k := by
    refine ⟨x - 48, ?_, ?_⟩ <;> revert hdx <;> unfold IsDigitIn digitVal <;> grind
  rw [digitVal_48 hk] at hv
  omega

theorem getLast?_drop {t : JStr} {k : Nat} (h : k < t.length) : (t.drop k).getLast? = t.getLast? := by
  have : t.take k ++ t.drop k = t := List.take_append_drop k t
  conv => rhs; rw [← this]
  rw [List.getLast?_append_of_ne_nil]
  intro hc
  have := congrArg List.length hc
  simp at this; omega

theorem toRadix_head {u : Nat} (hu : u ≠ 0) : ∃ c t, toRadix 10 u = c :: t ∧ c ≠ 48 := by
  cases ht : toRadix 10 u with
  | nil => exact absurd ht (toRadix_ne_nil _ _)
  | cons c t =>
    refine ⟨c, t, rfl, ?_⟩
    rintro rfl
    have hv := valueIn_toRadix (b := 10) (by omega) (by omega) u
    rcases toRadix_minimal (b := 10) (by omega) u with h | h
    · rw [h] at hv; exact hu (by rw [← hv]; decide)
    · rw [ht] at h; simp at h

theorem toRadix_take {u : Nat} (hu : u ≠ 0) {k : Nat} (hk : 0 < k) :
    (toRadix 10 u).take k ≠ js! "0" ∧ (toRadix 10 u).take k ≠ [] := by
  obtain ⟨c, t, h1, h2⟩ := toRadix_head hu
  obtain ⟨j, rfl⟩ : ∃ j, k = j + 1 := ⟨k - 1, by omega⟩
  rw [h1, List.take_succ_cons]
  exact ⟨fun hc => h2 (by simp at hc; exact hc.1), by simp⟩

/-- `ip`, a point and the rest of the digits. -/
theorem dotted_split {u : Nat} (hu : u ≠ 0) {m a b : Seq} (hm : m = (a.append (Seq.ch 46)).append b)
    {k : Nat} (hk : 0 < k) (hlt : k < (toRadix 10 u).length) (ha : ∃ x, a = .atom x) (hb : ∃ x, b = .atom x)
    (hbw : b.WF) (hat : a.text = (toRadix 10 u).take k) (hbt : b.text = (toRadix 10 u).drop k) :
    Dotted m u ((toRadix 10 u).take k) [] ((toRadix 10 u).drop k) := by
  obtain ⟨t1, t2⟩ := toRadix_take hu hk
  have bne : (toRadix 10 u).drop k ≠ [] := by
    intro hc; have := congrArg List.length hc; simp at this; omega
  have pa : leafTexts a = [(toRadix 10 u).take k] := by
    obtain ⟨x, rfl⟩ := ha; simp only [leafTexts]; rw [← hat]; rfl
  have pb : leafTexts b = [(toRadix 10 u).drop k] := by
    obtain ⟨x, rfl⟩ := hb; simp only [leafTexts]; rw [← hbt]; rfl
  have p1 := Seq.leafTexts_append (a := a) (b := Seq.ch 46) (by rw [hat]; exact t2) (Seq.ch_wf _) (by rw [Seq.ch_text]; simp)
  have p2 := Seq.leafTexts_append (a := a.append (Seq.ch 46)) (b := b) (by
    rw [Seq.append_text (Seq.ch_wf _).sane, Seq.ch_text]; simp) hbw (by rw [hbt]; exact bne)
  have pc : leafTexts (Seq.ch 46) = [[46]] := rfl
  rw [p1, pa, pb, pc] at p2
  refine ⟨fun h => toRadix_no_dot u (List.mem_of_mem_take h), ⟨[(toRadix 10 u).take k, [46]], ?_, by simp⟩, bne,
    fun h => toRadix_no_dot u (List.mem_of_mem_drop h), by simp, ?_, .inr ⟨rfl, t1, t2, ?_⟩⟩
  · rw [hm, p2]; rfl
  · rw [getLast?_drop hlt]; exact toRadix_last u
  · exact ⟨_, by rw [hm, p2]; rfl⟩

theorem decimalLayout0_laid {u n : Nat} {σ : Int} (hd : Digits u n) (hu : u ≠ 0) (h1 : -2147483647 ≤ σ - n)
    (h2 : σ ≤ 2147483647) {m : Seq} (hm : decimalLayout0 ⟨u, σ⟩ = .ok ⟨m, none⟩) : Laid m u := by
  have hn := hd.length
  have hp := hd.pos
  unfold decimalLayout0 at hm
  simp only [digits, hn] at hm
  by_cases h0 : σ = 0
  · subst h0
    cases hm
    left; rw [Seq.wrap_text]; exact toRadix_no_dot u
  rw [if_neg h0, wrap32_id (x := σ - n) (by omega) (by omega)] at hm
  have hwt : (Seq.wrap (toRadix 10 u)).text ≠ [] := by rw [Seq.wrap_text]; exact toRadix_ne_nil _ _
  have pw : leafTexts (Seq.wrap (toRadix 10 u)) = [toRadix 10 u] := by
    show [(Seq.wrap (toRadix 10 u)).text] = _
    rw [Seq.wrap_text]
  have p0 : leafTexts (Seq.wrap (js! "0.")) = [js! "0."] := rfl
  by_cases hpad : σ - n ≥ 0
  · right
    rw [if_pos hpad] at hm
    by_cases hpos : σ - n > 0
    · obtain ⟨q, q1, q2, q3⟩ := Seq.repeated_ok (c := 48) (n := σ - n) (by omega)
      rw [if_pos hpos, q1] at hm
      cases hm
      have qp : leafTexts q = [List.replicate (σ - n).toNat 48] := by
        unfold Seq.repeated at q1
        obtain ⟨x, _, hx⟩ := bind_eq_ok.1 q1
        cases hx
        rw [← q3]; rfl
      have qne : q.text ≠ [] := by
        rw [q3]; intro hc; have := congrArg List.length hc; simp at this; omega
      have e1 := Seq.leafTexts_prepend hwt q2 qne
      have e2 := Seq.leafTexts_prepend (a := (Seq.wrap (toRadix 10 u)).prepend q) (b := Seq.wrap (js! "0.")) (by
        rw [Seq.prepend_text q2.sane]; simp [qne]) (Seq.wrap_wf _) (by decide)
      rw [e1, qp, pw, p0] at e2
      refine ⟨js! "0", List.replicate (σ - n).toNat 48, toRadix 10 u, by decide, ⟨[js! "0.", List.replicate (σ - n).toNat 48], ?_, ?_⟩, toRadix_ne_nil _ _,
        toRadix_no_dot u, fun c hc => List.eq_of_mem_replicate hc, toRadix_last u, .inl ⟨rfl, toRadix_head hu⟩⟩
      · exact e2
      · simp
    · rw [if_neg hpos] at hm
      cases hm
      have e2 := Seq.leafTexts_prepend (b := Seq.wrap (js! "0.")) hwt (Seq.wrap_wf _) (by decide)
      rw [pw, p0] at e2
      refine ⟨js! "0", [], toRadix 10 u, by decide, ⟨[js! "0."], ?_, ?_⟩, toRadix_ne_nil _ _,
        toRadix_no_dot u, by simp, toRadix_last u, .inl ⟨rfl, toRadix_head hu⟩⟩
      · exact e2
      · simp
  · rw [if_neg hpad, wrap32_id (by omega) (by omega)] at hm
    by_cases hmid : -(σ - n) < n
    · rw [if_pos hmid] at hm
      obtain ⟨a, a1, a2, a3⟩ := Atomic.wrapRange_ok (s := toRadix 10 u) (i := 0) (j := -(σ - n)) (by omega)
      obtain ⟨b, b1, b2, b3⟩ := Atomic.wrapRange_ok (s := toRadix 10 u) (i := -(σ - n)) (j := n) (by omega)
      rw [a1, b1] at hm
      cases hm
      refine .inr ⟨_, _, _, dotted_split hu (k := (-(σ - (n : Int))).toNat) rfl (by omega) (by omega) ⟨a, rfl⟩ ⟨b, rfl⟩
        b2 ?_ ?_⟩
      · show a.text = _
        rw [a3]; simp [Spec.sub]
      · show b.text = _
        rw [b3]; unfold Spec.sub
        rw [List.take_of_length_le]
        simp; omega
    · rw [if_neg hmid, wrap32_id (by omega) (by omega)] at hm
      obtain ⟨q, q1, q2, q3⟩ := Seq.repeated_ok (c := 48) (n := -σ) (by omega)
      rw [q1] at hm
      cases hm
      left
      rw [Seq.append_text q2.sane, q3, Seq.wrap_text]
      intro hc
      rcases List.mem_append.1 hc with hc | hc
      · exact toRadix_no_dot u hc
      · have := List.eq_of_mem_replicate hc; omega

theorem singleton_take {s : JStr} (h : 0 < s.length) : [s[0]] = s.take 1 := by
  cases s with
  | nil => simp at h
  | cons c t => rfl

theorem insertDot_laid {u : Nat} (hu : u ≠ 0) (h : 1 < (toRadix 10 u).length) {m : Seq}
    (hm : insertDotAfterFirstChar (toRadix 10 u) = .ok m) : Laid m u := by
  unfold insertDotAfterFirstChar at hm
  have hc := Atomic.charAtRaw_ok (s := toRadix 10 u) (i := 0) (by omega)
  obtain ⟨a, a1, a2, a3⟩ := Atomic.wrapRange_ok (s := toRadix 10 u) (i := 1) (j := (toRadix 10 u).length) (by omega)
  rw [hc, a1] at hm
  cases hm
  refine .inr ⟨_, _, _, dotted_split hu (k := 1) rfl (by omega) h ⟨_, rfl⟩ ⟨a, rfl⟩ a2 ?_ ?_⟩
  · rw [Seq.ch_text]
    exact singleton_take (by omega)
  · show a.text = _
    rw [a3]; unfold Spec.sub
    rw [List.take_of_length_le] <;> simp

theorem scientificLayout0_laid {u : Nat} {σ : Int} (hu : u ≠ 0) {m : Seq} {ex : Option Seq}
    (hm : scientificLayout0 ⟨u, σ⟩ = .ok ⟨m, ex⟩) : Laid m u := by
  have he : scientificLayout0 ⟨u, σ⟩ = (
      if σ = 0 then
        if (toRadix 10 u).length > 1 then do
          let mant ← insertDotAfterFirstChar (toRadix 10 u)
          let n := toRadix 10 ((toRadix 10 u).length - 1)
          let exp := if (toRadix 10 u).length < 10 then Seq.wrap (js! "+0" ++ n) else Seq.wrap (js! "+" ++ n)
          return { mantissa := mant, exponent := some exp }
        else .ok { mantissa := Seq.wrap (toRadix 10 u), exponent := some (Seq.wrap (js! "+00")) }
      else do
        let mant ← if (toRadix 10 u).length > 1 then insertDotAfterFirstChar (toRadix 10 u)
          else pure (Seq.wrap (toRadix 10 u))
        return { mantissa := mant, exponent := some (exponentSeq (-σ + ((toRadix 10 u).length - 1))) }) := rfl
  rw [he] at hm
  have single : ∀ m, Seq.wrap (toRadix 10 u) = m → Laid m u := by
    rintro m rfl
    left; rw [Seq.wrap_text]; exact toRadix_no_dot u
  by_cases h0 : σ = 0
  · rw [if_pos h0] at hm
    by_cases h1 : (toRadix 10 u).length > 1
    · rw [if_pos h1] at hm
      obtain ⟨q, q1, hq⟩ := bind_eq_ok.1 hm
      cases hq
      exact insertDot_laid hu h1 q1
    · rw [if_neg h1] at hm
      cases hm
      exact single _ rfl
  · rw [if_neg h0] at hm
    by_cases h1 : (toRadix 10 u).length > 1
    · rw [if_pos h1] at hm
      obtain ⟨q, q1, hq⟩ := bind_eq_ok.1 hm
      cases hq
      exact insertDot_laid hu h1 q1
    · rw [if_neg h1] at hm
      obtain ⟨q, q1, hq⟩ := bind_eq_ok.1 hm
      cases q1
      cases hq
      exact single _ rfl

end BigDecimalWrapper
end FastPrintf
