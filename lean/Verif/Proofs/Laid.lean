/-
The pieces a mantissa is put together from, and the length it reports without its trailing zeros.
-/
import Verif.Proofs.Cut
import Verif.Proofs.DecimalShape

namespace FastPrintf
open Spec SeqFormatter

namespace Seq

theorem isEmpty_of_text {s : Seq} (h : s.WF) (hs : s.text ≠ []) : s.isEmpty = false := by
  have := List.length_pos_of_ne_nil hs
  unfold Seq.isEmpty
  rw [h.length_text]
  simp; omega

theorem leafTexts_mkConcat (l r : Seq) : leafTexts (mkConcat l r) = leafTexts l ++ leafTexts r := by
  cases l <;> simp [mkConcat, concat0, leafTexts]

theorem leafTexts_append {a b : Seq} (ha : a.text ≠ []) (hb : b.WF) (hs : b.text ≠ []) :
    leafTexts (a.append b) = leafTexts a ++ leafTexts b := by
  have hne : a ≠ atom .empty := by rintro rfl; exact ha rfl
  have : a.append b = mkConcat a b := by
    unfold append
    split
    · exact absurd rfl hne
    · rw [isEmpty_of_text hb hs]; rfl
  rw [this, leafTexts_mkConcat]

theorem leafTexts_prepend {a b : Seq} (ha : a.text ≠ []) (hb : b.WF) (hs : b.text ≠ []) :
    leafTexts (a.prepend b) = leafTexts b ++ leafTexts a := by
  have hne : a ≠ atom .empty := by rintro rfl; exact ha rfl
  have : a.prepend b = mkConcat b a := by
    unfold prepend
    split
    · exact absurd rfl hne
    · rw [isEmpty_of_text hb hs]; rfl
  rw [this, leafTexts_mkConcat]

end Seq

theorem cutLength_append (pre ts : List JStr) {k : Nat} (hk : 0 < k) :
    cutLength (pre ++ ts) (pre.flatten.length + k) = cutLength ts k := by
  induction pre with
  | nil => simp
  | cons t pre ih =>
    rw [List.cons_append, cutLength, List.flatten_cons, List.length_append, if_neg (by omega), ← ih]
    congr 1; omega

/-- How the digits of `u` are laid out with a point: in pieces, of which the last one has the digits
behind the point, or behind the leading zeros of the fraction of a number below one. -/
structure Dotted (m : Seq) (u : Nat) (ip zs tail : JStr) : Prop where
  int : 46 ∉ ip
  leafTexts : ∃ pre, Spec.leafTexts m = pre ++ [tail] ∧ pre.flatten = ip ++ 46 :: zs
  ne : tail ≠ []
  nodot : 46 ∉ tail
  zeros : ∀ c ∈ zs, c = 48
  last : tail.getLast? = some 48 ↔ 10 ∣ u
  kind : (ip = js! "0" ∧ ∃ c t, tail = c :: t ∧ c ≠ 48) ∨
    (zs = [] ∧ ip ≠ js! "0" ∧ ip ≠ [] ∧ ∃ rest, Spec.leafTexts m = ip :: rest)

/-- A mantissa without a point, or laid out in pieces. -/
def Laid (m : Seq) (u : Nat) : Prop := 46 ∉ m.text ∨ ∃ ip zs tail, Dotted m u ip zs tail

theorem Dotted.text {m : Seq} {u : Nat} {ip zs tail : JStr} (h : Dotted m u ip zs tail) :
    m.text = ip ++ 46 :: (zs ++ tail) := by
  obtain ⟨pre, h1, h2⟩ := h.leafTexts
  rw [← Seq.leafTexts_text, h1, List.flatten_append, h2]; simp

theorem takeWhile_point {ip t : JStr} (h : 46 ∉ ip) :
    (ip ++ 46 :: t).takeWhile (fun c => decide (c ≠ 46)) = ip := by
  induction ip with
  | nil => simp
  | cons c ip ih =>
    simp only [List.mem_cons, not_or] at h
    rw [List.cons_append, List.takeWhile_cons_of_pos (by simpa using fun hc => h.1 hc.symm), ih h.2]

theorem takeWhile_all {t : JStr} (h : 46 ∉ t) : t.takeWhile (fun c => decide (c ≠ 46)) = t := by
  induction t with
  | nil => rfl
  | cons c t ih =>
    simp only [List.mem_cons, not_or] at h
    rw [List.takeWhile_cons_of_pos (by simpa using fun hc => h.1 hc.symm), ih h.2]

theorem hiddenLength_none {t : JStr} (h : 46 ∉ t) : hiddenLength t = 0 := by
  unfold hiddenLength; rw [if_neg h]

theorem hiddenLength_point {ip fp : JStr} (h : 46 ∉ ip) :
    hiddenLength (ip ++ 46 :: fp) = ip.length + 1 +
      (if ip = js! "0" then (fp.takeWhile (fun c => decide (c = 48))).length else 0) := by
  unfold hiddenLength
  simp only [takeWhile_point h]
  rw [if_pos (by simp)]
  have : (ip ++ 46 :: fp).drop (ip.length + 1) = fp := by
    rw [← List.drop_drop, List.drop_left]; rfl
  rw [this]

theorem takeWhile_zeros {zs t : JStr} (h : ∀ c ∈ zs, c = 48) :
    (zs ++ t).takeWhile (fun c => decide (c = 48)) = zs ++ t.takeWhile (fun c => decide (c = 48)) := by
  induction zs with
  | nil => rfl
  | cons c zs ih =>
    rw [List.cons_append, List.takeWhile_cons_of_pos (by simpa using h c (by simp)),
      ih fun c hc => h c (List.mem_cons_of_mem _ hc), List.cons_append]

/-- In front of a part of the last piece. -/
theorem Dotted.hidden {m : Seq} {u : Nat} {ip zs tail : JStr} (h : Dotted m u ip zs tail) {t r : JStr}
    (ht : tail = t ++ r) (hne : t ≠ []) :
    hiddenLength (ip ++ 46 :: (zs ++ t)) = ip.length + 1 + zs.length := by
  rw [hiddenLength_point h.int]
  rcases h.kind with ⟨rfl, c, t', h1, h2⟩ | ⟨rfl, h1, _⟩
  · rw [if_pos rfl, takeWhile_zeros h.zeros]
    cases t with
    | nil => exact absurd rfl hne
    | cons d t =>
      have : d = c := by rw [ht] at h1; simp at h1; exact h1.1
      rw [List.takeWhile_cons_of_neg (by rw [this]; simpa using h2)]
      simp
  · rw [if_neg h1]; simp

theorem dropTrailing_append_ne {c : JChar} {s t : JStr} (h : dropTrailing c t ≠ []) :
    dropTrailing c (s ++ t) = s ++ dropTrailing c t := by
  obtain ⟨k, h1, h2⟩ := dropTrailing_eq c t
  have h3 : s ++ t = s ++ dropTrailing c t ++ List.replicate k c := by rw [List.append_assoc, ← h1]
  cases hl : (dropTrailing c t).getLast? with
  | none => rw [List.getLast?_eq_none_iff] at hl; exact absurd hl h
  | some x =>
    obtain ⟨a, ha⟩ := List.getLast?_eq_some_iff.1 hl
    have hx : x ≠ c := by rintro rfl; exact h2 hl
    have : dropTrailing c (s ++ t) = dropTrailing c (s ++ dropTrailing c t) := by
      rw [h3]
      clear h1 h3
      induction k with
      | zero => simp
      | succ k ih => rw [List.replicate_succ', ← List.append_assoc, dropTrailing_snoc_same, ih]
    rw [this, ha, ← List.append_assoc, dropTrailing_snoc_ne hx]

theorem getLast_cases (t : JStr) (h : t ≠ []) :
    (t.getLast? = some 48 ∧ (dropTrailing 48 t).length < t.length) ∨
    (t.getLast? ≠ some 48 ∧ dropTrailing 48 t = t) := by
  obtain ⟨x, hx⟩ : ∃ x, t.getLast? = some x := by
    cases hl : t.getLast? with
    | none => rw [List.getLast?_eq_none_iff] at hl; exact absurd hl h
    | some x => exact ⟨x, rfl⟩
  obtain ⟨a, rfl⟩ := List.getLast?_eq_some_iff.1 hx
  by_cases hc : x = 48
  · subst hc
    left
    refine ⟨hx, ?_⟩
    rw [dropTrailing_snoc_same]
    obtain ⟨k, h1, _⟩ := dropTrailing_eq 48 a
    have := congrArg List.length h1
    simp at this ⊢; omega
  · right
    refine ⟨by rw [hx]; simpa using hc, ?_⟩
    rw [dropTrailing_snoc_ne hc]

/-- What a mantissa reports without its zeros. -/
theorem Laid.length {m : Seq} {u : Nat} (h : Laid m u) :
    strippedLength m + (if 10 ∣ u then hiddenLength (stripText m.text) else 0) = (stripText m.text).length := by
  rcases h with h | ⟨ip, zs, tail, h⟩
  · have e : stripText m.text = m.text := by unfold stripText; rw [if_neg h]
    rw [e, hiddenLength_none h, ite_self]
    unfold strippedLength
    rw [if_pos e]; rfl
  · have ht := h.text
    obtain ⟨pre, p1, p2⟩ := h.leafTexts
    have hs := stripText_point (ip := ip) (fp := zs ++ tail) h.int
    rw [← ht] at hs
    unfold strippedLength
    rcases getLast_cases tail h.ne with ⟨l1, l2⟩ | ⟨l1, l2⟩
    · rw [if_pos (h.last.1 l1)]
      by_cases hd : dropTrailing 48 tail = []
      · -- nothing is left of the fraction
        rcases h.kind with ⟨_, c, t, h1, h2⟩ | ⟨h1, h2, h3, rest, h4⟩
        · exfalso
          rw [h1] at hd
          have := dropTrailing_append (c := 48) h2 [] t
          rw [List.nil_append, hd] at this
          simp at this
        · subst h1
          rw [List.nil_append, hd] at hs
          have e : stripText m.text = ip := by rw [hs]; simp [fraction]
          rw [e, hiddenLength_none h.int, if_neg (by
            intro hc; rw [ht] at hc; have := congrArg List.length hc; simp at this)]
          rw [h4, cutLength, if_pos le_rfl]; rfl
      · have e : stripText m.text = ip ++ 46 :: (zs ++ dropTrailing 48 tail) := by
          rw [hs, dropTrailing_append_ne hd]
          unfold fraction; rw [if_neg (by simp [hd])]
        obtain ⟨k, k1, _⟩ := dropTrailing_eq 48 tail
        rw [e, h.hidden k1 hd, if_neg (by
          intro hc; rw [ht] at hc; have := congrArg List.length hc; simp at this; omega), p1]
        have hl : (ip ++ 46 :: (zs ++ dropTrailing 48 tail)).length =
            pre.flatten.length + (dropTrailing 48 tail).length := by
          rw [p2]; simp; omega
        rw [hl, cutLength_append _ _ (List.length_pos_of_ne_nil hd), cutLength, if_pos (by omega), p2]
        simp; omega
    · rw [if_neg (fun hc => l1 (h.last.2 hc))]
      have e : stripText m.text = m.text := by
        rw [hs, dropTrailing_append_ne (by rw [l2]; exact h.ne), l2, ht]
        unfold fraction; rw [if_neg (by simp [h.ne])]
      rw [e, if_pos rfl]; rfl

end FastPrintf
