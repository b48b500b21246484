/-
Which texts sort as the numbers they denote.
-/
import Verif.Spec.Order
import Verif.Proofs.ReadBack

namespace FastPrintf
open Spec

theorem compareTo_append (a s t : JStr) : compareTo (a ++ s) (a ++ t) = compareTo s t := by
  induction a with
  | nil => rfl
  | cons c a ih => simp [compareTo, ih]

theorem compareTo_self (s : JStr) : compareTo s s = 0 := by
  induction s with
  | nil => rfl
  | cons c s ih => simp [compareTo, ih]

theorem compareTo_swap (s t : JStr) : compareTo t s = -compareTo s t := by
  induction s generalizing t with
  | nil => cases t <;> simp [compareTo]
  | cons a s ih =>
    cases t with
    | nil => simp [compareTo]
    | cons b t =>
      by_cases h : a = b
      · subst h; simp [compareTo, ih]
      · simp [compareTo, h, Ne.symm h]

theorem compareTo_cons_lt {a b : Nat} (h : a < b) (s t : JStr) : compareTo (a :: s) (b :: t) < 0 := by
  rw [compareTo, if_neg (by omega)]; omega

theorem compareTo_eq_zero {s t : JStr} (h : compareTo s t = 0) : s = t := by
  induction s generalizing t with
  | nil =>
    cases t with
    | nil => rfl
    | cons b t => simp [compareTo] at h; omega
  | cons a s ih =>
    cases t with
    | nil => simp [compareTo] at h; omega
    | cons b t =>
      by_cases e : a = b
      · subst e; simp only [compareTo, if_true] at h; rw [ih h]
      · simp only [compareTo, if_neg e] at h; omega

theorem Spec.SortLike.swap {s t : JStr} {m n : Nat} (h : SortLike s t m n) : SortLike t s n m := by
  obtain ⟨h1, h2⟩ := h
  unfold SortLike
  rw [compareTo_swap s t]
  constructor
  · constructor
    · intro h; by_contra hn
      rcases Nat.lt_or_ge m n with g | g
      · have := h1.2 g; omega
      · have : m = n := by omega
        have := h2.2 this; omega
    · intro h
      by_contra hn
      rcases lt_or_eq_of_le (by omega : compareTo s t ≤ 0) with g | g
      · have := h1.1 g; omega
      · have := h2.1 g; omega
  · constructor
    · intro h; exact (h2.1 (by omega)).symm
    · intro h; rw [h2.2 h.symm]; rfl

theorem sortLike_of_lt {s t : JStr} {m n : Nat} (h : compareTo s t < 0) (hm : m < n) : SortLike s t m n :=
  ⟨⟨fun _ => hm, fun _ => h⟩, ⟨fun e => by omega, fun e => by omega⟩⟩

theorem sortLike_of_eq {s t : JStr} {m n : Nat} (h : s = t) (hm : m = n) : SortLike s t m n := by
  subst h; subst hm
  unfold SortLike
  rw [compareTo_self]; simp

theorem digit_lt {b x y : Nat} (hx : IsDigitIn b x) (hy : IsDigitIn b y) (h : x < y) : digitVal x < digitVal y := by
  obtain ⟨hx, -⟩ := hx
  obtain ⟨hy, -⟩ := hy
  unfold digitVal
  split_ifs <;> omega

/-- Digit strings of the same length that differ compare as their values, whatever follows. -/
theorem digits_lt {b : Nat} (hb : 1 ≤ b) {s t : JStr} (hs : ∀ c ∈ s, IsDigitIn b c) (ht : ∀ c ∈ t, IsDigitIn b c)
    (hl : s.length = t.length) (h : valueIn b s < valueIn b t) (u v : JStr) :
    compareTo (s ++ u) (t ++ v) < 0 := by
  induction s generalizing t with
  | nil =>
    have : t = [] := List.eq_nil_of_length_eq_zero (by simpa using hl.symm)
    subst this; simp at h
  | cons x s ih =>
    cases t with
    | nil => simp at hl
    | cons y t =>
      simp only [List.length_cons, Nat.add_right_cancel_iff] at hl
      simp only [valueIn, hl] at h
      rcases lt_trichotomy x y with g | g | g
      · exact compareTo_cons_lt g _ _
      · subst g
        simp only [List.cons_append, compareTo, if_true]
        exact ih (fun c hc => hs c (by simp [hc])) (fun c hc => ht c (by simp [hc])) hl (by omega)
      · exfalso
        have := digit_lt (ht y (by simp)) (hs x (by simp)) g
        have h2 := valueIn_lt hb t (fun c hc => (ht c (by simp [hc])).2)
        have : (digitVal y + 1) * b ^ t.length ≤ digitVal x * b ^ t.length := Nat.mul_le_mul_right _ this
        rw [Nat.add_mul] at this
        omega

/-- Numbers of the same shape: as many digits before and after the point. -/
theorem sort_same {b : Nat} (hb : 1 ≤ b) {alt : Bool} {ip ip' fp fp' : JStr} (hi : ∀ c ∈ ip, IsDigitIn b c)
    (hi' : ∀ c ∈ ip', IsDigitIn b c) (hf : ∀ c ∈ fp, IsDigitIn b c) (hf' : ∀ c ∈ fp', IsDigitIn b c)
    (hl : ip.length = ip'.length) (hp : fp.length = fp'.length) :
    SortLike (ip ++ fraction alt fp) (ip' ++ fraction alt fp') (valueIn b (ip ++ fp)) (valueIn b (ip' ++ fp')) := by
  have main : ∀ {ip ip' fp fp' : JStr}, (∀ c ∈ ip, IsDigitIn b c) → (∀ c ∈ ip', IsDigitIn b c) →
      (∀ c ∈ fp, IsDigitIn b c) → (∀ c ∈ fp', IsDigitIn b c) → ip.length = ip'.length → fp.length = fp'.length →
      valueIn b (ip ++ fp) < valueIn b (ip' ++ fp') →
      compareTo (ip ++ fraction alt fp) (ip' ++ fraction alt fp') < 0 := by
    intro ip ip' fp fp' hi hi' hf hf' hl hp h
    rw [valueIn_append, valueIn_append, hp] at h
    have b1 := valueIn_lt hb fp (fun c hc => (hf c hc).2)
    have b2 := valueIn_lt hb fp' (fun c hc => (hf' c hc).2)
    rw [hp] at b1
    rcases lt_trichotomy (valueIn b ip) (valueIn b ip') with g | g | g
    · exact digits_lt hb hi hi' hl g _ _
    · have e := valueIn_inj_length hb hi hi' hl g
      subst e
      rw [compareTo_append]
      have hlt : valueIn b fp < valueIn b fp' := by omega
      have hne : fp ≠ [] := by
        rintro rfl
        have : fp' = [] := List.eq_nil_of_length_eq_zero (by simpa using hp.symm)
        subst this; simp at hlt
      have hne' : fp' ≠ [] := by
        rintro rfl
        exact hne (List.eq_nil_of_length_eq_zero (by simpa using hp))
      unfold fraction
      rw [if_neg (by simp [hne]), if_neg (by simp [hne'])]
      have := digits_lt hb hf hf' hp hlt [] []
      simpa [compareTo] using this
    · exfalso
      have : (valueIn b ip' + 1) * b ^ fp'.length ≤ valueIn b ip * b ^ fp'.length := Nat.mul_le_mul_right _ g
      rw [Nat.add_mul] at this
      omega
  rcases lt_trichotomy (valueIn b (ip ++ fp)) (valueIn b (ip' ++ fp')) with g | g | g
  · exact sortLike_of_lt (main hi hi' hf hf' hl hp g) g
  · refine sortLike_of_eq ?_ g
    have hm : ∀ c ∈ ip ++ fp, IsDigitIn b c := fun c hc => (List.mem_append.1 hc).elim (hi c) (hf c)
    have hm' : ∀ c ∈ ip' ++ fp', IsDigitIn b c := fun c hc => (List.mem_append.1 hc).elim (hi' c) (hf' c)
    have e := valueIn_inj_length hb hm hm' (by simp [hl, hp]) g
    obtain ⟨e1, e2⟩ := List.append_inj e hl
    rw [e1, e2]
  · exact (sortLike_of_lt (main hi' hi hf' hf hl.symm hp.symm g) g).swap

theorem fraction_length (alt : Bool) {fp fp' : JStr} (h : fp.length = fp'.length) :
    (fraction alt fp).length = (fraction alt fp').length := by
  have : fp = [] ↔ fp' = [] := by rw [← List.length_eq_zero_iff, ← List.length_eq_zero_iff, h]
  unfold fraction
  simp only [this]
  split_ifs <;> simp [h]

/-- A numeral without leading zero is greater than a shorter one. -/
theorem value_longer {b : Nat} (hb : 2 ≤ b) {ip ip' fp fp' : JStr} (hi : ∀ c ∈ ip, IsDigitIn b c)
    (hi' : ∀ c ∈ ip', IsDigitIn b c) (hf : ∀ c ∈ fp, IsDigitIn b c)
    (hp : fp.length = fp'.length) (hl : ip.length < ip'.length) (hz : ip'.head? ≠ some 48) :
    valueIn b (ip ++ fp) < valueIn b (ip' ++ fp') := by
  cases ip' with
  | nil => simp at hl
  | cons c r =>
    rw [valueIn_append, valueIn_append, hp]
    have b1 := valueIn_lt (by omega : 1 ≤ b) fp (fun c hc => (hf c hc).2)
    have b2 := valueIn_lt (by omega : 1 ≤ b) ip (fun c hc => (hi c hc).2)
    rw [hp] at b1
    have hc : 1 ≤ digitVal c := by
      have := (hi' c (by simp)).1
      simp only [List.head?_cons, ne_eq, Option.some.injEq] at hz
      unfold digitVal
      split_ifs <;> omega
    have h1 : b ^ ip.length ≤ b ^ r.length := Nat.pow_le_pow_right (by omega) (by simp at hl; omega)
    have h2 : valueIn b ip + 1 ≤ valueIn b (c :: r) := by
      simp only [valueIn]
      have : 1 * b ^ r.length ≤ digitVal c * b ^ r.length := Nat.mul_le_mul_right _ hc
      omega
    have : (valueIn b ip + 1) * b ^ fp'.length ≤ valueIn b (c :: r) * b ^ fp'.length := Nat.mul_le_mul_right _ h2
    rw [Nat.add_mul] at this
    omega

/-- The column lemma: numbers that are not negative, not left-justified, and take up as many characters. -/
theorem sort_field {b : Nat} (hb : 2 ≤ b) {alt zero : Bool} {w : Nat} {sg ip ip' fp fp' : JStr}
    (hsg : sg = [] ∨ sg = js! "+" ∨ sg = js! " ")
    (hi : IsNumeral b ip) (hi' : IsNumeral b ip') (hf : ∀ c ∈ fp, IsDigitIn b c) (hf' : ∀ c ∈ fp', IsDigitIn b c)
    (hp : fp.length = fp'.length) (hz : ip'.length < ip.length → ip.head? ≠ some 48)
    (hz' : ip.length < ip'.length → ip'.head? ≠ some 48)
    (hl : (field false zero w sg (ip ++ fraction alt fp)).length =
      (field false zero w sg (ip' ++ fraction alt fp')).length) :
    SortLike (field false zero w sg (ip ++ fraction alt fp)) (field false zero w sg (ip' ++ fraction alt fp'))
      (valueIn b (ip ++ fp)) (valueIn b (ip' ++ fp')) := by
  have hfr := fraction_length alt hp
  have hb1 : 1 ≤ b := by omega
  unfold field at hl ⊢
  simp only [Bool.false_eq_true, if_false] at hl ⊢
  generalize hk : w - (sg.length + (ip ++ fraction alt fp).length) = k at hl ⊢
  generalize hk' : w - (sg.length + (ip' ++ fraction alt fp').length) = k' at hl ⊢
  cases zero with
  | true =>
    simp only [if_true, List.length_append, List.length_replicate] at hl ⊢
    have zeros : ∀ (n : Nat) {s : JStr}, (∀ c ∈ s, IsDigitIn b c) → ∀ c ∈ List.replicate n 48 ++ s, IsDigitIn b c := by
      intro n s hs c hc
      rcases List.mem_append.1 hc with g | g
      · rw [List.eq_of_mem_replicate g]; exact ⟨.inl (by omega), by unfold digitVal; simp; omega⟩
      · exact hs c g
    have := sort_same hb1 (alt := alt) (zeros k hi.2) (zeros k' hi'.2) hf hf' (by simp; omega) hp
    simp only [List.append_assoc] at this
    rw [valueIn_append b (List.replicate k 48), valueIn_append b (List.replicate k' 48), valueIn_replicate_zero, valueIn_replicate_zero,
      Nat.zero_mul, Nat.zero_mul, Nat.zero_add, Nat.zero_add] at this
    unfold SortLike at this ⊢
    rw [List.append_assoc, List.append_assoc, compareTo_append]
    exact this
  | false =>
    simp only [Bool.false_eq_true, if_false, List.length_append, List.length_replicate] at hl ⊢
    -- a number that needs fewer spaces comes later
    have main : ∀ {k k' : Nat} {ip ip' : JStr} (u u' : JStr), IsNumeral b ip → k < k' →
        compareTo (List.replicate k' 32 ++ sg ++ (ip' ++ u')) (List.replicate k 32 ++ sg ++ (ip ++ u)) < 0 := by
      intro k k' ip ip' u u' hi hkk
      obtain ⟨j, rfl⟩ : ∃ j, k' = k + (j + 1) := ⟨k' - k - 1, by omega⟩
      rw [List.replicate_add, List.append_assoc, List.append_assoc, List.append_assoc, compareTo_append,
        List.replicate_succ]
      have hd : ∃ c r, ip = c :: r ∧ 32 < c := by
        cases ip with
        | nil => exact absurd rfl hi.1
        | cons c r => exact ⟨c, r, rfl, by have := (hi.2 c (by simp)).1; omega⟩
      obtain ⟨c, r, rfl, hc⟩ := hd
      rcases hsg with rfl | rfl | rfl
      · exact compareTo_cons_lt hc _ _
      · exact compareTo_cons_lt (by decide) _ _
      · have e : ∀ l : JStr, List.replicate j 32 ++ (js! " " ++ l) = 32 :: (List.replicate j 32 ++ l) := by
          intro l
          have : (js! " " : JStr) = List.replicate 1 32 := rfl
          rw [this, ← List.append_assoc, List.replicate_append_replicate, Nat.add_comm, List.replicate_add]
          rfl
        rw [List.cons_append, e]
        simp only [List.cons_append, compareTo, if_true, List.nil_append]
        exact compareTo_cons_lt hc _ _
    rcases lt_trichotomy k k' with g | g | g
    · have hlt := value_longer hb hi'.2 hi.2 hf' hp.symm (by omega) (hz (by omega))
      exact (sortLike_of_lt (main _ _ hi g) hlt).swap
    · subst g
      have := sort_same hb1 (alt := alt) hi.2 hi'.2 hf hf' (by omega) hp
      unfold SortLike at this ⊢
      rw [compareTo_append]
      exact this
    · have hlt := value_longer hb hi.2 hi'.2 hf hp (by omega) (hz' (by omega))
      exact sortLike_of_lt (main _ _ hi' g) hlt

end FastPrintf
