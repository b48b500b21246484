/-
Printed numbers read back.
-/
import Verif.Spec.ReadBack
import Verif.Proofs.DecimalUnique
import Verif.Proofs.Arithmetic
import Verif.Spec.Arguments

namespace FastPrintf
open Spec

theorem takeWhile_stop {p : Nat → Bool} {s t : JStr} (hs : ∀ c ∈ s, p c = true) (ht : t = [] ∨ ∃ c r, t = c :: r ∧ p c = false) :
    (s ++ t).takeWhile p = s := by
  rw [List.takeWhile_append_of_pos hs]
  rcases ht with rfl | ⟨c, r, rfl, h⟩
  · simp
  · simp [h]

theorem digit_ne {c x : Nat} (h : IsDigitIn 10 c) (hx : x < 48 ∨ 57 < x) : c ≠ x := by
  rintro rfl
  obtain ⟨h1, h2⟩ := h
  unfold digitVal at h2
  split_ifs at h2 <;> omega

/-- Digits, after an optional sign. -/
def IsExponent : JStr → Prop
  | [] => False
  | c :: ds => (c = 45 ∨ c = 43 ∨ IsDigitIn 10 c) ∧ (ds = [] → IsDigitIn 10 c) ∧ ∀ c ∈ ds, IsDigitIn 10 c

instance : (s : JStr) → Decidable (IsExponent s)
  | [] => isFalse id
  | _ :: _ => by unfold IsExponent; infer_instance

theorem IsExponent.chars {s : JStr} (h : IsExponent s) : ∀ c ∈ s, c = 45 ∨ c = 43 ∨ IsDigitIn 10 c := by
  cases s with
  | nil => exact h.elim
  | cons c ds =>
    intro x hx
    rcases List.mem_cons.1 hx with rfl | hx
    · exact h.1
    · exact .inr (.inr (h.2.2 x hx))

/-- Digits, an optional fraction and an optional exponent. -/
structure NumText (s ip fp : JStr) (alt : Bool) (tail : JStr) : Prop where
  eq : s = ip ++ fraction alt fp ++ tail
  int : ∀ c ∈ ip, IsDigitIn 10 c
  frac : ∀ c ∈ fp, IsDigitIn 10 c
  ne : ip ≠ []
  exp : tail = [] ∨ ∃ ex, tail = ch! 'e' :: ex ∧ IsExponent ex

theorem mem_fraction {alt : Bool} {fp : JStr} {c : Nat} (h : c ∈ fraction alt fp) : c = ch! '.' ∨ c ∈ fp := by
  unfold fraction at h
  split_ifs at h
  · simp at h
  · simpa using h

theorem NumText.read {s ip fp tail : JStr} {alt : Bool} (h : NumText s ip fp alt tail) :
    readDecimal s = (valueIn 10 (ip ++ fp) : ℚ) * 10 ^ (readExponent (tail.drop 1) - fp.length) := by
  have h1 : s.takeWhile (· ≠ ch! 'e') = ip ++ fraction alt fp := by
    rw [h.eq]
    refine takeWhile_stop ?_ ?_
    · intro c hc
      rw [decide_eq_true_eq]
      rcases List.mem_append.1 hc with hc | hc
      · exact digit_ne (h.int c hc) (by decide)
      · rcases mem_fraction hc with rfl | hc
        · decide
        · exact digit_ne (h.frac c hc) (by decide)
    · rcases h.exp with ht | ⟨ex, ht, -⟩
      · exact .inl ht
      · exact .inr ⟨_, _, ht, by decide⟩
  have h2 : (ip ++ fraction alt fp).takeWhile (· ≠ ch! '.') = ip := by
    refine takeWhile_stop ?_ ?_
    · intro c hc
      rw [decide_eq_true_eq]
      exact digit_ne (h.int c hc) (by decide)
    · unfold fraction
      split_ifs
      · exact .inl rfl
      · exact .inr ⟨_, _, rfl, by decide⟩
  have h3 : (ip ++ fraction alt fp).drop (ip.length + 1) = fp := by
    rw [List.drop_append, List.drop_eq_nil_of_le (by omega)]
    unfold fraction
    split_ifs with hf
    · simp [hf.1]
    · simp
  have h4 : s.drop ((ip ++ fraction alt fp).length + 1) = tail.drop 1 := by
    rw [h.eq, List.drop_append, List.drop_eq_nil_of_le (by omega)]; simp
  unfold readDecimal
  simp only [h1, h2, h3, h4]

theorem NumText.zeros {s ip fp tail : JStr} {alt : Bool} (h : NumText s ip fp alt tail) (n : Nat) :
    NumText (List.replicate n 48 ++ s) (List.replicate n 48 ++ ip) fp alt tail := by
  refine ⟨by rw [h.eq]; simp, ?_, h.frac, by simp [h.ne], h.exp⟩
  intro c hc
  rcases List.mem_append.1 hc with hc | hc
  · rw [List.eq_of_mem_replicate hc]; decide
  · exact h.int c hc

theorem NumText.no_space {s ip fp tail : JStr} {alt : Bool} (h : NumText s ip fp alt tail) : ∀ c ∈ s, c ≠ 32 := by
  intro c hc
  rw [h.eq] at hc
  rcases List.mem_append.1 hc with hc | hc
  · rcases List.mem_append.1 hc with hc | hc
    · exact digit_ne (h.int c hc) (by decide)
    · rcases mem_fraction hc with rfl | hc
      · decide
      · exact digit_ne (h.frac c hc) (by decide)
  · rcases h.exp with ht | ⟨ex, rfl, he⟩
    · rw [ht] at hc; simp at hc
    · rcases List.mem_cons.1 hc with rfl | hc
      · decide
      · rcases he.chars c hc with rfl | rfl | h
        · decide
        · decide
        · exact digit_ne h (by decide)

theorem NumText.read_zeros {s ip fp tail : JStr} {alt : Bool} (h : NumText s ip fp alt tail) (n : Nat) :
    readDecimal (List.replicate n 48 ++ s) = readDecimal s := by
  rw [h.read, (h.zeros n).read, List.append_assoc, valueIn_append, valueIn_replicate_zero, zero_mul, zero_add]

/-- The sign, zeros and the number, with spaces around. -/
theorem NumText.read_number {s ip fp tail : JStr} {alt : Bool} (h : NumText s ip fp alt tail) (neg : Bool)
    (sg : JStr) (hs : neg = true ∧ sg = js! "-" ∨ neg = false ∧ (sg = js! "+" ∨ sg = [])) (a n b : Nat) :
    readNumber (List.replicate a 32 ++ (sg ++ (List.replicate n 48 ++ (s ++ List.replicate b 32)))) =
      (neg, readDecimal s) := by
  obtain ⟨c, r, hcr⟩ : ∃ c r, List.replicate n 48 ++ s = c :: r := by
    cases hx : List.replicate n 48 ++ s with
    | nil =>
      have := (List.append_eq_nil_iff.1 hx).2
      rw [h.eq] at this
      exact absurd (List.append_eq_nil_iff.1 (List.append_eq_nil_iff.1 this).1).1 h.ne
    | cons c r => exact ⟨c, r, rfl⟩
  have hz := h.zeros n
  have hdig : IsDigitIn 10 c := by
    have h1 := hz.eq
    rw [hcr] at h1
    cases hi : List.replicate n 48 ++ ip with
    | nil => exact absurd hi hz.ne
    | cons c' r' =>
      rw [hi] at h1
      simp only [List.cons_append, List.cons.injEq] at h1
      rw [h1.1]
      exact hz.int c' (by rw [hi]; simp)
  have hsp : ∀ x ∈ c :: r, x ≠ 32 := by rw [← hcr]; exact hz.no_space
  have key : ∀ sg' : JStr, (∀ x ∈ sg', x ≠ 32) →
      ((List.replicate a 32 ++ (sg' ++ (List.replicate n 48 ++ (s ++ List.replicate b 32)))).dropWhile
        (· = 32)).takeWhile (· ≠ 32) = sg' ++ c :: r := by
    intro sg' h1
    have e : List.replicate n 48 ++ (s ++ List.replicate b 32) = (c :: r) ++ List.replicate b 32 := by
      rw [← List.append_assoc, hcr]
    rw [e, ← List.append_assoc sg']
    rw [List.dropWhile_append_of_pos (by intro x hx; simpa using List.eq_of_mem_replicate hx)]
    have hall : ∀ x ∈ sg' ++ c :: r, x ≠ 32 := by
      intro x hx
      rcases List.mem_append.1 hx with hx | hx
      · exact h1 x hx
      · exact hsp x hx
    have : ((sg' ++ c :: r) ++ List.replicate b 32).dropWhile (· = 32) = (sg' ++ c :: r) ++ List.replicate b 32 := by
      cases hy : sg' ++ c :: r with
      | nil => simp at hy
      | cons y ys =>
        have := hall y (by rw [hy]; simp)
        simp [this]
    rw [this]
    refine takeWhile_stop (fun x hx => by simpa using hall x hx) ?_
    cases b with
    | zero => exact .inl rfl
    | succ b => exact .inr ⟨32, _, List.replicate_succ, by decide⟩
  have hread : readDecimal (c :: r) = readDecimal s := by rw [← hcr]; exact h.read_zeros n
  unfold readNumber
  rcases hs with ⟨rfl, rfl⟩ | ⟨rfl, rfl | rfl⟩
  · rw [key _ (by decide)]
    simp [hread]
  · rw [key _ (by decide)]
    simp [hread]
  · rw [key _ (by simp)]
    have e1 := digit_ne hdig (x := 45) (by decide)
    have e2 := digit_ne hdig (x := 43) (by decide)
    simp [hread, e1, e2]

theorem NumText.read_field {s ip fp tail : JStr} {alt : Bool} (h : NumText s ip fp alt tail) (fl : Flags)
    (left zero neg : Bool) (w : Nat) :
    readNumber (Spec.field left zero w (signText fl neg) s) = (neg, readDecimal s) := by
  have main : ∀ sg : JStr, (neg = true ∧ sg = js! "-" ∨ neg = false ∧ (sg = js! "+" ∨ sg = [] ∨ sg = js! " ")) →
      readNumber (Spec.field left zero w sg s) = (neg, readDecimal s) := by
    intro sg hs
    unfold Spec.field
    generalize w - (sg.length + s.length) = k
    by_cases hsp : sg = js! " "
    · subst hsp
      have hn : neg = false := by
        rcases hs with ⟨-, h⟩ | ⟨h, -⟩
        · exact absurd h (by decide)
        · exact h
      subst hn
      by_cases hl : left = true
      · have := h.read_number false [] (.inr ⟨rfl, .inr rfl⟩) 1 0 k
        simpa [hl] using this
      · by_cases hz : zero = true
        · have := h.read_number false [] (.inr ⟨rfl, .inr rfl⟩) 1 k 0
          simpa [hl, hz] using this
        · have := h.read_number false [] (.inr ⟨rfl, .inr rfl⟩) (k + 1) 0 0
          simpa [hl, hz, List.replicate_succ'] using this
    · have hs' : neg = true ∧ sg = js! "-" ∨ neg = false ∧ (sg = js! "+" ∨ sg = []) := by
        rcases hs with h | ⟨h, h1 | h1 | h1⟩
        · exact .inl h
        · exact .inr ⟨h, .inl h1⟩
        · exact .inr ⟨h, .inr h1⟩
        · exact absurd h1 hsp
      by_cases hl : left = true
      · have := h.read_number neg sg hs' 0 0 k
        simpa [hl] using this
      · by_cases hz : zero = true
        · have := h.read_number neg sg hs' 0 k 0
          simpa [hl, hz] using this
        · have := h.read_number neg sg hs' k 0 0
          simpa [hl, hz] using this
  apply main
  unfold signText
  cases neg
  · cases fl.plus <;> cases fl.leadingSpace <;> simp
  · simp

/-! ### The shapes of printed numbers -/

theorem fixedText_written {m p : Nat} {alt : Bool} {s : JStr} (h : FixedText m p alt s) {tail : JStr}
    (ht : tail = [] ∨ ∃ ex, tail = ch! 'e' :: ex ∧ IsExponent ex) :
    ∃ ip fp, NumText (s ++ tail) ip fp alt tail ∧ fp.length = p ∧ valueIn 10 (ip ++ fp) = m := by
  obtain ⟨ip, fp, h1, h2, h3, h4, h5, h6⟩ := h
  exact ⟨ip, fp, ⟨by rw [h1], h2.2, h4, h2.1, ht⟩, h5, h6⟩

theorem minimalText_written {v : ℚ} {s : JStr} (h : MinimalText v s) {tail : JStr}
    (ht : tail = [] ∨ ∃ ex, tail = ch! 'e' :: ex ∧ IsExponent ex) :
    ∃ ip fp, NumText (s ++ tail) ip fp false tail ∧ (valueIn 10 (ip ++ fp) : ℚ) = v * 10 ^ fp.length := by
  obtain ⟨ip, fp, h1, h2, h3, h4, h5, h6⟩ := h
  exact ⟨ip, fp, ⟨by rw [h1], h2.2, h4, h2.1, ht⟩, h6⟩

theorem exponent_read {x : Int} {s : JStr} (h : ExponentText x s) :
    readExponent s = x ∧ IsExponent s := by
  obtain ⟨ds, ⟨h1, h2, h3⟩, rfl⟩ := h
  have hv : valueIn 10 (List.replicate (2 - ds.length) 48 ++ ds) = x.natAbs := by
    rw [valueIn_append, valueIn_replicate_zero, zero_mul, zero_add, h3]
  constructor
  · by_cases hx : x < 0
    · rw [if_pos hx]
      show -((valueIn 10 (List.replicate (2 - ds.length) 48 ++ ds) : Nat) : Int) = x
      rw [hv]; omega
    · rw [if_neg hx]
      show ((valueIn 10 (List.replicate (2 - ds.length) 48 ++ ds) : Nat) : Int) = x
      rw [hv]; omega
  · refine ⟨by split_ifs <;> simp, fun hn => absurd (List.append_eq_nil_iff.1 hn).2 h1.1, ?_⟩
    intro c hc
    rcases List.mem_append.1 hc with hc | hc
    · rw [List.eq_of_mem_replicate hc]; decide
    · exact h1.2 c hc

/-! ### Java's grammar -/

theorem trimmed_padded {t : JStr} (h : ∀ c ∈ t, 32 < c) (a b : Nat) :
    trimmed (List.replicate a 32 ++ (t ++ List.replicate b 32)) = t := by
  have pad : ∀ n (u : JStr), (List.replicate n 32 ++ u).dropWhile (· ≤ 32) = u.dropWhile (· ≤ 32) := by
    intro n u
    exact List.dropWhile_append_of_pos (by intro x hx; rw [List.eq_of_mem_replicate hx]; rfl)
  have stop : ∀ u : JStr, (∀ c ∈ u, 32 < c) → u.dropWhile (· ≤ 32) = u := by
    intro u hu
    cases u with
    | nil => rfl
    | cons c cs =>
      have := hu c (by simp)
      simp [Nat.not_le.2 this]
  unfold trimmed
  rw [pad]
  cases t with
  | nil =>
    have := pad b []
    simp only [List.append_nil] at this
    simp [this]
  | cons c cs =>
    have h0 : (c :: cs ++ List.replicate b 32).dropWhile (· ≤ 32) = c :: cs ++ List.replicate b 32 := by
      have := h c (by simp)
      simp [Nat.not_le.2 this]
    rw [h0, List.reverse_append, List.reverse_replicate, pad, stop _ (by
      intro x hx; exact h x (List.mem_reverse.1 hx)), List.reverse_reverse]

/-- Characters that a number consists of, in lower case. -/
def Inner (c : JChar) : Prop := 32 < c ∧ ¬ (65 ≤ c ∧ c ≤ 90)

theorem map_lower {s : JStr} (h : ∀ c ∈ s, ¬ (65 ≤ c ∧ c ≤ 90)) : s.map javaLower = s := by
  have : s.map javaLower = s.map id := List.map_congr_left (by
    intro c hc
    unfold javaLower
    rw [if_neg (h c hc), id])
  rw [this, List.map_id]

/-- A sign and a number, with spaces around. -/
theorem javaNumber_padded {r : JStr} {v : ℚ} (hr : javaMagnitude r = some v) (hch : ∀ c ∈ r, Inner c)
    (hh : ∃ c t, r = c :: t ∧ c ≠ 45 ∧ c ≠ 43) (neg : Bool) (sg : JStr)
    (hs : neg = true ∧ sg = js! "-" ∨ neg = false ∧ (sg = js! "+" ∨ sg = [])) (a b : Nat) :
    javaNumber (List.replicate a 32 ++ (sg ++ (r ++ List.replicate b 32))) = some (neg, v) := by
  have hsg : ∀ c ∈ sg, Inner c := by
    unfold Inner
    rcases hs with ⟨-, rfl⟩ | ⟨-, rfl | rfl⟩ <;> decide
  have hall : ∀ c ∈ sg ++ r, Inner c := by
    intro c hc
    rcases List.mem_append.1 hc with hc | hc
    · exact hsg c hc
    · exact hch c hc
  unfold javaNumber
  rw [← List.append_assoc sg, trimmed_padded fun c hc => (hall c hc).1, map_lower fun c hc => (hall c hc).2]
  obtain ⟨c, t, rfl, h1, h2⟩ := hh
  rcases hs with ⟨rfl, rfl⟩ | ⟨rfl, rfl | rfl⟩
  · simp [hr]
  · simp [hr]
  · simp [hr, h1, h2]

/-- A number in a field. -/
theorem javaNumber_field {pre body : JStr} {v : ℚ}
    (hr : ∀ n, javaMagnitude (pre ++ (List.replicate n 48 ++ body)) = some v)
    (hpre : ∀ c ∈ pre, Inner c) (hbody : ∀ c ∈ body, Inner c)
    (hh : ∃ c t, pre ++ body = c :: t ∧ c ≠ 45 ∧ c ≠ 43) (fl : Flags) (left zero neg : Bool) (w : Nat) :
    javaNumber (Spec.field left zero w (signText fl neg ++ pre) body) = some (neg, v) := by
  have num : ∀ sg : JStr, (neg = true ∧ sg = js! "-" ∨ neg = false ∧ (sg = js! "+" ∨ sg = [])) → ∀ a n b : Nat,
      javaNumber (List.replicate a 32 ++ (sg ++ ((pre ++ (List.replicate n 48 ++ body)) ++ List.replicate b 32))) =
        some (neg, v) := by
    intro sg hs a n b
    refine javaNumber_padded (hr n) ?_ ?_ neg sg hs a b
    · intro c hc
      rcases List.mem_append.1 hc with hc | hc
      · exact hpre c hc
      · rcases List.mem_append.1 hc with hc | hc
        · rw [List.eq_of_mem_replicate hc]; unfold Inner; decide
        · exact hbody c hc
    · obtain ⟨c, t, h1, h2, h3⟩ := hh
      cases pre with
      | cons x xs => exact ⟨x, _, rfl, by simp only [List.cons_append, List.cons.injEq] at h1; rw [h1.1]; exact ⟨h2, h3⟩⟩
      | nil =>
        cases n with
        | zero => exact ⟨c, t, by simpa using h1, h2, h3⟩
        | succ n => exact ⟨48, List.replicate n 48 ++ body, by simp [List.replicate_succ], by decide, by decide⟩
  have main : ∀ sg : JStr, (neg = true ∧ sg = js! "-" ∨ neg = false ∧ (sg = js! "+" ∨ sg = [] ∨ sg = js! " ")) →
      javaNumber (Spec.field left zero w (sg ++ pre) body) = some (neg, v) := by
    intro sg hs
    unfold Spec.field
    generalize w - ((sg ++ pre).length + body.length) = k
    by_cases hsp : sg = js! " "
    · subst hsp
      have hn : neg = false := by
        rcases hs with ⟨-, h⟩ | ⟨h, -⟩
        · exact absurd h (by decide)
        · exact h
      subst hn
      by_cases hl : left = true
      · have := num [] (.inr ⟨rfl, .inr rfl⟩) 1 0 k
        simpa [hl] using this
      · by_cases hz : zero = true
        · have := num [] (.inr ⟨rfl, .inr rfl⟩) 1 k 0
          simpa [hl, hz] using this
        · have := num [] (.inr ⟨rfl, .inr rfl⟩) (k + 1) 0 0
          simpa [hl, hz, List.replicate_succ'] using this
    · have hs' : neg = true ∧ sg = js! "-" ∨ neg = false ∧ (sg = js! "+" ∨ sg = []) := by
        rcases hs with h | ⟨h, h1 | h1 | h1⟩
        · exact .inl h
        · exact .inr ⟨h, .inl h1⟩
        · exact .inr ⟨h, .inr h1⟩
        · exact absurd h1 hsp
      by_cases hl : left = true
      · have := num sg hs' 0 0 k
        simpa [hl] using this
      · by_cases hz : zero = true
        · have := num sg hs' 0 k 0
          simpa [hl, hz] using this
        · have := num sg hs' k 0 0
          simpa [hl, hz] using this
  apply main
  unfold signText
  cases neg
  · cases fl.plus <;> cases fl.leadingSpace <;> simp
  · simp

theorem exponentValue_read {s : JStr} (h : IsExponent s) : exponentValue s = some (readExponent s) := by
  cases s with
  | nil => exact h.elim
  | cons c ds =>
    obtain ⟨h1, h2, h3⟩ := h
    have ne : (c = 45 ∨ c = 43) → ds ≠ [] := by
      rintro (rfl | rfl) hd
      · exact absurd (h2 hd) (by decide)
      · exact absurd (h2 hd) (by decide)
    unfold exponentValue readExponent
    dsimp only
    rcases h1 with rfl | rfl | h1
    · rw [if_pos rfl, if_pos rfl, if_pos ⟨ne (.inl rfl), h3⟩]
      rfl
    · simp [ne (.inr rfl)]
      exact h3
    · have hall : ∀ x ∈ c :: ds, IsDigitIn 10 x := by
        intro x hx
        rcases List.mem_cons.1 hx with rfl | hx
        · exact h1
        · exact h3 x hx
      rw [if_neg (digit_ne h1 (by decide)), if_neg (digit_ne h1 (by decide)), if_neg (digit_ne h1 (by decide)),
        if_neg (digit_ne h1 (by decide)), if_pos ⟨by simp, hall⟩]
      rfl

/-- Splitting a number after its digits. -/
theorem splitNumber_eq {b : Nat} {ip fp tail : JStr} {alt : Bool} (h1 : ∀ c ∈ ip, IsDigitIn b c)
    (h2 : ∀ c ∈ fp, IsDigitIn b c) (ht : tail = [] ∨ ∃ c r, tail = c :: r ∧ ¬ IsDigitIn b c ∧ c ≠ 46) :
    splitNumber b (ip ++ fraction alt fp ++ tail) = (ip, fp, tail) := by
  have dot : ¬ IsDigitIn b 46 := by unfold IsDigitIn; omega
  have tw : ∀ u : JStr, (∀ c ∈ u, IsDigitIn b c) → (u ++ tail).takeWhile (IsDigitIn b ·) = u := by
    intro u hu
    refine takeWhile_stop (fun c hc => by simpa using hu c hc) ?_
    rcases ht with h | ⟨c, r, h, h', -⟩
    · exact .inl h
    · exact .inr ⟨c, r, h, by simpa using h'⟩
  unfold splitNumber fraction
  by_cases hf : fp = [] ∧ alt = false
  · rw [if_pos hf, List.append_nil, tw ip h1, hf.1]
    simp only [List.drop_left]
    rcases ht with h | ⟨c, r, h, h', h''⟩
    · rw [h]
    · rw [h]; simp [h'']
  · rw [if_neg hf]
    have : (ip ++ ch! '.' :: fp ++ tail).takeWhile (IsDigitIn b ·) = ip := by
      rw [List.append_assoc]
      refine takeWhile_stop (fun c hc => by simpa using h1 c hc) (.inr ⟨46, fp ++ tail, rfl, by simpa using dot⟩)
    rw [this]
    simp only [List.append_assoc, List.drop_left, List.cons_append, if_true, tw fp h2]

theorem NumText.java {s ip fp tail : JStr} {alt : Bool} (h : NumText s ip fp alt tail) :
    javaMagnitude s = some (readDecimal s) := by
  have hx : ∀ h, s ≠ 48 :: 120 :: h := by
    rintro r rfl
    have h1 : (120 : Nat) ∈ 48 :: 120 :: r := by simp
    rw [h.eq] at h1
    rcases List.mem_append.1 h1 with hc | hc
    · rcases List.mem_append.1 hc with hc | hc
      · exact absurd rfl (digit_ne (h.int _ hc) (by decide))
      · rcases mem_fraction hc with hc | hc
        · exact absurd hc (by decide)
        · exact absurd rfl (digit_ne (h.frac _ hc) (by decide))
    · rcases h.exp with ht | ⟨ex, ht, he⟩
      · rw [ht] at hc; simp at hc
      · rw [ht] at hc
        rcases List.mem_cons.1 hc with hc | hc
        · exact absurd hc (by decide)
        · rcases he.chars _ hc with h | h | h
          · exact absurd h (by decide)
          · exact absurd h (by decide)
          · exact absurd rfl (digit_ne h (by decide))
  have e1 : javaMagnitude s = javaDecimal s := by
    unfold javaMagnitude
    split
    · rename_i r; exact absurd rfl (hx r)
    · rfl
  have hsp : splitNumber 10 s = (ip, fp, tail) := by
    rw [h.eq]
    refine splitNumber_eq h.int h.frac ?_
    rcases h.exp with ht | ⟨ex, ht, -⟩
    · exact .inl ht
    · exact .inr ⟨_, _, ht, by decide, by decide⟩
  rw [e1, h.read]
  unfold javaDecimal
  rw [hsp]
  simp only
  rw [if_neg (by simp [h.ne])]
  rcases h.exp with ht | ⟨ex, ht, he⟩
  · rw [ht]
    simp [readExponent]
  · rw [ht]
    simp [exponentValue_read he]

theorem digit_inner {b c : Nat} (h : IsDigitIn b c) : Inner c := by
  unfold IsDigitIn at h
  unfold Inner
  omega

theorem NumText.inner {s ip fp tail : JStr} {alt : Bool} (h : NumText s ip fp alt tail) : ∀ c ∈ s, Inner c := by
  intro c hc
  rw [h.eq] at hc
  rcases List.mem_append.1 hc with hc | hc
  · rcases List.mem_append.1 hc with hc | hc
    · exact digit_inner (h.int c hc)
    · rcases mem_fraction hc with rfl | hc
      · unfold Inner; decide
      · exact digit_inner (h.frac c hc)
  · rcases h.exp with ht | ⟨ex, rfl, he⟩
    · rw [ht] at hc; simp at hc
    · rcases List.mem_cons.1 hc with rfl | hc
      · unfold Inner; decide
      · rcases he.chars c hc with rfl | rfl | h
        · unfold Inner; decide
        · unfold Inner; decide
        · exact digit_inner h

/-- Java reads a printed number as we do. -/
theorem NumText.java_field {s ip fp tail : JStr} {alt : Bool} (h : NumText s ip fp alt tail) (fl : Flags)
    (left zero neg : Bool) (w : Nat) :
    javaNumber (Spec.field left zero w (signText fl neg) s) = some (neg, readDecimal s) := by
  have := javaNumber_field (pre := []) (body := s) (v := readDecimal s) ?_ (by simp) h.inner ?_ fl left zero neg w
  · simpa using this
  · intro n
    rw [List.nil_append, (h.zeros n).java, h.read_zeros]
  · cases hi : ip with
    | nil => exact absurd hi h.ne
    | cons c cs =>
      have hc := h.int c (by rw [hi]; simp)
      refine ⟨c, cs ++ fraction alt fp ++ tail, by rw [h.eq, hi]; simp, digit_ne hc (by decide), digit_ne hc (by decide)⟩

end FastPrintf
