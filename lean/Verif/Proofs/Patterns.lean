/-
Lemmas for C101: date patterns.
-/
import Verif.Spec.Patterns
import Verif.Proofs.Dates
import Verif.Spec.Grammar

namespace FastPrintf.Dates
open Spec

/-! ### What the parser of the library makes of such patterns -/

/-- The quotes are balanced, and the braces are inside quotes, if we begin inside (`q`) or outside quotes. -/
def Balanced (q : Bool) (s : JStr) : Prop :=
  (s.count 39 + if q then 1 else 0) % 2 = 0 ∧
    ∀ pre post, s = pre ++ 125 :: post → (pre.count 39 + if q then 1 else 0) % 2 = 1

theorem balanced_nil : Balanced false [] :=
  ⟨rfl, fun pre post h => by have := congrArg List.length h; simp at this⟩

theorem balanced_cons {q : Bool} {c : Nat} {r : JStr} (hc : c ≠ 39) (hq : q = true ∨ c ≠ 125) (h : Balanced q r) :
    Balanced q (c :: r) := by
  refine ⟨by rw [List.count_cons_of_ne hc]; exact h.1, fun pre post he => ?_⟩
  cases pre with
  | nil =>
    rw [List.nil_append] at he
    have := List.head_eq_of_cons_eq he
    rcases hq with hq | hq
    · subst hq; rfl
    · exact absurd this hq
  | cons a pre =>
    rw [List.cons_append] at he
    obtain ⟨e, he'⟩ := List.cons.inj he
    subst e
    rw [List.count_cons_of_ne hc]
    exact h.2 pre post he'

theorem balanced_quote {q : Bool} {r : JStr} (h : Balanced (!q) r) : Balanced q (39 :: r) := by
  obtain ⟨h1, h2⟩ := h
  refine ⟨?_, fun pre post he => ?_⟩
  · rw [List.count_cons_self]
    cases q <;> simp at h1 ⊢ <;> omega
  · cases pre with
    | nil => rw [List.nil_append] at he; cases he
    | cons a pre =>
      rw [List.cons_append] at he
      obtain ⟨e, he'⟩ := List.cons.inj he
      subst e
      have := h2 pre post he'
      rw [List.count_cons_self]
      cases q <;> simp at this ⊢ <;> omega

/-- The quotes of a pattern with a reading are balanced, and its braces are inside quotes. -/
theorem read_balanced (q : Bool) (s : JStr) {ps : List PatternPart} (h : readPattern q s = some ps) : Balanced q s := by
  have some_of : ∀ {α β : Type} {f : α → β} {o : Option α} {y : β}, o.map f = some y → ∃ x, o = some x := by
    intro α β f o y h
    cases o with
    | none => cases h
    | some x => exact ⟨x, rfl⟩
  have plain : ∀ {c : Nat}, ¬ c ∈ js! "[]{}#" → c ≠ 125 := by
    intro c h e; subst e; exact h (by decide)
  have letter : ∀ {c : Nat}, IsLetter c → c ≠ 125 := by
    intro c h; unfold IsLetter at h; omega
  fun_induction readPattern q s generalizing ps with
  | case1 => cases h
  | case2 q hq => rw [Bool.not_eq_true] at hq; subst hq; exact balanced_nil
  | case3 => exact balanced_quote balanced_nil
  | case4 => cases h
  | case5 => cases h
  | case6 q c hc hq hl => rw [Bool.not_eq_true] at hq; subst hq; exact balanced_cons hc (.inr (letter hl)) balanced_nil
  | case7 => cases h
  | case8 q c hc hq hl hr =>
    rw [Bool.not_eq_true] at hq; subst hq; exact balanced_cons hc (.inr (plain hr)) balanced_nil
  | case9 r ih => obtain ⟨x, hx⟩ := some_of h; exact balanced_quote (balanced_quote (ih hx))
  | case10 => cases h
  | case11 q r hq hr ih =>
    obtain ⟨x, hx⟩ := some_of h; rw [Bool.not_eq_true] at hq; subst hq; exact balanced_quote (balanced_quote (ih hx))
  | case12 q c r hc ih => exact balanced_quote (ih h)
  | case13 c c' r hc ih => obtain ⟨x, hx⟩ := some_of h; exact balanced_cons hc (.inl rfl) (ih hx)
  | case14 q c c' r hc hq hl ih =>
    obtain ⟨x, hx⟩ := some_of h; rw [Bool.not_eq_true] at hq; subst hq; exact balanced_cons hc (.inr (letter hl)) (ih hx)
  | case15 => cases h
  | case16 q c c' r hc hq hl hr ih =>
    obtain ⟨x, hx⟩ := some_of h; rw [Bool.not_eq_true] at hq; subst hq; exact balanced_cons hc (.inr (plain hr)) (ih hx)

/-! ### Order -/

/-- The lists compare like words. -/
def LexLt : List Nat → List Nat → Prop
  | a :: as, b :: bs => a < b ∨ a = b ∧ LexLt as bs
  | _, _ => False

theorem texts_compare {x y : Point} {w v u : JChar × Nat → Nat} (ps : List PatternPart)
    (hx : ∀ f ∈ fieldsOf ps, (PatternPart.letters f.1 f.2).text x = some (fixedDigits (w f) (v f)))
    (hy : ∀ f ∈ fieldsOf ps, (PatternPart.letters f.1 f.2).text y = some (fixedDigits (w f) (u f)))
    (hu : ∀ f ∈ fieldsOf ps, u f < 10 ^ w f) :
    ∃ s t, patternText x ps = some s ∧ patternText y ps = some t ∧ s.length = t.length ∧
      (LexLt ((fieldsOf ps).map v) ((fieldsOf ps).map u) → ∀ r r', compareTo (s ++ r) (t ++ r') < 0) ∧
      ((fieldsOf ps).map v = (fieldsOf ps).map u → s = t) := by
  induction ps with
  | nil => exact ⟨[], [], rfl, rfl, rfl, fun h => absurd h id, fun _ => rfl⟩
  | cons p ps ih =>
    cases p with
    | literal c =>
      obtain ⟨s, t, h1, h2, h3, h4, h5⟩ := ih hx hy hu
      refine ⟨c :: s, c :: t, ?_, ?_, ?_, fun h r r' => ?_, fun h => ?_⟩
      · rw [patternText, h1]; rfl
      · rw [patternText, h2]; rfl
      · rw [List.length_cons, List.length_cons, h3]
      · rw [List.cons_append, List.cons_append, compareTo_same]; exact h4 h r r'
      · rw [h5 h]
    | letters c k =>
      have hm : (c, k) ∈ fieldsOf (PatternPart.letters c k :: ps) := by rw [fieldsOf]; exact List.mem_cons_self
      have ht : ∀ f ∈ fieldsOf ps, f ∈ fieldsOf (PatternPart.letters c k :: ps) := by
        intro f hf; rw [fieldsOf]; exact List.mem_cons_of_mem _ hf
      obtain ⟨s, t, h1, h2, h3, h4, h5⟩ :=
        ih (fun f hf => hx f (ht f hf)) (fun f hf => hy f (ht f hf)) (fun f hf => hu f (ht f hf))
      have a1 := hx _ hm
      have a2 := hy _ hm
      have a3 := hu _ hm
      refine ⟨fixedDigits (w (c, k)) (v (c, k)) ++ s, fixedDigits (w (c, k)) (u (c, k)) ++ t, ?_, ?_, ?_,
        fun h r r' => ?_, fun h => ?_⟩
      · rw [patternText, a1, h1]; rfl
      · rw [patternText, a2, h2]; rfl
      · rw [List.length_append, List.length_append, fixed_length, fixed_length, h3]
      · rw [fieldsOf, List.map_cons, List.map_cons] at h
        rw [List.append_assoc, List.append_assoc]
        rcases h with h | ⟨h, h'⟩
        · exact fixed_compare _ a3 h _ _
        · rw [h, compareTo_append]; exact h4 h' r r'
      · rw [fieldsOf, List.map_cons, List.map_cons] at h
        obtain ⟨e1, e2⟩ := List.cons.inj h
        rw [e1, h5 e2]

theorem fixed_take (n k N : Nat) : (fixedDigits (n + k) N).take n = fixedDigits n (N / 10 ^ k) := by
  induction k generalizing N with
  | zero => rw [Nat.add_zero, Nat.pow_zero, Nat.div_one, List.take_of_length_le (by rw [fixed_length])]
  | succ k ih =>
    rw [← Nat.add_assoc, fixedDigits, List.take_append_of_le_length (by rw [fixed_length]; omega), ih, Nat.div_div_eq_div_mul,
      Nat.pow_succ, Nat.mul_comm 10]

theorem number_two {n : Nat} (h : n < 100) : numberText 2 n = fixedDigits 2 n := by
  unfold numberText
  have : Nat.log 10 n < 2 := Nat.log_lt_of_lt_pow' (by omega) (by omega)
  rw [show max 2 (Nat.log 10 n + 1) = 2 by omega]

theorem monthLength_le (y : Int) (m : Nat) : monthLength y m ≤ 31 := by
  unfold monthLength; split
  · split <;> omega
  · split <;> omega

/-- The number of digits of a field of `fromYearTo`. -/
def fieldWidth (f : JChar × Nat) : Nat := if f.1 = ch! 'y' then 4 else f.2

/-- Its number. -/
def fieldValue (t : DayTime) (f : JChar × Nat) : Nat :=
  if f.1 = ch! 'y' then t.date.year.natAbs else if f.1 = ch! 'M' then t.date.month else if f.1 = ch! 'd' then t.date.day
  else if f.1 = ch! 'H' then t.hour else if f.1 = ch! 'm' then t.minute else if f.1 = ch! 's' then t.second
  else t.nano / 10 ^ (9 - f.2)

theorem fraction_lt {t : DayTime} (ht : t.Exists) {n : Nat} (hn : n ≤ 9) : t.nano / 10 ^ (9 - n) < 10 ^ n := by
  rw [Nat.div_lt_iff_lt_mul (Nat.pow_pos (by omega)), ← Nat.pow_add, show n + (9 - n) = 9 by omega]
  exact ht.2.2.2.2

theorem field_text {n : Nat} (hn : n ≤ 9) {t : DayTime} (ht : t.Exists) (y : FourDigitYear t.date) :
    ∀ f ∈ fromYearTo n, (PatternPart.letters f.1 f.2).text (.localDateTime t) =
      some (fixedDigits (fieldWidth f) (fieldValue t f)) ∧ fieldValue t f < 10 ^ fieldWidth f := by
  obtain ⟨⟨⟨h1, h2⟩, h3, h4⟩, h5, h6, h7, h8⟩ := id ht
  have := monthLength_le t.date.year t.date.month
  obtain ⟨y1, y2⟩ := y
  intro f hf
  rw [fromYearTo, List.mem_append] at hf
  rcases hf with hf | hf
  · simp only [List.mem_cons, List.not_mem_nil, or_false] at hf
    rcases hf with rfl | rfl | rfl | rfl | rfl | rfl
    · refine ⟨?_, ?_⟩
      · simp only [PatternPart.text, Point.date?, fieldWidth, fieldValue, Option.map_some, if_pos]
        rw [if_neg (by omega), eraYear, if_pos y1, year_four ⟨by omega, y2⟩]
      · simp only [fieldWidth, fieldValue, if_pos]; omega
    all_goals
      refine ⟨?_, ?_⟩
      · simp only [PatternPart.text, Point.date?, Point.time?, fieldWidth, fieldValue, Option.map_some]
        norm_num
        exact number_two (by omega)
      · simp only [fieldWidth, fieldValue]; norm_num; omega
  · by_cases h0 : n = 0
    · rw [if_pos h0] at hf; cases hf
    · rw [if_neg h0, List.mem_singleton] at hf
      subst hf
      refine ⟨?_, ?_⟩
      · simp only [PatternPart.text, Point.nano?, fieldWidth, fieldValue, Option.map_some]
        norm_num
        have := fixed_take n (9 - n) t.nano
        rw [show n + (9 - n) = 9 by omega] at this
        exact this
      · simp only [fieldWidth, fieldValue]; norm_num; exact fraction_lt ht hn

theorem lex_append {a b : List Nat} (h : LexLt a b) (c d : List Nat) : LexLt (a ++ c) (b ++ d) := by
  induction a generalizing b with
  | nil => exact absurd h id
  | cons x a ih =>
    cases b with
    | nil => exact absurd h id
    | cons y b =>
      rcases h with h | ⟨h, h'⟩
      · exact .inl h
      · exact .inr ⟨h, ih h'⟩

theorem lex_same (a : List Nat) {c d : List Nat} (h : LexLt c d) : LexLt (a ++ c) (a ++ d) := by
  induction a with
  | nil => exact h
  | cons x a ih => exact .inr ⟨rfl, ih⟩

/-- The six fields down to the second. -/
def sixFields (t : DayTime) : List Nat :=
  [t.date.year.natAbs, t.date.month, t.date.day, t.hour, t.minute, t.second]

theorem values_eq (t : DayTime) (n : Nat) : (fromYearTo n).map (fieldValue t) =
    sixFields t ++ if n = 0 then [] else [t.nano / 10 ^ (9 - n)] := by
  rw [fromYearTo, List.map_append]
  congr 1
  split
  · rfl
  · rfl

theorem six_lt {t u : DayTime} (ht : t.Exists) (hu : u.Exists) (yt : FourDigitYear t.date) (yu : FourDigitYear u.date)
    (h : t.seconds < u.seconds) : LexLt (sixFields t) (sixFields u) := by
  have before : ¬ Before u.date t.date := by
    intro hb
    have := number_lt hu.1 ht.1 hb
    obtain ⟨_, _, _, _, _⟩ := ht
    obtain ⟨_, _, _, _, _⟩ := hu
    unfold DayTime.seconds at h
    omega
  obtain ⟨⟨y, m, n⟩, a, b, c, f⟩ := t
  obtain ⟨⟨y', m', n'⟩, a', b', c', f'⟩ := u
  obtain ⟨_, h5, h6, h7, h8⟩ := ht
  obtain ⟨_, k5, k6, k7, k8⟩ := hu
  unfold Before at before
  unfold FourDigitYear at yt yu
  simp only [sixFields, LexLt] at *
  unfold DayTime.seconds at h
  simp only at h
  by_cases c1 : y = y' ∧ m = m' ∧ n = n'
  · obtain ⟨rfl, rfl, rfl⟩ := c1
    omega
  · omega

theorem six_eq {t u : DayTime} (ht : t.Exists) (hu : u.Exists) (h : t.seconds = u.seconds) :
    sixFields t = sixFields u := by
  have := time_inj (t := { t with nano := 0 }) (u := { u with nano := 0 }) ⟨ht.1, ht.2.1, ht.2.2.1, ht.2.2.2.1, by simp⟩
    ⟨hu.1, hu.2.1, hu.2.2.1, hu.2.2.2.1, by simp⟩ h rfl
  have e := congrArg sixFields this
  exact e

theorem units_split {a b N p q : Int} (hp : 0 ≤ p ∧ p < N) (hq : 0 ≤ q ∧ q < N) :
    (a * N + p < b * N + q → a < b ∨ a = b ∧ p < q) ∧ (a * N + p = b * N + q → a = b ∧ p = q) := by
  rcases Int.lt_trichotomy a b with h | h | h
  · have : a * N + N ≤ b * N := by nlinarith
    exact ⟨fun _ => .inl h, fun _ => by omega⟩
  · subst h; exact ⟨fun _ => .inr ⟨rfl, by omega⟩, fun _ => ⟨rfl, by omega⟩⟩
  · have : b * N + N ≤ a * N := by nlinarith
    exact ⟨fun _ => by omega, fun _ => by omega⟩

theorem units_lt {t u : DayTime} (ht : t.Exists) (hu : u.Exists) (yt : FourDigitYear t.date) (yu : FourDigitYear u.date)
    {n : Nat} (hn : n ≤ 9) (h : t.units n < u.units n) :
    LexLt ((fromYearTo n).map (fieldValue t)) ((fromYearTo n).map (fieldValue u)) := by
  have ft := fraction_lt ht hn
  have fu := fraction_lt hu hn
  rw [values_eq, values_eq]
  rcases (units_split (N := 10 ^ n) ⟨Int.natCast_nonneg _, by exact_mod_cast ft⟩
    ⟨Int.natCast_nonneg _, by exact_mod_cast fu⟩).1 h with h | ⟨h, h'⟩
  · exact lex_append (six_lt ht hu yt yu h) _ _
  · rw [six_eq ht hu h]
    refine lex_same _ ?_
    by_cases h0 : n = 0
    · subst h0; simp at ft fu h'; omega
    · rw [if_neg h0, if_neg h0]; exact .inl (by exact_mod_cast h')

theorem units_eq {t u : DayTime} (ht : t.Exists) (hu : u.Exists) {n : Nat} (hn : n ≤ 9) (h : t.units n = u.units n) :
    (fromYearTo n).map (fieldValue t) = (fromYearTo n).map (fieldValue u) := by
  have ft := fraction_lt ht hn
  have fu := fraction_lt hu hn
  obtain ⟨h1, h2⟩ := (units_split (N := 10 ^ n) ⟨Int.natCast_nonneg _, by exact_mod_cast ft⟩
    ⟨Int.natCast_nonneg _, by exact_mod_cast fu⟩).2 h
  rw [values_eq, values_eq, six_eq ht hu h1, Int.natCast_inj.1 h2]

end FastPrintf.Dates
