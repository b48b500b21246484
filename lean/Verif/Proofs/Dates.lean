/-
Helper lemmas for C99: the calendar counts each day once, and the ISO texts can be told apart.
-/
import Verif.Spec.Dates
import Verif.Proofs.Order

namespace FastPrintf.Dates

open Spec

/-! ### The calendar -/

theorem daysBeforeYear_succ (y : Int) : daysBeforeYear (y + 1) = daysBeforeYear y + if Leap y then 366 else 365 := by
  by_cases h : Leap y
  · rw [if_pos h]; unfold Leap at h; unfold daysBeforeYear; omega
  · rw [if_neg h]; unfold Leap at h; unfold daysBeforeYear; omega

theorem daysBeforeYear_mono {y z : Int} (h : y ≤ z) : daysBeforeYear y ≤ daysBeforeYear z := by
  unfold daysBeforeYear
  omega

theorem monthLength_pos (y : Int) (m : Nat) : 28 ≤ monthLength y m := by
  unfold monthLength
  split
  · split <;> omega
  · split <;> omega

theorem daysBeforeMonth_succ (y : Int) {m : Nat} (h : 1 ≤ m) :
    daysBeforeMonth y (m + 1) = daysBeforeMonth y m + monthLength y m := by
  obtain ⟨k, rfl⟩ : ∃ k, m = k + 1 := ⟨m - 1, by omega⟩
  rfl

theorem daysBeforeMonth_mono (y : Int) {m n : Nat} (h : m ≤ n) : daysBeforeMonth y m ≤ daysBeforeMonth y n := by
  have step : ∀ k, daysBeforeMonth y k ≤ daysBeforeMonth y (k + 1) := by
    intro k
    match k with
    | 0 => exact Nat.le_refl _
    | k + 1 => rw [daysBeforeMonth_succ y (Nat.le_add_left 1 k)]; omega
  induction h with
  | refl => exact Nat.le_refl _
  | step _ ih => exact Nat.le_trans ih (step _)

theorem daysBeforeMonth_year (y : Int) : (daysBeforeMonth y 13 : Int) = if Leap y then 366 else 365 := by
  by_cases h : Leap y <;> simp [daysBeforeMonth, monthLength, h]

theorem number_year {d : Day} (h : d.Exists) :
    daysBeforeYear d.year ≤ d.number + daysBeforeYear 1970 ∧
      d.number + daysBeforeYear 1970 < daysBeforeYear (d.year + 1) := by
  obtain ⟨⟨h1, h2⟩, h3, h4⟩ := h
  have e := daysBeforeMonth_succ d.year h1
  have m := daysBeforeMonth_mono d.year (show d.month + 1 ≤ 13 by omega)
  have y := daysBeforeMonth_year d.year
  have s := daysBeforeYear_succ d.year
  unfold Day.number
  constructor
  · omega
  · rw [s, ← y]; omega

/-- The order of dates. -/
def Before (d e : Day) : Prop :=
  d.year < e.year ∨ d.year = e.year ∧ (d.month < e.month ∨ d.month = e.month ∧ d.day < e.day)

theorem before_or (d e : Day) : Before d e ∨ d = e ∨ Before e d := by
  obtain ⟨y, m, n⟩ := d
  obtain ⟨y', m', n'⟩ := e
  unfold Before
  simp only [Day.mk.injEq]
  omega

theorem number_lt {d e : Day} (hd : d.Exists) (he : e.Exists) (h : Before d e) : d.number < e.number := by
  rcases h with h | ⟨h, h'⟩
  · have := (number_year hd).2
    have := (number_year he).1
    have := daysBeforeYear_mono (show d.year + 1 ≤ e.year by omega)
    omega
  · obtain ⟨y, m, n⟩ := d
    obtain ⟨y', m', n'⟩ := e
    obtain ⟨⟨h1, h2⟩, h3, h4⟩ := hd
    obtain ⟨_, h5, _⟩ := he
    simp only at h h' h1 h2 h3 h4 h5
    subst h
    unfold Day.number
    simp only
    rcases h' with h' | ⟨h', h''⟩
    · have a := daysBeforeMonth_succ y h1
      have b := daysBeforeMonth_mono y (show m + 1 ≤ m' by omega)
      omega
    · subst h'; omega

theorem number_inj {d e : Day} (hd : d.Exists) (he : e.Exists) (h : d.number = e.number) : d = e := by
  rcases before_or d e with hb | hb | hb
  · have := number_lt hd he hb; omega
  · exact hb
  · have := number_lt he hd hb; omega

theorem next_day {d : Day} (h : d.Exists) : ∃ e : Day, e.Exists ∧ e.number = d.number + 1 := by
  obtain ⟨y, m, n⟩ := d
  obtain ⟨⟨h1, h2⟩, h3, h4⟩ := h
  simp only at h1 h2 h3 h4
  by_cases hn : n < monthLength y m
  · exact ⟨⟨y, m, n + 1⟩, ⟨⟨h1, h2⟩, by simp only; omega, by simp only; omega⟩, by unfold Day.number; simp only; omega⟩
  · by_cases hm : m < 12
    · have hp := monthLength_pos y (m + 1)
      refine ⟨⟨y, m + 1, 1⟩, ⟨⟨by simp only; omega, by simp only; omega⟩, Nat.le_refl _, by simp only; omega⟩, ?_⟩
      unfold Day.number
      simp only
      rw [daysBeforeMonth_succ y h1]
      omega
    · have hm : m = 12 := by omega
      subst hm
      have hp := monthLength_pos (y + 1) 1
      refine ⟨⟨y + 1, 1, 1⟩, ⟨⟨by simp only; omega, by simp only; omega⟩, Nat.le_refl _, by simp only; omega⟩, ?_⟩
      unfold Day.number
      simp only
      rw [daysBeforeYear_succ, ← daysBeforeMonth_year, daysBeforeMonth_succ y (show 1 ≤ 12 by omega)]
      simp only [daysBeforeMonth]
      omega

theorem previous_day {d : Day} (h : d.Exists) : ∃ e : Day, e.Exists ∧ e.number = d.number - 1 := by
  obtain ⟨y, m, n⟩ := d
  obtain ⟨⟨h1, h2⟩, h3, h4⟩ := h
  simp only at h1 h2 h3 h4
  by_cases hn : 1 < n
  · exact ⟨⟨y, m, n - 1⟩, ⟨⟨h1, h2⟩, by simp only; omega, by simp only; omega⟩, by unfold Day.number; simp only; omega⟩
  · by_cases hm : 1 < m
    · have hp := monthLength_pos y (m - 1)
      refine ⟨⟨y, m - 1, monthLength y (m - 1)⟩,
        ⟨⟨by simp only; omega, by simp only; omega⟩, by simp only; omega, Nat.le_refl _⟩, ?_⟩
      have e := daysBeforeMonth_succ y (show 1 ≤ m - 1 by omega)
      rw [show m - 1 + 1 = m by omega] at e
      unfold Day.number
      simp only
      omega
    · have hm : m = 1 := by omega
      subst hm
      have hp := monthLength_pos (y - 1) 12
      refine ⟨⟨y - 1, 12, monthLength (y - 1) 12⟩,
        ⟨⟨by simp only; omega, by simp only; omega⟩, by simp only; omega, Nat.le_refl _⟩, ?_⟩
      have e := daysBeforeYear_succ (y - 1)
      rw [show y - 1 + 1 = y by omega, ← daysBeforeMonth_year, daysBeforeMonth_succ (y - 1) (show 1 ≤ 12 by omega)] at e
      unfold Day.number
      simp only [daysBeforeMonth] at e ⊢
      omega

theorem exists_day (n : Int) : ∃ d : Day, d.Exists ∧ d.number = n := by
  induction n using Int.induction_on with
  | zero => exact ⟨⟨1970, 1, 1⟩, by unfold Day.Exists; decide, by decide⟩
  | succ i ih =>
    obtain ⟨d, h1, h2⟩ := ih
    obtain ⟨e, h3, h4⟩ := next_day h1
    exact ⟨e, h3, by omega⟩
  | pred i ih =>
    obtain ⟨d, h1, h2⟩ := ih
    obtain ⟨e, h3, h4⟩ := previous_day h1
    exact ⟨e, h3, by omega⟩

theorem exists_time (s : Int) {n : Nat} (hn : n < 1000000000) :
    ∃ t : DayTime, t.Exists ∧ t.seconds = s ∧ t.nano = n := by
  obtain ⟨d, h1, h2⟩ := exists_day (s / 86400)
  refine ⟨⟨d, (s % 86400 / 3600).toNat, (s % 3600 / 60).toNat, (s % 60).toNat, n⟩, ⟨h1, ?_, ?_, ?_, hn⟩, ?_, rfl⟩
  · simp only; omega
  · simp only; omega
  · simp only; omega
  · unfold DayTime.seconds
    simp only [h2]
    omega

theorem time_inj {t u : DayTime} (ht : t.Exists) (hu : u.Exists) (h : t.seconds = u.seconds) (hn : t.nano = u.nano) :
    t = u := by
  obtain ⟨d, a, b, c, n⟩ := t
  obtain ⟨d', a', b', c', n'⟩ := u
  obtain ⟨h1, h2, h3, h4, _⟩ := ht
  obtain ⟨k1, k2, k3, k4, _⟩ := hu
  unfold DayTime.seconds at h
  simp only at *
  have : d = d' := number_inj h1 k1 (by omega)
  subst this
  simp only [DayTime.mk.injEq, true_and]
  omega

/-- A moment within 999 999 000 years of 1970 is in a year that `java.time` has. -/
theorem in_reach {t : DayTime} (h : t.Exists) (hs : -31556000000000000 ≤ t.seconds ∧ t.seconds ≤ 31556000000000000) :
    t.date.InReach := by
  obtain ⟨h1, h2, h3, h4, _⟩ := h
  have := number_year h1
  unfold DayTime.seconds at hs
  unfold Day.InReach
  unfold daysBeforeYear at this
  omega

/-! ### Digits -/

theorem fixed_length (w n : Nat) : (fixedDigits w n).length = w := by
  induction w generalizing n with
  | zero => rfl
  | succ w ih => rw [fixedDigits, List.length_append, ih]; rfl

theorem fixed_digit (w n : Nat) : ∀ c ∈ fixedDigits w n, 48 ≤ c ∧ c ≤ 57 := by
  induction w generalizing n with
  | zero => intro c hc; cases hc
  | succ w ih =>
    intro c hc
    rw [fixedDigits, List.mem_append, List.mem_singleton] at hc
    rcases hc with hc | rfl
    · exact ih _ c hc
    · omega

theorem fixed_inj (w : Nat) {m n : Nat} (hm : m < 10 ^ w) (hn : n < 10 ^ w) (h : fixedDigits w m = fixedDigits w n) :
    m = n := by
  induction w generalizing m n with
  | zero => simp only [Nat.pow_zero] at hm hn; omega
  | succ w ih =>
    rw [fixedDigits, fixedDigits] at h
    obtain ⟨h1, h2⟩ := List.append_inj h (by rw [fixed_length, fixed_length])
    rw [Nat.pow_succ] at hm hn
    have := ih (m := m / 10) (n := n / 10) (by omega) (by omega) h1
    have : 48 + m % 10 = 48 + n % 10 := List.head_eq_of_cons_eq h2
    omega

theorem fixed_compare (w : Nat) {m n : Nat} (hn : n < 10 ^ w) (h : m < n) (s t : JStr) :
    compareTo (fixedDigits w m ++ s) (fixedDigits w n ++ t) < 0 := by
  induction w generalizing m n s t with
  | zero => simp only [Nat.pow_zero] at hn; omega
  | succ w ih =>
    rw [Nat.pow_succ] at hn
    rw [fixedDigits, fixedDigits, List.append_assoc, List.append_assoc]
    by_cases he : m / 10 < n / 10
    · exact ih (by omega) he _ _
    · rw [show m / 10 = n / 10 by omega, compareTo_append]
      exact compareTo_cons_lt (by omega) _ _

/-! ### Texts can be taken apart -/

theorem span_inj {p : Nat → Prop} {a a' b b' : JStr} (ha : ∀ c ∈ a, p c) (ha' : ∀ c ∈ a', p c)
    (hb : ∀ c ∈ b.head?, ¬ p c) (hb' : ∀ c ∈ b'.head?, ¬ p c) (h : a ++ b = a' ++ b') : a = a' ∧ b = b' := by
  induction a generalizing a' with
  | nil =>
    cases a' with
    | nil => exact ⟨rfl, h⟩
    | cons c a' =>
      rw [List.nil_append] at h
      subst h
      exact absurd (ha' c (by simp)) (hb c (by simp))
  | cons c a ih =>
    cases a' with
    | nil =>
      rw [List.nil_append] at h
      subst h
      exact absurd (ha c (by simp)) (hb' c (by simp))
    | cons c' a' =>
      injection h with h1 h2
      obtain ⟨h3, h4⟩ := ih (fun c hc => ha c (List.mem_cons_of_mem _ hc)) (fun c hc => ha' c (List.mem_cons_of_mem _ hc)) h2
      exact ⟨by rw [h1, h3], h4⟩

theorem year_digits_lt (n : Nat) : n < 10 ^ max 4 (Nat.log 10 n + 1) :=
  Nat.lt_of_lt_of_le (Nat.lt_pow_succ_log_self (by omega) n) (Nat.pow_le_pow_right (by omega) (Nat.le_max_right _ _))

theorem year_digits_inj {m n : Nat}
    (h : fixedDigits (max 4 (Nat.log 10 m + 1)) m = fixedDigits (max 4 (Nat.log 10 n + 1)) n) : m = n := by
  have hl := congrArg List.length h
  rw [fixed_length, fixed_length] at hl
  have hm := year_digits_lt m
  rw [hl] at h hm
  exact fixed_inj _ hm (year_digits_lt n) h

theorem year_inj {y z : Int} {r r' : JStr} (h : yearText y ++ ch! '-' :: r = yearText z ++ ch! '-' :: r') :
    y = z ∧ r = r' := by
  have key : ∀ {m n : Nat}, fixedDigits (max 4 (Nat.log 10 m + 1)) m ++ ch! '-' :: r =
      fixedDigits (max 4 (Nat.log 10 n + 1)) n ++ ch! '-' :: r' → m = n ∧ r = r' := by
    intro m n h
    obtain ⟨h1, h2⟩ := span_inj (p := fun c => 48 ≤ c ∧ c ≤ 57) (fixed_digit _ _) (fixed_digit _ _)
      (by intro c hc; simp only [List.head?_cons, Option.mem_def, Option.some.injEq] at hc; omega)
      (by intro c hc; simp only [List.head?_cons, Option.mem_def, Option.some.injEq] at hc; omega) h
    injection h2 with _ h2
    exact ⟨year_digits_inj h1, h2⟩
  have first : ∀ (n : Nat) (r : JStr), ∃ c t, fixedDigits (max 4 (Nat.log 10 n + 1)) n ++ r = c :: t ∧ 48 ≤ c := by
    intro n r
    have hl := fixed_length (max 4 (Nat.log 10 n + 1)) n
    cases hf : fixedDigits (max 4 (Nat.log 10 n + 1)) n with
    | nil => rw [hf] at hl; simp only [List.length_nil] at hl; omega
    | cons c t => exact ⟨c, t ++ r, rfl, (fixed_digit _ _ c (by rw [hf]; simp)).1⟩
  unfold yearText at h
  obtain ⟨c, t, hc, hc'⟩ := first y.natAbs (ch! '-' :: r)
  obtain ⟨c', t', hd, hd'⟩ := first z.natAbs (ch! '-' :: r')
  by_cases hy : y < 0 <;> by_cases hz : z < 0 <;> by_cases hy' : y ≤ 9999 <;> by_cases hz' : z ≤ 9999 <;>
    simp only [hy, hz, hy', hz', if_true, if_false, List.nil_append, List.cons_append] at h <;>
    (try omega)
  all_goals first
    | (injection h with _ h; have := key h; exact ⟨by omega, this.2⟩)
    | (have := key h; exact ⟨by omega, this.2⟩)
    | (exfalso; rw [hc] at h; injection h with h _; omega)
    | (exfalso; rw [hd] at h; injection h with h _; omega)

theorem day_inj {d e : Day} (hd : d.Exists) (he : e.Exists) {r r' : JStr} (h : d.text ++ r = e.text ++ r') :
    d = e ∧ r = r' := by
  obtain ⟨y, m, n⟩ := d
  obtain ⟨y', m', n'⟩ := e
  obtain ⟨⟨h1, h2⟩, h3, h4⟩ := hd
  obtain ⟨⟨k1, k2⟩, k3, k4⟩ := he
  have bound : ∀ y m, monthLength y m ≤ 31 := by
    intro y m; unfold monthLength; split
    · split <;> omega
    · split <;> omega
  have := bound y m
  have := bound y' m'
  unfold Day.text at h
  simp only [List.append_assoc, List.cons_append] at *
  obtain ⟨hy, g⟩ := year_inj h
  subst hy
  obtain ⟨ha, h⟩ := List.append_inj g (by rw [fixed_length, fixed_length])
  injection h with _ h
  obtain ⟨hb, h⟩ := List.append_inj h (by rw [fixed_length, fixed_length])
  have := fixed_inj 2 (by omega) (by omega) ha
  have := fixed_inj 2 (by omega) (by omega) hb
  subst_vars
  exact ⟨rfl, rfl⟩

theorem dropZeros_fill (s : JStr) : dropZeros s ++ List.replicate (s.length - (dropZeros s).length) 48 = s := by
  unfold dropZeros
  have key : ∀ s : JStr, List.replicate (s.length - (s.dropWhile (· == 48)).length) 48 ++ s.dropWhile (· == 48) = s := by
    intro s
    induction s with
    | nil => rfl
    | cons c s ih =>
      by_cases hc : c = 48
      · subst hc
        rw [List.dropWhile_cons_of_pos (by rfl), List.length_cons]
        have : (s.dropWhile (· == 48)).length ≤ s.length := (List.dropWhile_sublist _).length_le
        rw [show s.length + 1 - (s.dropWhile (· == 48)).length = s.length - (s.dropWhile (· == 48)).length + 1 by omega,
          List.replicate_succ, List.cons_append, ih]
      · rw [List.dropWhile_cons_of_neg (by simpa using hc), Nat.sub_self]; rfl
  have := congrArg List.reverse (key s.reverse)
  rw [List.reverse_append, List.reverse_replicate, List.reverse_reverse] at this
  simpa using this

theorem nano_mem {n : Nat} : ∀ c ∈ nanoText n, c = 46 ∨ 48 ≤ c ∧ c ≤ 57 := by
  intro c hc
  unfold nanoText at hc
  split at hc
  · cases hc
  · rw [List.mem_cons] at hc
    rcases hc with hc | hc
    · exact .inl hc
    · unfold dropZeros at hc
      rw [List.mem_reverse] at hc
      have := (List.dropWhile_sublist _).subset hc
      rw [List.mem_reverse] at this
      exact .inr (fixed_digit _ _ c this)

theorem nano_inj {m n : Nat} (hm : m < 1000000000) (hn : n < 1000000000) (h : nanoText m = nanoText n) : m = n := by
  unfold nanoText at h
  by_cases h0 : m = 0 <;> by_cases h1 : n = 0 <;> simp only [h0, h1, if_true, if_false] at h
  · omega
  · cases h
  · cases h
  · injection h with _ h
    have a := dropZeros_fill (fixedDigits 9 m)
    have b := dropZeros_fill (fixedDigits 9 n)
    rw [fixed_length, h] at a
    rw [fixed_length, a] at b
    exact fixed_inj 9 hm hn b

/-- The end of a text: nothing, or an offset. -/
def Tail (r : JStr) : Prop := ∀ c ∈ r.head?, ¬ (c = 46 ∨ 48 ≤ c ∧ c ≤ 57)

theorem tail_nil : Tail [] := by intro c hc; cases hc

theorem tail_offset (o : Int) : Tail (offsetText o) := by
  intro c hc
  unfold offsetText at hc
  split at hc
  · simp only [List.head?_cons, Option.mem_def, Option.some.injEq] at hc; omega
  · split at hc <;> simp only [List.cons_append, List.head?_cons, Option.mem_def, Option.some.injEq] at hc <;> omega

theorem text_inj {t u : DayTime} (ht : t.Exists) (hu : u.Exists) {r r' : JStr} (hr : Tail r) (hr' : Tail r')
    (h : t.text ++ r = u.text ++ r') : t = u ∧ r = r' := by
  obtain ⟨d, a, b, c, n⟩ := t
  obtain ⟨d', a', b', c', n'⟩ := u
  obtain ⟨h1, h2, h3, h4, h5⟩ := ht
  obtain ⟨k1, k2, k3, k4, k5⟩ := hu
  unfold DayTime.text at h
  simp only [List.append_assoc, List.cons_append] at *
  obtain ⟨hd, g⟩ := day_inj h1 k1 h
  subst hd
  injection g with _ h
  obtain ⟨e1, h⟩ := List.append_inj h (by rw [fixed_length, fixed_length])
  injection h with _ h
  obtain ⟨e2, h⟩ := List.append_inj h (by rw [fixed_length, fixed_length])
  injection h with _ h
  obtain ⟨e3, h⟩ := List.append_inj h (by rw [fixed_length, fixed_length])
  obtain ⟨e4, h⟩ := span_inj nano_mem nano_mem hr hr' h
  have := fixed_inj 2 (by omega) (by omega) e1
  have := fixed_inj 2 (by omega) (by omega) e2
  have := fixed_inj 2 (by omega) (by omega) e3
  have := nano_inj h5 k5 e4
  subst_vars
  exact ⟨rfl, rfl⟩

theorem offset_inj {o p : Int} (ho : -64800 ≤ o ∧ o ≤ 64800) (hp : -64800 ≤ p ∧ p ≤ 64800)
    (h : offsetText o = offsetText p) : o = p := by
  unfold offsetText at h
  by_cases h0 : o = 0 <;> by_cases h1 : p = 0 <;> simp only [h0, h1, if_true, if_false] at h
  · omega
  · exfalso
    split at h <;> injection h with h _ <;> omega
  · exfalso
    split at h <;> injection h with h _ <;> omega
  · simp only [List.cons_append] at h
    injection h with hs h
    rw [List.append_assoc, List.append_assoc] at h
    obtain ⟨e1, h⟩ := List.append_inj h (by rw [fixed_length, fixed_length])
    simp only [List.cons_append] at h
    injection h with _ h
    obtain ⟨e2, h⟩ := List.append_inj h (by rw [fixed_length, fixed_length])
    have e1 := fixed_inj 2 (by omega) (by omega) e1
    have e2 := fixed_inj 2 (by omega) (by omega) e2
    have sgn : o < 0 ↔ p < 0 := by
      by_cases ha : o < 0 <;> by_cases hb : p < 0 <;> simp only [ha, hb, if_true, if_false] at hs ⊢ <;> omega
    by_cases ha : o.natAbs % 60 = 0 <;> by_cases hb : p.natAbs % 60 = 0 <;> simp only [ha, hb, if_true, if_false] at h
    · omega
    · cases h
    · cases h
    · injection h with _ h
      have e3 := fixed_inj 2 (by omega) (by omega) h
      omega

/-! ### Order -/

theorem compareTo_same (c : Nat) (s t : JStr) : compareTo (c :: s) (c :: t) = compareTo s t := compareTo_append [c] s t

theorem year_four {y : Int} (hy : 0 ≤ y ∧ y ≤ 9999) : yearText y = fixedDigits 4 y.natAbs := by
  unfold yearText
  rw [if_neg (by omega), if_pos (by omega), List.nil_append]
  have : Nat.log 10 y.natAbs < 4 := Nat.log_lt_of_lt_pow' (by omega) (by omega)
  rw [show max 4 (Nat.log 10 y.natAbs + 1) = 4 by omega]

theorem text_length {t : DayTime} (h : 0 ≤ t.date.year ∧ t.date.year ≤ 9999) (hn : t.nano = 0) :
    t.text.length = 19 := by
  unfold DayTime.text Day.text nanoText
  rw [year_four h, hn, if_pos rfl]
  simp only [List.length_append, List.length_cons, fixed_length, List.length_nil]

/-- Times in the years 0 to 9999 whose seconds differ. -/
theorem text_compare {t u : DayTime} (ht : t.Exists) (hu : u.Exists) (yt : 0 ≤ t.date.year ∧ t.date.year ≤ 9999)
    (yu : 0 ≤ u.date.year ∧ u.date.year ≤ 9999) (h : t.seconds < u.seconds) (r r' : JStr) :
    compareTo (t.text ++ r) (u.text ++ r') < 0 := by
  have before : ¬ Before u.date t.date := by
    intro hb
    have := number_lt hu.1 ht.1 hb
    obtain ⟨_, _, _, _, _⟩ := ht
    obtain ⟨_, _, _, _, _⟩ := hu
    unfold DayTime.seconds at h
    omega
  have bound : ∀ y m, monthLength y m ≤ 31 := by
    intro y m; unfold monthLength; split
    · split <;> omega
    · split <;> omega
  obtain ⟨⟨y, m, n⟩, a, b, c, f⟩ := t
  obtain ⟨⟨y', m', n'⟩, a', b', c', f'⟩ := u
  obtain ⟨⟨⟨h1, h2⟩, h3, h4⟩, h5, h6, h7, h8⟩ := ht
  obtain ⟨⟨⟨k1, k2⟩, k3, k4⟩, k5, k6, k7, k8⟩ := hu
  have := bound y' m'
  unfold Before at before
  unfold DayTime.text Day.text
  simp only [List.append_assoc, List.cons_append] at *
  rw [year_four yt, year_four yu]
  by_cases c1 : y = y'
  · subst c1
    rw [compareTo_append, compareTo_same]
    by_cases c2 : m = m'
    · subst c2
      rw [compareTo_append, compareTo_same]
      by_cases c3 : n = n'
      · subst c3
        rw [compareTo_append, compareTo_same]
        unfold DayTime.seconds at h
        simp only at h
        by_cases c4 : a = a'
        · subst c4
          rw [compareTo_append, compareTo_same]
          by_cases c5 : b = b'
          · subst c5
            rw [compareTo_append, compareTo_same]
            exact fixed_compare 2 (by omega) (by omega) _ _
          · exact fixed_compare 2 (by omega) (by omega) _ _
        · exact fixed_compare 2 (by omega) (by omega) _ _
      · exact fixed_compare 2 (by omega) (by omega) _ _
    · exact fixed_compare 2 (by omega) (by omega) _ _
  · exact fixed_compare 4 (by omega) (by omega) _ _

/-! ### Characters -/

/-- The characters of the texts. -/
def IsoChar (c : Nat) : Prop := 48 ≤ c ∧ c ≤ 57 ∨ c = 45 ∨ c = 43 ∨ c = 58 ∨ c = 46 ∨ c = 84 ∨ c = 90

theorem iso_fixed (w n : Nat) : ∀ c ∈ fixedDigits w n, IsoChar c := fun c hc => .inl (fixed_digit w n c hc)

theorem iso_append {s t : JStr} (hs : ∀ c ∈ s, IsoChar c) (ht : ∀ c ∈ t, IsoChar c) : ∀ c ∈ s ++ t, IsoChar c := by
  intro c hc
  rcases List.mem_append.1 hc with hc | hc
  · exact hs c hc
  · exact ht c hc

theorem iso_cons {a : Nat} {t : JStr} (ha : IsoChar a) (ht : ∀ c ∈ t, IsoChar c) : ∀ c ∈ a :: t, IsoChar c := by
  intro c hc
  rcases List.mem_cons.1 hc with rfl | hc
  · exact ha
  · exact ht c hc

theorem iso_nil : ∀ c ∈ ([] : JStr), IsoChar c := by intro c hc; cases hc

theorem iso_day (d : Day) : ∀ c ∈ d.text, IsoChar c := by
  have m : IsoChar 45 := .inr (.inl rfl)
  unfold Day.text yearText
  refine iso_append (iso_append (iso_append ?_ (iso_fixed _ _)) (iso_cons m (iso_fixed _ _))) (iso_cons m (iso_fixed _ _))
  split
  · exact iso_cons m iso_nil
  · split
    · exact iso_nil
    · exact iso_cons (by unfold IsoChar; omega) iso_nil

theorem iso_time (t : DayTime) : ∀ c ∈ t.text, IsoChar c := by
  have m : IsoChar 58 := by unfold IsoChar; omega
  unfold DayTime.text
  refine iso_append (iso_append (iso_append (iso_append (iso_day _) (iso_cons ?_ (iso_fixed _ _)))
    (iso_cons m (iso_fixed _ _))) (iso_cons m (iso_fixed _ _))) ?_
  · unfold IsoChar; omega
  · intro c hc
    have := nano_mem c hc
    unfold IsoChar
    omega

theorem iso_offset (o : Int) : ∀ c ∈ offsetText o, IsoChar c := by
  have m : IsoChar 58 := by unfold IsoChar; omega
  unfold offsetText
  split
  · exact iso_cons (by unfold IsoChar; omega) iso_nil
  · refine iso_append (iso_append (iso_cons ?_ (iso_fixed _ _)) (iso_cons m (iso_fixed _ _))) ?_
    · unfold IsoChar; split <;> omega
    · split
      · exact iso_nil
      · exact iso_cons m (iso_fixed _ _)

theorem iso_text {zone : Int → Int} {p : Point} {x : JStr} (h : IsoText zone p x) : ∀ c ∈ x, IsoChar c := by
  cases h with
  | instant t _ _ _ _ => exact iso_append (iso_time _) (iso_offset _)
  | offset _ _ _ => exact iso_append (iso_time _) (iso_offset _)
  | localDateTime _ _ => exact iso_time _
  | localDate _ _ => exact iso_day _

/-- Padding with spaces can be undone. -/
theorem padded_inj {l : Bool} {w : Nat} {x y : JStr} (hx : ∀ c ∈ x, IsoChar c) (hy : ∀ c ∈ y, IsoChar c)
    (h : padded l w x = padded l w y) : x = y := by
  have key : ∀ x : JStr, (∀ c ∈ x, IsoChar c) → (padded l w x).filter (· != 32) = x := by
    intro x hx
    have h1 : (List.replicate (w - x.length) 32).filter (· != 32) = [] := by
      rw [List.filter_eq_nil_iff]
      intro c hc
      rw [List.eq_of_mem_replicate hc]
      decide
    have h2 : x.filter (· != 32) = x := by
      rw [List.filter_eq_self]
      intro c hc
      have := hx c hc
      unfold IsoChar at this
      rw [bne_iff_ne]
      omega
    unfold padded
    split
    · rw [List.filter_append, h1, h2, List.append_nil]
    · rw [List.filter_append, h1, h2, List.nil_append]
  rw [← key x hx, ← key y hy, h]

end FastPrintf.Dates
