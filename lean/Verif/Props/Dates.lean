/-
C99: what `%t` prints without a pattern, given that the ISO formatters of the JDK do what their documentation says.
-/
import Verif.Spec.Dates
import Verif.Proofs.Dates
import Verif.Props.Readings
import Verif.Props.Text

namespace FastPrintf

open Spec Dates

/-! ### The texts -/

/-- One text for each point in time. -/
theorem Spec.IsoText.unique {zone : Int → Int} {p : Point} {x y : JStr} (h : IsoText zone p x) (k : IsoText zone p y) :
    x = y := by
  cases h with
  | instant t h1 _ h2 h3 =>
    cases k with
    | instant u k1 _ k2 k3 => rw [time_inj h1 k1 (by omega) (by omega)]
  | offset _ _ _ => cases k; rfl
  | localDateTime _ _ => cases k; rfl
  | localDate _ _ => cases k; rfl

/-- **C99.**  Every instant within 999 000 000 years of 1970 has exactly one text. -/
theorem C99_exists (zone : Int → Int) (hz : ∀ s, -64800 ≤ zone s ∧ zone s ≤ 64800) (s : Int) (n : Nat)
    (hs : -31555000000000000 ≤ s ∧ s ≤ 31555000000000000) (hn : n < 1000000000) :
    ∃ x, IsoText zone (.instant s n) x ∧ ∀ y, IsoText zone (.instant s n) y → y = x := by
  obtain ⟨t, h1, h2, h3⟩ := exists_time (s + zone s) hn
  have := hz s
  have hx : IsoText zone (.instant s n) _ := .instant t h1 (in_reach h1 (by omega)) h2 h3
  exact ⟨_, hx, fun y hy => hy.unique hx⟩

/-- **C99.**  The text tells the moment: in whatever zones they were printed, two instants with the same text are the
same; and what an `OffsetDateTime` or `ZonedDateTime`, a `LocalDateTime` or a `LocalDate` prints tells its fields. -/
theorem C99_distinct (z z' : Int → Int) (hz : ∀ s, -64800 ≤ z s ∧ z s ≤ 64800) (hz' : ∀ s, -64800 ≤ z' s ∧ z' s ≤ 64800)
    (x : JStr) :
    (∀ s n s' n', IsoText z (.instant s n) x → IsoText z' (.instant s' n') x → s = s' ∧ n = n') ∧
    (∀ s n t o, IsoText z (.instant s n) x → IsoText z' (.offset t o) x → s = t.seconds - o ∧ n = t.nano) ∧
    (∀ t o t' o', IsoText z (.offset t o) x → IsoText z' (.offset t' o') x → t = t' ∧ o = o') ∧
    (∀ t t', IsoText z (.localDateTime t) x → IsoText z' (.localDateTime t') x → t = t') ∧
    (∀ d d', IsoText z (.localDate d) x → IsoText z' (.localDate d') x → d = d') := by
  refine ⟨?_, ?_, ?_, ?_, ?_⟩
  · intro s n s' n' h k
    generalize hx : x = y at k
    cases h with
    | instant t h1 _ h2 h3 =>
      cases k with
      | instant u k1 _ k2 k3 =>
        obtain ⟨e1, e2⟩ := text_inj h1 k1 (tail_offset _) (tail_offset _) hx
        have := offset_inj (hz s) (hz' s') e2
        subst e1
        omega
  · intro s n t o h k
    generalize hx : x = y at k
    cases h with
    | instant u h1 _ h2 h3 =>
      cases k with
      | offset k1 _ k2 =>
        obtain ⟨e1, e2⟩ := text_inj h1 k1 (tail_offset _) (tail_offset _) hx
        have := offset_inj (hz s) k2 e2
        subst e1
        omega
  · intro t o t' o' h k
    generalize hx : x = y at k
    cases h with
    | offset h1 _ h2 =>
      cases k with
      | offset k1 _ k2 =>
        obtain ⟨e1, e2⟩ := text_inj h1 k1 (tail_offset _) (tail_offset _) hx
        exact ⟨e1, offset_inj h2 k2 e2⟩
  · intro t t' h k
    generalize hx : x = y at k
    cases h with
    | localDateTime h1 _ =>
      cases k with
      | localDateTime k1 _ =>
        exact (text_inj h1 k1 tail_nil tail_nil (by rw [List.append_nil, List.append_nil, hx])).1
  · intro d d' h k
    generalize hx : x = y at k
    cases h with
    | localDate h1 _ =>
      cases k with
      | localDate k1 _ => exact (day_inj h1 k1 (r := []) (r' := []) (by rw [List.append_nil, List.append_nil, hx])).1

/-! ### What is printed -/

/-- **C99.**  `%t` without a pattern prints the ISO text of the point in time that the argument stands for, padded
with spaces. -/
theorem C99_default (dates : DateSyntax) (env : DateEnv) (jdk : JdkEnv) (zone : Int → Int) (value : Nat → Point)
    (hi : IsoFormats env zone value) (d : Directive) (h : d.Ok dates) (hp : d.Plain) (hc : d.conv = ch! 't')
    (hd : d.date = none) (e : Entry) (t : Temporal) (hr : TimeReading e (.ok t)) (p : Point) (hs : Stands value t p)
    (x : JStr) (hx : IsoText zone p x) (rest : List Traits) :
    printf dates env d.text (e.toTraits jdk :: rest) = .ok (padded (ch! '-' ∈ d.flags) d.width.width x) := by
  have fin : ∀ f t', Formatted none t (some (f, t')) → env.format f t' = .ok x →
      printf dates env d.text (e.toTraits jdk :: rest) = .ok (padded (ch! '-' ∈ d.flags) d.width.width x) := by
    intro f t' hf hx
    rw [C52_t dates env jdk d h hp hc e t hr f t' (hd ▸ hf) rest, hx]
    rfl
  cases p with
  | instant s n =>
    have hk : t.kind = .instant := by cases hs <;> rfl
    exact fin _ _ (.instant hk) (hi.atZone _ _ _ _ hs hx)
  | offset u o =>
    have hk : t.kind = .offsetDateTime ∨ t.kind = .zonedDateTime := by
      cases hs
      · exact .inl rfl
      · exact .inr rfl
    exact fin _ _ (.offset hk) (hi.offset _ _ _ _ hs hx)
  | localDateTime u =>
    have hk : t.kind = .localDateTime := by cases hs; rfl
    exact fin _ _ (.localDateTime hk) (hi.localDateTime _ _ _ hs hx)
  | localDate u =>
    have hk : t.kind = .localDate := by cases hs; rfl
    exact fin _ _ (.localDate hk) (hi.localDate _ _ _ hs hx)

/-- A number that `%t` takes as a moment: an `int` as seconds (unsigned), a `long` (or what counts as one) as seconds
below 2^32 and as milliseconds from there on. -/
inductive Spec.NumberAt : Entry → Int → Nat → Prop
  | int {v : BitVec 32} {e : Entry} (h : (Integral.int v).Given e) : NumberAt e v.toNat 0
  | seconds {e : Entry} {n : Int} (h : CountsTime e n) (h1 : 0 ≤ n) (h2 : n < 2 ^ 32) : NumberAt e n 0
  | millis {e : Entry} {n : Int} (h : CountsTime e n) (h1 : 2 ^ 32 ≤ n) :
      NumberAt e (n / 1000) ((n % 1000).toNat * 1000000)

theorem Spec.CountsTime.le {e : Entry} {n : Int} (h : CountsTime e n) : n ≤ 9223372036854775807 := by
  cases h with
  | @long v e h => have := BitVec.toInt_lt (x := v); omega
  | big _ h2 _ _ => exact h2
  | number l d i t id => have := BitVec.toInt_lt (x := l); omega

/-- **C99.**  So it prints every number: the moment, by the clock of the system's zone. -/
theorem C99_number (dates : DateSyntax) (env : DateEnv) (jdk : JdkEnv) (zone : Int → Int) (value : Nat → Point)
    (hi : IsoFormats env zone value) (d : Directive) (h : d.Ok dates) (hp : d.Plain) (hc : d.conv = ch! 't')
    (hd : d.date = none) (e : Entry) (s : Int) (n : Nat) (he : NumberAt e s n) (rest : List Traits) :
    ∃ x, IsoText zone (.instant s n) x ∧
      printf dates env d.text (e.toTraits jdk :: rest) = .ok (padded (ch! '-' ∈ d.flags) d.width.width x) := by
  have fin : ∀ t, TimeReading e (.ok t) → Stands value t (.instant s n) →
      (-31555000000000000 ≤ s ∧ s ≤ 31555000000000000) → n < 1000000000 → ∃ x, IsoText zone (.instant s n) x ∧
      printf dates env d.text (e.toTraits jdk :: rest) = .ok (padded (ch! '-' ∈ d.flags) d.width.width x) := by
    intro t ht hs h1 h2
    obtain ⟨x, hx, _⟩ := C99_exists zone hi.reach s n h1 h2
    exact ⟨x, hx, C99_default dates env jdk zone value hi d h hp hc hd e t ht _ hs x hx rest⟩
  cases he with
  | int he =>
    rename_i v
    have := v.isLt
    exact fin _ (.int he) (.second _) (by omega) (by omega)
  | seconds he h1 h2 => exact fin _ (.seconds he h1 h2) (.second _) (by omega) (by omega)
  | millis he h1 =>
    have := he.le
    exact fin _ (.millis he h1) (.milli (by omega) (by omega)) (by omega) (by omega)

/-- **C99.**  Two numbers print alike exactly if they are the same, or one counts the seconds of the moment (below 2^32)
and the other its milliseconds. -/
theorem C99_units (dates : DateSyntax) (env : DateEnv) (jdk : JdkEnv) (zone : Int → Int) (value : Nat → Point)
    (hi : IsoFormats env zone value) (d : Directive) (h : d.Ok dates) (hp : d.Plain) (hc : d.conv = ch! 't')
    (hd : d.date = none) (e e' : Entry) (n n' : Int) (he : CountsTime e n) (he' : CountsTime e' n') (h0 : 0 ≤ n)
    (h0' : 0 ≤ n') (rest rest' : List Traits) :
    printf dates env d.text (e.toTraits jdk :: rest) = printf dates env d.text (e'.toTraits jdk :: rest') ↔
      n = n' ∨ (n < 2 ^ 32 ∧ 2 ^ 32 ≤ n' ∧ n' = 1000 * n) ∨ (n' < 2 ^ 32 ∧ 2 ^ 32 ≤ n ∧ n = 1000 * n') := by
  have at_ : ∀ {e : Entry} {n : Int}, CountsTime e n → 0 ≤ n →
      ∃ s k, NumberAt e s k ∧ (n < 2 ^ 32 → s = n ∧ k = 0) ∧
        (2 ^ 32 ≤ n → s = n / 1000 ∧ k = (n % 1000).toNat * 1000000) := by
    intro e n he h0
    by_cases hn : n < 2 ^ 32
    · exact ⟨n, 0, .seconds he h0 hn, fun _ => ⟨rfl, rfl⟩, fun h => by omega⟩
    · exact ⟨_, _, .millis he (by omega), fun h => by omega, fun _ => ⟨rfl, rfl⟩⟩
  obtain ⟨s, k, a1, a2, a3⟩ := at_ he h0
  obtain ⟨s', k', b1, b2, b3⟩ := at_ he' h0'
  obtain ⟨x, hx, px⟩ := C99_number dates env jdk zone value hi d h hp hc hd e s k a1 rest
  obtain ⟨y, hy, py⟩ := C99_number dates env jdk zone value hi d h hp hc hd e' s' k' b1 rest'
  rw [px, py]
  have hk : (s = s' ∧ k = k') ↔
      n = n' ∨ (n < 2 ^ 32 ∧ 2 ^ 32 ≤ n' ∧ n' = 1000 * n) ∨ (n' < 2 ^ 32 ∧ 2 ^ 32 ≤ n ∧ n = 1000 * n') := by
    by_cases c1 : n < 2 ^ 32 <;> by_cases c2 : n' < 2 ^ 32
    · have := a2 c1; have := b2 c2; omega
    · have := a2 c1; have := b3 (by omega); omega
    · have := a3 (by omega); have := b2 c2; omega
    · have := a3 (by omega); have := b3 (by omega); omega
  rw [← hk]
  constructor
  · intro hxy
    injection hxy with hxy
    have := padded_inj (iso_text hx) (iso_text hy) hxy
    subst this
    exact (C99_distinct zone zone hi.reach hi.reach x).1 s k s' k' hx hy
  · rintro ⟨rfl, rfl⟩
    rw [hx.unique hy]

/-- **C99.**  In a zone with a fixed offset, numbers of seconds print texts of the same length, which sort like the
numbers. -/
theorem C99_sorted (dates : DateSyntax) (env : DateEnv) (jdk : JdkEnv) (o : Int) (value : Nat → Point)
    (hi : IsoFormats env (fun _ => o) value) (d : Directive) (h : d.Ok dates) (hp : d.Plain) (hc : d.conv = ch! 't')
    (hd : d.date = none) (e e' : Entry) (m n : Nat) (hm : m < 2 ^ 32) (hn : n < 2 ^ 32) (he : NumberAt e m 0)
    (he' : NumberAt e' n 0) (rest rest' : List Traits) :
    ∃ x y, printf dates env d.text (e.toTraits jdk :: rest) = .ok x ∧
      printf dates env d.text (e'.toTraits jdk :: rest') = .ok y ∧ x.length = y.length ∧ SortLike x y m n := by
  obtain ⟨x, hx, px⟩ := C99_number dates env jdk _ value hi d h hp hc hd e m 0 he rest
  obtain ⟨y, hy, py⟩ := C99_number dates env jdk _ value hi d h hp hc hd e' n 0 he' rest'
  refine ⟨_, _, px, py, ?_⟩
  have ho := hi.reach 0
  have year : ∀ {t : DayTime}, t.Exists → -64800 ≤ t.seconds → t.seconds < 2 ^ 32 + 64800 →
      0 ≤ t.date.year ∧ t.date.year ≤ 9999 := by
    intro t ⟨h1, h2, h3, h4, _⟩ h5 h6
    have := number_year h1
    unfold DayTime.seconds at h5 h6
    unfold daysBeforeYear at this
    omega
  cases hx with
  | instant t t1 t2 t3 t4 =>
    cases hy with
    | instant u u1 u2 u3 u4 =>
      have yt := year t1 (by omega) (by omega)
      have yu := year u1 (by omega) (by omega)
      have hl : ∀ r r', r.length = r'.length → (t.text ++ r).length = (u.text ++ r').length := by
        intro r r' hr
        rw [List.length_append, List.length_append, Dates.text_length yt t4, Dates.text_length yu u4, hr]
      have cmp : ∀ {t u : DayTime} {m n : Nat}, t.Exists → u.Exists → t.seconds = m + o → u.seconds = n + o →
          (0 ≤ t.date.year ∧ t.date.year ≤ 9999) → (0 ≤ u.date.year ∧ u.date.year ≤ 9999) →
          (t.text ++ offsetText o).length = (u.text ++ offsetText o).length → m < n →
          compareTo (padded (ch! '-' ∈ d.flags) d.width.width (t.text ++ offsetText o))
            (padded (ch! '-' ∈ d.flags) d.width.width (u.text ++ offsetText o)) < 0 := by
        intro t u m n t1 u1 t3 u3 yt yu hl hmn
        unfold padded
        rw [hl]
        split
        · rw [List.append_assoc, List.append_assoc]
          exact text_compare t1 u1 yt yu (by omega) _ _
        · rw [compareTo_append]
          exact text_compare t1 u1 yt yu (by omega) _ _
      have hl' := hl (offsetText o) (offsetText o) rfl
      refine ⟨?_, ?_⟩
      · unfold padded
        split <;> simp only [List.length_append, List.length_replicate] at hl' ⊢ <;> omega
      · rcases Nat.lt_trichotomy m n with hmn | hmn | hmn
        · exact sortLike_of_lt (cmp t1 u1 t3 u3 yt yu hl' hmn) hmn
        · refine sortLike_of_eq ?_ hmn
          rw [time_inj t1 u1 (by omega) (by omega)]
        · have hg := cmp u1 t1 u3 t3 yu yt hl'.symm hmn
          have hs := compareTo_swap (padded (ch! '-' ∈ d.flags) d.width.width (t.text ++ offsetText o))
            (padded (ch! '-' ∈ d.flags) d.width.width (u.text ++ offsetText o))
          exact ⟨⟨fun _ => by omega, fun _ => by omega⟩, ⟨fun _ => by omega, fun _ => by omega⟩⟩

/-- **C99.**  Milliseconds need not sort: without a fraction the `Z` comes where others have the point. -/
theorem C99_not_sorted (dates : DateSyntax) (env : DateEnv) (jdk : JdkEnv) (value : Nat → Point)
    (hi : IsoFormats env (fun _ => 0) value) (d : Directive) (h : d.Ok dates) (hp : d.Plain) (hc : d.conv = ch! 't')
    (hd : d.date = none) (hw : d.width.width = 0) (rest : List Traits) :
    ∃ x y, printf dates env d.text ((Entry.prim (.long 1700000000000#64)).toTraits jdk :: rest) = .ok x ∧
      printf dates env d.text ((Entry.prim (.long 1700000000500#64)).toTraits jdk :: rest) = .ok y ∧
      0 < compareTo x y := by
  have a : IsoText (fun _ => 0) (.instant 1700000000 0) (js! "2023-11-14T22:13:20Z") :=
    .instant ⟨⟨2023, 11, 14⟩, 22, 13, 20, 0⟩ (by unfold DayTime.Exists Day.Exists; decide)
      (by unfold Day.InReach; decide) (by decide) rfl
  have b : IsoText (fun _ => 0) (.instant 1700000000 500000000) (js! "2023-11-14T22:13:20.5Z") :=
    .instant ⟨⟨2023, 11, 14⟩, 22, 13, 20, 500000000⟩ (by unfold DayTime.Exists Day.Exists; decide)
      (by unfold Day.InReach; decide) (by decide) rfl
  have ga : NumberAt (.prim (.long 1700000000000#64)) 1700000000 0 :=
    .millis (n := 1700000000000) (.long (v := 1700000000000#64) (.prim rfl)) (by decide)
  have gb : NumberAt (.prim (.long 1700000000500#64)) 1700000000 500000000 :=
    .millis (n := 1700000000500) (.long (v := 1700000000500#64) (.prim rfl)) (by decide)
  obtain ⟨x, hx, px⟩ := C99_number dates env jdk _ value hi d h hp hc hd _ _ _ ga rest
  obtain ⟨y, hy, py⟩ := C99_number dates env jdk _ value hi d h hp hc hd _ _ _ gb rest
  rw [hx.unique a, hw] at px
  rw [hy.unique b, hw] at py
  refine ⟨_, _, px, py, ?_⟩
  have pad : ∀ (l : Bool) (s : JStr), padded l 0 s = s := by
    intro l s
    unfold padded
    rw [Nat.zero_sub]
    cases l
    · rfl
    · exact List.append_nil s
  rw [pad, pad]
  decide

/-- **C99.**  `%T` prints what `%t` prints: the texts have no small letters. -/
theorem C99_upper (dates : DateSyntax) (env : DateEnv) (jdk : JdkEnv) (zone : Int → Int) (value : Nat → Point)
    (hi : IsoFormats env zone value) (d : Directive) (h : d.Ok dates) (hp : d.Plain) (hc : d.conv = ch! 't')
    (hd : d.date = none) (e : Entry) (t : Temporal) (hr : TimeReading e (.ok t)) (p : Point)
    (hs : Stands value t p) (x : JStr) (hx : IsoText zone p x) :
    printf dates env ({ d with conv := ch! 'T' } : Directive).text [e.toTraits jdk] =
      printf dates env d.text [e.toTraits jdk] := by
  have hp' := C99_default dates env jdk zone value hi d h hp hc hd e t hr p hs x hx []
  have given : ∀ {i : Integral}, i.Given e → WellBehaved e := by intro i hg; cases hg <;> exact trivial
  have he : WellBehaved e := by
    cases hr with
    | int hg => exact given hg
    | seconds hg _ _ => cases hg with | long hg => exact given hg | big _ _ _ _ => exact trivial | number => exact trivial
    | millis hg _ => cases hg with | long hg => exact given hg | big _ _ _ _ => exact trivial | number => exact trivial
    | date => exact trivial
    | calendar => exact trivial
    | temporal => exact trivial
  have hu := (C19_upper_case dates env jdk d h (ch! 'T') (by rw [hc]; decide) [e] (by simpa using he)).2
  simp only [List.map_cons, List.map_nil] at hu
  rcases hu with hu | ⟨_, hu, _⟩
  · rw [hu, hp']
    show Except.ok _ = Except.ok _
    congr 1
    conv => rhs; rw [← List.map_id (padded _ _ _)]
    refine List.map_congr_left fun c hc => ?_
    have : IsoChar c ∨ c = 32 := by
      unfold padded at hc
      split at hc <;> rw [List.mem_append] at hc <;> rcases hc with hc | hc
      · exact .inl (iso_text hx c hc)
      · exact .inr (List.eq_of_mem_replicate hc)
      · exact .inr (List.eq_of_mem_replicate hc)
      · exact .inl (iso_text hx c hc)
    unfold IsoChar at this
    unfold Spec.upper
    rw [if_neg (by omega)]
    rfl
  · rw [hp'] at hu; cases hu

/-! ### Not vacuous -/

theorem Spec.Stands.unique {value : Nat → Point} {t : Temporal} {p q : Point} (h : Stands value t p)
    (k : Stands value t q) : p = q := by
  cases h with
  | second s => cases k; rfl
  | milli h hn =>
    cases k with
    | milli k kn =>
      simp only [Point.instant.injEq]
      omega
  | instant h _ => cases k with | instant k _ => rw [← h, k]
  | offset h => cases k with | offset k => rw [← h, k]
  | zoned h => cases k with | zoned k => rw [← h, k]
  | localDateTime h => cases k with | localDateTime k => rw [← h, k]
  | localDate h => cases k with | localDate k => rw [← h, k]

open Classical in
/-- A JDK that does what the documentation says, for every zone and whatever the user's objects say. -/
noncomputable def isoEnv (zone : Int → Int) (value : Nat → Point) : DateEnv where
  format _ t :=
    let u := match t with | .atSystemZone t => t | t => t
    if h : ∃ x p, Stands value u p ∧ IsoText zone p x then .ok h.choose else .error .external

open Classical in
theorem isoEnv_formats (zone : Int → Int) (hz : ∀ s, -64800 ≤ zone s ∧ zone s ≤ 64800) (value : Nat → Point) :
    IsoFormats (isoEnv zone value) zone value := by
  have key : ∀ t p x, Stands value t p → IsoText zone p x →
      (if h : ∃ x p, Stands value t p ∧ IsoText zone p x then Except.ok h.choose else Except.error Err.external) =
        (Except.ok x : Res JStr) := by
    intro t p x hs hx
    have h : ∃ x p, Stands value t p ∧ IsoText zone p x := ⟨x, p, hs, hx⟩
    rw [dif_pos h]
    obtain ⟨q, h1, h2⟩ := h.choose_spec
    rw [h1.unique hs] at h2
    rw [h2.unique hx]
  refine ⟨hz, fun t s n x hs hx => key t _ x hs hx, fun t u o x hs hx => ?_, fun t u x hs hx => ?_,
    fun t u x hs hx => ?_⟩
  · cases hs with
    | offset h => exact key _ _ x (.offset h) hx
    | zoned h => exact key _ _ x (.zoned h) hx
  · cases hs with | localDateTime h => exact key _ _ x (.localDateTime h) hx
  · cases hs with | localDate h => exact key _ _ x (.localDate h) hx

/-- `%-30t`. -/
def tLeft : Directive := { flags := [ch! '-'], width := .digits (js! "30"), prec := .absent, conv := ch! 't', date := none }

/-- In Paris, in winter. -/
example (dates : DateSyntax) (jdk : JdkEnv) (value : Nat → Point) (h : tLeft.Ok dates) :
    printf dates (isoEnv (fun _ => 3600) value) tLeft.text [(Entry.prim (.int 1700000000#32)).toTraits jdk] =
      .ok (js! "2023-11-14T23:13:20+01:00     ") := by
  have a : IsoText (fun _ => 3600) (.instant 1700000000 0) (js! "2023-11-14T23:13:20+01:00") :=
    .instant ⟨⟨2023, 11, 14⟩, 23, 13, 20, 0⟩ (by unfold DayTime.Exists Day.Exists; decide)
      (by unfold Day.InReach; decide) (by decide) rfl
  exact C99_default dates _ jdk _ value (isoEnv_formats _ (fun _ => by omega) value) tLeft h ⟨by decide, by decide⟩ rfl rfl _ _
    (.int (v := 1700000000#32) (.prim rfl)) _ (.second _) _ a []

example : IsoText (fun _ => 0) (.localDate ⟨2024, 2, 29⟩) (js! "2024-02-29") :=
  .localDate (by unfold Day.Exists; decide) (by unfold Day.InReach; decide)
example : IsoText (fun _ => 0) (.instant (-1) 0) (js! "1969-12-31T23:59:59Z") :=
  .instant ⟨⟨1969, 12, 31⟩, 23, 59, 59, 0⟩ (by unfold DayTime.Exists Day.Exists; decide)
    (by unfold Day.InReach; decide) (by decide) rfl
example : CountsTime (.prim (.long 5000000#64)) 5000000 ∧ CountsTime (.prim (.long 5000000000#64)) 5000000000 ∧
    (5000000 : Int) < 2 ^ 32 ∧ (2 : Int) ^ 32 ≤ 5000000000 ∧ (5000000000 : Int) = 1000 * 5000000 :=
  ⟨.long (v := 5000000#64) (.prim rfl), .long (v := 5000000000#64) (.prim rfl), by decide, by decide, by decide⟩

end FastPrintf
