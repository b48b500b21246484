/-
C101: what `%t{pattern}` prints, and for which arguments it throws.
-/
import Verif.Proofs.Patterns
import Verif.Props.Dates

namespace FastPrintf
open Spec Dates

/-- **C101.** `%t{pattern}` prints the parts of the pattern for the fields of the value, padded with spaces; if the
value does not have one of the fields it throws the `DateTimeException` of the JDK. -/
theorem C101_prints (dates : DateSyntax) (env : DateEnv) (jdk : JdkEnv) (value : Nat → Point)
    (hf : PatternFormats dates env value) (d : Directive) (h : d.Ok dates) (hp : d.Plain) (hc : d.conv = ch! 't')
    (s : JStr) (ps : List PatternPart) (hn : s ≠ []) (hr : readPattern false s = some ps) (hk : ∀ p ∈ ps, p.Known)
    (e : Entry) (t : Temporal) (ht : TimeReading e (.ok t)) (x : Point) (hs : Stands value t x) (hx : x.Exists)
    (rest : List Traits) :
    printf dates env ({ d with date := some s } : Directive).text (e.toTraits jdk :: rest) =
      match patternText x ps with
      | some out => .ok (padded (ch! '-' ∈ d.flags) d.width.width out)
      | none => .error .dateTime := by
  have hb := read_balanced false s hr
  have hok : Directive.Ok dates { d with date := some s } :=
    ⟨h.flagsOk, h.noRepeat, h.width, h.prec, h.conv, fun p hp => by
      cases hp
      exact ⟨.inl hc, hn, by simpa using hb.1, fun pre post he => by simpa using hb.2 pre post he,
        hf.accepted s ps hr hk⟩, h.notPercent⟩
  have hpl : Directive.Plain { d with date := some s } := ⟨hp.1, hp.2⟩
  rw [C52_t dates env jdk { d with date := some s } hok hpl hc e t ht _ _ (.pattern s t) rest,
    hf.format s ps t x hr hk hs hx]
  cases patternText x ps <;> rfl

/-- **C101.** Which fields are missing: all but the fraction for an `Instant`, time and offset for a `LocalDate`, the
offset for a `LocalDateTime`, none for an `OffsetDateTime` or `ZonedDateTime`. -/
theorem C101_missing (ps : List PatternPart) (hk : ∀ p ∈ ps, p.Known) :
    (∀ s n, patternText (.instant s n) ps = none ↔ ∃ f ∈ fieldsOf ps, f.1 ≠ ch! 'S') ∧
    (∀ d, patternText (.localDate d) ps = none ↔ ∃ f ∈ fieldsOf ps, f.1 ∈ js! "HmsSXZ") ∧
    (∀ t, patternText (.localDateTime t) ps = none ↔ ∃ f ∈ fieldsOf ps, f.1 ∈ js! "XZ") ∧
    ∀ t o, patternText (.offset t o) ps ≠ none := by
  have gen : ∀ (x : Point) (ps : List PatternPart), patternText x ps = none ↔
      ∃ f ∈ fieldsOf ps, (PatternPart.letters f.1 f.2).text x = none := by
    intro x ps
    induction ps with
    | nil => simp [patternText, fieldsOf]
    | cons p ps ih =>
      cases p with
      | literal c =>
        have e : patternText x (.literal c :: ps) = none ↔ patternText x ps = none := by
          rw [patternText]
          cases patternText x ps <;> simp [PatternPart.text]
        rw [e, ih]; rfl
      | letters c k =>
        rw [fieldsOf, List.exists_mem_cons_iff, ← ih, patternText]
        cases (PatternPart.letters c k).text x <;> cases patternText x ps <;> simp
  have known : ∀ (ps : List PatternPart), (∀ p ∈ ps, p.Known) → ∀ f ∈ fieldsOf ps, f.1 ∈ js! "yuMdHmsSXZ" := by
    intro ps
    induction ps with
    | nil => intro _ f hf; cases hf
    | cons p ps ih =>
      intro hk f hf
      have hk' := ih fun p hp => hk p (List.mem_cons_of_mem _ hp)
      cases p with
      | literal c => exact hk' f hf
      | letters c k =>
        rw [fieldsOf, List.mem_cons] at hf
        rcases hf with hf | hf
        · subst hf
          have := hk _ List.mem_cons_self
          simp only [PatternPart.Known, List.mem_cons, List.not_mem_nil, or_false] at this ⊢
          omega
        · exact hk' f hf
  have all : ∀ {P Q : JChar × Nat → Prop}, (∀ f, f.1 ∈ js! "yuMdHmsSXZ" → (P f ↔ Q f)) →
      ((∃ f ∈ fieldsOf ps, P f) ↔ ∃ f ∈ fieldsOf ps, Q f) := by
    intro P Q hPQ
    exact ⟨fun ⟨f, h1, h2⟩ => ⟨f, h1, (hPQ f (known ps hk f h1)).1 h2⟩,
      fun ⟨f, h1, h2⟩ => ⟨f, h1, (hPQ f (known ps hk f h1)).2 h2⟩⟩
  have each : ∀ {R : JChar × Nat → Prop}, (∀ k c, c ∈ js! "yuMdHmsSXZ" → R (c, k)) →
      ∀ f, f.1 ∈ js! "yuMdHmsSXZ" → R f := fun h f hf => h f.2 f.1 hf
  refine ⟨fun s n => ?_, fun d => ?_, fun t => ?_, fun t o => ?_⟩
  · rw [gen]
    refine all (each fun k c hc => ?_)
    simp only [List.mem_cons, List.not_mem_nil, or_false] at hc
    rcases hc with rfl | rfl | rfl | rfl | rfl | rfl | rfl | rfl | rfl | rfl <;>
      simp [PatternPart.text, Point.date?, Point.time?, Point.nano?, Point.offset?]
  · rw [gen]
    refine all (each fun k c hc => ?_)
    simp only [List.mem_cons, List.not_mem_nil, or_false] at hc
    rcases hc with rfl | rfl | rfl | rfl | rfl | rfl | rfl | rfl | rfl | rfl <;>
      simp [PatternPart.text, Point.date?, Point.time?, Point.nano?, Point.offset?]
  · rw [gen]
    refine all (each fun k c hc => ?_)
    simp only [List.mem_cons, List.not_mem_nil, or_false] at hc
    rcases hc with rfl | rfl | rfl | rfl | rfl | rfl | rfl | rfl | rfl | rfl <;>
      simp [PatternPart.text, Point.date?, Point.time?, Point.nano?, Point.offset?]
  · rw [Ne, gen]
    rintro ⟨⟨c, k⟩, h1, h2⟩
    have hc := known ps hk _ h1
    simp only [List.mem_cons, List.not_mem_nil, or_false] at hc
    rcases hc with rfl | rfl | rfl | rfl | rfl | rfl | rfl | rfl | rfl | rfl <;>
      simp [PatternPart.text, Point.date?, Point.time?, Point.nano?, Point.offset?] at h2

/-- **C101.** So nothing that stands for an `Instant` (an `Instant`, a `Date`, a `Calendar`, a number) can be printed
with a pattern that has a field other than the fraction of a second. -/
theorem C101_instants (dates : DateSyntax) (env : DateEnv) (jdk : JdkEnv) (value : Nat → Point)
    (hf : PatternFormats dates env value) (d : Directive) (h : d.Ok dates) (hp : d.Plain) (hc : d.conv = ch! 't')
    (s : JStr) (ps : List PatternPart) (hr : readPattern false s = some ps) (hk : ∀ p ∈ ps, p.Known)
    (hfield : ∃ f ∈ fieldsOf ps, f.1 ≠ ch! 'S') (e : Entry) (t : Temporal) (ht : TimeReading e (.ok t)) (sec : Int)
    (n : Nat) (hs : Stands value t (.instant sec n)) (rest : List Traits) :
    printf dates env ({ d with date := some s } : Directive).text (e.toTraits jdk :: rest) = .error .dateTime := by
  have hn : s ≠ [] := by
    rintro rfl
    obtain ⟨f, hf, _⟩ := hfield
    cases hr
    cases hf
  have hx : n < 1000000000 := by cases hs <;> omega
  rw [C101_prints dates env jdk value hf d h hp hc s ps hn hr hk e t ht _ hs hx,
    ((C101_missing ps hk).1 sec n).2 hfield]

/-- **C101.** In particular no number can be printed with a pattern that has a field other than the fraction of a second, such as
`%t{yyyy-MM-dd}`: numbers become `Instant`s, and with a pattern these are not placed in a time zone. -/
theorem C101_numbers (dates : DateSyntax) (env : DateEnv) (jdk : JdkEnv) (value : Nat → Point)
    (hf : PatternFormats dates env value) (d : Directive) (h : d.Ok dates) (hp : d.Plain) (hc : d.conv = ch! 't')
    (s : JStr) (ps : List PatternPart) (hr : readPattern false s = some ps) (hk : ∀ p ∈ ps, p.Known)
    (hfield : ∃ f ∈ fieldsOf ps, f.1 ≠ ch! 'S') (e : Entry) (sec : Int) (n : Nat) (he : NumberAt e sec n)
    (rest : List Traits) :
    printf dates env ({ d with date := some s } : Directive).text (e.toTraits jdk :: rest) = .error .dateTime := by
  have fin : ∀ t, TimeReading e (.ok t) → Stands value t (.instant sec n) →
      printf dates env ({ d with date := some s } : Directive).text (e.toTraits jdk :: rest) = .error .dateTime :=
    fun t ht hs => C101_instants dates env jdk value hf d h hp hc s ps hr hk hfield e t ht sec n hs rest
  cases he with
  | int he => exact fin _ (.int he) (.second _)
  | seconds he h1 h2 => exact fin _ (.seconds he h1 h2) (.second _)
  | millis he h1 => exact fin _ (.millis he h1) (.milli (by omega) (by omega))

/-- **C101.** `%T{pattern}` prints the same with ASCII letters raised, which are those of the literals. -/
theorem C101_upper (dates : DateSyntax) (env : DateEnv) (jdk : JdkEnv) (value : Nat → Point)
    (hf : PatternFormats dates env value) (d : Directive) (h : d.Ok dates) (hp : d.Plain) (hc : d.conv = ch! 't')
    (s : JStr) (ps : List PatternPart) (hn : s ≠ []) (hr : readPattern false s = some ps) (hk : ∀ p ∈ ps, p.Known)
    (e : Entry) (t : Temporal) (ht : TimeReading e (.ok t)) (x : Point) (hs : Stands value t x) (hx : x.Exists)
    (out : JStr) (ho : patternText x ps = some out) :
    printf dates env ({ d with conv := ch! 'T', date := some s } : Directive).text [e.toTraits jdk] =
      .ok (padded (ch! '-' ∈ d.flags) d.width.width (out.map upper)) := by
  have hp' := C101_prints dates env jdk value hf d h hp hc s ps hn hr hk e t ht x hs hx []
  rw [ho] at hp'
  have hb := read_balanced false s hr
  have hok : Directive.Ok dates { d with date := some s } :=
    ⟨h.flagsOk, h.noRepeat, h.width, h.prec, h.conv, fun p hp => by
      cases hp
      exact ⟨.inl hc, hn, by simpa using hb.1, fun pre post he => by simpa using hb.2 pre post he,
        hf.accepted s ps hr hk⟩, h.notPercent⟩
  have given : ∀ {i : Integral}, i.Given e → WellBehaved e := by intro i hg; cases hg <;> exact trivial
  have he : WellBehaved e := by
    cases ht with
    | int hg => exact given hg
    | seconds hg _ _ => cases hg with | long hg => exact given hg | big _ _ _ _ => exact trivial | number => exact trivial
    | millis hg _ => cases hg with | long hg => exact given hg | big _ _ _ _ => exact trivial | number => exact trivial
    | date => exact trivial
    | calendar => exact trivial
    | temporal => exact trivial
  have hu := (C19_upper_case dates env jdk { d with date := some s } hok (ch! 'T') (by rw [hc]; decide) [e]
    (by simpa using he)).2
  simp only [List.map_cons, List.map_nil] at hu
  rcases hu with hu | ⟨_, hu, _⟩
  · rw [hu, hp']
    show Except.ok _ = Except.ok _
    congr 1
    have sp : upper 32 = 32 := by decide
    unfold padded
    split <;> simp [List.map_append, List.map_replicate, sp]
  · rw [hp'] at hu; cases hu

/-- **C101.** A pattern with `yyyy MM dd HH mm ss` in this order, then perhaps the fraction, with any text between:
what it prints for `LocalDateTime`s of the years 1 to 9999 is all of one length and sorts like the times, and equal
texts mean equal times (up to the digits of the fraction). -/
theorem C101_sorted (dates : DateSyntax) (env : DateEnv) (jdk : JdkEnv) (value : Nat → Point)
    (hf : PatternFormats dates env value) (d : Directive) (h : d.Ok dates) (hp : d.Plain) (hc : d.conv = ch! 't')
    (s : JStr) (ps : List PatternPart) (hr : readPattern false s = some ps) (hk : ∀ p ∈ ps, p.Known) (n : Nat)
    (hn : n ≤ 9) (hfields : fieldsOf ps = fromYearTo n) (e e' : Entry) (a a' : Temporal)
    (ha : TimeReading e (.ok a)) (ha' : TimeReading e' (.ok a')) (t u : DayTime)
    (hs : Stands value a (.localDateTime t)) (hs' : Stands value a' (.localDateTime u))
    (ht : t.Exists) (hu : u.Exists) (yt : FourDigitYear t.date) (yu : FourDigitYear u.date) (rest rest' : List Traits) :
    ∃ x y, printf dates env ({ d with date := some s } : Directive).text (e.toTraits jdk :: rest) = .ok x ∧
      printf dates env ({ d with date := some s } : Directive).text (e'.toTraits jdk :: rest') = .ok y ∧
      x.length = y.length ∧ (compareTo x y < 0 ↔ t.units n < u.units n) ∧ (x = y ↔ t.units n = u.units n) := by
  have hne : s ≠ [] := by
    rintro rfl
    cases hr
    cases hfields
  have reach : ∀ {t : DayTime}, FourDigitYear t.date → t.date.InReach := by
    intro t ⟨h1, h2⟩; exact ⟨by omega, by omega⟩
  have px := C101_prints dates env jdk value hf d h hp hc s ps hne hr hk e a ha _ hs ⟨ht, reach yt⟩ rest
  have py := C101_prints dates env jdk value hf d h hp hc s ps hne hr hk e' a' ha' _ hs' ⟨hu, reach yu⟩ rest'
  have key : ∀ {t u : DayTime}, t.Exists → u.Exists → FourDigitYear t.date → FourDigitYear u.date →
      ∃ x y, patternText (.localDateTime t) ps = some x ∧ patternText (.localDateTime u) ps = some y ∧
        x.length = y.length ∧ (t.units n < u.units n → ∀ r r', compareTo (x ++ r) (y ++ r') < 0) ∧
        (t.units n = u.units n → x = y) := by
    intro t u ht hu yt yu
    have a1 := field_text hn ht yt
    have a2 := field_text hn hu yu
    obtain ⟨x, y, h1, h2, h3, h4, h5⟩ := texts_compare ps (by rw [hfields]; exact fun f hf => (a1 f hf).1)
      (by rw [hfields]; exact fun f hf => (a2 f hf).1) (by rw [hfields]; exact fun f hf => (a2 f hf).2)
    refine ⟨x, y, h1, h2, h3, fun hl => h4 ?_, fun he => h5 ?_⟩
    · rw [hfields]; exact units_lt ht hu yt yu hn hl
    · rw [hfields]; exact units_eq ht hu hn he
  obtain ⟨x, y, h1, h2, h3, h4, h5⟩ := key ht hu yt yu
  obtain ⟨y', x', k1, k2, k3, k4, k5⟩ := key hu ht yu yt
  rw [h2] at k1; cases k1
  rw [h1] at k2; cases k2
  rw [h1] at px
  rw [h2] at py
  have cmp : ∀ {x y : JStr}, x.length = y.length → (∀ r r', compareTo (x ++ r) (y ++ r') < 0) →
      compareTo (padded (ch! '-' ∈ d.flags) d.width.width x) (padded (ch! '-' ∈ d.flags) d.width.width y) < 0 := by
    intro x y hl hc
    unfold padded
    rw [hl]
    split
    · exact hc _ _
    · rw [compareTo_append]; simpa using hc [] []
  refine ⟨_, _, px, py, ?_, ?_⟩
  · unfold padded
    split <;> simp only [List.length_append, List.length_replicate] <;> omega
  · rcases Int.lt_trichotomy (t.units n) (u.units n) with hl | hl | hl
    · have := cmp h3 (h4 hl)
      refine ⟨⟨fun _ => hl, fun _ => this⟩, fun he => ?_, fun he => by omega⟩
      rw [he, compareTo_self] at this; omega
    · rw [h5 hl]
      exact ⟨⟨fun hx => by rw [compareTo_self] at hx; omega, fun _ => by omega⟩, fun _ => hl, fun _ => rfl⟩
    · have := cmp k3 (k4 hl)
      have hs := compareTo_swap (padded (ch! '-' ∈ d.flags) d.width.width y) (padded (ch! '-' ∈ d.flags) d.width.width x)
      refine ⟨⟨fun _ => by omega, fun _ => by omega⟩, fun he => ?_, fun he => by omega⟩
      rw [he, compareTo_self] at this; omega

/-! ### Not vacuous -/

/-- What a temporal object says. -/
def Spec.pointOf (value : Nat → Point) : Temporal → Option Point
  | .stamp (.epochSecond s) => some (.instant s 0)
  | .stamp (.epochMilli ms) => some (.instant (ms / 1000) ((ms % 1000).toNat * 1000000))
  | .obj .instant id => match value id with | .instant s n => some (.instant s n) | _ => none
  | .obj .offsetDateTime id => match value id with | .offset t o => some (.offset t o) | _ => none
  | .obj .zonedDateTime id => match value id with | .offset t o => some (.offset t o) | _ => none
  | .obj .localDateTime id => match value id with | .localDateTime t => some (.localDateTime t) | _ => none
  | .obj .localDate id => match value id with | .localDate d => some (.localDate d) | _ => none
  | _ => none

theorem Spec.Stands.pointOf {value : Nat → Point} {t : Temporal} {x : Point} (h : Stands value t x) :
    pointOf value t = some x := by
  cases h with
  | second s => rfl
  | milli h hn =>
    simp only [Spec.pointOf, Option.some.injEq, Point.instant.injEq]
    omega
  | instant h _ => simp only [Spec.pointOf, h]
  | offset h => simp only [Spec.pointOf, h]
  | zoned h => simp only [Spec.pointOf, h]
  | localDateTime h => simp only [Spec.pointOf, h]
  | localDate h => simp only [Spec.pointOf, h]

/-- A JDK that formats patterns as documented. -/
def patternEnv (value : Nat → Point) : DateEnv where
  format f t :=
    match f, pointOf value t with
    | .pattern s, some x =>
      match (readPattern false s).bind (patternText x) with
      | some out => .ok out
      | none => .error .dateTime
    | _, _ => .error .external

theorem patternEnv_formats (value : Nat → Point) : PatternFormats anyDates (patternEnv value) value := by
  refine ⟨fun _ _ _ _ => rfl, fun s ps t x hr _ hs _ => ?_⟩
  simp only [patternEnv, hs.pointOf, hr, Option.bind_some]
  cases patternText x ps <;> rfl

/-- The time of the README, 10:30 on 27 October 2023; the second value is two hours ahead of UTC, the third is a date,
the others are moments. -/
def sampleTimes : Nat → Point
  | 0 => .localDateTime ⟨⟨2023, 10, 27⟩, 10, 30, 0, 250000000⟩
  | 1 => .offset ⟨⟨2023, 10, 27⟩, 10, 30, 0, 250000000⟩ 7200
  | 2 => .localDate ⟨2023, 10, 27⟩
  | _ => .instant 1698395400 250000000

def timeArg (k : TemporalKind) (id : Nat) : Traits := (Entry.ref (.temporal (.obj k id) (.ok []) someId)).toTraits sampleJdk

example : printf anyDates (patternEnv sampleTimes) (js! "Time: %t{yyyy-MM-dd HH:mm:ss}") [timeArg .localDateTime 0] =
    .ok (js! "Time: 2023-10-27 10:30:00") := by decide +kernel
example : printf anyDates (patternEnv sampleTimes) (js! "%t{yyyy-MM-dd'T'HH:mm:ss.SSSZ}") [timeArg .offsetDateTime 1] =
    .ok (js! "2023-10-27T10:30:00.250+0200") := by decide +kernel
example : printf anyDates (patternEnv sampleTimes) (js! "%-12T{d.M.yy 'at' H}|") [timeArg .localDateTime 0] =
    .ok (js! "27.10.23 AT 10|") := by decide +kernel
example : printf anyDates (patternEnv sampleTimes) (js! "%t{yyyy-MM-dd'T'HH:mm:ss.SSSZ}") [timeArg .localDateTime 0] =
    .error .dateTime := by decide +kernel
example : printf anyDates (patternEnv sampleTimes) (js! "%t{HH:mm}") [timeArg .localDate 2] = .error .dateTime := by
  decide +kernel
/-- The same moment as a number of seconds: without a pattern it can be printed, with the pattern it cannot. -/
example : printf anyDates (patternEnv sampleTimes) (js! "%t{yyyy-MM-dd HH:mm:ss}")
    [(Entry.prim (.long 1698395400#64)).toTraits sampleJdk] = .error .dateTime := by decide +kernel
example : printf anyDates (patternEnv sampleTimes) (js! "%t{HH:mm}") [timeArg .instant 3] = .error .dateTime := by
  decide +kernel
example : printf anyDates (patternEnv sampleTimes) (js! "%t{SSS' ms'}")
    [(Entry.prim (.long 1698395400250#64)).toTraits sampleJdk] = .ok (js! "250 ms") := by decide +kernel
example : (readPattern false (js! "yyyy-MM-dd'T'HH:mm:ss.SSS")).map fieldsOf = some (fromYearTo 3) := by decide +kernel
example : (sampleTimes 0).Exists ∧ (sampleTimes 1).Exists := by
  simp only [sampleTimes, Point.Exists, DayTime.Exists, Day.Exists, Day.InReach]; decide

end FastPrintf
