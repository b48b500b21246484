/-
C94: objects of a user's own classes, which may be several things at once and whose methods may throw.
-/
import Verif.Spec.Things
import Verif.Props.Foreign
import Verif.Props.Readings
import Verif.Props.Args

namespace FastPrintf
open Spec

/-- The argument that a role makes of an object: that of C68 for text; a number, a point in time, or the object's
own `FormatTraits`; else the object seen through its methods. -/
def Spec.Role.argument (jdk : JdkEnv) (t : Thing) : Role → Traits
  | .text m => ForeignSeq.traits jdk { length := m.length, charAt := m.charAt, toStr := t.text, left := m.left } t.id
  | .bigInteger v => (Entry.ref (.bigInteger v t.id)).toTraits jdk
  | .bigDecimal u s => (Entry.ref (.bigDecimal u s t.id)).toTraits jdk
  | .moment x => (Entry.ref (.temporal x t.text t.id)).toTraits jdk
  | .traits x => x
  | .object b => Thing.methodTraits b t.text t.id.ref

/-- **C94.**  Every object is put as exactly one of the things that it is. -/
theorem C94_one (t : Thing) : ∃ r, PutAs t r ∧ ∀ r', PutAs t r' → r' = r := by
  have key : ∀ r, PutAs t r → ∀ r', PutAs t r' → r' = r := by
    intro r h r' h'
    have e : r.rank = r'.rank := Nat.le_antisymm (h.first r' h'.plays) (h'.first r h.plays)
    cases h.plays <;> cases h'.plays <;> simp_all [Role.rank]
  suffices h : ∃ r, PutAs t r from h.elim fun r hr => ⟨r, hr, key r hr⟩
  cases hc : t.chars with
  | some m => exact ⟨.text m, .text hc, fun r' _ => Nat.zero_le _⟩
  | none =>
    have hobj : t.base = t.base := rfl
    by_cases hb : (∃ v, t.base = .bigInteger v) ∨ ∃ u s, t.base = .bigDecimal u s
    · rcases hb with ⟨v, hv⟩ | ⟨u, s, hu⟩
      · refine ⟨.bigInteger v, .bigInteger hv, fun r' hr => ?_⟩
        cases hr <;> simp_all [Role.rank]
      · refine ⟨.bigDecimal u s, .bigDecimal hu, fun r' hr => ?_⟩
        cases hr <;> simp_all [Role.rank]
    · cases ht : t.time with
      | some x =>
        refine ⟨.moment x, .moment ht, fun r' hr => ?_⟩
        cases hr <;> simp_all [Role.rank]
      | none =>
        cases hf : t.traits with
        | some x =>
          refine ⟨.traits x, .traits hf, fun r' hr => ?_⟩
          cases hr <;> simp_all [Role.rank]
        | none =>
          refine ⟨.object t.base, .object rfl, fun r' hr => ?_⟩
          cases hr <;> simp_all [Role.rank]

/-- **C94.**  `put(Object)` takes an object for the first of: a text, a `BigInteger` or `BigDecimal`, a point in
time, a `FormatTraits`, a `Number`, `Date` or `Calendar`; what else it is does not matter. -/
theorem C94_put (jdk : JdkEnv) (t : Thing) (r : Role) (h : PutAs t r) : t.put jdk = r.argument jdk t := by
  have text : ∀ m, t.chars = some m → r.rank = 0 := fun m hm => Nat.le_zero.1 (h.first _ (.text hm))
  have big1 : ∀ v, t.base = .bigInteger v → r.rank ≤ 1 := fun v hv => h.first _ (.bigInteger hv)
  have big2 : ∀ u s, t.base = .bigDecimal u s → r.rank ≤ 1 := fun u s hv => h.first _ (.bigDecimal hv)
  have time : ∀ x, t.time = some x → r.rank ≤ 2 := fun x hx => h.first _ (.moment hx)
  have own : ∀ x, t.traits = some x → r.rank ≤ 3 := fun x hx => h.first _ (.traits hx)
  obtain ⟨base, chars, tm, tr, txt, id⟩ := t
  unfold Thing.put
  cases h.plays <;> rename_i hp <;> simp only at hp text big1 big2 time own <;> subst hp
  · rfl
  · cases chars with
    | some m => exact absurd (text m rfl) (by simp [Role.rank])
    | none => rfl
  · cases chars with
    | some m => exact absurd (text m rfl) (by simp [Role.rank])
    | none => rfl
  · cases chars with
    | some m => exact absurd (text m rfl) (by simp [Role.rank])
    | none =>
      cases base with
      | bigInteger v => exact absurd (big1 v rfl) (by simp [Role.rank])
      | bigDecimal u s => exact absurd (big2 u s rfl) (by simp [Role.rank])
      | _ => rfl
  · cases chars with
    | some m => exact absurd (text m rfl) (by simp [Role.rank])
    | none =>
      cases tm with
      | some x => exact absurd (time x rfl) (by simp [Role.rank])
      | none =>
        cases base with
        | bigInteger v => exact absurd (big1 v rfl) (by simp [Role.rank])
        | bigDecimal u s => exact absurd (big2 u s rfl) (by simp [Role.rank])
        | _ => rfl
  · cases chars with
    | some m => exact absurd (text m rfl) (by simp [Role.rank])
    | none =>
      cases tm with
      | some x => exact absurd (time x rfl) (by simp [Role.rank])
      | none =>
        cases tr with
        | some x => exact absurd (own x rfl) (by simp [Role.rank])
        | none =>
          cases base with
          | bigInteger v => exact absurd (big1 v rfl) (by simp [Role.rank])
          | bigDecimal u s => exact absurd (big2 u s rfl) (by simp [Role.rank])
          | _ => rfl

/-- **C94.**  The methods for one type take an object as that type, whatever else it is. -/
theorem C94_typed (jdk : JdkEnv) (t : Thing) :
    (∀ m, t.putCharSequence jdk m = (Role.text m).argument jdk t) ∧
    (∀ v, t.putBigInteger v = (Role.bigInteger v).argument jdk t) ∧
    (∀ u s, t.putBigDecimal jdk u s = (Role.bigDecimal u s).argument jdk t) ∧
    ∀ x, t.putDateTime jdk x = (Role.moment x).argument jdk t :=
  ⟨fun _ => rfl, fun _ => rfl, fun _ _ => rfl, fun _ => rfl⟩

/-- **C94.**  An object that spells a text prints like the text everywhere, even if it is also a number, a date or a
`FormatTraits`; only `%p` knows its class. -/
theorem C94_text (jdk : JdkEnv) (t : Thing) (m : CharMethods) (h : t.chars = some m) (s : JStr)
    (hs : Spells ⟨m.length, m.charAt, t.text, m.left⟩ s) (ht : t.text = .ok s) :
    t.put jdk = (Entry.ref (.charSeq s t.id)).toTraits jdk := by
  rw [C94_put jdk t (.text m) ⟨.text h, fun _ _ => Nat.zero_le _⟩]
  exact C68_consistent jdk _ t.id s hs ht

/-- **C94.**  Asked a question, a `Number`, `Date` or `Calendar` answers like the `long`, `double`, `int`, `Date` or
point in time that the method for this question returns; the other methods do not matter. -/
theorem C94_answer (jdk : JdkEnv) (text : Res JStr) (id : Identity) (b : Base) (q : Question) (e : Entry)
    (h : StandsIn jdk text id b q e) : SameAnswer (Thing.methodTraits b text id.ref) (e.toTraits jdk) q := by
  cases h with
  | long d i hq =>
    simp only [List.mem_cons, List.not_mem_nil, or_false] at hq
    rcases hq with rfl | rfl <;> rfl
  | double l i => rfl
  | int l d hq =>
    simp only [List.mem_cons, List.not_mem_nil, or_false] at hq
    rcases hq with rfl | rfl <;> rfl
  | getTime x hq =>
    simp only [List.mem_cons, List.not_mem_nil, or_false] at hq
    rcases hq with rfl | rfl | rfl | rfl <;> rfl
  | toInstant ms => rfl
  | millis hq =>
    simp only [List.mem_cons, List.not_mem_nil, or_false] at hq
    rcases hq with rfl | rfl | rfl | rfl | rfl <;> rfl
  | other b hq =>
    simp only [List.mem_cons, List.not_mem_nil, or_false] at hq
    rcases hq with rfl | rfl <;> rfl
  | plain q => cases q <;> first | rfl | trivial

/-- Two argument lists that differ in one place. -/
theorem agree_at {x y : Traits} {q : Question} (h : SameAnswer x y q) :
    ∀ (pre post : List Traits) (qs : List Question), (∀ q', qs[pre.length]? = some q' → q' = q) →
      Agree qs (pre ++ x :: post) (pre ++ y :: post) := by
  have refl : ∀ (as : List Traits) (qs : List Question), Agree qs as as := by
    intro as
    induction as with
    | nil => intro qs; exact .short qs
    | cons a as ih =>
      intro qs
      cases qs with
      | nil => exact .done _ _
      | cons q qs => exact .next (by cases q <;> first | rfl | trivial) (ih qs)
  intro pre
  induction pre with
  | nil =>
    intro post qs hq
    cases qs with
    | nil => exact .done _ _
    | cons q' qs =>
      have := hq q' rfl
      subst this
      exact .next h (refl _ _)
  | cons a pre ih =>
    intro post qs hq
    cases qs with
    | nil => exact .done _ _
    | cons q' qs => exact .next (by cases q' <;> first | rfl | trivial) (ih post qs (by simpa using hq))

/-- **C94.**  So in every format, at every place, the object can be replaced by that simpler argument. -/
theorem C94_printf (dates : DateSyntax) (env : DateEnv) (jdk : JdkEnv) (f : JStr) (ps : List Piece)
    (hf : Reading dates f ps) (t : Thing) (b : Base) (ht : PutAs t (.object b)) (pre post : List Traits) (q : Question)
    (hq : (ps.flatMap Piece.questions)[pre.length]? = some q) (e : Entry) (he : StandsIn jdk t.text t.id b q e) :
    printf dates env f (pre ++ t.put jdk :: post) = printf dates env f (pre ++ e.toTraits jdk :: post) := by
  rw [C94_put jdk t _ ht]
  refine (C67_same_answers dates env f ps hf _ _ (agree_at (q := q) ?_ pre post _ ?_)).1
  · exact C94_answer jdk t.text t.id b q e he
  · intro q' h'; rw [hq] at h'; exact (Option.some.inj h').symm

/-- **C94.**  If the method for a question throws, the question is answered with that exception. -/
theorem C94_raises (text : Res JStr) (ref : RefSlot) (b : Base) (q : Question) (e : Err) (h : Raises text b q e) :
    Refuses (Thing.methodTraits b text ref) e q := by
  cases h with
  | text b h => simp [Refuses, Thing.methodTraits, h]
  | double h => simp [Refuses, Thing.methodTraits, h]
  | toInstant h => simp [Refuses, Thing.methodTraits, h]
  | long h hq =>
    simp only [List.mem_cons, List.not_mem_nil, or_false] at hq
    rcases hq with rfl | rfl <;> simp [Refuses, Thing.methodTraits, h]
  | int h hq =>
    simp only [List.mem_cons, List.not_mem_nil, or_false] at hq
    rcases hq with rfl | rfl <;> simp [Refuses, Thing.methodTraits, h]
  | getTime h hq =>
    simp only [List.mem_cons, List.not_mem_nil, or_false] at hq
    rcases hq with rfl | rfl | rfl | rfl <;> simp [Refuses, Thing.methodTraits, h]
  | millis h hq =>
    simp only [List.mem_cons, List.not_mem_nil, or_false] at hq
    rcases hq with rfl | rfl | rfl | rfl | rfl <;> simp [Refuses, Thing.methodTraits, h]

/-- **C94.**  Every question to an object is answered as one of the two theorems above says. -/
theorem C94_complete (jdk : JdkEnv) (text : Res JStr) (id : Identity) (b : Base) (hb : ∀ v, b ≠ .bigInteger v)
    (hd : ∀ u s, b ≠ .bigDecimal u s) (q : Question) (hq : q ≠ .nothing) :
    (∃ e, StandsIn jdk text id b q e) ∨ ∃ e, Raises text b q e := by
  cases b with
  | plain => exact .inl ⟨_, .plain q⟩
  | bigInteger v => exact absurd rfl (hb v)
  | bigDecimal u s => exact absurd rfl (hd u s)
  | number l d i =>
    cases q with
    | integer => cases l with
      | ok v => exact .inl ⟨_, .long d i (by simp)⟩
      | error e => exact .inr ⟨e, .long rfl (by simp)⟩
    | time => cases l with
      | ok v => exact .inl ⟨_, .long d i (by simp)⟩
      | error e => exact .inr ⟨e, .long rfl (by simp)⟩
    | floating => cases d with
      | ok v => exact .inl ⟨_, .double l i⟩
      | error e => exact .inr ⟨e, .double rfl⟩
    | count => cases i with
      | ok v => exact .inl ⟨_, .int l d (by simp)⟩
      | error e => exact .inr ⟨e, .int rfl (by simp)⟩
    | character => cases i with
      | ok v => exact .inl ⟨_, .int l d (by simp)⟩
      | error e => exact .inr ⟨e, .int rfl (by simp)⟩
    | text => exact .inl ⟨_, .other _ (by simp)⟩
    | reference => exact .inl ⟨_, .other _ (by simp)⟩
    | nothing => exact absurd rfl hq
  | date ms x =>
    cases q with
    | time => cases x with
      | ok v => exact .inl ⟨_, .toInstant ms⟩
      | error e => exact .inr ⟨e, .toInstant rfl⟩
    | text => exact .inl ⟨_, .other _ (by simp)⟩
    | reference => exact .inl ⟨_, .other _ (by simp)⟩
    | nothing => exact absurd rfl hq
    | _ => cases ms with
      | ok v => exact .inl ⟨_, .getTime x (by simp)⟩
      | error e => exact .inr ⟨e, .getTime rfl (by simp)⟩
  | calendar ms =>
    cases q with
    | text => exact .inl ⟨_, .other _ (by simp)⟩
    | reference => exact .inl ⟨_, .other _ (by simp)⟩
    | nothing => exact absurd rfl hq
    | _ => cases ms with
      | ok v => exact .inl ⟨_, .millis (by simp)⟩
      | error e => exact .inr ⟨e, .millis rfl (by simp)⟩

/-- **C94.**  The exception ends the call.  What the pieces before it wrote stays in the builder. -/
theorem C94_throws (dates : DateSyntax) (env : DateEnv) (jdk : JdkEnv) (f : JStr) (ps qs : List Piece) (d : Directive)
    (h : Reading dates f (ps ++ .dir d :: qs)) (as rest : List Traits) (t : Thing) (b : Base)
    (ht : PutAs t (.object b)) (sb out : JStr)
    (hp : runSB env (ps.map Piece.compiled) (as ++ t.put jdk :: rest) sb = ⟨out, .ok (t.put jdk :: rest)⟩)
    (e : Err) (he : Raises t.text b (if d.width = .star ∨ d.prec = .star then .count else question d.conv) e) :
    runSB env ((ps ++ .dir d :: qs).map Piece.compiled) (as ++ t.put jdk :: rest) sb = ⟨out, .error e⟩ ∧
      printf dates env f (as ++ t.put jdk :: rest) = .error e := by
  refine C67_refusal dates env f ps qs d h as rest _ sb out hp _ (C67_first_question d) e ?_
  rw [C94_put jdk t _ ht]
  exact C94_raises t.text _ b _ e he

/-- **C94.**  If no method throws, this is the argument that the other properties speak of. -/
theorem C94_plain (jdk : JdkEnv) (text : Res JStr) (id : Identity) :
    Thing.methodTraits .plain text id.ref = (Entry.ref (.object .other text id)).toTraits jdk ∧
    (∀ l d i, Thing.methodTraits (.number (.ok l) (.ok d) (.ok i)) text id.ref =
      (Entry.ref (.object (.number l d i) text id)).toTraits jdk) ∧
    (∀ ms x, Thing.methodTraits (.date (.ok ms) x) text id.ref =
      (Entry.ref (.object (.date ms x) text id)).toTraits jdk) ∧
    ∀ ms, Thing.methodTraits (.calendar (.ok ms)) text id.ref =
      (Entry.ref (.object (.calendar ms) text id)).toTraits jdk :=
  ⟨rfl, fun _ _ _ => rfl, fun _ _ => rfl, fun _ => rfl⟩

/-- Nothing that the class of an object is asked for throws. -/
inductive Spec.Quiet : Base → ObjectKind → Prop
  | plain : Quiet .plain .other
  | number (l d : BitVec 64) (i : BitVec 32) : Quiet (.number (.ok l) (.ok d) (.ok i)) (.number l d i)
  | date (ms : BitVec 64) (x : Res Temporal) : Quiet (.date (.ok ms) x) (.date ms x)
  | calendar (ms : BitVec 64) : Quiet (.calendar (.ok ms)) (.calendar ms)

/-- The object, as C36 sees it. -/
structure Spec.SameObject (t : Thing) (r : Ref) : Prop where
  id : r.id = t.id
  boxed : r.boxed = none
  text : r.text = t.text
  chars : (t.chars = none ∧ r.charSequence = none) ∨
    ∃ m s, t.chars = some m ∧ r.charSequence = some (.other s) ∧ Spells ⟨m.length, m.charAt, t.text, m.left⟩ s ∧ t.text = .ok s
  time : r.temporal = t.time
  traits : r.formatTraits = t.traits
  base : (∃ v, t.base = .bigInteger v ∧ r.bigInteger = some v) ∨
    (∃ u s, t.base = .bigDecimal u s ∧ r.bigInteger = none ∧ r.bigDecimal = some (u, s)) ∨
    (Quiet t.base r.kind ∧ r.bigInteger = none ∧ r.bigDecimal = none)

/-- **C94.**  The container of C36 takes the object in the same way. -/
theorem C94_container (jdk : JdkEnv) (l : List StoredArg) (t : Thing) (r : Ref) (h : SameObject t r) :
    ArgsImpl.traits jdk (ArgsImpl.put l (some r)) = ArgsImpl.traits jdk l ++ [t.put jdk] := by
  obtain ⟨id, boxed, text, chars, time, traits, base⟩ := h
  have add : ∀ x, ArgsImpl.traits jdk (l ++ [x]) = ArgsImpl.traits jdk l ++ [x.toTraits jdk] := by
    intro x; simp [ArgsImpl.traits]
  simp only [ArgsImpl.put, boxed]
  rcases chars with ⟨h1, h2⟩ | ⟨m, s, h1, h2, h3, h4⟩
  · simp only [h2]
    rcases base with ⟨v, hb, hv⟩ | ⟨u, s, hb, hv, hu⟩ | ⟨hq, hv, hu⟩
    · simp only [hv, add, Thing.put, h1, hb, id]; rfl
    · simp only [hv, hu, add, Thing.put, h1, hb, id]; rfl
    · simp only [hv, hu, time]
      cases ht : t.time with
      | some x =>
        simp only [add, id, text]
        cases hq' : t.base <;> simp only [Thing.put, h1, hq', ht] <;> first | rfl | (rw [hq'] at hq; cases hq)
      | none =>
        simp only [ArgsImpl.putObject, traits]
        cases hf : t.traits with
        | some x =>
          simp only [add]
          cases hq' : t.base <;> simp only [Thing.put, h1, hq', ht, Thing.putObject, hf] <;>
            first | rfl | (rw [hq'] at hq; cases hq)
        | none =>
          simp only [add, id, text]
          generalize hk : r.kind = k at hq
          generalize hb : t.base = b at hq
          cases hq <;> simp only [Thing.put, h1, hb, ht, Thing.putObject, hf] <;> rfl
  · rw [C94_text jdk t m h1 s h3 h4]
    simp only [h2, add, id]; rfl

/-! ### Examples -/

/-- A `Number` that also spells a text, is a point in time, and implements `FormatTraits`. -/
def manyThings : Thing where
  base := .number (.ok 7#64) (.error .external) (.error .arithmetic)
  chars := some ⟨.ok 2, fun i => match (js! "42")[i]? with | some c => .ok c | none => .error .indexOutOfBounds, []⟩
  time := some (.stamp (.epochSecond 0))
  traits := some nullTraits
  text := .ok (js! "42")
  id := someId

example : ∃ m, PutAs manyThings (.text m) := ⟨_, .text rfl, fun _ _ => Nat.zero_le _⟩
example : printf ⟨fun _ => true⟩ sampleDateEnv (js! "%s %d") [manyThings.put sampleJdk, manyThings.put sampleJdk] =
    .ok (js! "42 42") := by decide +kernel
-- without the text it is a point in time, without that a `FormatTraits`, and then a number
example : printf ⟨fun _ => true⟩ sampleDateEnv (js! "%c") [{ manyThings with chars := none }.put sampleJdk] =
    .error (.printf (.wrongType .temporalToChar)) := by decide +kernel
example : printf ⟨fun _ => true⟩ sampleDateEnv (js! "%s")
    [{ manyThings with chars := none, time := none }.put sampleJdk] = .ok (js! "null") := by decide +kernel
/-- A `Number` of which only `longValue()` answers. -/
def onlyLong : Thing := { manyThings with chars := none, time := none, traits := none }

theorem onlyLong_put : PutAs onlyLong (.object (.number (.ok 7#64) (.error .external) (.error .arithmetic))) :=
  ⟨.object rfl, fun r h => by cases h <;> simp_all [onlyLong, manyThings, Role.rank]⟩

example : printf ⟨fun _ => true⟩ sampleDateEnv (js! "%s %03d") [onlyLong.put sampleJdk, onlyLong.put sampleJdk] =
    .ok (js! "42 007") := by decide +kernel
example : printf ⟨fun _ => true⟩ sampleDateEnv (js! "%f") [onlyLong.put sampleJdk] = .error .external := by
  decide +kernel
example : printf ⟨fun _ => true⟩ sampleDateEnv (js! "%*d") [onlyLong.put sampleJdk, onlyLong.put sampleJdk] =
    .error .arithmetic := by decide +kernel
example : Raises onlyLong.text onlyLong.base .character .arithmetic := .int rfl (by simp)
example : StandsIn sampleJdk onlyLong.text someId onlyLong.base .integer (.prim (.long 7#64)) := .long _ _ (by simp)
-- a calendar that is not lenient, with a thirteenth month: only its text can be printed
example : ∀ q ∈ [Question.integer, .floating, .count, .character, .time],
    Refuses (Thing.methodTraits (.calendar (.error .illegalArgument)) (.ok []) someId.ref) .illegalArgument q :=
  fun q hq => C94_raises _ _ _ q _ (.millis rfl hq)

-- the object of many things, as C36 sees it
example : ∃ r, SameObject { manyThings with base := .plain } r :=
  ⟨{ id := someId, charSequence := some (.other (js! "42")), temporal := some (.stamp (.epochSecond 0)),
     formatTraits := some nullTraits, text := .ok (js! "42") }, rfl, rfl, rfl,
    .inr ⟨_, _, rfl, rfl, ⟨rfl, by
      intro i c hc
      show (match (js! "42")[i]? with | some c => Except.ok c | none => Except.error Err.indexOutOfBounds) = _
      rw [hc]⟩, rfl⟩, rfl, rfl, .inr (.inr ⟨.plain, rfl, rfl⟩)⟩

end FastPrintf
