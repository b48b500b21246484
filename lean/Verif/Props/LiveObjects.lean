/-
C96: which methods of a user's object are called, and how often.
-/
import Verif.Spec.LiveObjects
import Verif.Props.Live
import Verif.Props.Things

namespace FastPrintf
open Spec

variable {σ : Type}

/-- **C96.**  For each question exactly one method of the object is called (none for `%p` and `%n`), and the answer is
the one of an ordinary object whose method answers the same; what the other methods of the ordinary object
answer does not matter. -/
theorem C96_one_method (o : LiveObject σ) (q : Question) (s s' : σ) (b : Base) (text : Res JStr)
    (h : Answered o s b text s' (method o.base q)) :
    Gives o.traits s (Thing.methodTraits b text o.id.ref) s' q := by
  obtain ⟨base, otext, id⟩ := o
  have lift : ∀ {α β : Type} {x : Effect σ α} {r : Res α} (f : α → β), x s = (r, s') →
      (x >>= fun a => (pure (f a) : Effect σ β)) s = (r >>= fun a => .ok (f a), s') := by
    intro α β x r f hx
    cases r with
    | ok a => exact Effect.bind_of_ok hx
    | error e => exact Effect.bind_of_error hx
  cases base <;> cases q <;> simp only [method, Answered, Alike] at h
  case number.time l d i =>
    obtain ⟨_, _, _, _, _, _, h1, rfl, h2⟩ := h
    cases h1
    exact Effect.bind_lift h2
  case date.time ms i =>
    obtain ⟨_, _, _, _, h1, rfl, h2⟩ := h
    cases h1
    exact h2
  all_goals first
    | exact h.2
    | exact lift Seq.wrap h.2
    | (obtain ⟨_, rfl⟩ := h; rfl)
    | (obtain ⟨_, _, _, _, _, _, h1, rfl, h2⟩ := h; cases h1; exact lift _ h2)
    | (obtain ⟨_, _, _, _, h1, rfl, h2⟩ := h; cases h1; exact lift _ h2)
    | (obtain ⟨_, _, h1, rfl, h2⟩ := h; cases h1; exact lift _ h2)
    | (cases b with
       | plain => exact Prod.ext rfl (congrArg Prod.snd (a₂ := (text, s')) h.2)
       | _ => exact h.1.elim)

/-- An object has the methods that its kind has, so every question is answered by some ordinary object. -/
theorem Answered.exists (o : LiveObject σ) (q : Question) (s : σ) :
    ∃ b text s', Answered o s b text s' (method o.base q) ∧ Alike o.base b := by
  obtain ⟨base, otext, id⟩ := o
  cases base with
  | plain =>
    cases q
    case reference => exact ⟨.plain, (otext s).1, s, ⟨trivial, rfl⟩, trivial⟩
    case nothing => exact ⟨.plain, (otext s).1, s, ⟨trivial, rfl⟩, trivial⟩
    all_goals exact ⟨.plain, (otext s).1, (otext s).2, ⟨trivial, rfl⟩, trivial⟩
  | number l d i =>
    refine ⟨.number (l s).1 (d s).1 (i s).1, (otext s).1, ?_⟩
    cases q
    case count => exact ⟨(i s).2, ⟨_, _, _, _, _, _, rfl, rfl, rfl⟩, trivial⟩
    case integer => exact ⟨(l s).2, ⟨_, _, _, _, _, _, rfl, rfl, rfl⟩, trivial⟩
    case floating => exact ⟨(d s).2, ⟨_, _, _, _, _, _, rfl, rfl, rfl⟩, trivial⟩
    case time => exact ⟨(l s).2, ⟨_, _, _, _, _, _, rfl, rfl, rfl⟩, trivial⟩
    case text => exact ⟨(otext s).2, ⟨trivial, rfl⟩, trivial⟩
    case character => exact ⟨(i s).2, ⟨_, _, _, _, _, _, rfl, rfl, rfl⟩, trivial⟩
    case reference => exact ⟨s, ⟨trivial, rfl⟩, trivial⟩
    case nothing => exact ⟨s, ⟨trivial, rfl⟩, trivial⟩
  | date ms i =>
    refine ⟨.date (ms s).1 (i s).1, (otext s).1, ?_⟩
    cases q
    case time => exact ⟨(i s).2, ⟨_, _, _, _, rfl, rfl, rfl⟩, trivial⟩
    case text => exact ⟨(otext s).2, ⟨trivial, rfl⟩, trivial⟩
    case reference => exact ⟨s, ⟨trivial, rfl⟩, trivial⟩
    case nothing => exact ⟨s, ⟨trivial, rfl⟩, trivial⟩
    all_goals exact ⟨(ms s).2, ⟨_, _, _, _, rfl, rfl, rfl⟩, trivial⟩
  | calendar ms =>
    refine ⟨.calendar (ms s).1, (otext s).1, ?_⟩
    cases q
    case text => exact ⟨(otext s).2, ⟨trivial, rfl⟩, trivial⟩
    case reference => exact ⟨s, ⟨trivial, rfl⟩, trivial⟩
    case nothing => exact ⟨s, ⟨trivial, rfl⟩, trivial⟩
    all_goals exact ⟨(ms s).2, ⟨_, _, rfl, rfl, rfl⟩, trivial⟩

theorem Spec.Called.answers {qs : List Question} {os : List (LiveObject σ)} {s s' : σ} {xs : List (Base × Res JStr)}
    (h : Called qs os s xs s') : Answers qs (os.map LiveObject.traits) s (frozenTraits os xs) s' := by
  induction h with
  | over s h => exact .over s (by simp [frozenTraits, h.length_eq])
  | next h rest ih => exact .next (C96_one_method _ _ _ _ _ _ h) ih

/-- Arguments that give answers when asked in turn are called in turn. -/
theorem Called.of_answers {qs : List Question} {os : List (LiveObject σ)} {s s' : σ} {ts : List Traits}
    (h : Answers qs (os.map LiveObject.traits) s ts s') : ∃ xs, Called qs os s xs s' := by
  induction qs generalizing os s ts with
  | nil =>
    cases h with
    | over _ _ =>
      have : ∀ os : List (LiveObject σ), ∃ xs : List (Base × Res JStr), List.Forall₂ (fun o x => Alike o.base x.1) os xs := by
        intro os
        induction os with
        | nil => exact ⟨[], .nil⟩
        | cons o os ih =>
          obtain ⟨xs, h⟩ := ih
          obtain ⟨b, text, _, _, h1⟩ := Answered.exists o .nothing s'
          exact ⟨(b, text) :: xs, .cons h1 h⟩
      obtain ⟨xs, h⟩ := this os
      exact ⟨xs, .over s' h⟩
  | cons q qs ih =>
    cases os with
    | nil => cases h
    | cons o os =>
      cases h with
      | @next _ _ _ _ _ s1 _ t ts h rest =>
        obtain ⟨b, text, s2, h1, _⟩ := Answered.exists o q s
        cases Gives.state h (C96_one_method _ _ _ _ _ _ h1)
        obtain ⟨xs, hxs⟩ := ih rest
        exact ⟨(b, text) :: xs, .next h1 hxs⟩

/-- **C96.**  `format(Args)` with objects of a user's own classes, whose methods may do anything: it returns a text
exactly when the methods, one per place and in the order of the format, give answers with which ordinary
objects are formatted to that text. -/
theorem C96_text (dates : DateSyntax) (env : DateEnv) (f : JStr) (ps : List Piece) (h : Reading dates f ps)
    (os : List (LiveObject σ)) (w w' : σ) (text : JStr) :
    Live.printf dates env f (os.map LiveObject.traits) w = (.ok text, w') ↔
      ∃ xs, Called (ps.flatMap Piece.questions) os w xs w' ∧
        printf dates env f (frozenTraits os xs) = .ok text := by
  rw [C95_text dates env f ps h]
  constructor
  · rintro ⟨ts, h1, h2⟩
    obtain ⟨xs, hxs⟩ := Called.of_answers h1
    refine ⟨xs, hxs, ?_⟩
    rw [(C67_same_answers dates env f ps h _ _ (hxs.answers.agree h1)).1, h2]
  · rintro ⟨xs, h1, h2⟩
    exact ⟨_, h1.answers, h2⟩

/-- **C96.**  If it throws, the methods called were those of a first part of the questions, and their answers alone
decide the exception. -/
theorem C96_throws (dates : DateSyntax) (env : DateEnv) (f : JStr) (ps : List Piece) (h : Reading dates f ps)
    (os : List (LiveObject σ)) (w w' : σ) (e : Err)
    (hp : Live.printf dates env f (os.map LiveObject.traits) w = (.error e, w')) :
    ∃ n, n ≤ (ps.flatMap Piece.questions).length ∧
      (∃ xs, Called ((ps.flatMap Piece.questions).take n) os w xs w') ∧
      ∀ xs, Called ((ps.flatMap Piece.questions).take n) os w xs w' →
        printf dates env f (frozenTraits os xs) = .error e := by
  obtain ⟨n, hn, ⟨ts, hts⟩, hall⟩ := C95_throws dates env f ps h _ w w' e hp
  exact ⟨n, hn, Called.of_answers hts, fun xs hxs => hall _ hxs.answers⟩

/-- **C96.**  Under the conversions for numbers and times, and as a `*`, an object that is neither a number nor a date
has its `toString()` called all the same, for the message; an exception of `toString()` is swallowed, but what the
method changed stays changed. -/
theorem C96_message (o : LiveObject σ) (ho : o.base = .plain) (s : σ) :
    o.traits.asIntForm s = (.error (.printf (.wrongType .notANumber)), (o.text s).2) ∧
    o.traits.asFloatForm s = (.error (.printf (.wrongType .notANumber)), (o.text s).2) ∧
    o.traits.asTemporal s = (.error (.printf (.wrongType .objectToTemporal)), (o.text s).2) ∧
    o.traits.asInt s = (.error (.printf (.wrongType .objectToInt)), (o.text s).2) ∧
    o.traits.asChar s = (.error (.printf (.wrongType .objectToInt)), (o.text s).2) := by
  simp [LiveObject.traits, ho, LiveObject.wrongType]

/-! ### Examples -/

/-- A `Number` that counts its calls in the state: `longValue()` in units, `doubleValue()` in tens, `intValue()` in
hundreds, `toString()` in thousands. -/
def tally : LiveObject Nat where
  base := .number (fun s => (.ok (BitVec.ofNat 64 s), s + 1)) (fun s => (.ok 0#64, s + 10))
    (fun s => (.ok (BitVec.ofNat 32 (s % 6)), s + 100))
  text := fun s => (.ok (js! "t"), s + 1000)
  id := someId

example : Live.printf ⟨fun _ => true⟩ sampleDateEnv (js! "%d|%s|%*x|%.1f|%d") ([tally, tally, tally, tally, tally, tally].map
    LiveObject.traits) 0 = (.ok (js! "0|t|  44d|0.0|1112"), 1113) := by decide +kernel

/-- An object that is nothing in particular and whose `toString()` counts and throws. -/
def grumpy : LiveObject Nat := ⟨.plain, fun s => (.error .external, s + 1), someId⟩

example : Live.printf ⟨fun _ => true⟩ sampleDateEnv (js! "%d") [grumpy.traits] 5 =
    (.error (.printf (.wrongType .notANumber)), 6) := by decide +kernel
example : Live.printf ⟨fun _ => true⟩ sampleDateEnv (js! "%s") [grumpy.traits] 5 = (.error .external, 6) := by
  decide +kernel

end FastPrintf
