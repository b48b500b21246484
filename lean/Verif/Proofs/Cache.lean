/-
Racing threads that fill a field on first use all see the value of a single thread.
-/
import Verif.Model.Cache
import Verif.Proofs.Seq

namespace FastPrintf

variable {α β ι : Type} [DecidableEq α]

/-- What a method returns when no other thread is around and the field is not filled. -/
def Cached.alone (C : Cached α β ι) (op : ι) : Res β := do
  C.pre op
  C.post op (← C.build)

omit [DecidableEq α] in
theorem Cached.alone_ok {C : Cached α β ι} {op : ι} {v : α} (hp : C.pre op = .ok ()) (hb : C.build = .ok v) :
    C.alone op = C.post op v := by simp [Cached.alone, hp, hb, bind_ok]

omit [DecidableEq α] in
theorem Cached.alone_pre {C : Cached α β ι} {op : ι} {e : Err} (hp : C.pre op = .error e) :
    C.alone op = .error e := by simp [Cached.alone, hp, bind_error]

omit [DecidableEq α] in
theorem Cached.alone_build {C : Cached α β ι} {op : ι} {e : Err} (hp : C.pre op = .ok ())
    (hb : C.build = .error e) : C.alone op = .error e := by simp [Cached.alone, hp, hb, bind_ok, bind_error]

/-- The call a thread is in. -/
def Place.current : Place α ι → List ι
  | .idle => []
  | .reading op => [op]
  | .building op => [op]
  | .storing op _ => [op]
  | .holding op _ => [op]

/-- What holds of a thread at each place. -/
def Place.Good (C : Cached α β ι) : Place α ι → Prop
  | .idle => True
  | .reading op => C.pre op = .ok ()
  | .building op => C.pre op = .ok ()
  | .storing op v => C.pre op = .ok () ∧ C.build = .ok v
  | .holding op v => C.pre op = .ok () ∧ C.build = .ok v

/-- The results so far and those to come are those of single-threaded calls. -/
structure Caller.Good (C : Cached α β ι) (calls : List ι) (c : Caller α β ι) : Prop where
  place : c.place.Good C
  results : c.results ++ (c.place.current ++ c.todo).map C.alone = calls.map C.alone

omit [DecidableEq α] in
theorem racyRead_mem (dflt : α) (values : List α) (choice : Nat) :
    racyRead dflt values choice = dflt ∨ racyRead dflt values choice ∈ values := by
  unfold racyRead
  rw [List.getD_eq_getElem?_getD]
  cases choice with
  | zero => left; rfl
  | succ n =>
    rw [List.getElem?_cons_succ]
    cases h : values[n]? with
    | none => left; rfl
    | some v => right; exact List.mem_of_getElem? h

theorem Caller.step_good {C : Cached α β ι} {calls : List ι} {values : List α} (choice : Nat)
    (hv : ∀ v ∈ values, C.build = .ok v) {c : Caller α β ι} (h : c.Good C calls) :
    (c.step C values choice).1.Good C calls ∧ ∀ v ∈ (c.step C values choice).2, C.build = .ok v := by
  obtain ⟨todo, place, results⟩ := c
  obtain ⟨h1, h2⟩ := h
  cases place with
  | idle =>
    cases todo with
    | nil => exact ⟨⟨h1, h2⟩, by simp [Caller.step]⟩
    | cons op rest =>
      cases hp : C.pre op with
      | ok u =>
        simp only [Caller.step, hp]
        exact ⟨⟨hp, h2⟩, by simp⟩
      | error e =>
        simp only [Caller.step, hp]
        refine ⟨⟨trivial, ?_⟩, by simp⟩
        simpa [Place.current, Cached.alone_pre hp] using h2
  | reading op =>
    simp only [Caller.step]
    by_cases hr : racyRead C.dflt values choice = C.dflt
    · rw [if_pos hr]; exact ⟨⟨h1, h2⟩, by simp⟩
    · rw [if_neg hr]
      refine ⟨⟨⟨h1, hv _ ((racyRead_mem _ _ _).resolve_left hr)⟩, h2⟩, by simp⟩
  | building op =>
    cases hb : C.build with
    | ok v =>
      simp only [Caller.step, hb]
      exact ⟨⟨⟨h1, hb⟩, h2⟩, by simp⟩
    | error e =>
      simp only [Caller.step, hb]
      refine ⟨⟨trivial, ?_⟩, by simp⟩
      simpa [Place.current, Cached.alone_build h1 hb] using h2
  | storing op v =>
    simp only [Caller.step]
    refine ⟨⟨h1, h2⟩, ?_⟩
    rintro w hw
    rw [List.mem_singleton] at hw
    subst hw
    exact h1.2
  | holding op v =>
    simp only [Caller.step]
    refine ⟨⟨trivial, ?_⟩, by simp⟩
    simpa [Place.current, Cached.alone_ok h1.1 h1.2] using h2

/-- The invariant of a race. -/
structure Race.Good (C : Cached α β ι) (calls : Nat → List ι) (w : Race α β ι) : Prop where
  values : ∀ v ∈ w.values, C.build = .ok v
  callers : ∀ t, (w.callers t).Good C (calls t)

theorem Race.step_good {C : Cached α β ι} {calls : Nat → List ι} {w : Race α β ι} (h : w.Good C calls)
    (move : Nat × Nat) : (w.step C move).Good C calls := by
  obtain ⟨h1, h2⟩ := Caller.step_good move.2 h.values (h.callers move.1)
  refine ⟨?_, ?_⟩
  · intro v hv
    rcases List.mem_append.1 hv with hv | hv
    · exact h.values v hv
    · exact h2 v hv
  · intro t
    simp only [Race.step]
    by_cases ht : t = move.1
    · rw [if_pos ht, ht]; exact h1
    · rw [if_neg ht]; exact h.callers t

theorem Race.run_good {C : Cached α β ι} {calls : Nat → List ι} (schedule : List (Nat × Nat)) :
    ∀ {w : Race α β ι}, w.Good C calls → (w.run C schedule).Good C calls := by
  induction schedule with
  | nil => intro w h; exact h
  | cons m rest ih => intro w h; exact ih (Race.step_good h m)

omit [DecidableEq α] in
theorem Race.initial_good (C : Cached α β ι) (calls : Nat → List ι) :
    (Race.initial calls : Race α β ι).Good C calls :=
  ⟨by simp [Race.initial], fun _ => ⟨trivial, rfl⟩⟩

/-- Steps a thread has left at most. -/
def Caller.left (c : Caller α β ι) : Nat :=
  5 * c.todo.length + match c.place with
    | .idle => 0
    | .reading _ => 4
    | .building _ => 3
    | .storing _ _ => 2
    | .holding _ _ => 1

theorem Caller.step_left (C : Cached α β ι) (values : List α) (choice : Nat) (c : Caller α β ι) :
    (c.step C values choice).1.left ≤ c.left - 1 := by
  obtain ⟨todo, place, results⟩ := c
  cases place with
  | idle =>
    cases todo with
    | nil => simp [Caller.step, Caller.left]
    | cons op rest => cases hp : C.pre op <;> simp [Caller.step, Caller.left, hp] <;> omega
  | reading op => simp only [Caller.step]; split <;> simp [Caller.left]
  | building op => cases hb : C.build <;> simp [Caller.step, Caller.left, hb]
  | storing op v => simp [Caller.step, Caller.left]
  | holding op v => simp [Caller.step, Caller.left]

theorem Race.run_left (C : Cached α β ι) (t : Nat) (schedule : List (Nat × Nat)) :
    ∀ w : Race α β ι, ((w.run C schedule).callers t).left ≤
      (w.callers t).left - (schedule.map Prod.fst).count t := by
  induction schedule with
  | nil => intro w; simp [Race.run]
  | cons m rest ih =>
    intro w
    have h := ih (w.step C m)
    refine h.trans ?_
    rw [List.map_cons, List.count_cons]
    simp only [Race.step]
    by_cases hm : m.1 = t
    · have := Caller.step_left C w.values m.2 (w.callers t)
      rw [if_pos hm.symm, if_pos (by simpa using hm), hm]; omega
    · rw [if_neg (fun h => hm h.symm), if_neg (by simpa using hm)]; omega

/-! ### Hash code and equality -/

namespace Atomic

theorem hashLoop_eq (a : JStr) (up : Bool) (n st : Nat) (h : BitVec 32) (hb : st + n ≤ a.length) :
    hashLoop a up n st h = .ok (((a.drop st).take n).foldl
      (fun h c => 31#32 * h + BitVec.ofNat 32 (caseOf up c)) h) := by
  induction n generalizing st h with
  | zero => simp [hashLoop]
  | succ n ih =>
    have hs : st < a.length := by omega
    rw [hashLoop, charAtRaw_ok hs, bind_ok, ih _ _ (by omega), List.drop_eq_getElem_cons hs,
      List.take_succ_cons, List.foldl_cons]

theorem equalsLoop_eq {x y : Atomic} (hx : x.WF) (hy : y.WF) (hl : x.text.length = y.text.length) (n i : Nat)
    (hn : i + n = x.text.length) :
    equalsLoop x y n i = .ok (decide (x.text.drop i = y.text.drop i)) := by
  induction n generalizing i with
  | zero =>
    rw [equalsLoop, List.drop_eq_nil_of_le (by omega), List.drop_eq_nil_of_le (by omega)]; rfl
  | succ n ih =>
    have h1 : i < x.text.length := by omega
    have h2 : i < y.text.length := by omega
    have c1 := charAt_ok hx (i := i) (by omega)
    have c2 := charAt_ok hy (i := i) (by omega)
    simp only [Int.toNat_natCast] at c1 c2
    rw [equalsLoop, c1, c2, bind_ok, bind_ok, ih (i + 1) (by omega)]
    rw [List.getElem?_eq_getElem h1,
      List.getElem?_eq_getElem h2, Option.getD_some, Option.getD_some]
    have hd : x.text.drop i = y.text.drop i ↔
        x.text[i] = y.text[i] ∧ x.text.drop (i + 1) = y.text.drop (i + 1) := by
      rw [List.drop_eq_getElem_cons h1, List.drop_eq_getElem_cons h2, List.cons.injEq]
    by_cases h : x.text[i] = y.text[i]
    · rw [if_neg (by simpa using h)]; congr 1; rw [decide_eq_decide, hd]; simp [h]
    · rw [if_pos (by simpa using h)]
      have : ¬ x.text.drop i = y.text.drop i := fun he => h (hd.1 he).1
      rw [decide_eq_false this]; rfl

end Atomic

end FastPrintf
