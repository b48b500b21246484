/-
C107: `Args` of the user's own class.
-/
import Verif.Model.OwnArgs
import Verif.Props.LiveArgs

namespace FastPrintf
open Spec

variable {σ ε : Type}

/-- The two methods of an iterator. -/
inductive Spec.ICall
  | hasNext
  | next
  deriving DecidableEq, Repr

/-- A program that leaves something beside the state alone. -/
def Spec.apart {α : Type} (x : Effect σ α) : Effect (ε × σ) α := fun w => ((x w.2).1, (w.1, (x w.2).2))

/-- An argument that leaves something beside the state alone. -/
def Spec.liveApart (v : Live σ) : Live (ε × σ) where
  asIntForm := apart v.asIntForm
  asFloatForm := apart v.asFloatForm
  asTemporal := apart v.asTemporal
  asSeq := apart v.asSeq
  asInt := apart v.asInt
  asChar := apart v.asChar
  ref := fun w => ((v.ref w.2).1, (w.1, (v.ref w.2).2))

/-- An iterator whose calls are written down beside the state. -/
def Spec.watched (it : OwnArgs.Iter σ) : OwnArgs.Iter (List ICall × σ) where
  hasNext := fun w => ((it.hasNext w.2).1, (w.1 ++ [.hasNext], (it.hasNext w.2).2))
  next := fun w => ((it.next w.2).1.map (Option.map liveApart), (w.1 ++ [.next], (it.next w.2).2))

/-- The iterator of a list that nobody changes; what is left of the list stands beside the state. -/
def Spec.listIter : OwnArgs.Iter (List (Live σ) × σ) where
  hasNext := fun w => (.ok !w.1.isEmpty, w)
  next := fun w =>
    match w with
    | (v :: rest, s) => (.ok (some (liveApart v)), (rest, s))
    | ([], s) => (.error .external, ([], s))

/-- The iterator of the `ArrayList` of C106; its cursor stands beside the state. -/
def Spec.arrayIter (h : LiveArgs.Held σ) : OwnArgs.Iter (Nat × σ) where
  hasNext := fun w => (.ok (LiveArgs.hasNext h w.1 w.2), w)
  next := fun w =>
    if h.count w.2 ≠ h.elements.length then (.error .external, w)
    else match h.elements[w.1]? with
      | some v => (.ok (some (liveApart v)), (w.1 + 1, w.2))
      | none => (.error .external, w)

/-- How many arguments an element of a format takes. -/
def Spec.taken : Appender → Nat
  | .fixed _ => 0
  | .dflt _ ctx => (if ctx.width = PRECEDING then 1 else 0) + (if ctx.precision = PRECEDING then 1 else 0) + 1

/-- `hasNext()` and `next()`, `n` times. -/
def Spec.turns : Nat → List ICall
  | 0 => []
  | n + 1 => .hasNext :: .next :: turns n

namespace OwnArgs

open LiveArgs (bind_effect)

theorem turns_add (n m : Nat) : turns n ++ turns m = turns (n + m) := by
  induction n with
  | zero => rw [Nat.zero_add]; rfl
  | succ n ih => rw [Nat.succ_add]; show _ :: _ :: (turns n ++ turns m) = _; rw [ih]; rfl

theorem apart_bind {α β : Type} (x : Effect σ α) (f : α → Effect σ β) :
    (apart (x >>= f) : Effect (ε × σ) β) = apart x >>= fun a => apart (f a) := by
  funext w
  rw [bind_effect]
  unfold apart
  rw [bind_effect]
  rcases x w.2 with ⟨e | a, s⟩ <;> rfl

theorem apart_of {α : Type} (r : Res α) : (apart (.of r : Effect σ α) : Effect (ε × σ) α) = .of r := rfl

theorem formatter_apart (env : DateEnv) (sp : Specifier) (ctx : FormatContext) (v : Live σ) :
    (liveApart v : Live (ε × σ)).formatterFor env sp ctx = apart (v.formatterFor env sp ctx) := by
  have hs : (liveApart v : Live (ε × σ)).s ctx = apart (v.s ctx) := by
    unfold Live.s; rw [apart_bind]; rfl
  have ht : (liveApart v : Live (ε × σ)).t env ctx = apart (v.t env ctx) := by
    unfold Live.t; rw [apart_bind]; rfl
  cases sp with
  | s => exact hs
  | t => exact ht
  | upperS => unfold Live.formatterFor; simp only; rw [apart_bind, hs]; rfl
  | upperT => unfold Live.formatterFor; simp only; rw [apart_bind, ht]; rfl
  | c => unfold Live.formatterFor Live.c; simp only; rw [apart_bind]; rfl
  | p =>
    funext w
    unfold Live.formatterFor apart
    simp only [Live.p, liveApart]
    rcases v.ref w.2 with ⟨r, s⟩
    cases r <;> rfl
  | percent => rfl
  | n => rfl
  | _ => unfold Live.formatterFor; simp only; rw [apart_bind]; rfl

/-- The first program does what the second does, and calls the iterator in turns, at most `n` times and exactly `n`
times if it returns normally. -/
def Tracked {α : Type} (n : Nat) (x' : Effect (List ICall × σ) α) (x : Effect σ α) : Prop :=
  ∀ l s, ∃ k tail, x' (l, s) = ((x s).1, (l ++ turns k ++ tail, (x s).2)) ∧
    ((tail = [] ∧ k ≤ n) ∨ (tail = [.hasNext] ∧ k < n ∧ ∃ e, (x s).1 = .error e)) ∧
    ∀ a, (x s).1 = .ok a → k = n

theorem tracked_apart {α : Type} (x : Effect σ α) : Tracked 0 (apart x) x := by
  intro l s
  exact ⟨0, [], by simp [apart, turns], .inl ⟨rfl, Nat.le_refl _⟩, fun _ _ => rfl⟩

theorem Tracked.bind {α β : Type} {n m : Nat} {x' : Effect (List ICall × σ) α} {x : Effect σ α}
    {f' : α → Effect (List ICall × σ) β} {f : α → Effect σ β} (hx : Tracked n x' x)
    (hf : ∀ a s s₁, x s = (.ok a, s₁) → Tracked m (f' a) (f a)) :
    Tracked (n + m) (x' >>= f') (x >>= f) := by
  intro l s
  obtain ⟨k, tail, h1, h2, h3⟩ := hx l s
  rw [bind_effect, bind_effect, h1]
  rcases hr : x s with ⟨e | a, s₁⟩
  · rw [hr] at h2
    refine ⟨k, tail, rfl, ?_, fun _ hh => nomatch hh⟩
    rcases h2 with ⟨h4, h5⟩ | ⟨h4, h5, -⟩
    · exact .inl ⟨h4, by omega⟩
    · exact .inr ⟨h4, by omega, e, rfl⟩
  · rw [hr] at h2 h3
    obtain rfl := h3 a rfl
    rcases h2 with ⟨rfl, -⟩ | ⟨-, -, e, he⟩
    swap
    · cases he
    obtain ⟨k', tail', g1, g2, g3⟩ := hf a s s₁ hr (l ++ turns k) s₁
    refine ⟨k + k', tail', ?_, ?_, fun b hb => ?_⟩
    · simp only [List.append_nil]
      rw [g1, ← turns_add, List.append_assoc l]
    · rcases g2 with ⟨h4, h5⟩ | ⟨h4, h5, h6⟩
      · exact .inl ⟨h4, by omega⟩
      · exact .inr ⟨h4, by omega, h6⟩
    · rw [g3 b hb]

theorem watched_hasNext (it : Iter σ) (l : List ICall) (s : σ) :
    (watched it).hasNext (l, s) = ((it.hasNext s).1, (l ++ [.hasNext], (it.hasNext s).2)) := rfl

theorem watched_next (it : Iter σ) (l : List ICall) (s : σ) :
    (watched it).next (l, s) = ((it.next s).1.map (Option.map liveApart), (l ++ [.next], (it.next s).2)) := rfl

/-- One request. -/
theorem tracked_request {α : Type} (it : Iter σ) (e : Err) {g : Option (Live σ) → Effect σ α}
    {g' : Option (Live (List ICall × σ)) → Effect (List ICall × σ) α}
    (hg : ∀ v, g' (v.map liveApart) = apart (g v)) :
    Tracked 1
      (do
        let more ← (watched it).hasNext
        if more then do
          let v ← (watched it).next
          g' v
        else .of (.error e))
      (do
        let more ← it.hasNext
        if more then do
          let v ← it.next
          g v
        else .of (.error e)) := by
  intro l s
  rw [bind_effect, bind_effect, watched_hasNext]
  rcases h1 : it.hasNext s with ⟨e' | more, s₁⟩
  · exact ⟨0, [.hasNext], by simp [turns], .inr ⟨rfl, by omega, e', rfl⟩, fun _ hh => nomatch hh⟩
  cases more with
  | false => exact ⟨0, [.hasNext], by simp [turns, Effect.of], .inr ⟨rfl, by omega, e, rfl⟩, fun _ hh => nomatch hh⟩
  | true =>
    simp only [if_true]
    rw [bind_effect, bind_effect, watched_next]
    rcases h2 : it.next s₁ with ⟨e' | v, s₂⟩
    · exact ⟨1, [], by simp [turns, Except.map], .inl ⟨rfl, Nat.le_refl _⟩, fun _ hh => nomatch hh⟩
    · simp only [Except.map, hg]
      exact ⟨1, [], by simp [turns, apart], .inl ⟨rfl, Nat.le_refl _⟩, fun _ _ => rfl⟩

theorem intOf_apart (v : Option (Live σ)) : intOf (v.map liveApart) = (apart (intOf v) : Effect (ε × σ) Int) := by
  cases v <;> rfl

theorem formatted_apart (env : DateEnv) (sp : Specifier) (ctx : FormatContext) (v : Option (Live σ)) :
    formatted env sp ctx (v.map liveApart) = (apart (formatted env sp ctx v) : Effect (ε × σ) Seq) := by
  cases v with
  | some v => exact formatter_apart env sp ctx v
  | none => cases sp <;> rfl

theorem tracked_of {α : Type} (r : Res α) : Tracked (σ := σ) 0 (.of r) (.of r) := tracked_apart (.of r)

theorem tracked_starWidth (it : Iter σ) (sp : Specifier) (ctx : FormatContext) :
    Tracked (if ctx.width = PRECEDING then 1 else 0) (starWidth (watched it) sp ctx) (starWidth it sp ctx) := by
  unfold starWidth
  by_cases h : ctx.width = PRECEDING
  · have hp : ctx.isPrecedingWidth = true := by simpa [FormatContext.isPrecedingWidth] using h
    rw [if_pos h, if_pos hp, if_pos hp]
    exact (tracked_request it _ intOf_apart).bind fun _ _ _ _ => tracked_of _
  · have hp : ¬ ctx.isPrecedingWidth = true := by simpa [FormatContext.isPrecedingWidth] using h
    rw [if_neg h, if_neg hp, if_neg hp]
    exact tracked_of _

theorem tracked_starPrecision (it : Iter σ) (sp : Specifier) (ctx : FormatContext) :
    Tracked (if ctx.precision = PRECEDING then 1 else 0) (starPrecision (watched it) sp ctx)
      (starPrecision it sp ctx) := by
  unfold starPrecision
  by_cases h : ctx.precision = PRECEDING
  · have hp : ctx.isPrecedingPrecision = true := by simpa [FormatContext.isPrecedingPrecision] using h
    rw [if_pos h, if_pos hp, if_pos hp]
    exact (tracked_request it _ intOf_apart).bind fun _ _ _ _ => tracked_of _
  · have hp : ¬ ctx.isPrecedingPrecision = true := by simpa [FormatContext.isPrecedingPrecision] using h
    rw [if_neg h, if_neg hp, if_neg hp]
    exact tracked_of _

/-- The width leaves the precision as it is. -/
theorem starWidth_precision {it : Iter σ} {sp : Specifier} {ctx c : FormatContext} {s s' : σ}
    (h : starWidth it sp ctx s = (.ok c, s')) : c.precision = ctx.precision := by
  unfold starWidth at h
  by_cases hp : ctx.isPrecedingWidth = true
  · rw [if_pos hp] at h
    obtain ⟨w, s₁, -, h2⟩ := LiveArgs.bind_ok h
    have h3 : (if w ≥ 0 then ctx.setWidth w else (ctx.addFlag .leftJustify).setWidth (wrap32 (-w))) = .ok c :=
      congrArg Prod.fst h2
    by_cases hw : w ≥ 0
    · rw [if_pos hw] at h3
      rw [(DefaultAppender.setWidth_ok h3).2]
    · rw [if_neg hw] at h3
      rw [(DefaultAppender.setWidth_ok h3).2]
      unfold FormatContext.addFlag
      split <;> rfl
  · rw [if_neg hp] at h
    cases h
    rfl

theorem tracked_append (env : DateEnv) (it : Iter σ) (a : Appender) :
    Tracked (taken a) (append env (watched it) a) (append env it a) := by
  cases a with
  | fixed v => exact tracked_of _
  | dflt sp ctx =>
    show Tracked ((if ctx.width = PRECEDING then 1 else 0) + (if ctx.precision = PRECEDING then 1 else 0) + 1)
      (starWidth (watched it) sp ctx >>= _) (starWidth it sp ctx >>= _)
    rw [Nat.add_assoc]
    refine (tracked_starWidth it sp ctx).bind fun c s s₁ hc => ?_
    rw [← starWidth_precision hc]
    refine (tracked_starPrecision it sp c).bind fun c' _ _ _ => ?_
    exact tracked_request it _ (formatted_apart env sp c')

theorem tracked_run (env : DateEnv) (collect : Seq → Effect σ Unit) (it : Iter σ) (apps : List Appender) :
    Tracked (apps.map taken).sum (run env (fun q => apart (collect q)) (watched it) apps) (run env collect it apps) := by
  induction apps with
  | nil => exact tracked_of _
  | cons a rest ih =>
    rw [List.map_cons, List.sum_cons]
    refine (tracked_append env it a).bind fun q _ _ _ => ?_
    have := (tracked_apart (collect q)).bind fun _ _ _ _ => ih
    rwa [Nat.zero_add] at this

theorem num_preceding (n : Num) : n.value = PRECEDING ↔ n = .star := by
  cases n with
  | absent => exact ⟨fun h => absurd h (by decide), fun h => nomatch h⟩
  | star => exact ⟨fun _ => rfl, fun _ => rfl⟩
  | digits ds =>
    refine ⟨fun h => ?_, fun h => nomatch h⟩
    have h1 : (decimalValue ds : Int) = PRECEDING := h
    have h2 : PRECEDING < 0 := by decide
    omega

theorem taken_compiled (p : Piece) : taken p.compiled = p.questions.length := by
  cases p with
  | lit s => rfl
  | percent => rfl
  | dir d =>
    unfold Piece.compiled Piece.questions taken
    simp only [num_preceding, List.length_append, List.length_cons, List.length_nil]
    by_cases h1 : d.width = .star <;> by_cases h2 : d.prec = .star <;> simp [h1, h2]

/-- Two runs, one with an iterator over what is left and one with what is left, end alike. -/
def SameList {α : Type} (x : Effect (List (Live σ) × σ) α) (y : List (Live σ) → Effect σ (α × List (Live σ))) : Prop :=
  ∀ l s, (x (l, s)).2.2 = (y l s).2 ∧
    match (y l s).1 with
    | .ok (a, left) => (x (l, s)).1 = .ok a ∧ (x (l, s)).2.1 = left
    | .error e => (x (l, s)).1 = .error e

theorem SameList.bind {α β : Type} {x : Effect (List (Live σ) × σ) α} {y : List (Live σ) → Effect σ (α × List (Live σ))}
    {f : α → Effect (List (Live σ) × σ) β} {g : α → List (Live σ) → Effect σ (β × List (Live σ))} (hx : SameList x y)
    (hf : ∀ a, SameList (f a) (g a)) : SameList (x >>= f) fun l => y l >>= fun r => g r.1 r.2 := by
  intro l s
  obtain ⟨h1, h2⟩ := hx l s
  simp only [bind_effect]
  rcases hx : x (l, s) with ⟨r, l₁, s₁⟩
  rcases hy : y l s with ⟨e | ⟨a, left⟩, s₂⟩
  · rw [hx, hy] at h1 h2
    cases h1
    cases h2
    exact ⟨rfl, rfl⟩
  · rw [hx, hy] at h1 h2
    obtain ⟨h2, h3⟩ := h2
    cases h1
    cases h2
    cases h3
    exact hf a l₁ s₁

theorem same_apart {α : Type} (x : Effect σ α) :
    SameList (apart x) fun l => x >>= fun a => .of (.ok (a, l)) := by
  intro l s
  simp only [bind_effect, apart]
  rcases x s with ⟨e | a, s₁⟩
  · exact ⟨rfl, rfl⟩
  · exact ⟨rfl, rfl, rfl⟩

theorem same_request {α : Type} (e : Err) {g : Live σ → Effect σ α}
    {g' : Option (Live (List (Live σ) × σ)) → Effect (List (Live σ) × σ) α}
    (hg : ∀ v, g' (some (liveApart v)) = apart (g v)) :
    SameList
      (do
        let more ← (listIter (σ := σ)).hasNext
        if more then do
          let v ← (listIter (σ := σ)).next
          g' v
        else .of (.error e))
      (fun l => match l with
        | v :: rest => do
          let a ← g v
          return (a, rest)
        | [] => .of (.error e)) := by
  intro l s
  cases l with
  | nil => exact ⟨rfl, rfl⟩
  | cons v rest =>
    have h1 : (do
        let more ← (listIter (σ := σ)).hasNext
        if more then do
          let v ← (listIter (σ := σ)).next
          g' v
        else Effect.of (.error e)) (v :: rest, s) = g' (some (liveApart v)) (rest, s) := rfl
    rw [h1, hg]
    exact same_apart (g v) rest s

theorem same_nextInt (sp : Specifier) : SameList (nextInt (listIter (σ := σ)) sp) (Live.nextInt sp) := by
  intro l s
  have := same_request (σ := σ) (.printf (.missingArgument sp.char)) (g' := intOf) (g := Live.asInt)
    (fun v => intOf_apart (some v)) l s
  cases l <;> exact this

theorem same_starWidth (sp : Specifier) (ctx : FormatContext) :
    SameList (starWidth (listIter (σ := σ)) sp ctx) (Live.starWidth sp ctx) := by
  unfold starWidth Live.starWidth
  by_cases hp : ctx.isPrecedingWidth = true
  · simp only [hp, if_true]
    exact (same_nextInt sp).bind fun w => same_apart
        (.of (if w ≥ 0 then ctx.setWidth w else (ctx.addFlag .leftJustify).setWidth (wrap32 (-w))))
  · simp only [if_neg hp]
    exact fun l s => ⟨rfl, rfl, rfl⟩

theorem same_starPrecision (sp : Specifier) (ctx : FormatContext) :
    SameList (starPrecision (listIter (σ := σ)) sp ctx) (Live.starPrecision sp ctx) := by
  unfold starPrecision Live.starPrecision
  by_cases hp : ctx.isPrecedingPrecision = true
  · simp only [hp, if_true]
    exact (same_nextInt sp).bind fun p => same_apart
        (.of (ctx.setPrecision (if p ≥ 0 then p else UNSET)))
  · simp only [if_neg hp]
    exact fun l s => ⟨rfl, rfl, rfl⟩

theorem same_append (env : DateEnv) (a : Appender) :
    SameList (append env (listIter (σ := σ)) a) (Live.append env a) := by
  cases a with
  | fixed v => exact fun l s => ⟨rfl, rfl, rfl⟩
  | dflt sp ctx =>
    exact (same_starWidth sp ctx).bind fun c => (same_starPrecision sp c).bind fun c' =>
      same_request (σ := σ) (.printf (.missingArgument sp.char)) (g' := formatted env sp c')
        (g := Live.formatterFor env sp c') fun v => formatted_apart env sp c' (some v)

theorem same_run (env : DateEnv) (collect : Seq → Effect σ Unit) (apps : List Appender) :
    SameList (run env (fun q => apart (collect q)) (listIter (σ := σ)) apps)
      fun l => Live.run env collect apps l >>= fun left => .of (.ok ((), left)) := by
  induction apps with
  | nil => exact fun l s => ⟨rfl, rfl, rfl⟩
  | cons a rest ih =>
    have h := (same_append (σ := σ) env a).bind fun q => (same_apart (collect q)).bind fun _ => ih
    have he : (fun l => Live.append env a l >>= fun r => (collect r.1 >>= fun u => Effect.of (.ok (u, r.2))) >>= fun r =>
          Live.run env collect rest r.2 >>= fun left => Effect.of (.ok ((), left))) =
        fun l => Live.run env collect (a :: rest) l >>= fun left => Effect.of (.ok ((), left)) := by
      funext l s
      have h1 : Live.run env collect (a :: rest) l = Live.append env a l >>= fun r => collect r.1 >>= fun _ =>
        Live.run env collect rest r.2 := rfl
      rw [h1]
      simp only [bind_effect]
      rcases Live.append env a l s with ⟨e | ⟨q, l'⟩, s₁⟩
      · rfl
      simp only
      rcases collect q s₁ with ⟨e | u, s₂⟩ <;> rfl
    rw [← he]
    exact h

/-- Two runs, one with the iterator of `ArrayList` as an iterator like any other and one with its cursor, end alike. -/
def SameCursor {α : Type} (x : Effect (Nat × σ) α) (y : Nat → LiveArgs.Step σ (α × Nat)) : Prop :=
  ∀ i s, (x (i, s)).2.2 = (y i s).2 ∧
    match (y i s).1 with
    | .ok (a, j) => (x (i, s)).1 = .ok a ∧ (x (i, s)).2.1 = j
    | .error (.thrown e) => (x (i, s)).1 = .error e
    | .error .comodified => (x (i, s)).1 = .error .external

theorem SameCursor.bind {α β : Type} {x : Effect (Nat × σ) α} {y : Nat → LiveArgs.Step σ (α × Nat)}
    {f : α → Effect (Nat × σ) β} {g : α → Nat → LiveArgs.Step σ (β × Nat)} (hx : SameCursor x y)
    (hf : ∀ a, SameCursor (f a) (g a)) : SameCursor (x >>= f) fun i => y i >>= fun r => g r.1 r.2 := by
  intro i s
  obtain ⟨h1, h2⟩ := hx i s
  simp only [bind_effect, LiveArgs.bind_step]
  rcases hx : x (i, s) with ⟨r, i₁, s₁⟩
  rcases hy : y i s with ⟨e | ⟨a, j⟩, s₂⟩
  · rw [hx, hy] at h1 h2
    cases h1
    cases e with
    | thrown e => cases h2; exact ⟨rfl, rfl⟩
    | comodified => cases h2; exact ⟨rfl, rfl⟩
  · rw [hx, hy] at h1 h2
    obtain ⟨h2, h3⟩ := h2
    cases h1
    cases h2
    cases h3
    exact hf a i₁ s₁

theorem cursor_apart {α : Type} (x : Effect σ α) :
    SameCursor (apart x) fun i => LiveArgs.quiet x >>= fun a => pure (a, i) := by
  intro i s
  simp only [LiveArgs.bind_step, apart, LiveArgs.quiet]
  rcases x s with ⟨e | a, s₁⟩
  · exact ⟨rfl, rfl⟩
  · exact ⟨rfl, rfl, rfl⟩

theorem cursor_request {α : Type} (h : LiveArgs.Held σ) (e : Err) {g : Live σ → Effect σ α}
    {g' : Option (Live (Nat × σ)) → Effect (Nat × σ) α} (hg : ∀ v, g' (some (liveApart v)) = apart (g v)) :
    SameCursor
      (do
        let more ← (arrayIter h).hasNext
        if more then do
          let v ← (arrayIter h).next
          g' v
        else .of (.error e))
      (fun i s => if LiveArgs.hasNext h i s then (do
          let (v, i) ← LiveArgs.next h i
          let a ← LiveArgs.quiet (g v)
          return (a, i) : LiveArgs.Step σ (α × Nat)) s
        else (.error (.thrown e), s)) := by
  intro i s
  have h1 : (arrayIter h).hasNext (i, s) = (.ok (LiveArgs.hasNext h i s), (i, s)) := rfl
  simp only [bind_effect, h1]
  cases hn : LiveArgs.hasNext h i s with
  | false => exact ⟨rfl, rfl⟩
  | true =>
    simp only [if_true, LiveArgs.bind_step, bind_effect]
    by_cases hc : h.count s ≠ h.elements.length
    · have h2 : (arrayIter h).next (i, s) = (.error .external, (i, s)) := by
        show (if h.count s ≠ h.elements.length then _ else _) = _
        rw [if_pos hc]
      have h3 : LiveArgs.next h i s = (.error .comodified, s) := by
        unfold LiveArgs.next
        rw [if_pos hc]
      rw [h2, h3]
      exact ⟨rfl, rfl⟩
    · cases he : h.elements[i]? with
      | none =>
        have h2 : (arrayIter h).next (i, s) = (.error .external, (i, s)) := by
          show (if h.count s ≠ h.elements.length then _ else match h.elements[i]? with | some v => _ | none => _) = _
          rw [if_neg hc, he]
        have h3 : LiveArgs.next h i s = (.error (.thrown .external), s) := by
          unfold LiveArgs.next
          rw [if_neg hc, he]
        rw [h2, h3]
        exact ⟨rfl, rfl⟩
      | some v =>
        have h2 : (arrayIter h).next (i, s) = (.ok (some (liveApart v)), (i + 1, s)) := by
          show (if h.count s ≠ h.elements.length then _ else match h.elements[i]? with | some v => _ | none => _) = _
          rw [if_neg hc, he]
        have h3 : LiveArgs.next h i s = (.ok (v, i + 1), s) := by
          unfold LiveArgs.next
          rw [if_neg hc, he]
        rw [h2, h3]
        simp only [hg]
        exact cursor_apart (g v) (i + 1) s

theorem cursor_starWidth (h : LiveArgs.Held σ) (sp : Specifier) (ctx : FormatContext) :
    SameCursor (starWidth (arrayIter h) sp ctx) (LiveArgs.starWidth h sp ctx) := by
  unfold starWidth LiveArgs.starWidth
  by_cases hp : ctx.isPrecedingWidth = true
  · simp only [hp, if_true]
    exact SameCursor.bind (y := LiveArgs.nextInt h sp) (cursor_request h _ (g := Live.asInt)
      fun v => intOf_apart (some v)) fun w => cursor_apart
        (.of (if w ≥ 0 then ctx.setWidth w else (ctx.addFlag .leftJustify).setWidth (wrap32 (-w))))
  · simp only [if_neg hp]
    exact fun l s => ⟨rfl, rfl, rfl⟩

theorem cursor_starPrecision (h : LiveArgs.Held σ) (sp : Specifier) (ctx : FormatContext) :
    SameCursor (starPrecision (arrayIter h) sp ctx) (LiveArgs.starPrecision h sp ctx) := by
  unfold starPrecision LiveArgs.starPrecision
  by_cases hp : ctx.isPrecedingPrecision = true
  · simp only [hp, if_true]
    exact SameCursor.bind (y := LiveArgs.nextInt h sp) (cursor_request h _ (g := Live.asInt)
      fun v => intOf_apart (some v)) fun p => cursor_apart (.of (ctx.setPrecision (if p ≥ 0 then p else UNSET)))
  · simp only [if_neg hp]
    exact fun l s => ⟨rfl, rfl, rfl⟩

theorem cursor_append (env : DateEnv) (h : LiveArgs.Held σ) (a : Appender) :
    SameCursor (append env (arrayIter h) a) (LiveArgs.append env h a) := by
  cases a with
  | fixed v => exact fun l s => ⟨rfl, rfl, rfl⟩
  | dflt sp ctx =>
    exact (cursor_starWidth h sp ctx).bind fun c => (cursor_starPrecision h sp c).bind fun c' =>
      cursor_request h _ (g' := formatted env sp c') (g := Live.formatterFor env sp c')
        fun v => formatted_apart env sp c' (some v)

theorem cursor_run (env : DateEnv) (collect : Seq → Effect σ Unit) (h : LiveArgs.Held σ) (apps : List Appender) :
    SameCursor (run env (fun q => apart (collect q)) (arrayIter h) apps)
      fun i => LiveArgs.run env collect h apps i >>= fun i => pure ((), i) := by
  induction apps with
  | nil => exact fun l s => ⟨rfl, rfl, rfl⟩
  | cons a rest ih =>
    have hh := (cursor_append env h a).bind fun q => (cursor_apart (collect q)).bind fun _ => ih
    have he : (fun i => LiveArgs.append env h a i >>= fun r =>
          (LiveArgs.quiet (collect r.1) >>= fun u => pure (u, r.2)) >>= fun r =>
          LiveArgs.run env collect h rest r.2 >>= fun i => pure ((), i)) =
        fun i => LiveArgs.run env collect h (a :: rest) i >>= fun i => pure ((), i) := by
      funext i s
      have h1 : LiveArgs.run env collect h (a :: rest) i = LiveArgs.append env h a i >>= fun r =>
        LiveArgs.quiet (collect r.1) >>= fun _ => LiveArgs.run env collect h rest r.2 := rfl
      rw [h1]
      simp only [LiveArgs.bind_step]
      rcases LiveArgs.append env h a i s with ⟨e | ⟨q, l'⟩, s₁⟩
      · rfl
      simp only
      rcases LiveArgs.quiet (collect q) s₁ with ⟨e | u, s₂⟩ <;> rfl
    rw [← he]
    exact hh

theorem run_split (env : DateEnv) (collect : Seq → Effect σ Unit) (it : Iter σ) (before rest : List Appender) :
    run env collect it (before ++ rest) = run env collect it before >>= fun _ => run env collect it rest := by
  induction before with
  | nil => rfl
  | cons a before ih =>
    have h1 : run env collect it (a :: (before ++ rest)) = append env it a >>= fun q => collect q >>= fun _ =>
      run env collect it (before ++ rest) := rfl
    have h2 : run env collect it (a :: before) = append env it a >>= fun q => collect q >>= fun _ =>
      run env collect it before := rfl
    rw [List.cons_append, h1, h2, ih]
    funext s
    simp only [bind_effect]
    rcases append env it a s with ⟨e | q, s₁⟩
    · rfl
    simp only
    rcases collect q s₁ with ⟨e | u, s₂⟩ <;> rfl

/-- The first thing a directive does is a request. -/
theorem append_refused {env : DateEnv} {it : Iter σ} {sp : Specifier} {ctx : FormatContext} {s s' : σ} {e : Err}
    (h1 : nextInt it sp s = (.error e, s'))
    (h2 : ctx.width ≠ PRECEDING → ctx.precision ≠ PRECEDING → value env it sp ctx s = (.error e, s')) :
    append env it (.dflt sp ctx) s = (.error e, s') := by
  show (starWidth it sp ctx >>= _) s = _
  rw [bind_effect]
  unfold starWidth
  by_cases hw : ctx.width = PRECEDING
  · rw [if_pos (by simpa [FormatContext.isPrecedingWidth] using hw), bind_effect, h1]
  rw [if_neg (by simpa [FormatContext.isPrecedingWidth] using hw)]
  show (starPrecision it sp ctx >>= _) s = _
  rw [bind_effect]
  unfold starPrecision
  by_cases hq : ctx.precision = PRECEDING
  · rw [if_pos (by simpa [FormatContext.isPrecedingPrecision] using hq), bind_effect, h1]
  rw [if_neg (by simpa [FormatContext.isPrecedingPrecision] using hq)]
  exact h2 hw hq

theorem append_unstarred {env : DateEnv} {it : Iter σ} {sp : Specifier} {ctx : FormatContext}
    (hw : ctx.width ≠ PRECEDING) (hq : ctx.precision ≠ PRECEDING) :
    append env it (.dflt sp ctx) = value env it sp ctx := by
  funext s
  show (starWidth it sp ctx >>= _) s = _
  rw [bind_effect]
  unfold starWidth
  rw [if_neg (by simpa [FormatContext.isPrecedingWidth] using hw)]
  show (starPrecision it sp ctx >>= _) s = _
  rw [bind_effect]
  unfold starPrecision
  rw [if_neg (by simpa [FormatContext.isPrecedingPrecision] using hq)]
  rfl

theorem run_literals (env : DateEnv) (collect : Seq → Effect σ Unit) (it it' : Iter σ) (apps : List Appender)
    (hl : ∀ a ∈ apps, ∃ v, a = .fixed v) : run env collect it apps = run env collect it' apps := by
  induction apps with
  | nil => rfl
  | cons a rest ih =>
    obtain ⟨v, rfl⟩ := hl a (by simp)
    show (append env it (.fixed v) >>= fun q => collect q >>= fun _ => run env collect it rest) = _
    rw [ih fun a ha => hl a (by simp [ha])]
    rfl

end OwnArgs

/-- **C107.**  The calls of the iterator's methods: `hasNext()` and `next()` in turns, as often as the format takes
arguments if the call returns; if it throws, some of these, perhaps with a `hasNext()` in the end.  Nothing else about
the call depends on who watches. -/
theorem C107_calls (dates : DateSyntax) (env : DateEnv) (f : JStr) (ps : List Piece) (_h : Reading dates f ps)
    (collect : Seq → Effect σ Unit) (it : OwnArgs.Iter σ) (s : σ) :
    ∃ k tail, OwnArgs.run env (fun q => apart (collect q)) (watched it) (ps.map Piece.compiled) ([], s) =
        ((OwnArgs.run env collect it (ps.map Piece.compiled) s).1,
          (turns k ++ tail, (OwnArgs.run env collect it (ps.map Piece.compiled) s).2)) ∧
      ((OwnArgs.run env collect it (ps.map Piece.compiled) s).1 = .ok () ∧ tail = [] ∧
          k = (ps.flatMap Piece.questions).length ∨
        ∃ e, (OwnArgs.run env collect it (ps.map Piece.compiled) s).1 = .error e ∧
          (tail = [] ∧ k ≤ (ps.flatMap Piece.questions).length ∨
            tail = [.hasNext] ∧ k < (ps.flatMap Piece.questions).length)) := by
  have hn : ((ps.map Piece.compiled).map taken).sum = (ps.flatMap Piece.questions).length := by
    rw [List.length_flatMap, List.map_map]
    congr 1
    exact List.map_congr_left fun p _ => OwnArgs.taken_compiled p
  obtain ⟨k, tail, h1, h2, h3⟩ := OwnArgs.tracked_run env collect it (ps.map Piece.compiled) [] s
  rw [hn] at h2 h3
  refine ⟨k, tail, h1, ?_⟩
  cases hr : (OwnArgs.run env collect it (ps.map Piece.compiled) s).1 with
  | ok u =>
    rw [hr] at h2 h3
    left
    have hk := h3 u rfl
    rcases h2 with ⟨h4, -⟩ | ⟨-, -, e, he⟩
    · exact ⟨rfl, h4, hk⟩
    · cases he
  | error e =>
    rw [hr] at h2
    right
    refine ⟨e, rfl, ?_⟩
    rcases h2 with h4 | ⟨h4, h5, -⟩
    · exact .inl h4
    · exact .inr ⟨h4, h5⟩

/-- **C107.**  With an iterator that delivers a list, the call is that of C95. -/
theorem C107_list (env : DateEnv) (collect : Seq → Effect σ Unit) (apps : List Appender) (as : List (Live σ)) (s : σ) :
    (OwnArgs.run env (fun q => apart (collect q)) listIter apps (as, s)).1 =
      (Live.run env collect apps as s).1.map (fun _ => ()) ∧
    (OwnArgs.run env (fun q => apart (collect q)) listIter apps (as, s)).2.2 = (Live.run env collect apps as s).2 ∧
    ∀ left, (Live.run env collect apps as s).1 = .ok left →
      (OwnArgs.run env (fun q => apart (collect q)) listIter apps (as, s)).2.1 = left := by
  have h := OwnArgs.same_run env collect apps as s
  simp only [LiveArgs.bind_effect] at h
  obtain ⟨h1, h2⟩ := h
  rcases hr : Live.run env collect apps as s with ⟨e | left, s'⟩
  · rw [hr] at h1 h2
    exact ⟨h2, h1, fun _ hh => nomatch hh⟩
  · rw [hr] at h1 h2
    refine ⟨h2.1, h1, ?_⟩
    rintro _ ⟨⟩
    exact h2.2

/-- **C107.**  With the iterator of an `ArrayList` that may grow, the call is that of C106. -/
theorem C107_arrayList (env : DateEnv) (collect : Seq → Effect σ Unit) (h : LiveArgs.Held σ) (apps : List Appender)
    (s : σ) :
    (OwnArgs.run env (fun q => apart (collect q)) (arrayIter h) apps (0, s)).2.2 =
      (LiveArgs.run env collect h apps 0 s).2 ∧
    (OwnArgs.run env (fun q => apart (collect q)) (arrayIter h) apps (0, s)).1 =
      match (LiveArgs.run env collect h apps 0 s).1 with
      | .ok _ => .ok ()
      | .error (.thrown e) => .error e
      | .error .comodified => .error .external := by
  have hh := OwnArgs.cursor_run env collect h apps 0 s
  simp only [LiveArgs.bind_step] at hh
  obtain ⟨h1, h2⟩ := hh
  rcases hr : LiveArgs.run env collect h apps 0 s with ⟨e | left, s'⟩
  · rw [hr] at h1 h2
    refine ⟨h1, ?_⟩
    cases e <;> exact h2
  · rw [hr] at h1 h2
    exact ⟨h1, h2.1⟩

/-- **C107.**  A `null` among the arguments, when it is the first that a directive takes: what stands before the directive
has been written.  A directive that looks at the argument throws `NullPointerException`, and writes nothing. -/
theorem C107_null (env : DateEnv) (collect : Seq → Effect σ Unit) (it : OwnArgs.Iter σ) (before after : List Appender)
    (sp : Specifier) (ctx : FormatContext) (s s₀ s₁ s₂ : σ) (h0 : OwnArgs.run env collect it before s = (.ok (), s₀))
    (h1 : it.hasNext s₀ = (.ok true, s₁)) (h2 : it.next s₁ = (.ok none, s₂))
    (hd : ctx.width = PRECEDING ∨ ctx.precision = PRECEDING ∨ (sp ≠ .percent ∧ sp ≠ .n)) :
    OwnArgs.run env collect it (before ++ .dflt sp ctx :: after) s = (.error .nullPointer, s₂) := by
  rw [OwnArgs.run_split, LiveArgs.bind_effect, h0]
  show (OwnArgs.append env it (.dflt sp ctx) >>= _) s₀ = _
  rw [LiveArgs.bind_effect, OwnArgs.append_refused (e := .nullPointer) (s' := s₂)]
  · show (it.hasNext >>= _) s₀ = _
    rw [LiveArgs.bind_effect, h1]
    show (it.next >>= _) s₁ = _
    rw [LiveArgs.bind_effect, h2]
    rfl
  · intro hw hq
    show (it.hasNext >>= _) s₀ = _
    rw [LiveArgs.bind_effect, h1]
    show (it.next >>= _) s₁ = _
    rw [LiveArgs.bind_effect, h2]
    rcases hd with hd | hd | ⟨hd, hd'⟩
    · exact absurd hd hw
    · exact absurd hd hq
    · show OwnArgs.formatted env sp ctx none s₂ = _
      cases sp <;> first | rfl | exact absurd rfl hd | exact absurd rfl hd'

/-- **C107.**  `%n` and a decorated `%%` do not look at it. -/
theorem C107_ignored (env : DateEnv) (collect : Seq → Effect σ Unit) (it : OwnArgs.Iter σ) (before after : List Appender)
    (sp : Specifier) (ctx : FormatContext) (s s₀ s₁ s₂ : σ) (v : Option (Live σ))
    (h0 : OwnArgs.run env collect it before s = (.ok (), s₀))
    (h1 : it.hasNext s₀ = (.ok true, s₁)) (h2 : it.next s₁ = (.ok v, s₂)) (hw : ctx.width ≠ PRECEDING)
    (hq : ctx.precision ≠ PRECEDING) (hd : sp = .percent ∨ sp = .n) :
    OwnArgs.run env collect it (before ++ .dflt sp ctx :: after) s =
      (collect (if sp = .percent then Seq.ch (ch! '%') else Seq.empty) >>= fun _ => OwnArgs.run env collect it after) s₂ := by
  rw [OwnArgs.run_split, LiveArgs.bind_effect, h0]
  show (OwnArgs.append env it (.dflt sp ctx) >>= _) s₀ = _
  rw [LiveArgs.bind_effect, OwnArgs.append_unstarred hw hq]
  have : OwnArgs.value env it sp ctx s₀ = (.ok (if sp = .percent then Seq.ch (ch! '%') else Seq.empty), s₂) := by
    show (it.hasNext >>= _) s₀ = _
    rw [LiveArgs.bind_effect, h1]
    show (it.next >>= _) s₁ = _
    rw [LiveArgs.bind_effect, h2]
    show OwnArgs.formatted env sp ctx v s₂ = _
    rcases hd with rfl | rfl <;> cases v <;> rfl
  rw [this]

/-- **C107.**  `iterator()` is called once, before anything is written; if it throws, so does the call.  If it returns
`null`, the first directive throws `NullPointerException`, after the text before it has been written; a format without
directives does not notice. -/
theorem C107_iterator (env : DateEnv) (collect : Seq → Effect σ Unit) (iterator : Effect σ (Option (OwnArgs.Iter σ)))
    (s s' : σ) :
    (∀ e apps, iterator s = (.error e, s') → OwnArgs.format env collect iterator apps s = (.error e, s')) ∧
    (∀ it apps, iterator s = (.ok (some it), s') →
      OwnArgs.format env collect iterator apps s = OwnArgs.run env collect it apps s') ∧
    (∀ apps r it, iterator s = (.ok r, s') → (∀ a ∈ apps, ∃ v, a = .fixed v) →
      OwnArgs.format env collect iterator apps s = OwnArgs.run env collect it apps s') ∧
    ∀ before sp ctx after it s₀, iterator s = (.ok none, s') → (∀ a ∈ before, ∃ v, a = .fixed v) →
      OwnArgs.run env collect it before s' = (.ok (), s₀) →
      OwnArgs.format env collect iterator (before ++ .dflt sp ctx :: after) s = (.error .nullPointer, s₀) := by
  have hf : ∀ apps r, iterator s = (.ok r, s') → OwnArgs.format env collect iterator apps s =
      OwnArgs.run env collect (r.getD OwnArgs.nullIter) apps s' := by
    intro apps r h
    unfold OwnArgs.format
    rw [LiveArgs.bind_effect, h]
  refine ⟨?_, fun it apps h => hf apps _ h, ?_, ?_⟩
  · intro e apps h
    unfold OwnArgs.format
    rw [LiveArgs.bind_effect, h]
  · intro apps r it h hl
    rw [hf apps r h, OwnArgs.run_literals env collect _ it apps hl]
  · intro before sp ctx after it s₀ h hl hr
    rw [hf _ none h, OwnArgs.run_split, LiveArgs.bind_effect,
      OwnArgs.run_literals env collect _ it before hl, hr]
    show (OwnArgs.append env OwnArgs.nullIter (.dflt sp ctx) >>= _) s₀ = _
    rw [LiveArgs.bind_effect, OwnArgs.append_refused (e := .nullPointer) (s' := s₀) rfl fun _ _ => rfl]

/-- An iterator that delivers the numbers from 1 on, without end; the state is the last number. -/
def endless : OwnArgs.Iter Nat where
  hasNext := fun s => (.ok true, s)
  next := fun s => (.ok (some (steadyInt (BitVec.ofNat 32 (s + 1)))), s + 1)

/-- `%d` -/
def bareInt : Appender := .dflt .d ⟨{}, UNSET, UNSET, none⟩

-- a format takes from it what it needs
example : OwnArgs.run sampleDateEnv silent endless [bareInt, .dflt .d ⟨{}, PRECEDING, PRECEDING, none⟩, bareInt] 0 =
    (.ok (), 5) := by decide +kernel
example : (OwnArgs.run sampleDateEnv (fun q => apart (silent q)) (watched endless)
    [bareInt, .fixed (js! "x"), bareInt] ([], 0)).2 = ([.hasNext, .next, .hasNext, .next], 2) := by decide +kernel
-- the second argument is missing
example : (OwnArgs.run sampleDateEnv (fun q => apart (silent q)) (watched ⟨fun s => (.ok (s == 0), s), endless.next⟩)
    [bareInt, bareInt] ([], 0)) = (.error (.printf (.missingArgument (ch! 'd'))), ([.hasNext, .next, .hasNext], 1)) := by
  decide +kernel
-- `null` under `%d` and under `%n`
example : OwnArgs.run sampleDateEnv silent ⟨fun s => (.ok true, s), fun s => (.ok none, s + 1)⟩
    [.dflt .n ⟨{}, UNSET, UNSET, none⟩, bareInt] 0 = (.error .nullPointer, 2) := by decide +kernel
-- `iterator()` returns `null`
example : OwnArgs.format sampleDateEnv silent (.of (.ok none)) [.fixed (js! "x")] 0 = (.ok (), 0) := by decide +kernel
example : OwnArgs.format sampleDateEnv silent (.of (.ok none)) [.fixed (js! "x"), bareInt] 0 = (.error .nullPointer, 0) := by
  decide +kernel

end FastPrintf
