/-
Arguments with side effects: the questions are asked in order, and the answers are used as those of ordinary
arguments.
-/
import Verif.Spec.Live
import Verif.Proofs.Questions
import Verif.Proofs.Failures

namespace FastPrintf
open Spec

variable {σ : Type}

theorem Effect.bind_apply {α β : Type} (x : Effect σ α) (f : α → Effect σ β) (s : σ) :
    (x >>= f) s = match x s with
      | (.ok a, s) => f a s
      | (.error e, s) => (.error e, s) := rfl

theorem Effect.bind_of_ok {α β : Type} {x : Effect σ α} {f : α → Effect σ β} {s s' : σ} {a : α}
    (h : x s = (.ok a, s')) : (x >>= f) s = f a s' := by
  rw [Effect.bind_apply, h]

theorem Effect.bind_of_error {α β : Type} {x : Effect σ α} {f : α → Effect σ β} {s s' : σ} {e : Err}
    (h : x s = (.error e, s')) : (x >>= f) s = (.error e, s') := by
  rw [Effect.bind_apply, h]

theorem Effect.bind_lift {α β : Type} {x : Effect σ α} {f : α → Res β} {s s' : σ} {r : Res α}
    (h : x s = (r, s')) : (x >>= fun a => Effect.of (f a)) s = (r >>= f, s') := by
  cases r with
  | ok a => exact Effect.bind_of_ok h
  | error e => exact Effect.bind_of_error h

/-! ### Answers -/

theorem Gives.exists (a : Live σ) (s : σ) (q : Question) : ∃ t s', Gives a s t s' q := by
  let t : Traits := ⟨(a.asIntForm s).1, (a.asFloatForm s).1, (a.asTemporal s).1, (a.asSeq s).1,
    (a.asInt s).1, (a.asChar s).1, (a.ref s).1⟩
  cases q
  · exact ⟨t, (a.asInt s).2, rfl⟩
  · exact ⟨t, (a.asIntForm s).2, rfl⟩
  · exact ⟨t, (a.asFloatForm s).2, rfl⟩
  · exact ⟨t, (a.asTemporal s).2, rfl⟩
  · exact ⟨t, (a.asSeq s).2, rfl⟩
  · exact ⟨t, (a.asChar s).2, rfl⟩
  · exact ⟨t, (a.ref s).2, rfl⟩
  · exact ⟨t, s, rfl⟩

theorem Gives.state {a : Live σ} {s s' s'' : σ} {t t' : Traits} {q : Question} (h : Gives a s t s' q)
    (h' : Gives a s t' s'' q) : s' = s'' := by
  cases q <;> simp only [Gives] at h h'
  all_goals first
    | (rw [h, h'])
    | (rw [h] at h'; exact (Prod.ext_iff.1 h').2)

theorem Spec.Answers.length {qs : List Question} {as : List (Live σ)} {s s' : σ} {ts : List Traits}
    (h : Answers qs as s ts s') : as.length = ts.length := by
  induction h with
  | over s h => exact h
  | next h rest ih => simp [ih]

theorem Spec.Answers.state {qs : List Question} {as : List (Live σ)} {s s' s'' : σ} {ts ts' : List Traits}
    (h : Answers qs as s ts s') (h' : Answers qs as s ts' s'') : s' = s'' := by
  induction h generalizing ts' with
  | over s h => cases h' with | over s h => rfl
  | next h rest ih =>
    cases h' with
    | next h' rest' =>
      cases Gives.state h h'
      exact ih rest'

theorem Spec.Answers.join {qs qs' : List Question} {as bs : List (Live σ)} {s s' s'' : σ} {ts us : List Traits}
    (h : Answers qs as s ts s') (hl : as.length = qs.length) (h' : Answers qs' bs s' us s'') :
    Answers (qs ++ qs') (as ++ bs) s (ts ++ us) s'' := by
  induction h with
  | @over as ts s h =>
    cases as with
    | nil =>
      cases ts with
      | nil => exact h'
      | cons t ts => cases h
    | cons a as => cases hl
  | next h rest ih => exact .next h (ih (by simpa using hl) h')

theorem Spec.Answers.split {qs qs' : List Question} {as bs : List (Live σ)} {s s'' : σ} {us : List Traits}
    (h : Answers (qs ++ qs') (as ++ bs) s us s'') (hl : as.length = qs.length) :
    ∃ ts vs s', us = ts ++ vs ∧ ts.length = qs.length ∧ Answers qs as s ts s' ∧ Answers qs' bs s' vs s'' := by
  induction qs generalizing as s us with
  | nil =>
    cases as with
    | nil => exact ⟨[], us, s, rfl, rfl, .over s rfl, h⟩
    | cons a as => cases hl
  | cons q qs ih =>
    cases as with
    | nil => cases hl
    | cons a as =>
      cases h with
      | @next _ _ _ _ _ s1 _ t ts h rest =>
        obtain ⟨ts, vs, s', h1, h2, h3, h4⟩ := ih rest (by simpa using hl)
        exact ⟨t :: ts, vs, s', by rw [h1]; rfl, by simp [h2], .next h h3, h4⟩

/-- Questions asked of the first arguments say nothing of the others. -/
theorem Spec.Answers.more {qs : List Question} {as bs : List (Live σ)} {s s' : σ} {ts us : List Traits}
    (h : Answers qs as s ts s') (hl : as.length = qs.length) (hb : bs.length = us.length) :
    Answers qs (as ++ bs) s (ts ++ us) s' := by
  have := h.join hl (.over s' hb : Answers [] bs s' us s')
  rwa [List.append_nil] at this

/-! ### One step follows another -/

/-- Two different exceptions. -/
def Unlike {α : Type} (u v : Res α) : Prop := ∃ e e', e ≠ e' ∧ u = .error e ∧ v = .error e'

/-- The effectful step `x` asks the questions `qs` and goes on as `y` does with ordinary arguments; when a question
is asked, the answers before it leave the outcome open. -/
def Tracks {α : Type} (D : Res (α × List Traits) → Res (α × List Traits) → Prop) (full : Bool)
    (qs : List Question) (x : List (Live σ) → Effect σ (α × List (Live σ)))
    (y : List Traits → Res (α × List Traits)) : Prop :=
  ∀ as s, ∃ n s', n ≤ qs.length ∧ (∃ ts, Answers (qs.take n) as s ts s') ∧
    (∀ m < n, ∃ s'' ts ts', Answers (qs.take m) as s ts s'' ∧ Answers (qs.take m) as s ts' s'' ∧
      D (y ts) (y ts')) ∧
    ((∃ e, x as s = (.error e, s') ∧ ∀ ts, Answers (qs.take n) as s ts s' → y ts = .error e) ∨
      ∃ a as₁ rest, x as s = (.ok (a, rest), s') ∧ as = as₁ ++ rest ∧ as₁.length = qs.length ∧
        (full = true → n = qs.length) ∧ (∃ ts, ∀ k, n ≤ k → Answers (qs.take k) as s ts s') ∧
        ∀ ts, Answers (qs.take n) as s ts s' → y ts = .ok (a, ts.drop qs.length))

theorem Tracks.bind {α β : Type} {D : Res (β × List Traits) → Res (β × List Traits) → Prop}
    (hD : ∀ u v, Unlike u v → D u v) {full : Bool} {qs qs' : List Question}
    {x : List (Live σ) → Effect σ (α × List (Live σ))} {y : List Traits → Res (α × List Traits)}
    {f : α → List (Live σ) → Effect σ (β × List (Live σ))} {g : α → List Traits → Res (β × List Traits)}
    (hx : Tracks Unlike true qs x y)
    (hf : ∀ ts a more, y ts = .ok (a, more) → Tracks D full qs' (f a) (g a)) :
    Tracks D full (qs ++ qs') (fun as => x as >>= fun r => f r.1 r.2)
      (fun ts => y ts >>= fun r => g r.1 r.2) := by
  intro as s
  obtain ⟨n, s₁, hn, ⟨ts₀, ht₀⟩, hm, h⟩ := hx as s
  have hfirst : ∀ m < n, ∃ s'' ts ts', Answers ((qs ++ qs').take m) as s ts s'' ∧
      Answers ((qs ++ qs').take m) as s ts' s'' ∧
      D (y ts >>= fun r => g r.1 r.2) (y ts' >>= fun r => g r.1 r.2) := by
    intro m hmn
    obtain ⟨s'', ts, ts', h1, h2, e, e', he, h3, h4⟩ := hm m hmn
    rw [List.take_append_of_le_length (by omega)]
    refine ⟨s'', ts, ts', h1, h2, hD _ _ ⟨e, e', he, ?_, ?_⟩⟩
    · rw [h3]; rfl
    · rw [h4]; rfl
  rcases h with ⟨e, h1, h2⟩ | ⟨a, as₁, rest, h1, h2, h3, h4, ⟨ts₁, ht₁⟩, h5⟩
  · have ht : (qs ++ qs').take n = qs.take n := List.take_append_of_le_length hn
    refine ⟨n, s₁, by simp; omega, ⟨ts₀, by rw [ht]; exact ht₀⟩, hfirst, .inl ⟨e, ?_, fun ts hts => ?_⟩⟩
    · exact Effect.bind_of_error h1
    · rw [ht] at hts
      simp only [h2 ts hts]
      rfl
  · subst h2
    obtain rfl : n = qs.length := h4 rfl
    replace ht₁ := ht₁ _ (Nat.le_refl _)
    rw [List.take_of_length_le (Nat.le_refl _)] at h5 ht₀ ht₁
    have hy₀ := h5 ts₁ ht₁
    obtain ⟨n', s₂, hn', ⟨us, hus⟩, hm', h'⟩ := hf _ _ _ hy₀ rest s₁
    -- the answers of the first step
    obtain ⟨tsa, tsb, s₁', he, hel, ha1, hb1⟩ :=
      Answers.split (qs' := []) (by rw [List.append_nil]; exact ht₁) h3
    have hs₁ : s₁' = s₁ := by cases hb1 with | over _ _ => rfl
    subst hs₁
    have hjoin : ∀ vs, rest.length = vs.length → y (tsa ++ vs) = .ok (a, vs) := by
      intro vs hvs
      rw [h5 _ (ha1.more h3 hvs), ← hel, List.drop_left]
    have htake : ∀ k, (qs ++ qs').take (qs.length + k) = qs ++ qs'.take k := fun k => by
      rw [List.take_append, List.take_of_length_le (by omega)]; congr 2; omega
    have hcut : ∀ (k : Nat) (ts : List Traits) (s' : σ), Answers ((qs ++ qs').take (qs.length + k)) (as₁ ++ rest) s ts s' →
        ∃ vs, Answers (qs'.take k) rest s₁' vs s' ∧ y ts = .ok (a, vs) ∧
          ts.drop (qs ++ qs').length = vs.drop qs'.length := by
      intro k ts s' hts
      rw [htake] at hts
      obtain ⟨ts', vs, s'', e1, e2, e3, e4⟩ := hts.split h3
      cases ha1.state e3
      refine ⟨vs, e4, ?_, ?_⟩
      · rw [e1, h5 _ (e3.more h3 e4.length), ← e2, List.drop_left]
      · rw [e1, List.length_append, ← List.drop_drop, ← e2, List.drop_left]
    refine ⟨qs.length + n', s₂, by simp; omega, ⟨tsa ++ us, ?_⟩, ?_, ?_⟩
    · rw [htake]; exact ha1.join h3 hus
    · intro m hmn
      by_cases hlt : m < qs.length
      · exact hfirst m hlt
      · obtain ⟨k, rfl⟩ : ∃ k, m = qs.length + k := ⟨m - qs.length, by omega⟩
        obtain ⟨s'', vs, vs', e1, e2, e3⟩ := hm' k (by omega)
        refine ⟨s'', tsa ++ vs, tsa ++ vs', ?_, ?_, ?_⟩
        · rw [htake]; exact ha1.join h3 e1
        · rw [htake]; exact ha1.join h3 e2
        · simp only [hjoin vs e1.length, hjoin vs' e2.length]
          exact e3
    · rcases h' with ⟨e, k1, k2⟩ | ⟨b, as₂, rest', k1, k2, k3, k4, ⟨us', kt⟩, k5⟩
      · refine .inl ⟨e, ?_, fun ts hts => ?_⟩
        · show (x (as₁ ++ rest) >>= fun r => f r.1 r.2) s = _
          rw [Effect.bind_of_ok h1]; exact k1
        · obtain ⟨vs, e1, e2, _⟩ := hcut _ _ _ hts
          simp only [e2]
          exact k2 vs e1
      · refine .inr ⟨b, as₁ ++ as₂, rest', ?_, by rw [k2, List.append_assoc], by simp [h3, k3], ?_, ?_, ?_⟩
        · show (x (as₁ ++ rest) >>= fun r => f r.1 r.2) s = _
          rw [Effect.bind_of_ok h1]; exact k1
        · intro hfull; rw [k4 hfull]; simp
        · refine ⟨tsa ++ us', fun k hk => ?_⟩
          obtain ⟨j, rfl⟩ : ∃ j, k = qs.length + j := ⟨k - qs.length, by omega⟩
          rw [htake]
          exact ha1.join h3 (kt j (by omega))
        · intro ts hts
          obtain ⟨vs, e1, e2, e3⟩ := hcut _ _ _ hts
          simp only [e2]
          rw [e3]
          exact k5 vs e1

/-- A step that asks nothing. -/
theorem Tracks.pure {α : Type} {D : Res (α × List Traits) → Res (α × List Traits) → Prop} {full : Bool} (a : α) :
    Tracks D full [] (fun as => (Effect.of (.ok (a, as)) : Effect σ (α × List (Live σ))))
      (fun ts => .ok (a, ts)) := by
  intro as s
  have hex : ∃ ts : List Traits, Answers [] as s ts s :=
    ⟨as.map fun _ => ⟨.error .external, .error .external, .error .external, .error .external, .error .external,
      .error .external, .null⟩, .over s (by simp)⟩
  exact ⟨0, s, Nat.le_refl _, hex, fun m hm => absurd hm (Nat.not_lt_zero _),
    .inr ⟨a, [], as, rfl, rfl, rfl, fun _ => rfl, hex.imp fun ts h k _ => by rw [List.take_nil]; exact h,
      fun ts _ => rfl⟩⟩

/-! ### The steps -/

/-- An argument that answers every question with the exception. -/
def throwing (e : Err) : Traits :=
  ⟨.error e, .error e, .error e, .error e, .error e, .error e, .null⟩

theorem throwing_refuses (e : Err) (q : Question) (h1 : q ≠ .reference) (h2 : q ≠ .nothing) :
    Refuses (throwing e) e q := by
  cases q <;> first | rfl | exact absurd rfl h1 | exact absurd rfl h2

/-- The first argument is used; without one there is an exception. -/
def useFirst {α : Type} (e₀ : Err) (y : Traits → Res α) : List Traits → Res (α × List Traits)
  | [] => .error e₀
  | t :: rest => y t >>= fun a => .ok (a, rest)

/-- The same with effects. -/
def useFirstLive {α : Type} (e₀ : Err) (x : Live σ → Effect σ α) : List (Live σ) → Effect σ (α × List (Live σ))
  | [] => Effect.of (.error e₀)
  | v :: rest => x v >>= fun a => Pure.pure (a, rest)

/-- One question, then something that depends on the answer. -/
theorem Tracks.ask {α : Type} {D : Res (α × List Traits) → Res (α × List Traits) → Prop} {full : Bool}
    {q : Question} {e₀ : Err} {x : Live σ → Effect σ α} {y : Traits → Res α}
    (hxy : ∀ v s t s', Gives v s t s' q → x v s = (y t, s'))
    (hfull : full = true → q ≠ .nothing)
    (hD : q ≠ .nothing → ∃ t t' : Traits, ∀ rest : List Traits,
      D (y t >>= fun a => .ok (a, rest)) (y t' >>= fun a => .ok (a, rest)))
    (hnone : q = .nothing → ∀ t t', y t = y t') :
    Tracks D full [q] (useFirstLive e₀ x) (useFirst e₀ y) := by
  intro as s
  cases as with
  | nil =>
    refine ⟨0, s, Nat.zero_le _, ⟨[], .over s rfl⟩, fun m hm => absurd hm (Nat.not_lt_zero _),
      .inl ⟨e₀, rfl, fun ts hts => ?_⟩⟩
    have := hts.length
    cases ts with
    | nil => rfl
    | cons t ts => cases this
  | cons v rest =>
    obtain ⟨t, s', ht⟩ := Gives.exists v s q
    let us : List Traits := rest.map fun _ => throwing .external
    have hus : rest.length = us.length := by simp [us]
    have hx := hxy v s t s' ht
    -- all frozen versions give the same
    have hall : ∀ n, (q = .nothing ∧ n = 0 ∨ n = 1) → ∀ ts s'', Answers ([q].take n) (v :: rest) s ts s'' →
        ∃ t' more, ts = t' :: more ∧ y t' = y t := by
      intro n hn ts s'' hts
      rcases hn with ⟨hq, rfl⟩ | rfl
      · cases hts with
        | over _ h =>
          cases ts with
          | nil => cases h
          | cons t' more => exact ⟨t', more, rfl, hnone hq _ _⟩
      · cases hts with
        | @next _ _ _ _ _ s1 _ t' ts h rest' =>
          refine ⟨t', ts, rfl, ?_⟩
          have := hxy v s t' _ h
          rw [hx] at this
          exact (Prod.ext_iff.1 this).1.symm
    have main : ∀ n, (q = .nothing ∧ n = 0 ∨ n = 1) →
        ((∃ e, (x v >>= fun a => Pure.pure (a, rest)) s = (.error e, s') ∧
          ∀ ts, Answers ([q].take n) (v :: rest) s ts s' →
            useFirst e₀ y ts = .error e) ∨
        ∃ a as₁ rest', (x v >>= fun a => Pure.pure (a, rest)) s = (.ok (a, rest'), s') ∧
          v :: rest = as₁ ++ rest' ∧ as₁.length = [q].length ∧
          (∃ ts, ∀ k, n ≤ k → Answers ([q].take k) (v :: rest) s ts s') ∧
          ∀ ts, Answers ([q].take n) (v :: rest) s ts s' →
            useFirst e₀ y ts = .ok (a, ts.drop [q].length)) := by
      intro n hn
      cases hy : y t with
      | error e =>
        rw [hy] at hx
        refine .inl ⟨e, Effect.bind_of_error hx, fun ts hts => ?_⟩
        obtain ⟨t', more, rfl, h⟩ := hall n hn ts _ hts
        show (y t' >>= _) = _
        rw [h, hy]; rfl
      | ok a =>
        rw [hy] at hx
        refine .inr ⟨a, [v], rest, ?_, rfl, rfl, ⟨t :: us, fun k hk => ?_⟩, fun ts hts => ?_⟩
        · rw [Effect.bind_of_ok hx]; rfl
        · cases k with
          | zero =>
            rcases hn with ⟨hq, _⟩ | rfl
            · have hs : s' = s := by rw [hq] at ht; exact ht
              subst hs
              exact .over _ (by simp [hus])
            · omega
          | succ k =>
            rw [List.take_succ_cons, List.take_nil]
            exact .next ht (.over s' hus)
        · obtain ⟨t', more, rfl, h⟩ := hall n hn ts _ hts
          show (y t' >>= _) = _
          rw [h, hy]; rfl
    by_cases hq : q = .nothing
    · have hs : s' = s := by rw [hq] at ht; exact ht
      subst hs
      refine ⟨0, s', Nat.zero_le _, ⟨t :: us, .over s' (by simp [hus])⟩, fun m hm => absurd hm (Nat.not_lt_zero _), ?_⟩
      rcases main 0 (.inl ⟨hq, rfl⟩) with h | ⟨a, as₁, rest', h1, h2, h3, h4, h5⟩
      · exact .inl h
      · exact .inr ⟨a, as₁, rest', h1, h2, h3, fun hf => absurd hq (hfull hf), h4, h5⟩
    · refine ⟨1, s', Nat.le_refl _, ⟨t :: us, .next ht (.over s' hus)⟩, fun m hm => ?_, ?_⟩
      · obtain rfl : m = 0 := by omega
        obtain ⟨t1, t2, hd⟩ := hD hq
        exact ⟨s, t1 :: us, t2 :: us, .over s (by simp [hus]), .over s (by simp [hus]), hd us⟩
      · rcases main 1 (.inr rfl) with h | ⟨a, as₁, rest', h1, h2, h3, h4, h5⟩
        · exact .inl h
        · exact .inr ⟨a, as₁, rest', h1, h2, h3, fun _ => rfl, h4, h5⟩

theorem starWidth_tracks (sp : Specifier) (ctx : FormatContext) :
    Tracks Unlike true (starQuestion ctx.width) (Live.starWidth (σ := σ) sp ctx)
      (DefaultAppender.starWidth sp ctx) := by
  unfold starQuestion
  by_cases hw : ctx.width = PRECEDING
  · have hp : ctx.isPrecedingWidth = true := by simpa [FormatContext.isPrecedingWidth] using hw
    rw [if_pos hw]
    let g : Int → Res FormatContext := fun w =>
      if w ≥ 0 then ctx.setWidth w else (ctx.addFlag .leftJustify).setWidth (wrap32 (-w))
    have e1 : Live.starWidth (σ := σ) sp ctx =
        useFirstLive (.printf (.missingArgument sp.char)) (fun v => v.asInt >>= fun w => Effect.of (g w)) := by
      funext as s
      unfold Live.starWidth
      rw [if_pos hp]
      cases as with
      | nil => rfl
      | cons v rest =>
        simp only [Live.nextInt, useFirstLive, Effect.bind_apply]
        rcases v.asInt s with ⟨r, s'⟩
        cases r with
        | error e => rfl
        | ok w => rfl
    have e2 : DefaultAppender.starWidth sp ctx =
        useFirst (.printf (.missingArgument sp.char)) (fun t => t.asInt >>= g) := by
      funext ts
      unfold DefaultAppender.starWidth
      rw [if_pos hp]
      cases ts with
      | nil => rfl
      | cons t rest =>
        simp only [DefaultAppender.nextInt, useFirst, g]
        cases t.asInt with
        | error e => rfl
        | ok w =>
          simp only [bind_ok]
          show (if w ≥ 0 then _ else _) = (if w ≥ 0 then _ else _) >>= _
          split_ifs <;> rfl
    rw [e1, e2]
    refine Tracks.ask (fun v s t s' h => Effect.bind_lift h) (by simp) (fun _ => ?_) (by simp)
    exact ⟨throwing .external, throwing .arithmetic, fun rest => ⟨.external, .arithmetic, by decide, rfl, rfl⟩⟩
  · have hp : ¬ ctx.isPrecedingWidth = true := by simpa [FormatContext.isPrecedingWidth] using hw
    rw [if_neg hw]
    have e1 : Live.starWidth (σ := σ) sp ctx = fun as => Effect.of (.ok (ctx, as)) := by
      funext as; unfold Live.starWidth; rw [if_neg hp]
    have e2 : DefaultAppender.starWidth sp ctx = fun ts => .ok (ctx, ts) := by
      funext as; unfold DefaultAppender.starWidth; rw [if_neg hp]
    rw [e1, e2]
    exact Tracks.pure ctx

theorem starPrecision_tracks (sp : Specifier) (ctx : FormatContext) :
    Tracks Unlike true (starQuestion ctx.precision) (Live.starPrecision (σ := σ) sp ctx)
      (DefaultAppender.starPrecision sp ctx) := by
  unfold starQuestion
  by_cases hw : ctx.precision = PRECEDING
  · have hp : ctx.isPrecedingPrecision = true := by simpa [FormatContext.isPrecedingPrecision] using hw
    rw [if_pos hw]
    let g : Int → Res FormatContext := fun p => ctx.setPrecision (if p ≥ 0 then p else UNSET)
    have e1 : Live.starPrecision (σ := σ) sp ctx =
        useFirstLive (.printf (.missingArgument sp.char)) (fun v => v.asInt >>= fun w => Effect.of (g w)) := by
      funext as s
      unfold Live.starPrecision
      rw [if_pos hp]
      cases as with
      | nil => rfl
      | cons v rest =>
        simp only [Live.nextInt, useFirstLive, Effect.bind_apply]
        rcases v.asInt s with ⟨r, s'⟩
        cases r with
        | error e => rfl
        | ok w => rfl
    have e2 : DefaultAppender.starPrecision sp ctx =
        useFirst (.printf (.missingArgument sp.char)) (fun t => t.asInt >>= g) := by
      funext ts
      unfold DefaultAppender.starPrecision
      rw [if_pos hp]
      cases ts with
      | nil => rfl
      | cons t rest =>
        simp only [DefaultAppender.nextInt, useFirst, g]
        cases t.asInt with
        | error e => rfl
        | ok w => rfl
    rw [e1, e2]
    refine Tracks.ask (fun v s t s' h => Effect.bind_lift h) (by simp) (fun _ => ?_) (by simp)
    exact ⟨throwing .external, throwing .arithmetic, fun rest => ⟨.external, .arithmetic, by decide, rfl, rfl⟩⟩
  · have hp : ¬ ctx.isPrecedingPrecision = true := by simpa [FormatContext.isPrecedingPrecision] using hw
    rw [if_neg hw]
    have e1 : Live.starPrecision (σ := σ) sp ctx = fun as => Effect.of (.ok (ctx, as)) := by
      funext as; unfold Live.starPrecision; rw [if_neg hp]
    have e2 : DefaultAppender.starPrecision sp ctx = fun ts => .ok (ctx, ts) := by
      funext as; unfold DefaultAppender.starPrecision; rw [if_neg hp]
    rw [e1, e2]
    exact Tracks.pure ctx

/-- The formatter asks its one question and goes on as with an ordinary argument. -/
theorem formatterFor_live {env : DateEnv} {sp : Specifier} {ctx : FormatContext} {v : Live σ} {s s' : σ}
    {t : Traits} (h : Gives v s t s' sp.question) :
    Live.formatterFor env sp ctx v s = (DefaultAppender.formatterFor env sp ctx t, s') := by
  have upper : ∀ {x : Effect σ Seq} {r : Res Seq}, x s = (r, s') →
      (x >>= fun seq => Effect.of seq.upperCase) s = (r >>= fun q => q.upperCase, s') :=
    fun h => Effect.bind_lift h
  have hs : ∀ hq : v.asSeq s = (t.asSeq, s'), v.s ctx s = (SeqFormatter.s ctx t, s') := by
    intro hq
    unfold Live.s SeqFormatter.s
    rw [Effect.bind_lift hq]
  have ht : ∀ hq : v.asTemporal s = (t.asTemporal, s'), v.t env ctx s = (SeqFormatter.t env ctx t, s') := by
    intro hq
    unfold Live.t SeqFormatter.t
    rw [Effect.bind_lift hq]
  cases sp <;> simp only [Specifier.question, Gives] at h <;> simp only [Live.formatterFor, DefaultAppender.formatterFor]
  case s => exact hs h
  case upperS => exact upper (hs h)
  case t => exact ht h
  case upperT => exact upper (ht h)
  case c =>
    unfold Live.c SeqFormatter.c
    rw [Effect.bind_lift h]
  case p =>
    unfold Live.p SeqFormatter.p
    rw [h]
    cases t.ref <;> rfl
  case percent => subst h; rfl
  case n => subst h; rfl
  all_goals exact Effect.bind_lift h

/-- Two outcomes of one piece that lead to different outcomes of the call. -/
def Telling (u v : Res (Seq × List Traits)) : Prop :=
  Unlike u v ∨ (u = .error (.printf .primitivePointer) ∧ ∃ q rest, v = .ok (q, rest) ∧ q.WF)

theorem valueStep_tracks (env : DateEnv) (sp : Specifier) (ctx : FormatContext) :
    Tracks Telling false [sp.question]
      (useFirstLive (.printf (.missingArgument sp.char)) (Live.formatterFor (σ := σ) env sp ctx))
      (DefaultAppender.valueStep env sp ctx) := by
  have e2 : DefaultAppender.valueStep env sp ctx =
      useFirst (.printf (.missingArgument sp.char)) (DefaultAppender.formatterFor env sp ctx) := by
    funext ts
    cases ts with
    | nil => rfl
    | cons t rest =>
      simp only [DefaultAppender.valueStep, useFirst]
      cases DefaultAppender.formatterFor env sp ctx t <;> rfl
  rw [e2]
  refine Tracks.ask (fun v s t s' h => formatterFor_live h) (by simp) (fun hq => ?_) (fun hq t t' => ?_)
  · by_cases hr : sp.question = .reference
    · have hsp : sp = .p := by cases sp <;> first | rfl | cases hr
      subst hsp
      refine ⟨{ throwing .external with ref := .primitive }, throwing .external, fun rest => .inr ⟨rfl, ?_⟩⟩
      obtain ⟨r, h1, h2, _⟩ := SeqFormatter.spaceJustify_ok ctx (Seq.wrap_wf (js! "null"))
      refine ⟨r, rest, ?_, h2⟩
      show (SeqFormatter.spaceJustify ctx (Seq.wrap (js! "null")) >>= _) = _
      rw [h1]; rfl
    · refine ⟨throwing .external, throwing .arithmetic, fun rest => .inl ⟨.external, .arithmetic, by decide, ?_, ?_⟩⟩
      · rw [formatterFor_refuses (throwing_refuses _ _ hr hq)]; rfl
      · rw [formatterFor_refuses (throwing_refuses _ _ hr hq)]; rfl
  · cases sp <;> first | rfl | cases hq

theorem append_tracks (env : DateEnv) (a : Appender) :
    Tracks Telling false a.questions (Live.append (σ := σ) env a) (a.append env) := by
  cases a with
  | fixed t => exact Tracks.pure (Seq.wrap t)
  | dflt sp ctx =>
    have e1 : Live.append (σ := σ) env (.dflt sp ctx) = fun as => Live.starWidth sp ctx as >>= fun r =>
        (fun c as => Live.starPrecision sp c as >>= fun r =>
          useFirstLive (.printf (.missingArgument sp.char)) (Live.formatterFor (σ := σ) env sp r.1) r.2) r.1 r.2 := by
      funext as
      unfold Live.append
      dsimp only
      congr 1
      funext r
      congr 1
      funext r
      obtain ⟨c, as⟩ := r
      cases as <;> rfl
    have e2 : (Appender.dflt sp ctx).append env = fun ts => DefaultAppender.starWidth sp ctx ts >>= fun r =>
        (fun c ts => DefaultAppender.starPrecision sp c ts >>= fun r =>
          DefaultAppender.valueStep env sp r.1 r.2) r.1 r.2 := by
      funext ts
      exact DefaultAppender.append_eq env sp ctx ts
    have hU : ∀ u v : Res (Seq × List Traits), Unlike u v → Telling u v := fun u v h => .inl h
    simp only [Appender.questions, List.append_assoc]
    rw [e1, e2]
    refine Tracks.bind
      (f := fun c as => Live.starPrecision sp c as >>= fun r =>
        useFirstLive (.printf (.missingArgument sp.char)) (Live.formatterFor (σ := σ) env sp r.1) r.2)
      (g := fun c ts => DefaultAppender.starPrecision sp c ts >>= fun r =>
        DefaultAppender.valueStep env sp r.1 r.2) hU (starWidth_tracks sp ctx) fun ts c more hc => ?_
    have hp := DefaultAppender.starWidth_precision hc
    rw [← hp]
    exact Tracks.bind (f := fun c => useFirstLive (.printf (.missingArgument sp.char)) (Live.formatterFor (σ := σ) env sp c))
      (g := DefaultAppender.valueStep env sp) hU (starPrecision_tracks sp c) fun ts c' more _ => valueStep_tracks env sp c'

/-! ### The loop -/

/-- What a piece does with ordinary arguments, for a collector. -/
def oneStep (env : DateEnv) (collect : Seq → Effect σ Unit) (a : Appender) (ts : List Traits) (s : σ) : Outcome σ :=
  match a.append env ts with
  | .error e => ⟨s, .error e⟩
  | .ok (seq, rest) =>
    match collect seq s with
    | (.ok _, s) => ⟨s, .ok rest⟩
    | (.error e, s) => ⟨s, .error e⟩

/-- A collector that does not throw what `%p` throws. -/
def Fair (collect : Seq → Effect σ Unit) : Prop :=
  ∀ q, q.WF → ∀ s, (collect q s).1 ≠ .error (.printf .primitivePointer)

theorem Telling.undecided {env : DateEnv} {collect : Seq → Effect σ Unit} (hc : Fair collect) {a : Appender}
    {ts ts' : List Traits} (h : Telling (a.append env ts) (a.append env ts')) {s s' : σ} {e : Err}
    (h1 : oneStep env collect a ts s = ⟨s', .error e⟩) (h2 : oneStep env collect a ts' s = ⟨s', .error e⟩) :
    False := by
  unfold oneStep at h1 h2
  rcases h with ⟨e1, e2, hne, k1, k2⟩ | ⟨k1, q, rest, k2, hq⟩
  · rw [k1] at h1; rw [k2] at h2
    cases h1; cases h2
    exact hne rfl
  · rw [k1] at h1; rw [k2] at h2
    cases h1
    dsimp only at h2
    have := hc q hq s
    rcases hx : collect q s with ⟨r, s''⟩
    rw [hx] at h2 this
    cases r with
    | ok u => cases h2
    | error e => cases h2; exact this rfl

theorem Spec.Answers.prefix {qs : List Question} {as : List (Live σ)} {s s' : σ} {ts : List Traits}
    (h : Answers qs as s ts s') (m : Nat) : ∃ s'', Answers (qs.take m) as s ts s'' := by
  induction h generalizing m with
  | over s h => rw [List.take_nil]; exact ⟨s, .over s h⟩
  | next h rest ih =>
    cases m with
    | zero => exact ⟨_, .over _ (by simp [rest.length])⟩
    | succ m =>
      obtain ⟨s'', h'⟩ := ih m
      exact ⟨s'', .next h h'⟩

theorem Appender.cost_eq (a : Appender) : a.cost = a.questions.length := by
  have h : ∀ v, DefaultAppender.starCost v = (starQuestion v).length := by
    intro v
    unfold DefaultAppender.starCost starQuestion
    split_ifs <;> rfl
  cases a with
  | fixed t => rfl
  | dflt sp ctx => simp [Appender.cost, Appender.questions, h, Nat.add_assoc]

/-- The arguments after those of a piece do not matter to it. -/
theorem append_alone {env : DateEnv} {a : Appender} {ts us : List Traits} {q : Seq}
    (hl : a.questions.length = ts.length) (h : a.append env (ts ++ us) = .ok (q, us)) :
    a.append env ts = .ok (q, []) := by
  obtain ⟨r, hr⟩ := (a.reads env).enough ts (by rw [a.cost_eq, hl])
  have h1 := hr us
  have h2 := hr []
  rw [h] at h1
  rw [List.append_nil] at h2
  cases r with
  | error e => cases h1
  | ok b => cases h1; exact h2

theorem append_before {env : DateEnv} {a : Appender} {ts : List Traits} {q : Seq} (us : List Traits)
    (hl : a.questions.length = ts.length) (h : a.append env ts = .ok (q, [])) :
    a.append env (ts ++ us) = .ok (q, us) := by
  obtain ⟨r, hr⟩ := (a.reads env).enough ts (by rw [a.cost_eq, hl])
  have h1 := hr us
  have h2 := hr []
  rw [List.append_nil, h] at h2
  cases r with
  | error e => cases h2
  | ok b => cases h2; exact h1

theorem run_live {dates : DateSyntax} {env : DateEnv} {collect : Seq → Effect σ Unit} (hc : Fair collect)
    {ps : List Piece} (hok : ∀ p ∈ ps, p.Ok dates) (as : List (Live σ)) (s : σ) :
    Unfolds (fun p => oneStep env collect p.compiled) ps as s
      ((Live.run env collect (ps.map Piece.compiled) as s).1.map fun _ => ())
      (Live.run env collect (ps.map Piece.compiled) as s).2 := by
  induction ps generalizing as s with
  | nil => exact .over as s
  | cons p ps ih =>
    have hq := Piece.questions_compiled (hok p (by simp))
    obtain ⟨n, s₁, hn, ⟨ts₀, ht₀⟩, hm, h⟩ := append_tracks (σ := σ) env p.compiled as s
    rw [hq] at hn ht₀ hm h
    have hopen : ∀ m < n, ∀ e s', ¬ Decided (oneStep env collect p.compiled) (p.questions.take m) as s e s' := by
      rintro m hmn e s' ⟨s₂, _, hall⟩
      obtain ⟨s'', ts, ts', h1, h2, hd⟩ := hm m hmn
      have hx : ∀ {us}, Answers (p.questions.take m) as s us s'' → s'' = s₂ := by
        intro us hus
        rename_i hw
        obtain ⟨ws, hws⟩ := hw
        exact hus.state hws
      cases hx h1
      exact hd.undecided hc (hall ts h1) (hall ts' h2)
    simp only [List.map_cons, Live.run]
    rcases h with ⟨e, h1, h2⟩ | ⟨seq, as₁, rest, h1, h2, h3, _, ⟨ts₁, ht₁⟩, h5⟩
    · rw [Effect.bind_of_error h1]
      refine .throws hn ⟨s₁, ⟨ts₀, ht₀⟩, fun ts hts => ?_⟩ hopen
      unfold oneStep
      rw [h2 ts hts]
    · rw [Effect.bind_of_ok h1]
      dsimp only
      rcases hcs : collect seq s₁ with ⟨r, s₂⟩
      cases r with
      | error e =>
        rw [Effect.bind_of_error hcs]
        refine .throws hn ⟨s₁, ⟨ts₀, ht₀⟩, fun ts hts => ?_⟩ hopen
        unfold oneStep
        rw [h5 ts hts]
        dsimp only
        rw [hcs]
      | ok u =>
        rw [Effect.bind_of_ok hcs]
        subst h2
        have htn := ht₁ n (Nat.le_refl _)
        replace ht₁ := ht₁ p.questions.length hn
        rw [List.take_of_length_le (Nat.le_refl _)] at ht₁
        obtain ⟨tsa, tsb, s', he, hel, ha1, hb1⟩ :=
          Answers.split (qs' := []) (by rw [List.append_nil]; exact ht₁) h3
        have hs₁ : s' = s₁ := by cases hb1 with | over _ _ => rfl
        subst hs₁
        refine .piece h3 ha1 ?_ (ih (fun p hp => hok p (by simp [hp])) rest s₂)
        have h6 := h5 ts₁ htn
        rw [he, ← hel, List.drop_left] at h6
        unfold oneStep
        rw [append_alone (by rw [hq, hel]) h6]
        dsimp only
        rw [hcs]

/-- There is only one way for a call to unfold. -/
theorem run_live_only {dates : DateSyntax} {env : DateEnv} {collect : Seq → Effect σ Unit} (hc : Fair collect)
    {ps : List Piece} (hok : ∀ p ∈ ps, p.Ok dates) {as : List (Live σ)} {s s' : σ} {r : Res Unit}
    (h : Unfolds (fun p => oneStep env collect p.compiled) ps as s r s') :
    ((Live.run env collect (ps.map Piece.compiled) as s).1.map fun _ => ()) = r ∧
      (Live.run env collect (ps.map Piece.compiled) as s).2 = s' := by
  have hun : ∀ {p : Piece} {as : List (Live σ)} {s : σ} {n : Nat},
      (∀ m < n, ∃ s'' ts ts', Answers (p.questions.take m) as s ts s'' ∧
        Answers (p.questions.take m) as s ts' s'' ∧ Telling (p.compiled.append env ts) (p.compiled.append env ts')) →
      ∀ m < n, ∀ e s', ¬ Decided (oneStep env collect p.compiled) (p.questions.take m) as s e s' := by
    rintro p as s n hm m hmn e s' ⟨s₂, ⟨ws, hws⟩, hall⟩
    obtain ⟨s'', ts, ts', h1, h2, hd⟩ := hm m hmn
    cases h1.state hws
    exact hd.undecided hc (hall ts h1) (hall ts' h2)
  induction h with
  | over as s => exact ⟨rfl, rfl⟩
  | @piece p ps as bs ts s s₁ s₂ s' r hl ha ho rest ih =>
    have hq := Piece.questions_compiled (hok p (by simp))
    obtain ⟨n, s₃, hn, ⟨ws, hws⟩, hm, h⟩ := append_tracks (σ := σ) env p.compiled (as ++ bs) s
    rw [hq] at hn hm h hws
    let us : List Traits := bs.map fun _ => throwing .external
    have hus : bs.length = us.length := by simp [us]
    have hfull := ha.more hl hus
    have hlt : p.compiled.questions.length = ts.length := by rw [hq, ← hl, ha.length]
    obtain ⟨seq, happ, hcs⟩ : ∃ seq, p.compiled.append env ts = .ok (seq, []) ∧ collect seq s₁ = (.ok (), s₂) := by
      unfold oneStep at ho
      rcases hx : p.compiled.append env ts with e | ⟨seq, more⟩
      · rw [hx] at ho; cases ho
      · rw [hx] at ho
        dsimp only at ho
        rcases hy : collect seq s₁ with ⟨r, s''⟩
        rw [hy] at ho
        cases r with
        | error e => cases ho
        | ok u => cases ho; exact ⟨seq, rfl, hy⟩
    have hbefore := append_before us hlt happ
    obtain ⟨s₄, h4⟩ := hfull.prefix n
    simp only [List.map_cons, Live.run]
    rcases h with ⟨e, h1, h2⟩ | ⟨seq', as₁, rest', h1, h2, h3, _, ⟨ts₁, ht₁⟩, h5⟩
    · exfalso
      have hs : s₄ = s₃ := h4.state hws
      subst hs
      rw [h2 _ h4] at hbefore
      cases hbefore
    · have hs : s₁ = s₃ := by
        have := ht₁ p.questions.length hn
        rw [List.take_of_length_le (Nat.le_refl _)] at this
        exact hfull.state this
      subst hs
      have hs : s₄ = s₁ := h4.state (ht₁ n (Nat.le_refl _))
      subst hs
      have h6 := h5 _ h4
      rw [hbefore] at h6
      have hseq : seq' = seq := (congrArg Prod.fst (Except.ok.inj h6)).symm
      subst hseq
      obtain ⟨rfl, rfl⟩ := List.append_inj h2 (by rw [hl, h3])
      rw [Effect.bind_of_ok h1]
      dsimp only
      rw [Effect.bind_of_ok hcs]
      exact ih fun p hp => hok p (by simp [hp])
  | @throws p ps as s s' e n' hn' hd hf =>
    have hq := Piece.questions_compiled (hok p (by simp))
    obtain ⟨n, s₁, hn, ⟨ts₀, ht₀⟩, hm, h⟩ := append_tracks (σ := σ) env p.compiled as s
    rw [hq] at hn ht₀ hm h
    have hge : n ≤ n' := by
      by_contra hlt
      exact hun hm n' (by omega) _ _ hd
    simp only [List.map_cons, Live.run]
    obtain ⟨s₂, ⟨ws, hws⟩, hall⟩ := hd
    have hsame : ∀ {e'' s''}, Decided (oneStep env collect p.compiled) (p.questions.take n) as s e'' s'' → n = n' := by
      intro e'' s'' hd'
      by_contra hne
      exact hf n (by omega) _ _ hd'
    rcases h with ⟨e', h1, h2⟩ | ⟨seq, as₁, rest, h1, h2, h3, _, ⟨ts₁, ht₁⟩, h5⟩
    · have hone : ∀ ts, Answers (p.questions.take n) as s ts s₁ →
          oneStep env collect p.compiled ts s₁ = ⟨s₁, .error e'⟩ := by
        intro ts hts
        unfold oneStep
        rw [h2 ts hts]
      obtain rfl := hsame ⟨s₁, ⟨ts₀, ht₀⟩, hone⟩
      cases hws.state ht₀
      have := hone ts₀ ht₀
      rw [hall ts₀ ht₀] at this
      cases this
      rw [Effect.bind_of_error h1]
      exact ⟨rfl, rfl⟩
    · rw [Effect.bind_of_ok h1]
      dsimp only
      have ha := ht₁ n' hge
      have happ := h5 ts₁ (ht₁ n (Nat.le_refl _))
      have hs : s₂ = s₁ := hws.state ha
      subst hs
      have ho := hall ts₁ ha
      unfold oneStep at ho
      rw [happ] at ho
      dsimp only at ho
      rcases hcs : collect seq s₂ with ⟨r, s''⟩
      rw [hcs] at ho
      cases r with
      | ok u => cases ho
      | error e'' =>
        cases ho
        rw [Effect.bind_of_error hcs]
        exact ⟨rfl, rfl⟩

theorem Live.Builder.collect_fair (b : Live.Builder σ) : Fair b.collect := by
  intro q hq s h
  unfold Live.Builder.collect at h
  rw [Seq.appendToSB_ok hq.sane] at h
  cases h

theorem sinkCollect_fair (k : Sink σ) : Fair (Live.sinkCollect k) := by
  intro q hq s h
  unfold Live.sinkCollect at h
  obtain ⟨cs, h1, _⟩ := Seq.appendToCalls_ok hq.sane
  rw [h1] at h
  dsimp only at h
  rcases hk : k.feed s cs with ⟨s', _ | _⟩ <;> rw [hk] at h <;> cases h

theorem onBuilder_eq (env : DateEnv) (b : Live.Builder σ) :
    onBuilder env b = fun p => oneStep env b.collect p.compiled := by
  funext p ts s
  unfold onBuilder oneStep Live.Builder.collect
  simp only [runSB]
  rcases p.compiled.append env ts with e | ⟨seq, more⟩
  · simp only [b.same]
  · dsimp only
    cases seq.appendToSB (b.get s) <;> rfl

theorem onSink_eq (env : DateEnv) (k : Sink σ) :
    onSink env k = fun p => oneStep env (Live.sinkCollect k) p.compiled := by
  funext p ts s
  unfold onSink oneStep Live.sinkCollect
  simp only [runSink]
  rcases p.compiled.append env ts with e | ⟨seq, more⟩
  · rfl
  · dsimp only
    cases seq.appendToCalls with
    | error e =>
      dsimp only
      rcases k.feed s seq.callsBefore with ⟨s', _ | _⟩ <;> rfl
    | ok calls =>
      dsimp only
      rcases k.feed s calls with ⟨s', _ | _⟩ <;> rfl

/-! ### A builder of its own -/

theorem gives_beside {a : Live σ} {w w' : σ} {sb sb' : JStr} {t : Traits} {q : Question} :
    Gives a.beside (w, sb) t (w', sb') q ↔ Gives a w t w' q ∧ sb' = sb := by
  cases q <;> simp only [Gives, Live.beside, Prod.ext_iff] <;> constructor <;> rintro h
  all_goals first
    | exact ⟨⟨h.1, h.2.1⟩, h.2.2.symm⟩
    | exact ⟨h.1.1, h.1.2, h.2.symm⟩

theorem answers_beside {qs : List Question} {as : List (Live σ)} {w : σ} {sb : JStr} {ts : List Traits} {s' : σ × JStr} :
    Answers qs (as.map Live.beside) (w, sb) ts s' ↔ ∃ w', Answers qs as w ts w' ∧ s' = (w', sb) := by
  constructor
  · intro h
    induction qs generalizing as w ts with
    | nil =>
      cases h with
      | over _ h => exact ⟨w, .over w (by simpa using h), rfl⟩
    | cons q qs ih =>
      cases as with
      | nil => cases h
      | cons a as =>
        cases h with
        | @next _ _ _ _ _ s1 _ t ts h rest =>
          obtain ⟨w1, sb1⟩ := s1
          obtain ⟨h1, rfl⟩ := gives_beside.1 h
          obtain ⟨w', h2, h3⟩ := ih rest
          exact ⟨w', .next h1 h2, h3⟩
  · rintro ⟨w', h, rfl⟩
    induction h with
    | over s h => exact .over _ (by simpa using h)
    | next h rest ih => exact .next (gives_beside.2 ⟨h, rfl⟩) ih

theorem Spec.Gives.same {a : Live σ} {s s' s'' : σ} {t t' : Traits} {q : Question} (h : Gives a s t s' q)
    (h' : Gives a s t' s'' q) : SameAnswer t t' q := by
  cases q <;> simp only [Gives, SameAnswer] at h h' ⊢ <;> rw [h] at h' <;> exact (Prod.ext_iff.1 h').1

theorem Spec.Answers.agree {qs : List Question} {as : List (Live σ)} {s s' s'' : σ} {ts ts' : List Traits}
    (h : Answers qs as s ts s') (h' : Answers qs as s ts' s'') : Agree qs ts ts' := by
  induction h generalizing ts' with
  | over s h => exact .done _ _
  | next h rest ih =>
    cases h' with
    | next h' rest' =>
      have := Gives.same h h'
      cases Gives.state h h'
      exact .next this (ih rest')

/-- The builder that nobody else has. -/
def ownBuilder (σ : Type) : Live.Builder (σ × JStr) := ⟨Prod.snd, fun s text => (s.1, text), fun _ => rfl⟩

theorem runSB_piece {env : DateEnv} {a : Appender} {apps : List Appender} {ts us : List Traits} {sb sb' : JStr}
    (hl : a.questions.length = ts.length) (h : runSB env [a] ts sb = ⟨sb', .ok []⟩) :
    runSB env (a :: apps) (ts ++ us) sb = runSB env apps us sb' := by
  simp only [runSB] at h ⊢
  rcases hx : a.append env ts with e | ⟨seq, more⟩
  · rw [hx] at h; cases h
  · rw [hx] at h
    dsimp only at h
    cases hy : seq.appendToSB sb with
    | error e => rw [hy] at h; cases h
    | ok sb₂ =>
      rw [hy] at h
      cases h
      rw [append_before us hl hx]
      dsimp only
      rw [hy]

theorem runSB_stop {env : DateEnv} {a : Appender} {apps : List Appender} {ts : List Traits} {sb sb' : JStr} {e : Err}
    (h : runSB env [a] ts sb = ⟨sb', .error e⟩) : runSB env (a :: apps) ts sb = ⟨sb', .error e⟩ := by
  simp only [runSB] at h ⊢
  rcases hx : a.append env ts with e | ⟨seq, more⟩
  · rw [hx] at h; exact h
  · rw [hx] at h
    dsimp only at h ⊢
    cases hy : seq.appendToSB sb with
    | error e => rw [hy] at h; exact h
    | ok sb₂ => rw [hy] at h; cases h

theorem append_frozen {env : DateEnv} {a : Appender} {ts ts' : List Traits}
    (hl : a.questions.length = ts.length) (hl' : a.questions.length = ts'.length) (h : Agree a.questions ts ts') :
    a.append env ts = a.append env ts' := by
  obtain ⟨r, hr⟩ := (a.reads env).enough ts (by rw [a.cost_eq, hl])
  obtain ⟨r', hr'⟩ := (a.reads env).enough ts' (by rw [a.cost_eq, hl'])
  have h1 := hr []
  have h2 := hr' []
  rw [List.append_nil] at h1 h2
  rcases a.append_same (env := env) (qs := []) (by rw [List.append_nil]; exact h) with ⟨e, k1, k2⟩ | ⟨q, x, y, k1, k2, _⟩
  · rw [k1, k2]
  · rw [k1] at h1
    rw [k2] at h2
    rw [k1, k2]
    cases r with
    | error e => cases h1
    | ok b =>
      cases r' with
      | error e => cases h2
      | ok b' => cases h1; cases h2; rfl

theorem unfolds_own {dates : DateSyntax} {env : DateEnv} {ps : List Piece} (hok : ∀ p ∈ ps, p.Ok dates)
    {bs : List (Live (σ × JStr))} {s s' : σ × JStr} {r : Res Unit}
    (h : Unfolds (onBuilder env (ownBuilder σ)) ps bs s r s') {as : List (Live σ)} (hb : bs = as.map Live.beside) :
    ∃ n, n ≤ (ps.flatMap Piece.questions).length ∧
      (∃ ts, Answers ((ps.flatMap Piece.questions).take n) as s.1 ts s'.1) ∧
      (r = .ok () → n = (ps.flatMap Piece.questions).length) ∧
      ∀ ts w, Answers ((ps.flatMap Piece.questions).take n) as s.1 ts w →
        (runSB env (ps.map Piece.compiled) ts s.2).target = s'.2 ∧
          ((runSB env (ps.map Piece.compiled) ts s.2).result.map fun _ => ()) = r := by
  induction h generalizing as with
  | over bs s =>
    refine ⟨0, Nat.le_refl _, ⟨as.map fun _ => throwing .external, .over _ (by simp)⟩, fun _ => rfl, fun ts w _ => ⟨rfl, rfl⟩⟩
  | @piece p ps as' bs ts s s₁ s₂ s' r hl ha ho rest ih =>
    obtain ⟨as₁, as₂, rfl, rfl, rfl⟩ := List.map_eq_append_iff.1 hb.symm
    obtain ⟨w, sb⟩ := s
    obtain ⟨w₁, ha', rfl⟩ := answers_beside.1 ha
    have hq := Piece.questions_compiled (hok p (by simp))
    have hlen : as₁.length = p.questions.length := by simpa using hl
    have hone : ∀ ts' w', Answers p.questions as₁ w ts' w' →
        runSB env [p.compiled] ts' sb = ⟨s₂.2, .ok []⟩ ∧ w' = w₁ := by
      intro ts' w' h'
      refine ⟨?_, h'.state ha'⟩
      have ht : (runSB env [p.compiled] ts sb).target = s₂.2 := congrArg (fun o => o.target.2) ho
      have hr : (runSB env [p.compiled] ts sb).result = .ok [] := congrArg (fun o => o.result) ho
      have hx : runSB env [p.compiled] ts sb = ⟨s₂.2, .ok []⟩ := by rw [← ht, ← hr]
      rw [← hx]
      simp only [runSB]
      rw [append_frozen (ts := ts') (ts' := ts) (by rw [hq, ← hlen, h'.length]) (by rw [hq, ← hlen, ha'.length])
        (by rw [hq]; exact h'.agree ha')]
    have hs₂ : s₂.1 = w₁ := by
      unfold onBuilder ownBuilder at ho
      exact (congrArg (fun o => o.target.1) ho).symm
    obtain ⟨n, hn, ⟨us, hus⟩, hall, hrun⟩ := ih (fun p hp => hok p (by simp [hp])) rfl
    have htake : ((p :: ps).flatMap Piece.questions).take (p.questions.length + n) =
        p.questions ++ (ps.flatMap Piece.questions).take n := by
      rw [List.flatMap_cons, List.take_append, List.take_of_length_le (by omega)]
      congr 2; omega
    refine ⟨p.questions.length + n, ?_, ⟨ts ++ us, ?_⟩, ?_, ?_⟩
    · rw [List.flatMap_cons, List.length_append]; omega
    · rw [htake]
      rw [hs₂] at hus
      exact ha'.join hlen hus
    · intro hr
      rw [hall hr, List.flatMap_cons, List.length_append]
    · intro ts' w' hts
      rw [htake] at hts
      obtain ⟨ta, tb, w₂, rfl, e2, e3, e4⟩ := hts.split hlen
      obtain ⟨h1, rfl⟩ := hone ta w₂ e3
      rw [List.map_cons, runSB_piece (by rw [hq, e2]) h1]
      rw [← hs₂] at e4
      exact hrun tb w' e4
  | @throws p ps as' s s' e n hn hd hf =>
    subst hb
    obtain ⟨w, sb⟩ := s
    obtain ⟨s₁, ⟨ts, hts⟩, hall⟩ := hd
    obtain ⟨w₁, hts', rfl⟩ := answers_beside.1 hts
    have htake : ((p :: ps).flatMap Piece.questions).take n = p.questions.take n := by
      rw [List.flatMap_cons, List.take_append_of_le_length hn]
    have hs' : s'.1 = w₁ := (congrArg (fun o => o.target.1) (hall ts hts)).symm
    refine ⟨n, ?_, ⟨ts, by rw [htake, hs']; exact hts'⟩, fun h => (nomatch h), fun ts' w' h' => ?_⟩
    · rw [List.flatMap_cons, List.length_append]; omega
    · rw [htake] at h'
      cases hts'.state h'
      have ho := hall ts' (answers_beside.2 ⟨w₁, h', rfl⟩)
      have ht : (runSB env [p.compiled] ts' sb).target = s'.2 := congrArg (fun o => o.target.2) ho
      have hr : (runSB env [p.compiled] ts' sb).result = .error e := congrArg (fun o => o.result) ho
      have hx : runSB env [p.compiled] ts' sb = ⟨s'.2, .error e⟩ := by
        rw [← ht, ← hr]
      rw [List.map_cons]
      show (runSB env (p.compiled :: _) ts' sb).target = _ ∧ _
      rw [runSB_stop hx]
      exact ⟨rfl, rfl⟩

end FastPrintf
