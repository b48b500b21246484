/-
C106: an `Args` object that is given further values while it is printed.
-/
import Verif.Model.LiveArgs
import Verif.Props.Live

namespace FastPrintf
open Spec LiveArgs

variable {σ : Type}

/-- The code removes nothing from the `Args`. -/
def Spec.Keeps (count : σ → Nat) {α : Type} (x : Effect σ α) : Prop := ∀ s, count s ≤ count (x s).2

/-- What the methods of the arguments and of the target do to the state is in the relation `R`. -/
structure Spec.Moves (R : σ → σ → Prop) (as : List (Live σ)) (collect : Seq → Effect σ Unit) : Prop where
  asIntForm : ∀ v ∈ as, ∀ s, R s (v.asIntForm s).2
  asFloatForm : ∀ v ∈ as, ∀ s, R s (v.asFloatForm s).2
  asTemporal : ∀ v ∈ as, ∀ s, R s (v.asTemporal s).2
  asSeq : ∀ v ∈ as, ∀ s, R s (v.asSeq s).2
  asInt : ∀ v ∈ as, ∀ s, R s (v.asInt s).2
  asChar : ∀ v ∈ as, ∀ s, R s (v.asChar s).2
  ref : ∀ v ∈ as, ∀ s, R s (v.ref s).2
  collect : ∀ q s, R s (collect q s).2

/-- Neither the methods of the arguments nor those of the target remove anything from the `Args`; `Args` has no method
for that. -/
abbrev Spec.OnlyPuts (h : Held σ) (collect : Seq → Effect σ Unit) : Prop :=
  Moves (fun s s' => h.count s ≤ h.count s') h.elements collect

/-- They do not put anything into it either. -/
abbrev Spec.NoPuts (h : Held σ) (collect : Seq → Effect σ Unit) : Prop :=
  Moves (fun s s' => h.count s' = h.count s) h.elements collect

/-- A directive that finds the arguments `left` and the state `s` asks for an argument in the state `s'`: at once (`0`),
when it has got the width (`1`), or when it has got the precision too (`2`). -/
def Spec.AsksIn (sp : Specifier) (ctx : FormatContext) (left : List (Live σ)) (s : σ) : Nat → σ → Prop
  | 0, s' => s' = s
  | 1, s' => ∃ c l, Live.starWidth sp ctx left s = (.ok (c, l), s')
  | 2, s' => ∃ c l s₁ c' l', Live.starWidth sp ctx left s = (.ok (c, l), s₁) ∧
      Live.starPrecision sp c l s₁ = (.ok (c', l'), s')
  | _, _ => False

/-- In a call with arguments that nobody changes, `before` is printed and the directive after it asks for an argument in
the state `s'`, as its request number `k`. -/
def Spec.Requests (env : DateEnv) (collect : Seq → Effect σ Unit) (apps : List Appender) (as : List (Live σ)) (s : σ)
    (before : List Appender) (k : Nat) (s' : σ) : Prop :=
  ∃ sp ctx after left s₁, apps = before ++ .dflt sp ctx :: after ∧ Live.run env collect before as s = (.ok left, s₁) ∧
    AsksIn sp ctx left s₁ k s'

/-- Methods called one after another return the given results. -/
inductive Spec.Said {α : Type} : List (Effect σ α) → σ → List α → σ → Prop
  | over {s : σ} : Said [] s [] s
  | next {x : Effect σ α} {rest : List (Effect σ α)} {s s₁ s' : σ} {v : α} {vs : List α} (h : x s = (.ok v, s₁))
      (t : Said rest s₁ vs s') : Said (x :: rest) s (v :: vs) s'

theorem Spec.Moves.weaken {R Q : σ → σ → Prop} {as : List (Live σ)} {collect : Seq → Effect σ Unit}
    (hm : Moves R as collect) (hw : ∀ s s', R s s' → Q s s') : Moves Q as collect :=
  ⟨fun v hv s => hw _ _ (hm.asIntForm v hv s), fun v hv s => hw _ _ (hm.asFloatForm v hv s),
    fun v hv s => hw _ _ (hm.asTemporal v hv s), fun v hv s => hw _ _ (hm.asSeq v hv s),
    fun v hv s => hw _ _ (hm.asInt v hv s), fun v hv s => hw _ _ (hm.asChar v hv s),
    fun v hv s => hw _ _ (hm.ref v hv s), fun q s => hw _ _ (hm.collect q s)⟩

namespace LiveArgs

theorem bind_step {α β : Type} (x : Step σ α) (f : α → Step σ β) (s : σ) :
    (x >>= f) s = match x s with
      | (.ok a, s) => f a s
      | (.error e, s) => (.error e, s) := rfl

theorem pure_step {α : Type} (a : α) (s : σ) : (pure a : Step σ α) s = (.ok a, s) := rfl

theorem bind_effect {α β : Type} (x : Effect σ α) (f : α → Effect σ β) (s : σ) :
    (x >>= f) s = match x s with
      | (.ok a, s) => f a s
      | (.error e, s) => (.error e, s) := rfl

theorem keeps_of {count : σ → Nat} {α : Type} (r : Res α) : Keeps count (Effect.of r : Effect σ α) := fun _ => Nat.le_refl _

theorem keeps_bind {count : σ → Nat} {α β : Type} {x : Effect σ α} {f : α → Effect σ β} (hx : Keeps count x)
    (hf : ∀ a, Keeps count (f a)) : Keeps count (x >>= f) := by
  intro s
  rw [bind_effect]
  have h1 := hx s
  rcases hr : x s with ⟨a | a, s'⟩
  · rw [hr] at h1
    exact h1
  · rw [hr] at h1
    exact Nat.le_trans h1 (hf a s')

theorem keeps_formatter {env : DateEnv} {h : Held σ} {collect : Seq → Effect σ Unit} (hp : OnlyPuts h collect)
    {v : Live σ} (hv : v ∈ h.elements) (sp : Specifier) (ctx : FormatContext) :
    Keeps h.count (v.formatterFor env sp ctx) := by
  have hs : Keeps h.count (v.s ctx) := keeps_bind (hp.asSeq v hv) fun _ => keeps_of _
  have ht : Keeps h.count (v.t env ctx) := keeps_bind (hp.asTemporal v hv) fun _ => keeps_of _
  cases sp with
  | d => exact keeps_bind (hp.asIntForm v hv) fun _ => keeps_of _
  | u => exact keeps_bind (hp.asIntForm v hv) fun _ => keeps_of _
  | x => exact keeps_bind (hp.asIntForm v hv) fun _ => keeps_of _
  | upperX => exact keeps_bind (hp.asIntForm v hv) fun _ => keeps_of _
  | o => exact keeps_bind (hp.asIntForm v hv) fun _ => keeps_of _
  | f => exact keeps_bind (hp.asFloatForm v hv) fun _ => keeps_of _
  | upperF => exact keeps_bind (hp.asFloatForm v hv) fun _ => keeps_of _
  | e => exact keeps_bind (hp.asFloatForm v hv) fun _ => keeps_of _
  | upperE => exact keeps_bind (hp.asFloatForm v hv) fun _ => keeps_of _
  | g => exact keeps_bind (hp.asFloatForm v hv) fun _ => keeps_of _
  | upperG => exact keeps_bind (hp.asFloatForm v hv) fun _ => keeps_of _
  | a => exact keeps_bind (hp.asFloatForm v hv) fun _ => keeps_of _
  | upperA => exact keeps_bind (hp.asFloatForm v hv) fun _ => keeps_of _
  | s => exact hs
  | upperS => exact keeps_bind hs fun _ => keeps_of _
  | t => exact ht
  | upperT => exact keeps_bind ht fun _ => keeps_of _
  | c => exact keeps_bind (hp.asChar v hv) fun _ => keeps_of _
  | p =>
    intro s
    have h1 := hp.ref v hv s
    show h.count s ≤ h.count (Live.p ctx v s).2
    unfold Live.p
    rcases hr : v.ref s with ⟨r, s'⟩
    rw [hr] at h1
    cases r <;> exact h1
  | percent => exact keeps_of _
  | n => exact keeps_of _

/-- Two runs, one with a cursor and one with the list of the arguments left, end alike. -/
def Alike {α : Type} (h : Held σ) (x : Except Stop (α × Nat) × σ) (y : Res (α × List (Live σ)) × σ) : Prop :=
  x.2 = y.2 ∧ match y.1 with
    | .ok (a, left) => ∃ i, i ≤ h.elements.length ∧ left = h.elements.drop i ∧ x.1 = .ok (a, i)
    | .error e => x.1 = .error (.thrown e)

variable {h : Held σ} {collect : Seq → Effect σ Unit}

theorem drop_some {l : List (Live σ)} {i : Nat} (hi : i < l.length) : ∃ v, l[i]? = some v ∧ l.drop i = v :: l.drop (i + 1) ∧
    v ∈ l :=
  ⟨l[i], List.getElem?_eq_getElem hi, List.drop_eq_getElem_cons hi, List.getElem_mem hi⟩

/-- A request for an argument, while the `Args` are as they were. -/
theorem request_same {α : Type} {sp : Specifier} {i : Nat} (hi : i ≤ h.elements.length) {s : σ}
    (hc : h.count s = h.elements.length) (f : Live σ → Effect σ α) :
    Alike h
      ((if hasNext h i s then (do
          let (v, i) ← LiveArgs.next h i
          let a ← quiet (f v)
          return (a, i) : Step σ (α × Nat)) s
        else (.error (.thrown (.printf (.missingArgument sp.char))), s)))
      (match h.elements.drop i with
        | [] => (.error (.printf (.missingArgument sp.char)), s)
        | v :: rest => (do let a ← f v; return (a, rest) : Effect σ (α × List (Live σ))) s) := by
  by_cases hl : i = h.elements.length
  · rw [if_neg (by simp [hasNext, hc, hl]), hl, List.drop_length]
    exact ⟨rfl, rfl⟩
  · obtain ⟨v, h1, h2, _⟩ := drop_some (l := h.elements) (i := i) (by omega)
    rw [if_pos (by simp [hasNext, hc, hl]), h2]
    simp only [bind_step, LiveArgs.next, hc, ne_eq, not_true_eq_false, if_false, h1, quiet, bind_effect]
    rcases f v s with ⟨a | a, s'⟩
    · exact ⟨rfl, rfl⟩
    · exact ⟨rfl, i + 1, by omega, rfl, rfl⟩

/-- A request for an argument after a change. -/
theorem request_changed {α : Type} {sp : Specifier} {i : Nat} (hi : i ≤ h.elements.length) {s : σ}
    (hc : h.elements.length < h.count s) (f : Live σ → Effect σ α) :
    (if hasNext h i s then (do
        let (v, i) ← LiveArgs.next h i
        let a ← quiet (f v)
        return (a, i) : Step σ (α × Nat)) s
      else (.error (.thrown (.printf (.missingArgument sp.char))), s)) = (.error .comodified, s) := by
  rw [if_pos (by simp [hasNext]; omega)]
  simp only [bind_step, LiveArgs.next]
  rw [if_pos (by omega)]

theorem nextInt_same {sp : Specifier} {i : Nat} (hi : i ≤ h.elements.length) {s : σ}
    (hc : h.count s = h.elements.length) :
    Alike h (LiveArgs.nextInt h sp i s) (Live.nextInt sp (h.elements.drop i) s) := by
  have := request_same (sp := sp) hi hc fun v => v.asInt
  unfold LiveArgs.nextInt Live.nextInt
  cases hd : h.elements.drop i with
  | nil => rw [hd] at this; exact this
  | cons v rest => rw [hd] at this; exact this

theorem nextInt_changed {sp : Specifier} {i : Nat} (hi : i ≤ h.elements.length) {s : σ}
    (hc : h.elements.length < h.count s) : LiveArgs.nextInt h sp i s = (.error .comodified, s) :=
  request_changed hi hc fun v => v.asInt

theorem value_same {env : DateEnv} {sp : Specifier} {ctx : FormatContext} {i : Nat} (hi : i ≤ h.elements.length) {s : σ}
    (hc : h.count s = h.elements.length) :
    Alike h (LiveArgs.value env h sp ctx i s)
      ((match h.elements.drop i with
        | v :: rest => do
          let seq ← Live.formatterFor env sp ctx v
          return (seq, rest)
        | [] => Effect.of (.error (.printf (.missingArgument sp.char))) : Effect σ (Seq × List (Live σ))) s) := by
  have := request_same (sp := sp) hi hc fun v => v.formatterFor env sp ctx
  unfold LiveArgs.value
  cases hd : h.elements.drop i with
  | nil => rw [hd] at this; exact this
  | cons v rest => rw [hd] at this; exact this

/-- A number and what is made of it. -/
theorem Alike.bind {α β : Type} {x : Step σ (α × Nat)} {y : Effect σ (α × List (Live σ))} {s : σ}
    (hx : Alike h (x s) (y s)) (f : α → Res β) :
    Alike h ((do
        let (a, i) ← x
        let b ← quiet (.of (f a))
        return (b, i) : Step σ (β × Nat)) s)
      ((do
        let (a, l) ← y
        let b ← Effect.of (f a)
        return (b, l) : Effect σ (β × List (Live σ))) s) := by
  obtain ⟨h1, h2⟩ := hx
  rw [bind_step, bind_effect]
  rcases hy : y s with ⟨e | ⟨a, left⟩, s'⟩
  · rw [hy] at h1 h2
    rcases hx : x s with ⟨r, s''⟩
    rw [hx] at h1 h2
    cases h1
    cases h2
    exact ⟨rfl, rfl⟩
  · rw [hy] at h1 h2
    obtain ⟨i, hi, hl, h2⟩ := h2
    rcases hx : x s with ⟨r, s''⟩
    rw [hx] at h1 h2
    cases h1
    cases h2
    simp only [bind_step, bind_effect, quiet, Effect.of]
    cases f a with
    | error e => exact ⟨rfl, rfl⟩
    | ok b => exact ⟨rfl, i, hi, hl, rfl⟩

theorem starWidth_same {sp : Specifier} {ctx : FormatContext} {i : Nat} (hi : i ≤ h.elements.length) {s : σ}
    (hc : h.count s = h.elements.length) :
    Alike h (LiveArgs.starWidth h sp ctx i s) (Live.starWidth sp ctx (h.elements.drop i) s) := by
  unfold LiveArgs.starWidth Live.starWidth
  by_cases hw : ctx.isPrecedingWidth = true
  · rw [if_pos hw, if_pos hw]
    exact (nextInt_same hi hc).bind fun w =>
      if w ≥ 0 then ctx.setWidth w else (ctx.addFlag .leftJustify).setWidth (wrap32 (-w))
  · rw [if_neg hw, if_neg hw]
    exact ⟨rfl, i, hi, rfl, rfl⟩

theorem starPrecision_same {sp : Specifier} {ctx : FormatContext} {i : Nat} (hi : i ≤ h.elements.length) {s : σ}
    (hc : h.count s = h.elements.length) :
    Alike h (LiveArgs.starPrecision h sp ctx i s) (Live.starPrecision sp ctx (h.elements.drop i) s) := by
  unfold LiveArgs.starPrecision Live.starPrecision
  by_cases hw : ctx.isPrecedingPrecision = true
  · rw [if_pos hw, if_pos hw]
    exact (nextInt_same hi hc).bind fun p => ctx.setPrecision (if p ≥ 0 then p else UNSET)
  · rw [if_neg hw, if_neg hw]
    exact ⟨rfl, i, hi, rfl, rfl⟩

theorem keeps_nextInt (hp : OnlyPuts h collect) (sp : Specifier) {as : List (Live σ)} (ha : ∀ v ∈ as, v ∈ h.elements) :
    Keeps h.count (Live.nextInt sp as) := by
  cases as with
  | nil => exact keeps_of _
  | cons v rest => exact keeps_bind (hp.asInt v (ha v (by simp))) fun _ => keeps_of (.ok _)

theorem keeps_starWidth (hp : OnlyPuts h collect) (sp : Specifier) (ctx : FormatContext) {as : List (Live σ)}
    (ha : ∀ v ∈ as, v ∈ h.elements) : Keeps h.count (Live.starWidth sp ctx as) := by
  unfold Live.starWidth
  split
  · exact keeps_bind (keeps_nextInt hp sp ha) fun _ => keeps_bind (keeps_of _) fun _ => keeps_of (.ok _)
  · exact keeps_of _

theorem keeps_starPrecision (hp : OnlyPuts h collect) (sp : Specifier) (ctx : FormatContext) {as : List (Live σ)}
    (ha : ∀ v ∈ as, v ∈ h.elements) : Keeps h.count (Live.starPrecision sp ctx as) := by
  unfold Live.starPrecision
  split
  · exact keeps_bind (keeps_nextInt hp sp ha) fun _ => keeps_bind (keeps_of _) fun _ => keeps_of (.ok _)
  · exact keeps_of _

theorem bind_ok {α β : Type} {x : Effect σ α} {f : α → Effect σ β} {s s' : σ} {b : β}
    (hh : (x >>= f) s = (.ok b, s')) : ∃ a s₁, x s = (.ok a, s₁) ∧ f a s₁ = (.ok b, s') := by
  rw [bind_effect] at hh
  rcases hx : x s with ⟨a | a, s₁⟩
  · rw [hx] at hh; cases hh
  · rw [hx] at hh; exact ⟨a, s₁, rfl, hh⟩

theorem left_nextInt {sp : Specifier} {as l : List (Live σ)} {n : Int} {s s' : σ}
    (hh : Live.nextInt sp as s = (.ok (n, l), s')) : ∀ v ∈ l, v ∈ as := by
  cases as with
  | nil => cases hh
  | cons v rest =>
    obtain ⟨a, s₁, _, h2⟩ := bind_ok hh
    cases h2
    exact fun w hw => List.mem_cons_of_mem _ hw

theorem left_starWidth {sp : Specifier} {ctx c : FormatContext} {as l : List (Live σ)} {s s' : σ}
    (hh : Live.starWidth sp ctx as s = (.ok (c, l), s')) : ∀ v ∈ l, v ∈ as := by
  unfold Live.starWidth at hh
  by_cases hw : ctx.isPrecedingWidth = true
  · rw [if_pos hw] at hh
    obtain ⟨⟨n, l₁⟩, s₁, h1, h2⟩ := bind_ok hh
    obtain ⟨_, s₂, _, h4⟩ := bind_ok h2
    cases h4
    exact left_nextInt h1
  · rw [if_neg hw] at hh
    cases hh
    exact fun _ hv => hv

theorem left_starPrecision {sp : Specifier} {ctx c : FormatContext} {as l : List (Live σ)} {s s' : σ}
    (hh : Live.starPrecision sp ctx as s = (.ok (c, l), s')) : ∀ v ∈ l, v ∈ as := by
  unfold Live.starPrecision at hh
  by_cases hw : ctx.isPrecedingPrecision = true
  · rw [if_pos hw] at hh
    obtain ⟨⟨n, l₁⟩, s₁, h1, h2⟩ := bind_ok hh
    obtain ⟨_, s₂, _, h4⟩ := bind_ok h2
    cases h4
    exact left_nextInt h1
  · rw [if_neg hw] at hh
    cases hh
    exact fun _ hv => hv

theorem asks_le (hp : OnlyPuts h collect) {sp : Specifier} {ctx : FormatContext} {as : List (Live σ)}
    (ha : ∀ v ∈ as, v ∈ h.elements) {s s' : σ} {k : Nat} (hk : AsksIn sp ctx as s k s') : h.count s ≤ h.count s' := by
  match k, hk with
  | 0, hk => cases hk; exact Nat.le_refl _
  | 1, ⟨c, l, h1⟩ =>
    have := keeps_starWidth hp sp ctx ha s
    rw [h1] at this
    exact this
  | 2, ⟨c, l, s₁, c', l', h1, h2⟩ =>
    have g1 := keeps_starWidth hp sp ctx ha s
    rw [h1] at g1
    have g2 := keeps_starPrecision hp sp c (fun v hv => ha v (left_starWidth h1 v hv)) s₁
    rw [h2] at g2
    exact Nat.le_trans g1 g2

theorem left_append {env : DateEnv} {a : Appender} {as l : List (Live σ)} {q : Seq} {s s' : σ}
    (hh : Live.append env a as s = (.ok (q, l), s')) : ∀ v ∈ l, v ∈ as := by
  cases a with
  | fixed v => cases hh; exact fun _ hv => hv
  | dflt sp ctx =>
    obtain ⟨⟨c1, l1⟩, s1, h1, h2⟩ := bind_ok hh
    obtain ⟨⟨c2, l2⟩, s2, h3, h4⟩ := bind_ok h2
    have key : ∀ v ∈ l, v ∈ l2 := by
      cases l2 with
      | nil => cases h4
      | cons v rest =>
        obtain ⟨_, s3, _, h6⟩ := bind_ok h4
        cases h6
        exact fun w hw => List.mem_cons_of_mem _ hw
    exact fun v hv => left_starWidth h1 v (left_starPrecision h3 v (key v hv))

theorem keeps_append (hp : OnlyPuts h collect) (env : DateEnv) (a : Appender) {as : List (Live σ)}
    (ha : ∀ v ∈ as, v ∈ h.elements) : Keeps h.count (Live.append env a as) := by
  cases a with
  | fixed v => exact keeps_of (.ok _)
  | dflt sp ctx =>
    intro s
    show h.count s ≤ h.count ((Live.starWidth sp ctx as >>= _) s).2
    rw [bind_effect]
    have k1 := keeps_starWidth hp sp ctx ha s
    rcases h1 : Live.starWidth sp ctx as s with ⟨e | ⟨c1, l1⟩, s1⟩
    · rw [h1] at k1; exact k1
    rw [h1] at k1
    refine Nat.le_trans k1 ?_
    have ha1 : ∀ v ∈ l1, v ∈ h.elements := fun v hv => ha v (left_starWidth h1 v hv)
    have k2 := keeps_starPrecision hp sp c1 ha1 s1
    show h.count s1 ≤ h.count ((Live.starPrecision sp c1 l1 >>= _) s1).2
    rw [bind_effect]
    rcases h2 : Live.starPrecision sp c1 l1 s1 with ⟨e | ⟨c2, l2⟩, s2⟩
    · rw [h2] at k2; exact k2
    rw [h2] at k2
    refine Nat.le_trans k2 ?_
    have ha2 : ∀ v ∈ l2, v ∈ h.elements := fun v hv => ha1 v (left_starPrecision h2 v hv)
    cases l2 with
    | nil => exact Nat.le_refl _
    | cons v rest =>
      exact keeps_bind (keeps_formatter (env := env) hp (ha2 v (by simp)) sp c2) (fun _ => keeps_of (.ok _)) s2

theorem run_keeps (hp : OnlyPuts h collect) {env : DateEnv} (apps : List Appender) : ∀ {as : List (Live σ)},
    (∀ v ∈ as, v ∈ h.elements) → ∀ {s s' : σ} {left}, Live.run env collect apps as s = (.ok left, s') →
    h.count s ≤ h.count s' ∧ ∀ v ∈ left, v ∈ h.elements := by
  induction apps with
  | nil => intro as ha s s' left hh; cases hh; exact ⟨Nat.le_refl _, ha⟩
  | cons a rest ih =>
    intro as ha s s' left hh
    obtain ⟨⟨q, l⟩, s1, h1, h2⟩ := bind_ok hh
    obtain ⟨_, s2, h3, h4⟩ := bind_ok h2
    have k1 := keeps_append hp env a ha s
    rw [h1] at k1
    have k2 := hp.collect q s1
    rw [h3] at k2
    obtain ⟨k3, k4⟩ := ih (fun v hv => ha v (left_append h1 v hv)) h4
    exact ⟨Nat.le_trans k1 (Nat.le_trans k2 k3), k4⟩

theorem requests_le (hp : OnlyPuts h collect) {env : DateEnv} {apps before : List Appender} {as : List (Live σ)}
    (ha : ∀ v ∈ as, v ∈ h.elements) {s s' : σ} {k : Nat} (hr : Requests env collect apps as s before k s') :
    h.count s ≤ h.count s' := by
  obtain ⟨sp, ctx, after, left, s₁, -, h1, h2⟩ := hr
  obtain ⟨k1, k2⟩ := run_keeps hp before ha h1
  exact Nat.le_trans k1 (asks_le hp k2 h2)

/-- A directive either asks only while the `Args` are as they were, and does what it always does, or it stops at the
first request after a change. -/
theorem append_directive (hp : OnlyPuts h collect) {env : DateEnv} (sp : Specifier) (ctx : FormatContext) {i : Nat}
    (hi : i ≤ h.elements.length) (s : σ) (hc : h.elements.length ≤ h.count s) :
    ((∀ k s', AsksIn sp ctx (h.elements.drop i) s k s' → h.count s' = h.elements.length) ∧
      Alike h (LiveArgs.append env h (.dflt sp ctx) i s) (Live.append env (.dflt sp ctx) (h.elements.drop i) s)) ∨
    ∃ k s', AsksIn sp ctx (h.elements.drop i) s k s' ∧ h.elements.length < h.count s' ∧
      (∀ j s'', AsksIn sp ctx (h.elements.drop i) s j s'' → h.elements.length < h.count s'' → k ≤ j) ∧
      LiveArgs.append env h (.dflt sp ctx) i s = (.error .comodified, s') := by
  by_cases h0 : h.count s = h.elements.length
  swap
  · -- changed before
    right
    have hlt : h.elements.length < h.count s := by omega
    refine ⟨0, s, rfl, hlt, fun _ _ _ _ => Nat.zero_le _, ?_⟩
    simp only [LiveArgs.append, bind_step]
    unfold LiveArgs.starWidth
    by_cases hw : ctx.isPrecedingWidth = true
    · rw [if_pos hw, bind_step, nextInt_changed hi hlt]
    · rw [if_neg hw]
      simp only [pure_step]
      unfold LiveArgs.starPrecision
      by_cases hq : ctx.isPrecedingPrecision = true
      · rw [if_pos hq, bind_step, nextInt_changed hi hlt]
      · rw [if_neg hq]
        simp only [pure_step]
        exact request_changed hi hlt fun v => v.formatterFor env sp ctx
  simp only [LiveArgs.append, Live.append, bind_step, bind_effect]
  have hwid := starWidth_same (sp := sp) (ctx := ctx) hi h0
  have hk := keeps_starWidth hp sp ctx (as := h.elements.drop i) (fun _ hv => List.mem_of_mem_drop hv) s
  rcases hy : Live.starWidth sp ctx (h.elements.drop i) s with ⟨e | ⟨c1, l1⟩, s1⟩
  · -- the width cannot be had
    left
    rw [hy] at hwid
    obtain ⟨g1, g2⟩ := hwid
    rcases hx : LiveArgs.starWidth h sp ctx i s with ⟨r, s''⟩
    rw [hx] at g1 g2
    cases g1
    cases g2
    refine ⟨?_, rfl, rfl⟩
    intro k s' hk
    match k, hk with
    | 0, hk => cases hk; exact h0
    | 1, ⟨c, l, hh⟩ => rw [hy] at hh; cases hh
    | 2, ⟨c, l, s2, c', l', hh, _⟩ => rw [hy] at hh; cases hh
  rw [hy] at hwid hk
  obtain ⟨g1, i1, hi1, rfl, g2⟩ := hwid
  rcases hx : LiveArgs.starWidth h sp ctx i s with ⟨r, s''⟩
  rw [hx] at g1 g2
  cases g1
  cases g2
  simp only at hk ⊢
  by_cases h1 : h.count s1 = h.elements.length
  swap
  · -- changed by the width
    right
    have hlt : h.elements.length < h.count s1 := by omega
    refine ⟨1, s1, ⟨_, _, hy⟩, hlt, ?_, ?_⟩
    · intro j s'' hj hlt'
      match j, hj with
      | 0, hj => cases hj; omega
      | j + 1, _ => omega
    unfold LiveArgs.starPrecision
    by_cases hq : c1.isPrecedingPrecision = true
    · rw [if_pos hq, bind_step, nextInt_changed hi1 hlt]
    · rw [if_neg hq]
      simp only [pure_step]
      exact request_changed hi1 hlt fun v => v.formatterFor env sp c1
  have hprec := starPrecision_same (sp := sp) (ctx := c1) hi1 h1
  have hk2 := keeps_starPrecision hp sp c1 (as := h.elements.drop i1) (fun _ hv => List.mem_of_mem_drop hv) s1
  rcases hy2 : Live.starPrecision sp c1 (h.elements.drop i1) s1 with ⟨e | ⟨c2, l2⟩, s2⟩
  · left
    rw [hy2] at hprec
    obtain ⟨g1, g2⟩ := hprec
    rcases hx2 : LiveArgs.starPrecision h sp c1 i1 s1 with ⟨r, s''⟩
    rw [hx2] at g1 g2
    cases g1
    cases g2
    refine ⟨?_, rfl, rfl⟩
    intro k s' hk
    match k, hk with
    | 0, hk => cases hk; exact h0
    | 1, ⟨c, l, hh⟩ => rw [hy] at hh; cases hh; exact h1
    | 2, ⟨c, l, s3, c', l', hh, hh2⟩ => rw [hy] at hh; cases hh; rw [hy2] at hh2; cases hh2
  rw [hy2] at hprec hk2
  obtain ⟨g1, i2, hi2, rfl, g2⟩ := hprec
  rcases hx2 : LiveArgs.starPrecision h sp c1 i1 s1 with ⟨r, s''⟩
  rw [hx2] at g1 g2
  cases g1
  cases g2
  simp only at hk2 ⊢
  by_cases h2 : h.count s2 = h.elements.length
  swap
  · right
    have hlt : h.elements.length < h.count s2 := by omega
    refine ⟨2, s2, ⟨_, _, _, _, _, hy, hy2⟩, hlt, ?_, request_changed hi2 hlt fun v => v.formatterFor env sp c2⟩
    intro j s'' hj hlt'
    match j, hj with
    | 0, hj => cases hj; omega
    | 1, ⟨c, l, hh⟩ => rw [hy] at hh; cases hh; omega
    | j + 2, _ => omega
  left
  refine ⟨?_, value_same hi2 h2⟩
  intro k s' hk
  match k, hk with
  | 0, hk => cases hk; exact h0
  | 1, ⟨c, l, hh⟩ => rw [hy] at hh; cases hh; exact h1
  | 2, ⟨c, l, s3, c', l', hh, hh2⟩ => rw [hy] at hh; cases hh; rw [hy2] at hh2; cases hh2; exact h2

/-- What the whole call does. -/
theorem run_cases (hp : OnlyPuts h collect) {env : DateEnv} (apps : List Appender) : ∀ {i : Nat},
    i ≤ h.elements.length → ∀ s, h.elements.length ≤ h.count s →
    ((∀ before k s', Requests env collect apps (h.elements.drop i) s before k s' → h.count s' = h.elements.length) ∧
      (LiveArgs.run env collect h apps i s).2 = (Live.run env collect apps (h.elements.drop i) s).2 ∧
      match (Live.run env collect apps (h.elements.drop i) s).1 with
      | .ok left => ∃ j, j ≤ h.elements.length ∧ left = h.elements.drop j ∧
          (LiveArgs.run env collect h apps i s).1 = .ok j
      | .error e => (LiveArgs.run env collect h apps i s).1 = .error (.thrown e)) ∨
    ∃ before k s', Requests env collect apps (h.elements.drop i) s before k s' ∧ h.elements.length < h.count s' ∧
      (∀ before' k' s'', Requests env collect apps (h.elements.drop i) s before' k' s'' →
        h.elements.length < h.count s'' → before.length < before'.length ∨ before' = before ∧ k ≤ k') ∧
      LiveArgs.run env collect h apps i s = (.error .comodified, s') := by
  induction apps with
  | nil =>
    intro i hi s hc
    left
    refine ⟨?_, rfl, i, hi, rfl, rfl⟩
    rintro before k s' ⟨sp, ctx, after, left, s₁, h1, -⟩
    simp at h1
  | cons a rest ih =>
    intro i hi s hc
    have ha : ∀ v ∈ h.elements.drop i, v ∈ h.elements := fun _ hv => List.mem_of_mem_drop hv
    have hk := keeps_append hp env a ha s
    -- a request of the rest is one of the whole
    have hrest : ∀ {q i' s1 s2}, Live.append env a (h.elements.drop i) s = (.ok (q, h.elements.drop i'), s1) →
        collect q s1 = (.ok (), s2) → ∀ before k s', Requests env collect rest (h.elements.drop i') s2 before k s' ↔
        Requests env collect (a :: rest) (h.elements.drop i) s (a :: before) k s' := by
      intro q i' s1 s2 e1 e2 before k s'
      constructor
      · rintro ⟨sp, ctx, after, left, s₁, g1, g2, g3⟩
        refine ⟨sp, ctx, after, left, s₁, by rw [g1]; rfl, ?_, g3⟩
        show (Live.append env a (h.elements.drop i) >>= _) s = _
        rw [bind_effect, e1]
        show (collect q >>= _) s1 = _
        rw [bind_effect, e2]
        exact g2
      · rintro ⟨sp, ctx, after, left, s₁, g1, g2, g3⟩
        simp only [List.cons_append, List.cons.injEq, true_and] at g1
        refine ⟨sp, ctx, after, left, s₁, g1, ?_, g3⟩
        obtain ⟨⟨q', l'⟩, s1', b1, b2⟩ := bind_ok g2
        rw [e1] at b1
        cases b1
        obtain ⟨_, s2', b3, b4⟩ := bind_ok b2
        rw [e2] at b3
        cases b3
        exact b4
    have hfirst : ∀ {k s'}, Requests env collect (a :: rest) (h.elements.drop i) s [] k s' →
        ∃ sp ctx, a = .dflt sp ctx ∧ AsksIn sp ctx (h.elements.drop i) s k s' := by
      rintro k s' ⟨sp, ctx, after, left, s₁, g1, g2, g3⟩
      cases g2
      simp only [List.nil_append, List.cons.injEq] at g1
      exact ⟨sp, ctx, g1.1, g3⟩
    have hcons : ∀ {b before k s'}, Requests env collect (a :: rest) (h.elements.drop i) s (b :: before) k s' → b = a := by
      rintro b before k s' ⟨sp, ctx, after, left, s₁, g1, -⟩
      simp only [List.cons_append, List.cons.injEq] at g1
      exact g1.1.symm
    -- the first element of the format
    have hA : ((∀ k s', Requests env collect (a :: rest) (h.elements.drop i) s [] k s' →
          h.count s' = h.elements.length) ∧
        Alike h (LiveArgs.append env h a i s) (Live.append env a (h.elements.drop i) s)) ∨
      ∃ k s', Requests env collect (a :: rest) (h.elements.drop i) s [] k s' ∧ h.elements.length < h.count s' ∧
        (∀ j s'', Requests env collect (a :: rest) (h.elements.drop i) s [] j s'' → h.elements.length < h.count s'' →
          k ≤ j) ∧
        LiveArgs.append env h a i s = (.error .comodified, s') := by
      cases a with
      | fixed v =>
        left
        refine ⟨?_, rfl, i, hi, rfl, rfl⟩
        intro k s' hr
        obtain ⟨_, _, h1, _⟩ := hfirst hr
        cases h1
      | dflt sp ctx =>
        rcases append_directive hp (env := env) sp ctx hi s hc with ⟨h1, h2⟩ | ⟨k, s', h1, h2, h3, h4⟩
        · left
          refine ⟨?_, h2⟩
          intro k s' hr
          obtain ⟨_, _, e, h5⟩ := hfirst hr
          cases e
          exact h1 k s' h5
        · right
          refine ⟨k, s', ⟨sp, ctx, rest, _, s, rfl, rfl, h1⟩, h2, ?_, h4⟩
          intro j s'' hr
          obtain ⟨_, _, e, h5⟩ := hfirst hr
          cases e
          exact h3 j s'' h5
    rcases hA with ⟨hq, hal⟩ | ⟨k, s', h1, h2, h3, h4⟩
    swap
    · right
      refine ⟨[], k, s', h1, h2, ?_, ?_⟩
      · intro before' k' s'' hr hlt
        cases before' with
        | nil => exact .inr ⟨rfl, h3 k' s'' hr hlt⟩
        | cons b before' => exact .inl (by simp)
      · show (LiveArgs.append env h a i >>= _) s = _
        rw [bind_step, h4]
    have hrun : LiveArgs.run env collect h (a :: rest) i s = (LiveArgs.append env h a i >>= fun x => do
        let _ ← quiet (collect x.1)
        LiveArgs.run env collect h rest x.2) s := rfl
    have hrun' : Live.run env collect (a :: rest) (h.elements.drop i) s =
        (Live.append env a (h.elements.drop i) >>= fun x => do
          collect x.1
          Live.run env collect rest x.2) s := rfl
    rw [bind_step] at hrun
    rw [bind_effect] at hrun'
    obtain ⟨hw, hv⟩ := hal
    rcases hy : Live.append env a (h.elements.drop i) s with ⟨e | ⟨q, l⟩, s1⟩
    · -- the first element throws
      rw [hy] at hw hv hrun'
      rcases hx : LiveArgs.append env h a i s with ⟨r, s1'⟩
      rw [hx] at hw hv hrun
      cases hw
      cases hv
      left
      refine ⟨?_, by rw [hrun, hrun'], by rw [hrun, hrun']⟩
      intro before k s' hr
      cases before with
      | nil => exact hq k s' hr
      | cons b before =>
        cases hcons hr
        obtain ⟨_, _, _, _, _, _, g2, _⟩ := hr
        obtain ⟨_, _, b1, _⟩ := bind_ok g2
        rw [hy] at b1
        cases b1
    rw [hy] at hw hv hrun' hk
    obtain ⟨i', hi', rfl, hv⟩ := hv
    rcases hx : LiveArgs.append env h a i s with ⟨r, s1'⟩
    rw [hx] at hw hv hrun
    cases hw
    cases hv
    simp only [bind_step, quiet, bind_effect] at hrun hrun' hk
    have hk2 := hp.collect q s1
    rcases hz : collect q s1 with ⟨e | ⟨⟩, s2⟩
    · -- the collector throws
      rw [hz] at hrun hrun'
      left
      refine ⟨?_, by rw [hrun, hrun']; rfl, by rw [hrun, hrun']; rfl⟩
      intro before k s' hr
      cases before with
      | nil => exact hq k s' hr
      | cons b before =>
        cases hcons hr
        obtain ⟨_, _, _, _, _, _, g2, _⟩ := hr
        obtain ⟨_, _, b1, b2⟩ := bind_ok g2
        rw [hy] at b1
        cases b1
        obtain ⟨_, _, b3, _⟩ := bind_ok b2
        rw [hz] at b3
        cases b3
    rw [hz] at hrun hrun' hk2
    simp only [ended] at hrun hrun'
    rw [hrun, hrun']
    have hc2 : h.elements.length ≤ h.count s2 := Nat.le_trans hc (Nat.le_trans hk hk2)
    rcases ih hi' s2 hc2 with ⟨h1, h2⟩ | ⟨before, k, s', h1, h2, h3, h4⟩
    · left
      refine ⟨?_, h2⟩
      intro before k s' hr
      cases before with
      | nil => exact hq k s' hr
      | cons b before =>
        cases hcons hr
        exact h1 before k s' ((hrest hy hz before k s').mpr hr)
    · right
      refine ⟨a :: before, k, s', (hrest hy hz before k s').mp h1, h2, ?_, h4⟩
      intro before' k' s'' hr hlt
      cases before' with
      | nil => have := hq k' s'' hr; omega
      | cons b before' =>
        cases hcons hr
        rcases h3 before' k' s'' ((hrest hy hz before' k' s'').mpr hr) hlt with h5 | ⟨rfl, h5⟩
        · exact .inl (by simpa using h5)
        · exact .inr ⟨rfl, h5⟩

/-- Results in front of those of a loop. -/
def after {α : Type} (vs : List α) : Except Stop (List α) × σ → Except Stop (List α) × σ
  | (.ok ws, s) => (.ok (vs ++ ws), s)
  | (.error e, s) => (.error e, s)

theorem texts_said {α : Type} {xs : List (Effect σ α)} {s s' : σ} {vs : List α} (hs : Said xs s vs s')
    (ys : List (Effect σ α)) : textsLoop (xs ++ ys) s = after vs (textsLoop ys s') := by
  induction hs with
  | @over s =>
    show textsLoop ys s = _
    rcases textsLoop ys s with ⟨e | ws, s'⟩ <;> rfl
  | @next x rest s s₁ s' v vs h t ih =>
    show (quiet x >>= fun v => textsLoop (rest ++ ys) >>= fun vs => pure (v :: vs)) s = _
    rw [bind_step]
    simp only [quiet, h, ended, bind_step, ih]
    rcases textsLoop ys s' with ⟨e | ws, s''⟩ <;> rfl

theorem texts_loop {α : Type} (xs : List (Effect σ α)) (s : σ) :
    (∃ vs s', Said xs s vs s') ∨
    ∃ before x after vs s₁ e s₂, xs = before ++ x :: after ∧ Said before s vs s₁ ∧ x s₁ = (.error e, s₂) := by
  induction xs generalizing s with
  | nil => exact .inl ⟨[], s, .over⟩
  | cons x rest ih =>
    rcases hx : x s with ⟨e | v, s₁⟩
    · exact .inr ⟨[], x, rest, [], s, e, s₁, rfl, .over, hx⟩
    · rcases ih s₁ with ⟨vs, s', h1⟩ | ⟨before, y, after, vs, s₂, e, s₃, h1, h2, h3⟩
      · exact .inl ⟨v :: vs, s', .next hx h1⟩
      · exact .inr ⟨x :: before, y, after, v :: vs, s₂, e, s₃, by rw [h1]; rfl, .next hx h2, h3⟩

theorem texts_error {α : Type} {before : List (Effect σ α)} {x : Effect σ α} {rest : List (Effect σ α)} {vs : List α}
    {s s₁ s' : σ} {e : Err} (h1 : Said before s vs s₁) (h2 : x s₁ = (.error e, s')) :
    textsLoop (before ++ x :: rest) s = (.error (.thrown e), s') := by
  rw [texts_said h1]
  have : textsLoop (x :: rest) s₁ = (.error (.thrown e), s') := by
    show (quiet x >>= fun v => textsLoop rest >>= fun vs => pure (v :: vs)) s₁ = _
    rw [bind_step]
    simp only [quiet, h2, ended]
  rw [this]
  rfl

theorem said_le {α : Type} {count : σ → Nat} {xs : List (Effect σ α)} {s s' : σ} {vs : List α} (hs : Said xs s vs s') :
    (∀ x ∈ xs, Keeps count x) → count s ≤ count s' := by
  induction hs with
  | over => exact fun _ => Nat.le_refl _
  | @next x rest s s₁ s' v vs h t ih =>
    intro hp
    have h1 := hp x (by simp) s
    rw [h] at h1
    exact Nat.le_trans h1 (ih fun y hy => hp y (by simp [hy]))

theorem values_said {α : Type} {count : σ → Nat} {n : Nat} {xs : List (Effect σ α)} {s s' : σ} {vs : List α}
    (hs : Said xs s vs s') (ys : List (Effect σ α)) : (∀ x ∈ xs, Keeps count x) → ∀ i, count s = n →
    count s' = n → i + (xs ++ ys).length = n →
    valuesLoop count n (xs ++ ys) i s = after vs (valuesLoop count n ys (i + xs.length) s') := by
  induction hs with
  | @over s =>
    intro _ i _ _ _
    show valuesLoop count n ys i s = after [] (valuesLoop count n ys i s)
    rcases valuesLoop count n ys i s with ⟨e | ws, s'⟩ <;> rfl
  | @next x rest s s₁ s' v vs h t ih =>
    intro hp i h0 h1 hl
    simp only [List.cons_append, List.length_cons] at hl
    have k1 := hp x (by simp) s
    rw [h] at k1
    have k2 := said_le t (count := count) fun y hy => hp y (by simp [hy])
    simp only at k1
    have hi := ih (fun y hy => hp y (by simp [hy])) (i + 1) (by omega) h1 (by omega)
    simp only [List.cons_append, valuesLoop]
    rw [if_neg (by omega), if_neg (by omega), bind_step]
    simp only [quiet, h, ended, bind_step, hi, List.length_cons]
    rw [show i + 1 + rest.length = i + (rest.length + 1) by omega]
    rcases valuesLoop count n ys (i + (rest.length + 1)) s' with ⟨e | ws, s''⟩ <;> rfl

theorem values_cases {α : Type} (count : σ → Nat) (xs : List (Effect σ α)) : (∀ x ∈ xs, Keeps count x) → ∀ s,
      (∃ vs s', Said xs s vs s' ∧ count s' = count s) ∨
      (∃ before x after vs s₁ e s', xs = before ++ x :: after ∧ Said before s vs s₁ ∧ count s₁ = count s ∧
        x s₁ = (.error e, s')) ∨
      ∃ before x after vs s₁ v s', xs = before ++ x :: after ∧ Said before s vs s₁ ∧ count s₁ = count s ∧
        x s₁ = (.ok v, s') ∧ count s < count s' := by
  induction xs with
  | nil => exact fun _ s => .inl ⟨[], s, .over, rfl⟩
  | cons x rest ih =>
    intro hp s
    have k1 := hp x (by simp) s
    rcases hx : x s with ⟨e | v, s₁⟩
    · exact .inr (.inl ⟨[], x, rest, [], s, e, s₁, rfl, .over, rfl, hx⟩)
    · rw [hx] at k1
      simp only at k1
      by_cases hc : count s₁ = count s
      · rcases ih (fun y hy => hp y (by simp [hy])) s₁ with ⟨vs, s', h1, h2⟩ |
          ⟨before, y, after, vs, s₂, e, s₃, h1, h2, h3, h4⟩ | ⟨before, y, after, vs, s₂, w, s₃, h1, h2, h3, h4, h5⟩
        · exact .inl ⟨v :: vs, s', .next hx h1, by omega⟩
        · exact .inr (.inl ⟨x :: before, y, after, v :: vs, s₂, e, s₃, by rw [h1]; rfl, .next hx h2, by omega, h4⟩)
        · exact .inr (.inr ⟨x :: before, y, after, v :: vs, s₂, w, s₃, by rw [h1]; rfl, .next hx h2, by omega, h4,
            by omega⟩)
      · exact .inr (.inr ⟨[], x, rest, [], s, v, s₁, rfl, .over, rfl, hx, by omega⟩)

theorem values_ok {α : Type} {count : σ → Nat} {xs : List (Effect σ α)} (hp : ∀ x ∈ xs, Keeps count x) {s s' : σ}
    {vs : List α} (hs : count s = xs.length) (h1 : Said xs s vs s') (h2 : count s' = count s) :
    valuesLoop count xs.length xs 0 s = (.ok vs, s') := by
  have := values_said (n := xs.length) h1 [] hp 0 hs (by omega) (by simp)
  rw [List.append_nil] at this
  rw [this]
  simp only [valuesLoop]
  rw [if_neg (by omega)]
  simp [after]

theorem values_error {α : Type} {count : σ → Nat} {before rest : List (Effect σ α)} {x : Effect σ α}
    (hp : ∀ y ∈ before, Keeps count y) {s s₁ s' : σ} {vs : List α} {e : Err}
    (hs : count s = (before ++ x :: rest).length) (h1 : Said before s vs s₁) (h2 : count s₁ = count s)
    (h3 : x s₁ = (.error e, s')) :
    valuesLoop count (before ++ x :: rest).length (before ++ x :: rest) 0 s = (.error (.thrown e), s') := by
  rw [values_said (n := (before ++ x :: rest).length) h1 (x :: rest) hp 0 hs (by omega) (by simp)]
  simp only [List.length_append, List.length_cons] at hs
  simp only [valuesLoop]
  rw [if_neg (by omega), if_neg (by simp; omega), bind_step]
  simp only [quiet, h3, ended, after]

theorem values_comodified {α : Type} {count : σ → Nat} {before rest : List (Effect σ α)} {x : Effect σ α}
    (hp : ∀ y ∈ before, Keeps count y) {s s₁ s' : σ} {vs : List α} {v : α}
    (hs : count s = (before ++ x :: rest).length) (h1 : Said before s vs s₁) (h2 : count s₁ = count s)
    (h3 : x s₁ = (.ok v, s')) (h4 : count s < count s') :
    valuesLoop count (before ++ x :: rest).length (before ++ x :: rest) 0 s = (.error .comodified, s') := by
  rw [values_said (n := (before ++ x :: rest).length) h1 (x :: rest) hp 0 hs (by omega) (by simp)]
  have hl : valuesLoop count (before ++ x :: rest).length rest (0 + before.length + 1) s' = (.error .comodified, s') := by
    simp only [List.length_append, List.length_cons] at hs
    cases rest with
    | nil =>
      simp only [List.length_nil] at hs
      simp only [valuesLoop]
      rw [if_pos (by omega)]
    | cons y rest =>
      simp only [List.length_cons] at hs
      simp only [valuesLoop, List.length_append, List.length_cons]
      rw [if_neg (by omega), if_pos (by omega)]
  simp only [List.length_append, List.length_cons] at hs
  simp only [valuesLoop]
  rw [if_neg (by omega), if_neg (by simp; omega), bind_step]
  simp only [quiet, h3, ended, bind_step, hl, after]

end LiveArgs

/-- **C106.**  As long as the `Args` have as many values as in the beginning whenever a directive asks for one, the call is
that of C95, with the arguments that were there in the beginning: it changes the same, and it returns or throws the
same. -/
theorem C106_same (env : DateEnv) (collect : Seq → Effect σ Unit) (h : Held σ) (hp : OnlyPuts h collect)
    (apps : List Appender) (s : σ) (hs : h.count s = h.elements.length)
    (hr : ∀ before k s', Requests env collect apps h.elements s before k s' → h.count s' = h.count s) :
    (LiveArgs.run env collect h apps 0 s).2 = (Live.run env collect apps h.elements s).2 ∧
    (LiveArgs.run env collect h apps 0 s).1.map (fun _ => ()) = ended ((Live.run env collect apps h.elements s).1.map
      fun _ => ()) := by
  rcases run_cases hp (env := env) apps (Nat.zero_le _) s (by omega) with ⟨-, h2, h3⟩ | ⟨before, k, s', h1, h2, -⟩
  · rw [List.drop_zero] at h2 h3
    refine ⟨h2, ?_⟩
    cases hh : (Live.run env collect apps h.elements s).1 with
    | error e => rw [hh] at h3; rw [h3]; rfl
    | ok left => rw [hh] at h3; obtain ⟨j, -, -, h3⟩ := h3; rw [h3]; rfl
  · rw [List.drop_zero] at h1
    have := hr before k s' h1
    omega

/-- **C106.**  In particular when nobody puts anything into the `Args` during the call. -/
theorem C106_unchanged (env : DateEnv) (collect : Seq → Effect σ Unit) (h : Held σ) (hn : NoPuts h collect)
    (apps : List Appender) (s : σ) (hs : h.count s = h.elements.length) :
    (LiveArgs.run env collect h apps 0 s).2 = (Live.run env collect apps h.elements s).2 ∧
    (LiveArgs.run env collect h apps 0 s).1.map (fun _ => ()) = ended ((Live.run env collect apps h.elements s).1.map
      fun _ => ()) := by
  have hp : OnlyPuts h collect := hn.weaken fun _ _ e => Nat.le_of_eq e.symm
  have hp'' : OnlyPuts ⟨h.elements, fun s => if h.count s = h.elements.length then 1 else 0⟩ collect :=
    hn.weaken fun _ _ e => by show (if _ then _ else _) ≤ (if _ then _ else _); rw [e]
  refine C106_same env collect h hp apps s hs ?_
  intro before k s' hr
  have := requests_le hp'' (fun _ hv => hv) hr
  simp only [if_pos hs] at this
  by_contra hne
  rw [if_neg (by omega)] at this
  omega

/-- **C106.**  If a directive asks after something has been put into the `Args`, the first such request throws
`ConcurrentModificationException`, whether or not an argument is left; what the call has changed until then stays
changed. -/
theorem C106_fails (env : DateEnv) (collect : Seq → Effect σ Unit) (h : Held σ) (hp : OnlyPuts h collect)
    (apps : List Appender) (s : σ) (hs : h.count s = h.elements.length) (before : List Appender) (k : Nat) (s' : σ)
    (hr : Requests env collect apps h.elements s before k s') (hc : h.count s' ≠ h.count s) :
    ∃ before k s', Requests env collect apps h.elements s before k s' ∧ h.count s < h.count s' ∧
      (∀ before' k' s'', Requests env collect apps h.elements s before' k' s'' → h.count s'' ≠ h.count s →
        before.length < before'.length ∨ before' = before ∧ k ≤ k') ∧
      LiveArgs.run env collect h apps 0 s = (.error .comodified, s') := by
  rcases run_cases hp (env := env) apps (Nat.zero_le _) s (by omega) with ⟨h1, -⟩ | ⟨b, j, t, h1, h2, h3, h4⟩
  · rw [List.drop_zero] at h1
    have := h1 before k s' hr
    omega
  · rw [List.drop_zero] at h1 h3
    refine ⟨b, j, t, h1, by omega, ?_, h4⟩
    intro before' k' s'' hr' hne
    have := requests_le hp (fun _ hv => hv) hr'
    exact h3 before' k' s'' hr' (by omega)

/-- **C106.**  `values()`: each value is asked for its object; a value that puts something into the `Args` makes the call
throw right after it, also when it is the last. -/
theorem C106_values {α : Type} (count : σ → Nat) (xs : List (Effect σ α)) (hp : ∀ x ∈ xs, Keeps count x) (s : σ)
    (hs : count s = xs.length) (r : Except Stop (List α)) (s' : σ) :
    valuesLoop count xs.length xs 0 s = (r, s') ↔
      (∃ vs, r = .ok vs ∧ Said xs s vs s' ∧ count s' = count s) ∨
      (∃ before x after vs s₁ e, xs = before ++ x :: after ∧ Said before s vs s₁ ∧ count s₁ = count s ∧
        x s₁ = (.error e, s') ∧ r = .error (.thrown e)) ∨
      ∃ before x after vs s₁ v, xs = before ++ x :: after ∧ Said before s vs s₁ ∧ count s₁ = count s ∧
        x s₁ = (.ok v, s') ∧ count s < count s' ∧ r = .error .comodified := by
  constructor
  · intro hh
    rcases values_cases count xs hp s with ⟨vs, s₀, h1, h2⟩ | ⟨before, x, after, vs, s₁, e, s₀, rfl, h2, h3, h4⟩ |
      ⟨before, x, after, vs, s₁, v, s₀, rfl, h2, h3, h4, h5⟩
    · rw [values_ok hp hs h1 h2] at hh
      cases hh
      exact .inl ⟨vs, rfl, h1, h2⟩
    · rw [values_error (fun y hy => hp y (by simp [hy])) hs h2 h3 h4] at hh
      cases hh
      exact .inr (.inl ⟨before, x, after, vs, s₁, e, rfl, h2, h3, h4, rfl⟩)
    · rw [values_comodified (fun y hy => hp y (by simp [hy])) hs h2 h3 h4 h5] at hh
      cases hh
      exact .inr (.inr ⟨before, x, after, vs, s₁, v, rfl, h2, h3, h4, h5, rfl⟩)
  · rintro (⟨vs, rfl, h1, h2⟩ | ⟨before, x, after, vs, s₁, e, rfl, h2, h3, h4, rfl⟩ |
      ⟨before, x, after, vs, s₁, v, rfl, h2, h3, h4, h5, rfl⟩)
    · exact values_ok hp hs h1 h2
    · exact values_error (fun y hy => hp y (by simp [hy])) hs h2 h3 h4
    · exact values_comodified (fun y hy => hp y (by simp [hy])) hs h2 h3 h4 h5

/-- **C106.**  `toString()`: every value is asked for its text; if something was put into the `Args` meanwhile, the call
throws in the end. -/
theorem C106_toString {α : Type} (count : σ → Nat) (xs : List (Effect σ α)) (s : σ) (r : Except Stop (List α)) (s' : σ) :
    texts count xs s = (r, s') ↔
      (∃ vs, Said xs s vs s' ∧ r = if count s' = xs.length then .ok vs else .error .comodified) ∨
      ∃ before x after vs s₁ e, xs = before ++ x :: after ∧ Said before s vs s₁ ∧ x s₁ = (.error e, s') ∧
        r = .error (.thrown e) := by
  have hok : ∀ {vs s'}, Said xs s vs s' →
      texts count xs s = (if count s' = xs.length then .ok vs else .error .comodified, s') := by
    intro vs s' h1
    have h2 := texts_said h1 []
    rw [List.append_nil] at h2
    unfold texts
    rw [h2]
    simp only [textsLoop, pure_step, after, List.append_nil]
    by_cases hc : count s' = xs.length
    · rw [if_neg (by omega), if_pos hc]
    · rw [if_pos hc, if_neg hc]
  have herr : ∀ {before x rest vs s₁ e s'}, xs = before ++ x :: rest → Said before s vs s₁ → x s₁ = (.error e, s') →
      texts count xs s = (.error (.thrown e), s') := by
    rintro before x rest vs s₁ e s' rfl h1 h2
    unfold texts
    rw [texts_error h1 h2]
  constructor
  · intro hh
    rcases texts_loop xs s with ⟨vs, s₀, h1⟩ | ⟨before, x, rest, vs, s₁, e, s₀, h1, h2, h3⟩
    · rw [hok h1] at hh
      cases hh
      exact .inl ⟨vs, h1, rfl⟩
    · rw [herr h1 h2 h3] at hh
      cases hh
      exact .inr ⟨before, x, rest, vs, s₁, e, h1, h2, h3, rfl⟩
  · rintro (⟨vs, h1, rfl⟩ | ⟨before, x, rest, vs, s₁, e, h1, h2, h3, rfl⟩)
    · exact hok h1
    · exact herr h1 h2 h3

/-- An argument whose text is `a`, and which puts a further value into the `Args` whenever it is asked for it.  The
state is the number of values. -/
def putting : Live Nat where
  asIntForm := .of (.error .external)
  asFloatForm := .of (.error .external)
  asTemporal := .of (.error .external)
  asSeq := fun s => (.ok (Seq.wrap (js! "a")), s + 1)
  asInt := fun s => (.ok 1, s + 1)
  asChar := .of (.error .external)
  ref := fun s => (.null, s)

/-- `%s` -/
def bareText : Appender := .dflt .s ⟨{}, UNSET, UNSET, none⟩

/-- The target takes everything. -/
def silent : Seq → Effect Nat Unit := fun _ => .of (.ok ())

theorem putting_only (as : List (Live Nat)) (ha : ∀ v ∈ as, v = putting) : OnlyPuts ⟨as, id⟩ silent := by
  refine ⟨?_, ?_, ?_, ?_, ?_, ?_, ?_, fun _ _ => Nat.le_refl _⟩
  all_goals
    intro v hv s
    cases ha v hv
    first
      | exact Nat.le_refl _
      | exact Nat.le_succ _

-- as the last argument, it goes unnoticed
example : LiveArgs.run sampleDateEnv silent ⟨[putting], id⟩ [bareText, .fixed (js! "!")] 0 1 = (.ok 1, 2) := by
  decide +kernel
-- the next directive that asks fails, whether there is an argument for it
example : LiveArgs.run sampleDateEnv silent ⟨[putting, putting], id⟩ [bareText, .fixed (js! "!"), bareText] 0 2 =
    (.error .comodified, 3) := by decide +kernel
-- or not: the exception is another one than that for a missing argument
example : LiveArgs.run sampleDateEnv silent ⟨[putting], id⟩ [bareText, bareText] 0 1 = (.error .comodified, 2) := by
  decide +kernel
-- the width of a directive can do it too
example : LiveArgs.run sampleDateEnv silent ⟨[putting, putting], id⟩ [.dflt .s ⟨{}, PRECEDING, UNSET, none⟩] 0 2 =
    (.error .comodified, 3) := by decide +kernel
-- without a change a missing argument is reported as such
example : LiveArgs.run sampleDateEnv silent ⟨[], id⟩ [bareText] 0 0 =
    (.error (.thrown (.printf (.missingArgument (ch! 's')))), 0) := by decide +kernel
-- the premises of `C106_fails`
example : Requests sampleDateEnv silent [bareText, bareText] [putting] 1 [bareText] 0 2 :=
  ⟨.s, ⟨{}, UNSET, UNSET, none⟩, [], [], 2, rfl, rfl, rfl⟩
-- `values()` fails also when the last value is the one that changes the `Args`; so does `toString()`
example : valuesLoop (id : Nat → Nat) 2 [(.of (.ok 1) : Effect Nat Nat), fun s => (.ok 2, s + 1)] 0 2 =
    (.error .comodified, 3) := by decide +kernel
example : texts (id : Nat → Nat) [(fun s => (.ok 1, s + 1) : Effect Nat Nat), .of (.ok 2)] 2 =
    (.error .comodified, 3) := by decide +kernel
example : texts (id : Nat → Nat) [(.of (.ok 1) : Effect Nat Nat), .of (.ok 2)] 2 = (.ok [1, 2], 2) := by decide +kernel

end FastPrintf
