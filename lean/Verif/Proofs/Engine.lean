/-
Lemmas about the formatting loop: output is only ever added at the end, arguments are only consumed
from the front, and well-behaved arguments give consistent sequences.
-/
import Verif.Model.Engine
import Verif.Proofs.Conversions
import Verif.Proofs.Reading

namespace FastPrintf
open Spec

/-! ### Output is appended -/

theorem map_ok_iff {α β : Type} {f : α → β} {x : Res α} {b : β} :
    x.map f = .ok b ↔ ∃ a, x = .ok a ∧ f a = b := by
  cases x <;> simp [Except.map]

theorem Atomic.appendLoop_prefix (s : JStr) (up : Bool) (n st : Nat) (sb : JStr) :
    Atomic.appendLoop s up n st sb = (Atomic.appendLoop s up n st []).map (sb ++ ·) := by
  induction n generalizing st sb with
  | zero => simp [Atomic.appendLoop, Except.map]
  | succ n ih =>
    unfold Atomic.appendLoop
    cases charAtRaw s st with
    | error e => rfl
    | ok c =>
      simp only [bind_ok]
      rw [ih, ih (st + 1) ([] ++ [Atomic.caseOf up c])]
      cases Atomic.appendLoop s up n (st + 1) [] <;> simp [Except.map]

theorem Atomic.appendToSB_prefix (a : Atomic) (sb : JStr) :
    a.appendToSB sb = (a.appendToSB []).map (sb ++ ·) := by
  cases a with
  | empty => simp [Atomic.appendToSB, Except.map]
  | repeated c n => simp [Atomic.appendToSB, Except.map]
  | strView s st n up =>
    simp only [Atomic.appendToSB]
    split_ifs
    · exact appendLoop_prefix _ _ _ _ _
    · cases Atomic.copyRange s st n <;> simp [Except.map]
    · simp [Except.map]
    · cases Atomic.copyRange s st n <;> simp [Except.map]
  | charArray s st n up =>
    simp only [Atomic.appendToSB]
    split_ifs
    · exact appendLoop_prefix _ _ _ _ _
    · cases Atomic.copyRange s st n <;> simp [Except.map]
    · cases Atomic.copyRange s st n <;> simp [Except.map]
  | lazy out n => simp [Atomic.appendToSB, Except.map]
  | failing out n e => rfl

theorem Seq.appendLeavesSB_prefix (es : List Atomic) (sb : JStr) :
    Seq.appendLeavesSB es sb = (Seq.appendLeavesSB es []).map (sb ++ ·) := by
  induction es generalizing sb with
  | nil => simp [Seq.appendLeavesSB, Except.map]
  | cons a es ih =>
    unfold Seq.appendLeavesSB
    rw [Atomic.appendToSB_prefix a sb]
    cases a.appendToSB [] with
    | error e => rfl
    | ok x =>
      simp only [Except.map, bind_ok]
      rw [ih, ih x]
      cases Seq.appendLeavesSB es [] <;> simp [Except.map]

/-- Whatever a sequence adds to a builder, it adds it after what the builder holds. -/
theorem Seq.appendToSB_prefix (s : Seq) (sb : JStr) :
    s.appendToSB sb = (s.appendToSB []).map (sb ++ ·) := by
  cases s with
  | atom a => exact Atomic.appendToSB_prefix a sb
  | concat l r n k =>
    simp only [Seq.appendToSB]
    cases Seq.leaves (.concat l r n k) with
    | error e => rfl
    | ok es => exact Seq.appendLeavesSB_prefix es sb
  | array es n => exact Seq.appendLeavesSB_prefix es sb

theorem Seq.leavesSBLeft_prefix (es : List Atomic) (sb : JStr) :
    Seq.leavesSBLeft es sb = sb ++ Seq.leavesSBLeft es [] := by
  induction es generalizing sb with
  | nil => simp [Seq.leavesSBLeft]
  | cons a es ih =>
    unfold Seq.leavesSBLeft
    rw [Atomic.appendToSB_prefix a sb]
    cases a.appendToSB [] with
    | error e => simp [Except.map]
    | ok x =>
      simp only [Except.map]
      rw [ih, ih x]
      simp

/-- The same when it throws. -/
theorem Seq.leftInSB_prefix (s : Seq) (sb : JStr) : s.leftInSB sb = sb ++ s.leftInSB [] := by
  cases s with
  | atom a => simp [Seq.leftInSB]
  | concat l r n k =>
    simp only [Seq.leftInSB]
    cases Seq.leaves (.concat l r n k) with
    | error e => simp
    | ok es => exact Seq.leavesSBLeft_prefix es sb
  | array es n => exact Seq.leavesSBLeft_prefix es sb

theorem wrap_appendToSB (t sb : JStr) : (Seq.wrap t).appendToSB sb = .ok (sb ++ t) := by
  rw [Seq.appendToSB_ok (Seq.wrap_wf t).sane, Seq.wrap_text]

/-- Running on a builder that already holds text. -/
theorem runSB_prefix (env : DateEnv) (apps : List Appender) (args : List Traits) (sb : JStr) :
    runSB env apps args sb =
      ⟨sb ++ (runSB env apps args []).target, (runSB env apps args []).result⟩ := by
  induction apps generalizing args sb with
  | nil => simp [runSB]
  | cons a apps ih =>
    unfold runSB
    cases a.append env args with
    | error e => simp
    | ok r =>
      obtain ⟨seq, rest⟩ := r
      simp only
      rw [Seq.appendToSB_prefix seq sb]
      cases seq.appendToSB [] with
      | error e =>
        simp only [Except.map]
        rw [Seq.leftInSB_prefix]
      | ok x =>
        simp only [Except.map]
        rw [ih, ih rest x]
        simp

/-- Running one list of pieces after another. -/
def Outcome.andThen {σ : Type} (o : Outcome σ) (k : List Traits → σ → Outcome σ) : Outcome σ :=
  match o.result with
  | .error e => ⟨o.target, .error e⟩
  | .ok rest => k rest o.target

theorem runSB_append (env : DateEnv) (as bs : List Appender) (args : List Traits) (sb : JStr) :
    runSB env (as ++ bs) args sb = (runSB env as args sb).andThen (runSB env bs) := by
  induction as generalizing args sb with
  | nil => rfl
  | cons a as ih =>
    rw [List.cons_append]
    unfold runSB
    cases a.append env args with
    | error e => rfl
    | ok r =>
      obtain ⟨seq, rest⟩ := r
      simp only
      cases seq.appendToSB sb with
      | error e => rfl
      | ok x => exact ih rest x

theorem runSB_fixed (env : DateEnv) (t : JStr) (apps : List Appender) (args : List Traits)
    (sb : JStr) : runSB env (.fixed t :: apps) args sb = runSB env apps args (sb ++ t) := by
  conv_lhs => unfold runSB
  simp only [Appender.append, wrap_appendToSB]

theorem runSB_glue (env : DateEnv) (ps qs : List Piece) (args : List Traits) (sb : JStr) :
    runSB env ((glue ps qs).map Piece.compiled) args sb =
      runSB env (ps.map Piece.compiled ++ qs.map Piece.compiled) args sb := by
  induction ps generalizing args sb with
  | nil => rfl
  | cons p ps ih =>
    by_cases hg : ∃ s t qs', p = .lit s ∧ ps = [] ∧ qs = .lit t :: qs'
    · obtain ⟨s, t, qs', rfl, rfl, rfl⟩ := hg
      simp only [glue, List.map_cons, List.map_nil, List.cons_append, List.nil_append,
        Piece.compiled, runSB_fixed, List.append_assoc]
    · have e : glue (p :: ps) qs = p :: glue ps qs := by
        cases p with
        | percent => simp [glue]
        | dir d => simp [glue]
        | lit l =>
          cases ps with
          | cons a ps => simp [glue]
          | nil =>
            cases qs with
            | nil => simp [glue]
            | cons b qs =>
              cases b with
              | lit t => exact absurd ⟨l, t, qs, rfl, rfl, rfl⟩ hg
              | percent => simp [glue]
              | dir d => simp [glue]
      rw [e, List.map_cons, List.map_cons, List.cons_append]
      conv_lhs => unfold runSB
      conv_rhs => unfold runSB
      cases (p.compiled).append env args with
      | error e => rfl
      | ok r =>
        obtain ⟨seq, rest⟩ := r
        simp only
        cases seq.appendToSB sb with
        | error e => rfl
        | ok x => exact ih rest x

theorem formatWith_eq (env : DateEnv) (apps : List Appender) (args : List Traits) :
    formatWith env apps args =
      (runSB env apps args []).result.map (fun _ => (runSB env apps args []).target) := by
  unfold formatWith
  rcases h : runSB env apps args [] with ⟨t, r⟩
  cases r <;> rfl

theorem printf_eq {dates : DateSyntax} {f : JStr} {ps : List Piece} (h : Reading dates f ps)
    (env : DateEnv) (args : List Traits) :
    printf dates env f args = formatWith env (ps.map Piece.compiled) args := by
  unfold printf
  rw [(compile_iff dates f _).2 ⟨ps, h, rfl⟩, bind_ok]

/-! ### Arguments are consumed from the front -/

namespace DefaultAppender

/-- `x` reads a fixed number `n` of arguments from the front, and its answer does not depend on what
follows them; with fewer arguments it fails, for want of an argument or for a reason that more
arguments would not remove. -/
structure Reads {α : Type} (c : JChar) (n : Nat) (x : List Traits → Res (α × List Traits)) : Prop where
  enough : ∀ pre : List Traits, pre.length = n →
    ∃ r : Res α, ∀ more, x (pre ++ more) = r.map (fun a => (a, more))
  short : ∀ args : List Traits, args.length < n →
    ∃ e, x args = .error e ∧ (e = .printf (.missingArgument c) ∨ ∀ more, x (args ++ more) = .error e)

theorem Reads.mk1 {α : Type} {x : List Traits → Res (α × List Traits)} {f : Traits → Res α}
    (h : ∀ v rest, x (v :: rest) = (f v).map (fun a => (a, rest)))
    {c : JChar} (h0 : x [] = .error (.printf (.missingArgument c))) : Reads c 1 x := by
  constructor
  · intro pre hp
    obtain ⟨v, rfl⟩ := List.length_eq_one_iff.1 hp
    exact ⟨f v, fun more => h v more⟩
  · intro args hl
    have : args = [] := List.eq_nil_of_length_eq_zero (by omega)
    subst this
    exact ⟨_, h0, .inl rfl⟩

theorem reads_nextInt (sp : Specifier) : Reads sp.char 1 (nextInt sp) := by
  refine Reads.mk1 (f := fun v => v.asInt) (fun v rest => ?_) rfl
  simp only [nextInt]
  cases v.asInt <;> rfl

theorem reads_res {α : Type} {c : JChar} (r : Res α) : Reads c 0 (fun args => r.map (fun a => (a, args))) :=
  ⟨fun pre hp => ⟨r, fun more => by
    have : pre = [] := List.eq_nil_of_length_eq_zero hp
    subst this; rfl⟩, fun args hl => by omega⟩

theorem Reads.bind {α β : Type} {c : JChar} {m n : Nat} {x : List Traits → Res (α × List Traits)}
    {k : α → List Traits → Res (β × List Traits)} (hx : Reads c m x) (hk : ∀ a, Reads c n (k a)) :
    Reads c (m + n) (fun args => x args >>= fun r => k r.1 r.2) := by
  constructor
  · intro pre hp
    obtain ⟨r, hr⟩ := hx.enough (pre.take m) (by rw [List.length_take]; omega)
    have hr' : ∀ more, x (pre ++ more) = r.map (fun a => (a, pre.drop m ++ more)) := by
      intro more
      have := hr (pre.drop m ++ more)
      rwa [← List.append_assoc, List.take_append_drop] at this
    cases r with
    | error e => exact ⟨.error e, fun more => by simp only [hr' more, Except.map, bind_error]⟩
    | ok a =>
      obtain ⟨q, hq⟩ := (hk a).enough (pre.drop m) (by rw [List.length_drop]; omega)
      exact ⟨q, fun more => by simp only [hr' more, Except.map, bind_ok]; exact hq more⟩
  · intro args hl
    by_cases hm : args.length < m
    · obtain ⟨e, h1, h2⟩ := hx.short args hm
      refine ⟨e, by simp only [h1, bind_error], ?_⟩
      rcases h2 with h2 | h2
      · exact .inl h2
      · exact .inr fun more => by simp only [h2 more, bind_error]
    · obtain ⟨r, hr⟩ := hx.enough (args.take m) (by rw [List.length_take]; omega)
      have hr' : ∀ more, x (args ++ more) = r.map (fun a => (a, args.drop m ++ more)) := by
        intro more
        have := hr (args.drop m ++ more)
        rwa [← List.append_assoc, List.take_append_drop] at this
      have h0 := hr' []
      simp only [List.append_nil] at h0
      cases r with
      | error e =>
        exact ⟨e, by simp only [h0, Except.map, bind_error], .inr fun more => by
          simp only [hr' more, Except.map, bind_error]⟩
      | ok a =>
        obtain ⟨e, h1, h2⟩ := (hk a).short (args.drop m) (by rw [List.length_drop]; omega)
        refine ⟨e, by simp only [h0, Except.map, bind_ok, h1], ?_⟩
        rcases h2 with h2 | h2
        · exact .inl h2
        · exact .inr fun more => by simp only [hr' more, Except.map, bind_ok, h2 more]

/-- How many arguments a `*` costs. -/
def starCost (v : Int) : Nat := if v = PRECEDING then 1 else 0

theorem reads_starWidth (sp : Specifier) (ctx : FormatContext) :
    Reads sp.char (starCost ctx.width) (starWidth sp ctx) := by
  unfold starCost starWidth FormatContext.isPrecedingWidth
  by_cases h : ctx.width = PRECEDING
  · simp only [h, beq_self_eq_true, if_true]
    have := Reads.bind (reads_nextInt sp) (fun w => reads_res
      (if w ≥ 0 then ctx.setWidth w else (ctx.addFlag .leftJustify).setWidth (wrap32 (-w))))
    rw [Nat.add_zero] at this
    convert this using 2 with args
    congr 1
    funext r
    obtain ⟨w, rest⟩ := r
    simp only
    split_ifs
    · cases ctx.setWidth w <;> rfl
    · cases (ctx.addFlag .leftJustify).setWidth (wrap32 (-w)) <;> rfl
  · simp only [h, if_false, beq_iff_eq]
    exact reads_res (.ok ctx)

theorem reads_starPrecision (sp : Specifier) (ctx : FormatContext) :
    Reads sp.char (starCost ctx.precision) (starPrecision sp ctx) := by
  unfold starCost starPrecision FormatContext.isPrecedingPrecision
  by_cases h : ctx.precision = PRECEDING
  · simp only [h, beq_self_eq_true, if_true]
    have := Reads.bind (reads_nextInt sp) (fun p => reads_res
      (ctx.setPrecision (if p ≥ 0 then p else UNSET)))
    rw [Nat.add_zero] at this
    convert this using 2 with args
    congr 1
  · simp only [h, if_false, beq_iff_eq]
    exact reads_res (.ok ctx)

theorem setWidth_ok {ctx c : FormatContext} {w : Int} (h : ctx.setWidth w = .ok c) :
    FormatContext.checkValue .width w = .ok () ∧ c = { ctx with width := w } := by
  unfold FormatContext.setWidth at h
  obtain ⟨_, h1, h2⟩ := bind_eq_ok.1 h
  cases h2
  exact ⟨h1, rfl⟩

theorem setPrecision_ok {ctx c : FormatContext} {w : Int} (h : ctx.setPrecision w = .ok c) :
    FormatContext.checkValue .precision w = .ok () ∧ c = { ctx with precision := w } := by
  unfold FormatContext.setPrecision at h
  obtain ⟨_, h1, h2⟩ := bind_eq_ok.1 h
  cases h2
  exact ⟨h1, rfl⟩

theorem addFlag_eq (ctx : FormatContext) :
    ctx.addFlag .leftJustify = { ctx with flags := { ctx.flags with leftJustify := true } } := by
  unfold FormatContext.addFlag
  obtain ⟨⟨l, a, p, s, z⟩, w, pr, d⟩ := ctx
  cases l <;> simp [Flags.contains, Flags.add]

theorem starWidth_precision {sp : Specifier} {ctx c : FormatContext} {args rest : List Traits}
    (h : starWidth sp ctx args = .ok (c, rest)) : c.precision = ctx.precision := by
  unfold starWidth at h
  split_ifs at h
  · obtain ⟨⟨w, r⟩, _, h2⟩ := bind_eq_ok.1 h
    simp only at h2
    split_ifs at h2
    · obtain ⟨c', h3, h4⟩ := bind_eq_ok.1 h2
      cases h4
      rw [(setWidth_ok h3).2]
    · obtain ⟨c', h3, h4⟩ := bind_eq_ok.1 h2
      cases h4
      rw [(setWidth_ok h3).2, addFlag_eq]
  · cases h; rfl

theorem starWidth_conv {sp : Specifier} {ctx c : FormatContext} {args rest : List Traits}
    (h : starWidth sp ctx args = .ok (c, rest)) : c.dateTimeFormatter = ctx.dateTimeFormatter := by
  unfold starWidth at h
  split_ifs at h
  · obtain ⟨⟨w, r⟩, _, h2⟩ := bind_eq_ok.1 h
    simp only at h2
    split_ifs at h2
    · obtain ⟨c', h3, h4⟩ := bind_eq_ok.1 h2
      cases h4
      rw [(setWidth_ok h3).2]
    · obtain ⟨c', h3, h4⟩ := bind_eq_ok.1 h2
      cases h4
      rw [(setWidth_ok h3).2, addFlag_eq]
  · cases h; rfl

/-- The last step of `append`: the value argument. -/
def valueStep (env : DateEnv) (sp : Specifier) (ctx : FormatContext) (args : List Traits) :
    Res (Seq × List Traits) :=
  match args with
  | v :: rest => (formatterFor env sp ctx v).map (fun s => (s, rest))
  | [] => .error (.printf (.missingArgument sp.char))

theorem append_eq (env : DateEnv) (sp : Specifier) (ctx : FormatContext) (args : List Traits) :
    append env sp ctx args = starWidth sp ctx args >>= fun r =>
      starPrecision sp r.1 r.2 >>= fun q => valueStep env sp q.1 q.2 := by
  unfold append
  cases starWidth sp ctx args with
  | error e => rfl
  | ok r =>
    obtain ⟨c, args⟩ := r
    simp only [bind_ok]
    cases starPrecision sp c args with
    | error e => rfl
    | ok r =>
      obtain ⟨c, args⟩ := r
      simp only [bind_ok]
      cases args with
      | nil => rfl
      | cons v rest =>
        simp only [valueStep]
        cases formatterFor env sp c v <;> rfl

theorem reads_valueStep (env : DateEnv) (sp : Specifier) (ctx : FormatContext) :
    Reads sp.char 1 (valueStep env sp ctx) :=
  Reads.mk1 (f := fun v => formatterFor env sp ctx v) (fun _ _ => rfl) rfl

theorem Reads.of_eq {α : Type} {c : JChar} {n m : Nat} {x : List Traits → Res (α × List Traits)}
    (h : Reads c n x) (e : n = m) : Reads c m x := e ▸ h

theorem reads_append (env : DateEnv) (sp : Specifier) (ctx : FormatContext) :
    Reads sp.char (starCost ctx.width + starCost ctx.precision + 1) (append env sp ctx) := by
  -- the contexts that reach the precision step all have the precision of `ctx`
  let k : FormatContext → List Traits → Res (Seq × List Traits) := fun c args =>
    if c.precision = ctx.precision then
      starPrecision sp c args >>= fun q => valueStep env sp q.1 q.2
    else starPrecision sp ctx args >>= fun q => valueStep env sp q.1 q.2
  have hk : ∀ c, Reads sp.char (starCost ctx.precision + 1) (k c) := by
    intro c
    by_cases hc : c.precision = ctx.precision
    · simp only [k, hc, if_true]
      have := Reads.bind (reads_starPrecision sp c) (fun q => reads_valueStep env sp q)
      rw [hc] at this
      exact this
    · simp only [k, hc, if_false]
      exact Reads.bind (reads_starPrecision sp ctx) (fun q => reads_valueStep env sp q)
  have h := Reads.bind (reads_starWidth sp ctx) hk
  have e : (fun args => starWidth sp ctx args >>= fun r => k r.1 r.2) = append env sp ctx := by
    funext args
    rw [append_eq]
    cases hw : starWidth sp ctx args with
    | error e => rfl
    | ok r =>
      obtain ⟨c, rest⟩ := r
      simp only [bind_ok, k, starWidth_precision hw, if_true]
  rw [e] at h
  exact h.of_eq (by omega)

end DefaultAppender

open DefaultAppender

/-- The number of arguments a compiled piece reads. -/
def Appender.cost : Appender → Nat
  | .fixed _ => 0
  | .dflt _ ctx => starCost ctx.width + starCost ctx.precision + 1

/-- The letter that names an appender in a message. -/
def Appender.letter : Appender → JChar
  | .fixed _ => 0
  | .dflt sp _ => sp.char

theorem Appender.reads (env : DateEnv) (a : Appender) : Reads a.letter a.cost (a.append env) := by
  cases a with
  | fixed t => exact reads_res (.ok (Seq.wrap t))
  | dflt sp ctx => exact reads_append env sp ctx

/-- A whole run: reads a fixed number of arguments. -/
theorem runSB_reads (env : DateEnv) (apps : List Appender) (sb : JStr) :
    (∀ pre : List Traits, pre.length = (apps.map Appender.cost).sum →
      ∃ (t : JStr) (r : Res Unit), ∀ more, runSB env apps (pre ++ more) sb =
        ⟨t, r.map (fun _ => more)⟩) ∧
    (∀ args : List Traits, args.length < (apps.map Appender.cost).sum →
      ∃ e, (runSB env apps args sb).result = .error e ∧
        ((∃ c, e = .printf (.missingArgument c)) ∨ ∀ more, (runSB env apps (args ++ more) sb).result = .error e)) := by
  induction apps generalizing sb with
  | nil =>
    constructor
    · intro pre hp
      have : pre = [] := List.eq_nil_of_length_eq_zero (by simpa using hp)
      subst this
      exact ⟨sb, .ok (), fun more => rfl⟩
    · intro args hl; simp at hl
  | cons a apps ih =>
    simp only [List.map_cons, List.sum_cons]
    have ha := a.reads env
    constructor
    · intro pre hp
      obtain ⟨r, hr⟩ := ha.enough (pre.take a.cost) (by rw [List.length_take]; omega)
      have hr' : ∀ more, a.append env (pre ++ more) =
          r.map (fun s => (s, pre.drop a.cost ++ more)) := by
        intro more
        have := hr (pre.drop a.cost ++ more)
        rwa [← List.append_assoc, List.take_append_drop] at this
      cases r with
      | error e =>
        refine ⟨sb, .error e, fun more => ?_⟩
        unfold runSB
        rw [hr' more]; rfl
      | ok s =>
        cases hs : s.appendToSB sb with
        | error e =>
          refine ⟨s.leftInSB sb, .error e, fun more => ?_⟩
          unfold runSB
          simp only [hr' more, Except.map, hs]
        | ok x =>
          obtain ⟨t, q, hq⟩ := (ih x).1 (pre.drop a.cost) (by rw [List.length_drop]; omega)
          refine ⟨t, q, fun more => ?_⟩
          conv_lhs => unfold runSB
          simp only [hr' more, Except.map, hs]
          exact hq more
    · intro args hl
      by_cases hm : args.length < a.cost
      · obtain ⟨e, h1, h2⟩ := ha.short args hm
        refine ⟨e, by unfold runSB; rw [h1], ?_⟩
        rcases h2 with h2 | h2
        · exact .inl ⟨_, h2⟩
        · exact .inr fun more => by unfold runSB; rw [h2 more]
      · obtain ⟨r, hr⟩ := ha.enough (args.take a.cost) (by rw [List.length_take]; omega)
        have hr' : ∀ more, a.append env (args ++ more) =
            r.map (fun s => (s, args.drop a.cost ++ more)) := by
          intro more
          have := hr (args.drop a.cost ++ more)
          rwa [← List.append_assoc, List.take_append_drop] at this
        have h0 := hr' []
        simp only [List.append_nil] at h0
        cases r with
        | error e =>
          refine ⟨e, by unfold runSB; rw [h0]; rfl, .inr fun more => ?_⟩
          unfold runSB
          rw [hr' more]; rfl
        | ok s =>
          cases hs : s.appendToSB sb with
          | error e =>
            refine ⟨e, by unfold runSB; simp only [h0, Except.map, hs], .inr fun more => ?_⟩
            unfold runSB
            simp only [hr' more, Except.map, hs]
          | ok x =>
            obtain ⟨e, h1, h2⟩ := (ih x).2 (args.drop a.cost) (by rw [List.length_drop]; omega)
            refine ⟨e, by unfold runSB; simp only [h0, Except.map, hs, h1], ?_⟩
            rcases h2 with h2 | h2
            · exact .inl h2
            · refine .inr fun more => ?_
              unfold runSB
              simp only [hr' more, Except.map, hs, h2 more]

/-! ### What reaches the formatting stage -/

/-- A width and precision ready for formatting. -/
structure Ready (ctx : FormatContext) : Prop where
  width : ctx.width = UNSET ∨ (0 ≤ ctx.width ∧ ctx.width ≤ 65536) ∨
    (ctx.width = PRECEDING ∧ ctx.flags.leftJustify = true)
  prec : ctx.precision = UNSET ∨ (0 ≤ ctx.precision ∧ ctx.precision ≤ 65536)

theorem Ready.precOK {ctx : FormatContext} (h : Ready ctx) : SeqFormatter.PrecOK ctx := by
  rcases h.prec with h | h
  · exact .inl h
  · exact .inr h.1

/-- A width or precision as stored by the compiler. -/
def Stored (v : Int) : Prop := v = UNSET ∨ v = PRECEDING ∨ (0 ≤ v ∧ v ≤ 65536)

theorem checkValue_intMin {name : NumName} {v : Int} (h : v = PRECEDING) :
    FormatContext.checkValue name v = .ok () := by
  rw [checkValue_ok]; exact .inr (.inl h)

theorem starWidth_ready {sp : Specifier} {ctx c : FormatContext} {args rest : List Traits} (hw : Stored ctx.width)
    (h : starWidth sp ctx args = .ok (c, rest)) :
    c.width = UNSET ∨ (0 ≤ c.width ∧ c.width ≤ 65536) ∨
      (c.width = PRECEDING ∧ c.flags.leftJustify = true) := by
  have e1 : UNSET = -1 := rfl
  have e2 : PRECEDING = -2147483648 := rfl
  unfold starWidth FormatContext.isPrecedingWidth at h
  by_cases hp : ctx.width = PRECEDING
  · rw [if_pos (by simp [hp])] at h
    obtain ⟨⟨w, r⟩, _, h2⟩ := bind_eq_ok.1 h
    simp only at h2
    split_ifs at h2 with hge
    · obtain ⟨c', h3, h4⟩ := bind_eq_ok.1 h2
      cases h4
      obtain ⟨h5, rfl⟩ := setWidth_ok h3
      rw [checkValue_ok] at h5
      simp only
      omega
    · obtain ⟨c', h3, h4⟩ := bind_eq_ok.1 h2
      cases h4
      obtain ⟨h5, rfl⟩ := setWidth_ok h3
      rw [checkValue_ok] at h5
      rw [addFlag_eq]
      simp only
      rcases h5 with h5 | h5 | h5
      · exact .inl h5
      · exact .inr (.inr ⟨h5, trivial⟩)
      · exact .inr (.inl h5)
  · rw [if_neg (by simp [hp])] at h
    cases h
    rcases hw with hw | hw | hw
    · exact .inl hw
    · exact absurd hw hp
    · exact .inr (.inl hw)

theorem starPrecision_ready {sp : Specifier} {ctx c : FormatContext} {args rest : List Traits}
    (hw : Stored ctx.precision) (h : starPrecision sp ctx args = .ok (c, rest)) :
    (c.precision = UNSET ∨ (0 ≤ c.precision ∧ c.precision ≤ 65536)) ∧ c.width = ctx.width ∧
      c.flags = ctx.flags := by
  have e1 : UNSET = -1 := rfl
  have e2 : PRECEDING = -2147483648 := rfl
  unfold starPrecision FormatContext.isPrecedingPrecision at h
  by_cases hp : ctx.precision = PRECEDING
  · rw [if_pos (by simp [hp])] at h
    obtain ⟨⟨w, r⟩, _, h2⟩ := bind_eq_ok.1 h
    simp only at h2
    obtain ⟨c', h3, h4⟩ := bind_eq_ok.1 h2
    cases h4
    obtain ⟨h5, rfl⟩ := setPrecision_ok h3
    rw [checkValue_ok] at h5
    refine ⟨?_, rfl, rfl⟩
    simp only
    split_ifs at h5 ⊢ <;> omega
  · rw [if_neg (by simp [hp])] at h
    cases h
    refine ⟨?_, rfl, rfl⟩
    rcases hw with hw | hw | hw
    · exact .inl hw
    · exact absurd hw hp
    · exact .inr hw

theorem ready_of_stars {ctx c c' : FormatContext} {args r r' : List Traits} (hw : Stored ctx.width)
    (hp : Stored ctx.precision) (h1 : starWidth sp ctx args = .ok (c, r))
    (h2 : starPrecision sp c r = .ok (c', r')) : Ready c' := by
  have hp' : Stored c.precision := by rw [starWidth_precision h1]; exact hp
  obtain ⟨a1, a2, a3⟩ := starPrecision_ready hp' h2
  refine ⟨?_, a1⟩
  rw [a2, a3]
  exact starWidth_ready hw h1

theorem stored_value {n : Num} (h : n.Ok) : Stored n.value := by
  cases n with
  | absent => exact .inl rfl
  | star => exact .inr (.inl rfl)
  | digits ds =>
    have := h.2
    have e : numberCap = 65536 := rfl
    simp only [Num.value, Stored]
    omega

theorem WidthOk.ok {n : Num} (h : WidthOk n) : n.Ok := by
  cases n with
  | absent => trivial
  | star => trivial
  | digits ds => exact h.2.2

/-! ### Well-behaved arguments -/

/-- The layouts of a floating-point reading are consistent sequences. -/
def FloatForm.WF (f : FloatForm) : Prop :=
  ∀ p l, 0 ≤ p → (f.generalLayout p = .ok l ∨ f.scientificLayout p = .ok l ∨
    f.decimalLayout p = .ok l ∨ f.hexLayout p = .ok l) → SeqFormatter.LayoutWF l

/-- An argument whose sequences report the right lengths.  All arguments made by the library do. -/
structure Traits.WF (v : Traits) : Prop where
  seq : ∀ q, v.asSeq = .ok q → q.WF
  float : ∀ f, v.asFloatForm = .ok f → f.WF

namespace SeqFormatter

theorem d_wf {ctx : FormatContext} {v : IntForm} {r : Seq} (h : d ctx v = .ok r) : r.WF := by
  unfold d at h
  split_ifs at h
  · obtain ⟨r', h1, h2, _⟩ := spaceJustify_ok ctx (Seq.ch_wf 43)
    rw [h] at h1; cases h1; exact h2
  · obtain ⟨r', h1, h2, _⟩ := spaceJustify_ok ctx Seq.empty_wf
    rw [h] at h1; cases h1; exact h2
  · obtain ⟨ds, _, h⟩ := bind_eq_ok.1 h
    obtain ⟨q, q1, q2, _⟩ := zeroFill_ok (dPrecision ctx v.signum) (Seq.wrap_wf ds)
    simp only [q1, bind_ok] at h
    obtain ⟨r', h1, h2, _⟩ := spaceJustify_ok ctx (sign_ok ctx q2 (v.signum < 0)).1
    rw [h] at h1; cases h1; exact h2

theorem unsigned_wf {ctx : FormatContext} {sg : Int} {x : Res JStr} {pre : JStr} {r : Seq}
    (h : formatUnsignedInteger ctx sg x pre = .ok r) : r.WF := by
  cases x with
  | ok ds =>
    obtain ⟨r', h1, h2, _⟩ := unsigned_ok ctx sg (rfl : (.ok ds : Res JStr) = .ok ds) pre
    rw [h] at h1; cases h1; exact h2
  | error e =>
    by_cases h0 : sg = 0 ∧ ctx.precision = 0
    · unfold formatUnsignedInteger at h
      rw [if_pos h0] at h
      obtain ⟨r', h1, h2, _⟩ := spaceJustify_ok ctx Seq.empty_wf
      rw [h] at h1; cases h1; exact h2
    · rw [unsigned_err rfl pre h0] at h; cases h

theorem nonFinite_wf {ctx : FormatContext} {v : FloatForm} {r : Seq}
    (h : nanOrInfinity ctx v = .ok r) : r.WF := by
  obtain ⟨r', h1, h2, _⟩ := nonFinite_ok ctx v
  rw [h] at h1; cases h1; exact h2

theorem f_wf {ctx : FormatContext} (hp : PrecOK ctx) {v : FloatForm} (hv : v.WF) {r : Seq}
    (h : f ctx v = .ok r) : r.WF := by
  by_cases hf : (v.isNaN || v.isInfinite) = true
  · unfold f at h; rw [if_pos hf] at h; exact nonFinite_wf h
  · have hf' : (v.isNaN || v.isInfinite) = false := by simpa using hf
    have h' := h
    unfold f at h'
    rw [if_neg hf] at h'
    obtain ⟨l, hl, _⟩ := bind_eq_ok.1 h'
    have hw := hv _ l (precision6_nonneg hp) (.inr (.inr (.inl hl)))
    obtain ⟨r', h1, h2, _⟩ := f_ok hp hf' hl hw.1
    rw [h] at h1; cases h1; exact h2

theorem e_wf {ctx : FormatContext} (hp : PrecOK ctx) {v : FloatForm} (hv : v.WF) {r : Seq}
    (h : e ctx v = .ok r) : r.WF := by
  by_cases hf : (v.isNaN || v.isInfinite) = true
  · unfold e at h; rw [if_pos hf] at h; exact nonFinite_wf h
  · have hf' : (v.isNaN || v.isInfinite) = false := by simpa using hf
    have h' := h
    unfold e at h'
    rw [if_neg hf] at h'
    obtain ⟨⟨m, ex⟩, hl, h2⟩ := bind_eq_ok.1 h'
    obtain ⟨w1, w2⟩ := hv _ _ (precision6_nonneg hp) (.inr (.inl hl))
    cases ex with
    | none =>
      obtain ⟨_, _, h3⟩ := bind_eq_ok.1 h2
      obtain ⟨_, h4, _⟩ := bind_eq_ok.1 h3
      cases h4
    | some ex =>
      obtain ⟨r', h1, h2, _⟩ := e_ok hp hf' hl w1 (w2 ex rfl)
      rw [h] at h1; cases h1; exact h2

theorem a_wf {ctx : FormatContext} (hp : PrecOK ctx) {v : FloatForm} (hv : v.WF) {r : Seq}
    (h : a ctx v = .ok r) : r.WF := by
  have hap := aPrecision_pos hp
  by_cases hf : (v.isNaN || v.isInfinite) = true
  · unfold a at h; rw [if_pos hf] at h; exact nonFinite_wf h
  · have hf' : (v.isNaN || v.isInfinite) = false := by simpa using hf
    have h' := h
    unfold a at h'
    rw [if_neg hf] at h'
    obtain ⟨⟨m, ex⟩, hl, h2⟩ := bind_eq_ok.1 h'
    obtain ⟨w1, w2⟩ := hv _ _ (by omega) (.inr (.inr (.inr hl)))
    cases ex with
    | none =>
      simp only at h2
      split_ifs at h2
      · obtain ⟨_, _, h3⟩ := bind_eq_ok.1 h2
        obtain ⟨_, h4, _⟩ := bind_eq_ok.1 h3
        cases h4
      · obtain ⟨_, _, h3⟩ := bind_eq_ok.1 h2
        obtain ⟨_, h4, _⟩ := bind_eq_ok.1 h3
        cases h4
    | some ex =>
      obtain ⟨r', h1, h2, _⟩ := a_ok hp hf' hl w1 (w2 ex rfl)
      rw [h] at h1; cases h1; exact h2

theorem g_isSane {ctx : FormatContext} (hp : PrecOK ctx) {v : FloatForm} (hv : v.WF) {r : Seq}
    (h : g ctx v = .ok r) : r.Sane := by
  have hap := gPrecision_pos hp
  by_cases hf : (v.isNaN || v.isInfinite) = true
  · unfold g at h; rw [if_pos hf] at h; exact (nonFinite_wf h).sane
  · have hf' : (v.isNaN || v.isInfinite) = false := by simpa using hf
    have h' := h
    unfold g at h'
    rw [if_neg hf] at h'
    obtain ⟨l, hl, _⟩ := bind_eq_ok.1 h'
    have hw := hv _ l (by omega) (.inl hl)
    obtain ⟨r', _, h1, h2, _⟩ := g_sane hp hf' hl hw
    rw [h] at h1; cases h1; exact h2

theorem s_isSane {ctx : FormatContext} (hp : PrecOK ctx) {v : Traits} (hv : v.WF) {r : Seq}
    (h : s ctx v = .ok r) : r.Sane := by
  have h' := h
  unfold s at h'
  obtain ⟨q, hq, _⟩ := bind_eq_ok.1 h'
  obtain ⟨r', _, h1, h2, _⟩ := s_sane hp hq (hv.seq q hq)
  rw [h] at h1; cases h1; exact h2

theorem t_wf {env : DateEnv} {ctx : FormatContext} {v : Traits} {r : Seq}
    (h : t env ctx v = .ok r) : r.WF := by
  have h' := h
  rw [t_eq] at h'
  obtain ⟨x, hx, _⟩ := bind_eq_ok.1 h'
  obtain ⟨r', h1, h2, _⟩ := t_ok ctx hx
  rw [h] at h1; cases h1; exact h2

theorem c_wf {ctx : FormatContext} {v : Traits} {r : Seq} (h : SeqFormatter.c ctx v = .ok r) :
    r.WF := by
  have h' := h
  unfold SeqFormatter.c at h'
  obtain ⟨x, hx, _⟩ := bind_eq_ok.1 h'
  obtain ⟨r', h1, h2, _⟩ := c_ok ctx hx
  rw [h] at h1; cases h1; exact h2

theorem p_wf {ctx : FormatContext} {v : Traits} {r : Seq} (h : p ctx v = .ok r) : r.WF := by
  by_cases hp : v.ref = .primitive
  · unfold p at h; rw [hp] at h; cases h
  · obtain ⟨r', h1, h2, _⟩ := p_ok ctx hp
    rw [h] at h1; cases h1; exact h2

end SeqFormatter

theorem upper_isSane {x : Res Seq} (hx : ∀ s, x = .ok s → s.Sane) {r : Seq}
    (h : (x >>= fun s => s.upperCase) = .ok r) : r.Sane := by
  obtain ⟨s, h1, h2⟩ := bind_eq_ok.1 h
  obtain ⟨u, h3, h4, _⟩ := Seq.upperCase_sane (hx s h1)
  rw [h2] at h3; cases h3; exact h4

/-- With a well-behaved argument every conversion yields a sane sequence. -/
theorem formatterFor_sane {env : DateEnv} {sp : Specifier} {ctx : FormatContext} {v : Traits}
    (hp : SeqFormatter.PrecOK ctx) (hv : v.WF) {r : Seq}
    (h : formatterFor env sp ctx v = .ok r) : r.Sane := by
  have int : ∀ {k : IntForm → Res Seq}, (∀ i s, k i = .ok s → s.WF) → ∀ s,
      (v.asIntForm >>= k) = .ok s → s.Sane := by
    intro k hk s hs
    obtain ⟨i, _, h2⟩ := bind_eq_ok.1 hs
    exact (hk i s h2).sane
  have flt : ∀ {k : FloatForm → Res Seq}, (∀ i, i.WF → ∀ s, k i = .ok s → s.Sane) → ∀ s,
      (v.asFloatForm >>= k) = .ok s → s.Sane := by
    intro k hk s hs
    obtain ⟨i, h1, h2⟩ := bind_eq_ok.1 hs
    exact hk i (hv.float i h1) s h2
  have up : ∀ {α : Type} {x : Res α} {k : α → Res Seq} {q : Seq},
      (x >>= fun a => k a >>= fun s => s.upperCase) = .ok q →
      ((x >>= k) >>= fun s => s.upperCase) = .ok q := by
    intro α x k q hq
    cases x with
    | error e => cases hq
    | ok a => exact hq
  cases sp with
  | d => exact int (fun _ _ => SeqFormatter.d_wf) r h
  | u => exact int (fun _ _ => SeqFormatter.unsigned_wf) r h
  | o => exact int (fun _ _ => SeqFormatter.unsigned_wf) r h
  | x => exact int (fun _ _ => SeqFormatter.unsigned_wf) r h
  | upperX => exact upper_isSane (int (fun _ _ => SeqFormatter.unsigned_wf)) (up h)
  | f => exact flt (fun _ hi _ hs => (SeqFormatter.f_wf hp hi hs).sane) r h
  | upperF => exact upper_isSane (flt (fun _ hi _ hs => (SeqFormatter.f_wf hp hi hs).sane)) (up h)
  | e => exact flt (fun _ hi _ hs => (SeqFormatter.e_wf hp hi hs).sane) r h
  | upperE => exact upper_isSane (flt (fun _ hi _ hs => (SeqFormatter.e_wf hp hi hs).sane)) (up h)
  | g => exact flt (fun _ hi _ hs => SeqFormatter.g_isSane hp hi hs) r h
  | upperG => exact upper_isSane (flt (fun _ hi _ hs => SeqFormatter.g_isSane hp hi hs)) (up h)
  | a => exact flt (fun _ hi _ hs => (SeqFormatter.a_wf hp hi hs).sane) r h
  | upperA => exact upper_isSane (flt (fun _ hi _ hs => (SeqFormatter.a_wf hp hi hs).sane)) (up h)
  | c => exact (SeqFormatter.c_wf h).sane
  | s => exact SeqFormatter.s_isSane hp hv h
  | upperS => exact upper_isSane (fun _ hs => SeqFormatter.s_isSane hp hv hs) h
  | t => exact (SeqFormatter.t_wf h).sane
  | upperT => exact upper_isSane (fun _ hs => (SeqFormatter.t_wf hs).sane) h
  | n => cases h; exact Seq.empty_wf.sane
  | p => exact (SeqFormatter.p_wf h).sane
  | percent => cases h; exact (Seq.ch_wf 37).sane

/-- A compiled piece as the compiler makes them. -/
def Appender.Stored : Appender → Prop
  | .fixed _ => True
  | .dflt _ ctx => FastPrintf.Stored ctx.width ∧ FastPrintf.Stored ctx.precision

theorem Piece.compiled_stored {dates : DateSyntax} {p : Piece} (h : p.Ok dates) :
    p.compiled.Stored := by
  cases p with
  | lit s => trivial
  | percent => trivial
  | dir d => exact ⟨stored_value (WidthOk.ok h.width), stored_value h.prec⟩

theorem Appender.append_sane {env : DateEnv} {a : Appender} (ha : a.Stored) {args rest : List Traits}
    (hv : ∀ v ∈ args, v.WF) {s : Seq} (h : a.append env args = .ok (s, rest)) :
    s.Sane ∧ ∀ v ∈ rest, v.WF := by
  have hrest : ∀ v ∈ rest, v.WF := by
    have hr := a.reads env
    by_cases hl : args.length < a.cost
    · obtain ⟨e, h1, _⟩ := hr.short args hl
      rw [h] at h1; cases h1
    · obtain ⟨r, hr⟩ := hr.enough (args.take a.cost) (by rw [List.length_take]; omega)
      have := hr (args.drop a.cost)
      rw [List.take_append_drop, h] at this
      cases r with
      | error e => cases this
      | ok x =>
        simp only [Except.map, Except.ok.injEq, Prod.mk.injEq] at this
        intro v hm
        rw [this.2] at hm
        exact hv v (List.mem_of_mem_drop hm)
  refine ⟨?_, hrest⟩
  cases a with
  | fixed t => cases h; exact (Seq.wrap_wf t).sane
  | dflt sp ctx =>
    simp only [Appender.append, append_eq] at h
    obtain ⟨⟨c, r1⟩, h1, h⟩ := bind_eq_ok.1 h
    obtain ⟨⟨c', r2⟩, h2, h⟩ := bind_eq_ok.1 h
    simp only at h2 h
    have hready := ready_of_stars ha.1 ha.2 h1 h2
    have hw1 : ∀ v ∈ r1, v.WF := by
      intro v hm
      have hr := reads_starWidth sp ctx
      by_cases hl : args.length < starCost ctx.width
      · obtain ⟨e, g1, _⟩ := hr.short args hl
        rw [h1] at g1; cases g1
      · obtain ⟨r, hr⟩ := hr.enough (args.take (starCost ctx.width)) (by rw [List.length_take]; omega)
        have := hr (args.drop (starCost ctx.width))
        rw [List.take_append_drop, h1] at this
        cases r with
        | error e => cases this
        | ok x =>
          simp only [Except.map, Except.ok.injEq, Prod.mk.injEq] at this
          rw [this.2] at hm
          exact hv v (List.mem_of_mem_drop hm)
    have hw2 : ∀ v ∈ r2, v.WF := by
      intro v hm
      have hr := reads_starPrecision sp c
      by_cases hl : r1.length < starCost c.precision
      · obtain ⟨e, g1, _⟩ := hr.short r1 hl
        rw [h2] at g1; cases g1
      · obtain ⟨r, hr⟩ := hr.enough (r1.take (starCost c.precision)) (by rw [List.length_take]; omega)
        have := hr (r1.drop (starCost c.precision))
        rw [List.take_append_drop, h2] at this
        cases r with
        | error e => cases this
        | ok x =>
          simp only [Except.map, Except.ok.injEq, Prod.mk.injEq] at this
          rw [this.2] at hm
          exact hw1 v (List.mem_of_mem_drop hm)
    cases r2 with
    | nil => cases h
    | cons v r2 =>
      simp only [valueStep] at h
      obtain ⟨s', h3, h4⟩ := map_ok_iff.1 h
      cases h4
      exact formatterFor_sane hready.precOK (hw2 v (by simp)) h3

end FastPrintf
