/-
Property theorems about formatter instances: C31 (the thread-local builder is invisible across calls),
C32 (it is not re-entrant), C33 (concurrent calls do not interfere), C35 (configuration).
-/
import Verif.Proofs.Instance
import Verif.Proofs.Engine
import Verif.Props.Samples

namespace FastPrintf

open Spec

/-- The thread has made all its calls. -/
def Thread.Finished (th : Thread) : Prop := th.active = none ∧ th.todo = []

/-! ### C33 -/

/-- **C33.** Any number of threads make any calls on any instances, cached or not, and their steps are
interleaved in any way.  A thread that does not call a cached instance in the middle of a call of the
same instance gets, call by call, what each call returns alone in the world, whatever the other threads
do. -/
theorem C33_calls_do_not_interfere (env : GrowthEnv) (calls : Nat → List (Instance × Work))
    (schedule : List Nat) (t : Nat)
    (h : ∀ c ∈ calls t, NonReentrant c.2 (busyWith c.1 [])) :
    let th := ((World.initial calls).run env schedule).threads t
    th.results <+: (calls t).map (fun c => result c.2) ∧
    (th.Finished → th.results = (calls t).map fun c => result c.2) := by
  intro th
  have hok := (run_ok (env := env) (t := t) schedule (World.initial calls) (Separated.initial calls)
    (ThreadOk.initial t (calls t) h)).2
  have he := hok.expected
  refine ⟨?_, ?_⟩
  · rw [← he, Thread.expected, List.append_assoc]
    exact List.prefix_append _ _
  · rintro ⟨h1, h2⟩
    have h1' : (((World.initial calls).run env schedule).threads t).active = none := h1
    have h2' : (((World.initial calls).run env schedule).threads t).todo = [] := h2
    simp only [Thread.expected, h1', h2', List.append_nil, List.map_nil] at he
    exact he

/-- The hypothesis allows nested calls on other cached instances and on instances without cache. -/
example : NonReentrant (.emit (js! "a") (.call ⟨2, [], 16, true⟩
      (.call ⟨1, [], 16, false⟩ (.fail .external) fun _ => .emit (js! "b") .done)
      fun _ => .emit (js! "c") .done)) (busyWith ⟨1, [], 16, true⟩ []) := by
  simp [NonReentrant, busyWith]

/-- Two threads on one cached instance, interleaved in the middle of their calls. -/
example : let f : Instance := ⟨1, [], 16, true⟩
    let w := (World.initial fun t => [(f, .emit [t] (.emit [t, t] .done))]).run ⟨fun c n => max c n⟩
      [5, 6, 5, 6, 6, 5, 5, 6]
    (w.threads 5).results = [.ok [5, 5, 5]] ∧ (w.threads 6).results = [.ok [6, 6, 6]] := by
  exact ⟨rfl, rfl⟩

/-- Several steps of one thread. -/
def Thread.steps (env : GrowthEnv) (t : Nat) : Nat → Thread × Memory → Thread × Memory
  | 0, s => s
  | n + 1, s => Thread.steps env t n (s.1.step env t s.2)

theorem Thread.steps_add (env : GrowthEnv) (t a b : Nat) (s : Thread × Memory) :
    Thread.steps env t (a + b) s = Thread.steps env t b (Thread.steps env t a s) := by
  induction a generalizing s with
  | zero => simp [Thread.steps]
  | succ a ih => rw [Nat.succ_add]; exact ih _

theorem work_finishes (env : GrowthEnv) (t : Nat) (w : Work) :
    ∀ (r : Nat) (th : Thread) (m : Memory), th.active = some (r, w) →
      ∃ n res m', Thread.steps env t n (th, m) = (th.finish res, m') := by
  induction w with
  | done =>
    intro r th m ha
    exact ⟨1, .ok (m.heap r).text, m, by simp only [Thread.steps, Thread.step, ha]⟩
  | fail e =>
    intro r th m ha
    exact ⟨1, .error e, m, by simp only [Thread.steps, Thread.step, ha]⟩
  | emit s k ih =>
    intro r th m ha
    obtain ⟨n, res, m', h⟩ := ih r { th with active := some (r, k) } (m.append env r s) rfl
    refine ⟨n + 1, res, m', ?_⟩
    simp only [Thread.steps, Thread.step, ha]
    rw [h]
    simp only [Thread.finish]
  | call f body k ihb ihk =>
    intro r th m ha
    obtain ⟨n, res, m', h⟩ := ihb (m.acquire f t).1
      { th with active := some ((m.acquire f t).1, body), waiting := (r, k) :: th.waiting }
      (m.acquire f t).2 rfl
    obtain ⟨n', res', m'', h'⟩ := ihk res r { th with active := some (r, k res) } m' rfl
    refine ⟨1 + n + n', res', m'', ?_⟩
    rw [Thread.steps_add, Thread.steps_add]
    simp only [Thread.steps, Thread.step, ha]
    rw [h]
    simp only [Thread.finish] at h' ⊢
    rw [h']

theorem stack_finishes (env : GrowthEnv) (t : Nat) (ws : List (Nat × (Res JStr → Work))) :
    ∀ (th : Thread) (m : Memory), th.waiting = ws → th.active ≠ none →
      ∃ n m' res, (Thread.steps env t n (th, m))
        = ({ th with active := none, waiting := [], results := th.results ++ [res] }, m') := by
  induction ws with
  | nil =>
    intro th m hw ha
    rcases hact : th.active with _ | ⟨r, w⟩
    · exact absurd hact ha
    · obtain ⟨n, res, m', h⟩ := work_finishes env t w r th m hact
      refine ⟨n, m', res, ?_⟩
      rw [h]
      simp only [Thread.finish, hw]
  | cons p ws ih =>
    intro th m hw ha
    obtain ⟨r1, k⟩ := p
    rcases hact : th.active with _ | ⟨r, w⟩
    · exact absurd hact ha
    · obtain ⟨n, res, m', h⟩ := work_finishes env t w r th m hact
      obtain ⟨n', m'', res', h'⟩ := ih { th with active := some (r1, k res), waiting := ws } m' rfl
        (by simp)
      refine ⟨n + n', m'', res', ?_⟩
      rw [Thread.steps_add, h]
      simp only [Thread.finish, hw]
      rw [h']

theorem thread_finishes (env : GrowthEnv) (t : Nat) (todo : List (Instance × Work)) :
    ∀ (th : Thread) (m : Memory), th.todo = todo →
      ∃ n, (Thread.steps env t n (th, m)).1.Finished := by
  induction todo with
  | nil =>
    intro th m ht
    by_cases ha : th.active = none
    · exact ⟨0, ha, ht⟩
    · obtain ⟨n, m', res, h⟩ := stack_finishes env t _ th m rfl ha
      exact ⟨n, by rw [h]; exact ⟨rfl, ht⟩⟩
  | cons c rest ih =>
    -- first the call in progress, if any
    have idle : ∀ (th : Thread) (m : Memory), th.todo = c :: rest → th.active = none →
        ∃ n, (Thread.steps env t n (th, m)).1.Finished := by
      intro th m ht ha
      obtain ⟨f, w⟩ := c
      obtain ⟨n, hn⟩ := ih { th with active := some ((m.acquire f t).1, w), todo := rest }
        (m.acquire f t).2 rfl
      refine ⟨n + 1, ?_⟩
      simp only [Thread.steps, Thread.step, ha, ht]
      exact hn
    intro th m ht
    by_cases ha : th.active = none
    · exact idle th m ht ha
    · obtain ⟨n, m', res, h⟩ := stack_finishes env t _ th m rfl ha
      obtain ⟨n', hn'⟩ := idle
        { th with active := none, waiting := [], results := th.results ++ [res] } m' ht rfl
      refine ⟨n + n', ?_⟩
      rw [Thread.steps_add, h]
      exact hn'

/-- Running one thread only. -/
theorem run_replicate (env : GrowthEnv) (t n : Nat) (w : World) :
    (w.run env (List.replicate n t)).mem = (Thread.steps env t n (w.threads t, w.mem)).2 ∧
    (w.run env (List.replicate n t)).threads t = (Thread.steps env t n (w.threads t, w.mem)).1 := by
  induction n generalizing w with
  | zero => exact ⟨rfl, rfl⟩
  | succ n ih =>
    have h := ih (w.step env t)
    have e1 : (w.step env t).threads t = ((w.threads t).step env t w.mem).1 := by simp [World.step]
    have e2 : (w.step env t).mem = ((w.threads t).step env t w.mem).2 := rfl
    rw [e1, e2] at h
    exact h

/-- No thread can be stopped by the others: after any interleaving, enough further steps of its own make
it finish all its calls. -/
theorem C33_no_blocking (env : GrowthEnv) (w : World) (t : Nat) :
    ∃ n, ((w.run env (List.replicate n t)).threads t).Finished := by
  obtain ⟨n, hn⟩ := thread_finishes env t _ (w.threads t) w.mem rfl
  exact ⟨n, by rw [(run_replicate env t n w).2]; exact hn⟩

/-! ### C31 -/

/-- **C31.** For every history of calls made by a thread, calls that fail part-way included, on cached
instances: after all of them the results are those of the same calls on instances without cache (in both
cases each call returns what it returns alone). -/
theorem C31_cache_invisible (env : GrowthEnv) (history : List (Instance × Work))
    (h : ∀ c ∈ history, NonReentrant c.2 (busyWith c.1 [])) :
    let uncached := history.map fun c => ({ c.1 with cached := false }, c.2)
    ∃ n n', let th := ((World.initial fun _ => history).run env (List.replicate n 0)).threads 0
      let th' := ((World.initial fun _ => uncached).run env (List.replicate n' 0)).threads 0
      th.Finished ∧ th'.Finished ∧ th.results = th'.results ∧
      th.results = history.map fun c => result c.2 := by
  intro uncached
  obtain ⟨n, hn⟩ := C33_no_blocking env (World.initial fun _ => history) 0
  obtain ⟨n', hn'⟩ := C33_no_blocking env (World.initial fun _ => uncached) 0
  have weaken : ∀ (w : Work) (b b' : List Nat), (∀ x ∈ b', x ∈ b) → NonReentrant w b →
      NonReentrant w b' := by
    intro w
    induction w with
    | done => intros; trivial
    | fail => intros; trivial
    | emit s k ih => intro b b' hb hw; exact ih b b' hb hw
    | call f body k ihb ihk =>
      intro b b' hb hw
      refine ⟨fun hc hin => hw.1 hc (hb _ hin), ihb _ _ ?_ hw.2.1, ihk _ _ _ hb hw.2.2⟩
      intro x hx
      unfold busyWith at hx ⊢
      split_ifs at hx ⊢
      · rcases List.mem_cons.1 hx with rfl | hx
        · simp
        · exact List.mem_cons_of_mem _ (hb _ hx)
      · exact hb _ hx
  have h' : ∀ c ∈ uncached, NonReentrant c.2 (busyWith c.1 []) := by
    intro c hc
    obtain ⟨d, hd, rfl⟩ := List.mem_map.1 hc
    exact weaken _ _ _ (by simp [busyWith]) (h d hd)
  have r1 := (C33_calls_do_not_interfere env (fun _ => history) (List.replicate n 0) 0 h).2 hn
  have r2 := (C33_calls_do_not_interfere env (fun _ => uncached) (List.replicate n' 0) 0 h').2 hn'
  refine ⟨n, n', hn, hn', ?_, r1⟩
  rw [r1, r2]
  simp [uncached]

/-- An oversized builder is not kept: a call on a cached instance whose own capacity is at most 65536
replaces a thread-local builder that has grown beyond 65536 by a new one of the instance's capacity. -/
theorem C31_oversized_replaced (m : Memory) (f : Instance) (t r : Nat) (hc : f.cached = true)
    (hl : m.cache f.id t = some r) (hbig : (m.heap r).capacity > 65536) (hf : f.capacity ≤ 65536) :
    let (r', m') := m.acquire f t
    m'.cache f.id t = some r' ∧ m'.heap r' = ⟨[], f.capacity⟩ ∧ r' = m.next := by
  unfold Memory.acquire Memory.getLocal
  simp only [hc, if_true, hl]
  rw [if_pos ⟨hbig, hf⟩]
  simp [Memory.alloc, Memory.setLocal]

/-- The builder of such a call starts with a bounded capacity.  The bound is not 65536: growing a retained
builder to the instance's capacity doubles it. -/
theorem C31_start_capacity (m : Memory) (f : Instance) (t : Nat) (hc : f.cached = true)
    (hf : f.capacity ≤ 65536) :
    ((m.acquire f t).2.heap (m.acquire f t).1).capacity ≤ 131074 ∧
    f.capacity ≤ ((m.acquire f t).2.heap (m.acquire f t).1).capacity := by
  have key : ∀ b : Builder, ¬ (b.capacity > MAX_RETAINED ∧ f.capacity ≤ MAX_RETAINED) →
      (({ b with text := [] } : Builder).ensureCapacity f.capacity).capacity ≤ 131074 ∧
      f.capacity ≤ (({ b with text := [] } : Builder).ensureCapacity f.capacity).capacity := by
    intro b hb
    have : b.capacity ≤ 65536 := by
      by_contra hn; exact hb ⟨by simp only [MAX_RETAINED]; omega, hf⟩
    unfold Builder.ensureCapacity
    split_ifs with h
    · exact ⟨by simp only []; omega, h⟩
    · simp only [] at h ⊢
      omega
  unfold Memory.acquire Memory.getLocal
  rw [if_pos hc]
  cases hl : m.cache f.id t with
  | some r =>
    simp only []
    split_ifs with hb
    · simp [Memory.alloc, Memory.setLocal]; omega
    · simp only [Memory.write, if_true]
      exact key _ hb
  | none =>
    simp only []
    split_ifs with hb
    · simp [Memory.alloc, Memory.setLocal]; omega
    · simp only [Memory.write, if_true]
      exact key _ hb

/-- A thread-local builder of capacity 40000 and an instance of capacity 65000 (two instances derived from
one another do not share builders, so this needs growth by earlier output): the call starts with a builder
of capacity 80002. -/
example : let m : Memory := ⟨fun _ => ⟨[], 40000⟩, 1, fun _ _ => some 0⟩
    ((m.acquire ⟨7, [], 65000, true⟩ 0).2.heap 0).capacity = 80002 := by decide

/-! ### C32 -/

/-- Appending the texts one after the other. -/
def Work.texts : List JStr → Work
  | [] => .done
  | s :: rest => .emit s (Work.texts rest)

theorem resultFrom_texts (l : List JStr) (acc : JStr) :
    resultFrom (Work.texts l) acc = .ok (acc ++ l.flatten) := by
  induction l generalizing acc with
  | nil => simp [Work.texts, resultFrom]
  | cons s l ih => simp [Work.texts, resultFrom, ih]

theorem steps_texts (env : GrowthEnv) (t : Nat) (l : List JStr) (r : Nat) (th : Thread) (m : Memory) :
    ∃ cap, Thread.steps env t (l.length + 1) ({ th with active := some (r, Work.texts l) }, m)
      = (th.finish (.ok ((m.heap r).text ++ l.flatten)),
          m.write r ⟨(m.heap r).text ++ l.flatten, cap⟩) := by
  induction l generalizing m with
  | nil =>
    refine ⟨(m.heap r).capacity, ?_⟩
    have : m.write r ⟨(m.heap r).text, (m.heap r).capacity⟩ = m := by
      unfold Memory.write
      congr 1
      funext r'
      split_ifs with h
      · rw [h]
      · rfl
    simp only [List.length_nil, Thread.steps, Work.texts, Thread.step, List.flatten_nil, List.append_nil]
    rw [this]
    simp only [Thread.finish]
  | cons s l ih =>
    obtain ⟨cap, h⟩ := ih (m.append env r s)
    refine ⟨cap, ?_⟩
    simp only [List.length_cons, Work.texts]
    rw [Nat.add_right_comm, Thread.steps]
    simp only [Thread.step]
    rw [h]
    have e : (m.append env r s).heap r = ⟨(m.heap r).text ++ s,
        env.grow (m.heap r).capacity ((m.heap r).text.length + s.length)⟩ := by
      simp [Memory.append, Memory.write]
    rw [e]
    simp only [List.flatten_cons, List.append_assoc, Prod.mk.injEq, true_and]
    simp only [Memory.append, Memory.write]
    congr 1
    funext r'
    split_ifs <;> rfl

/-- **C32.** A call on a cached instance writes the text `s`; then the conversion of an argument calls the
same instance on the same thread, and that inner call writes `b`; then the outer call writes further
texts (which may depend on the inner result).  The text `s` is lost and the inner text appears in its
place: the outer call returns `b` followed by the further texts, although alone, or without cache, it
would return `s` followed by them.  The hypotheses say that `s` fits in the instance's capacity, that this
is at most 65536, and that a builder does not grow for text that fits. -/
theorem C32_not_reentrant (env : GrowthEnv) (f : Instance) (hc : f.cached = true) (s b : JStr)
    (tail : Res JStr → List JStr) (hfit : s.length ≤ f.capacity) (hf : f.capacity ≤ 65536)
    (hgrow : ∀ c n, n ≤ c → env.grow c n = c) :
    let outer : Work := .emit s (.call f (Work.texts [b]) fun res => Work.texts (tail res))
    result outer = .ok (s ++ (tail (.ok b)).flatten) ∧
    ∃ n, ((World.initial fun _ => [(f, outer)]).run env (List.replicate n 0)).threads 0
      = ⟨none, [], [], [.ok (b ++ (tail (.ok b)).flatten)]⟩ := by
  intro outer
  refine ⟨?_, ?_⟩
  · simp [outer, result, resultFrom, resultFrom_texts, Work.texts]
  -- the first builder
  generalize hb0 : (⟨[], 16⟩ : Builder).ensureCapacity f.capacity = b0
  have ht0 : b0.text = [] := by rw [← hb0]; unfold Builder.ensureCapacity; split_ifs <;> rfl
  have hc0 : s.length ≤ b0.capacity ∧ b0.capacity ≤ 65536 := by
    rw [← hb0]; unfold Builder.ensureCapacity; split_ifs <;> (simp_all; try omega)
  let m1 : Memory := ⟨fun r => if r = 0 then b0 else if r = 0 then ⟨[], 16⟩ else ⟨[], 0⟩, 1,
    fun id t => if id = f.id ∧ t = 0 then some 0 else none⟩
  have a1 : Memory.initial.acquire f 0 = (0, m1) := by
    unfold Memory.acquire Memory.getLocal
    rw [if_pos hc]
    have hcap : (Memory.initial.alloc 16).2.heap (Memory.initial.alloc 16).1 = ⟨[], 16⟩ := rfl
    simp only [Memory.initial, Memory.alloc, Memory.setLocal, Memory.write, MAX_RETAINED, if_true]
    rw [if_neg (by simp), hb0]
    rfl
  let m2 : Memory := m1.append env 0 s
  have h2 : m2.heap 0 = ⟨s, b0.capacity⟩ := by
    simp only [m2, m1, Memory.append, Memory.write, if_true, ht0, List.nil_append, List.length_nil,
      Nat.zero_add]
    rw [hgrow _ _ hc0.1]
  obtain ⟨b1, m3, hm3, a2, ht1⟩ : ∃ b1 m3, m3.heap 0 = b1 ∧ m2.acquire f 0 = (0, m3) ∧ b1.text = [] := by
    refine ⟨_, m2.write 0 (({ m2.heap 0 with text := [] } : Builder).ensureCapacity f.capacity), rfl, ?_, ?_⟩
    · unfold Memory.acquire Memory.getLocal
      rw [if_pos hc]
      have : m2.cache f.id 0 = some 0 := by simp [m2, m1, Memory.append, Memory.write]
      rw [this]
      simp only []
      rw [if_neg]
      rw [h2]
      simp only [MAX_RETAINED]
      omega
    · simp only [Memory.write, if_true]
      unfold Builder.ensureCapacity
      split_ifs <;> rfl
  obtain ⟨cap, t1⟩ := steps_texts env 0 [b] 0
    ⟨none, [(0, fun res => Work.texts (tail res))], [], []⟩ m3
  obtain ⟨cap', t2⟩ := steps_texts env 0 (tail (.ok b)) 0 ⟨none, [], [], []⟩
    (m3.write 0 ⟨(m3.heap 0).text ++ [b].flatten, cap⟩)
  refine ⟨3 + ([b].length + 1) + ((tail (.ok b)).length + 1), ?_⟩
  rw [(run_replicate env 0 _ _).2, Thread.steps_add env 0 (3 + _), Thread.steps_add env 0 3]
  have e3 : Thread.steps env 0 3 ((World.initial fun _ => [(f, outer)]).threads 0,
      (World.initial fun _ => [(f, outer)]).mem)
      = (⟨some (0, Work.texts [b]), [(0, fun res => Work.texts (tail res))], [], []⟩, m3) := by
    simp only [Thread.steps, World.initial, Thread.step, a1, outer]
    change (match m2.acquire f 0 with | (r', m) => _) = _
    rw [a2]
  rw [e3, t1]
  simp only [Thread.finish, hm3, ht1, List.flatten_cons, List.flatten_nil, List.append_nil,
    List.nil_append] at t2 ⊢
  rw [t2]
  simp [Memory.write]

/-- `x=%s!` with an argument whose `toString()` calls the same cached formatter with the argument `y`. -/
example : (((World.initial fun _ => [(⟨1, [], 16, true⟩,
      .emit (js! "x=") (.call ⟨1, [], 16, true⟩ (Work.texts [js! "x=", js! "y", js! "!"]) fun res =>
        match res with
        | .ok s => Work.texts [s, js! "!"]
        | .error e => .fail e))]).run ⟨fun c n => max c n⟩ (List.replicate 20 0)).threads 0).results
    = [.ok (js! "x=y!x=y!!")] := by rfl
example : result (.emit (js! "x=") (.call ⟨1, [], 16, true⟩ (Work.texts [js! "x=", js! "y", js! "!"])
      fun res => match res with
        | .ok s => Work.texts [s, js! "!"]
        | .error e => .fail e)) = .ok (js! "x=x=y!!") := by rfl

/-! ### C35 -/

/-- A configuration call; `fresh` is the identity of the object it may create. -/
inductive Config
  | cache (fresh : Nat)
  | capacity (c : Int) (fresh : Nat)

/-- A sequence of configuration calls, each on the result of the previous one. -/
def configure : List Config → Instance → Res Instance
  | [], i => .ok i
  | .cache fresh :: rest, i => configure rest (i.enableThreadLocalCache fresh)
  | .capacity c fresh :: rest, i => do configure rest (← i.setStringBuilderInitialCapacity c fresh)

/-- The work of a plain formatting call is the formatting loop. -/
theorem result_ofEngine (env : DateEnv) (apps : List Appender) (args : List Traits) :
    result (Work.ofEngine env apps args) = formatWith env apps args := by
  have key : ∀ (apps : List Appender) (args : List Traits) (acc : JStr),
      resultFrom (Work.ofEngine env apps args) acc
        = match runSB env apps args acc with
          | ⟨_, .error e⟩ => .error e
          | ⟨sb, .ok _⟩ => .ok sb := by
    intro apps
    induction apps with
    | nil => intro args acc; rfl
    | cons a rest ih =>
      intro args acc
      simp only [Work.ofEngine, runSB]
      cases a.append env args with
      | error e => rfl
      | ok p =>
        obtain ⟨seq, args'⟩ := p
        simp only []
        rw [Seq.appendToSB_prefix seq acc]
        cases seq.appendToSB [] with
        | error e => rfl
        | ok s => exact ih args' (acc ++ s)
  exact key apps args []

theorem nonReentrant_ofEngine (env : DateEnv) (apps : List Appender) (args : List Traits)
    (b : List Nat) : NonReentrant (Work.ofEngine env apps args) b := by
  induction apps generalizing args with
  | nil => trivial
  | cons a rest ih =>
    simp only [Work.ofEngine]
    cases a.append env args with
    | error e => trivial
    | ok p =>
      simp only []
      cases p.1.appendToSB [] with
      | error e => trivial
      | ok s => exact ih _

theorem configure_appenders (cs : List Config) (i j : Instance) (h : configure cs i = .ok j) :
    j.appenders = i.appenders := by
  induction cs generalizing i with
  | nil => simp only [configure, Except.ok.injEq] at h; rw [h]
  | cons c cs ih =>
    cases c with
    | cache fresh =>
      rw [ih _ h]
      unfold Instance.enableThreadLocalCache
      split_ifs <;> rfl
    | capacity c fresh =>
      simp only [configure, Instance.setStringBuilderInitialCapacity] at h
      split_ifs at h with h1 h2
      · exact ih _ h
      · simp only [bind_ok] at h
        rw [ih _ h]
      · cases h

/-- A formatting call made by a thread: a format, the configuration calls, the arguments. -/
structure FormatCall where
  format : JStr
  fresh : Nat
  configs : List Config
  args : List Traits
  inst : Instance

/-- **C35.** Threads format with instances obtained by compiling any formats and configuring them in any
way; instances may be shared.  Every call returns what `compile(format).format(args)` returns: neither the
configuration nor the history of the instance shows in the results. -/
theorem C35_configuration_invisible (dates : DateSyntax) (env : DateEnv) (genv : GrowthEnv)
    (calls : Nat → List FormatCall)
    (hinst : ∀ t, ∀ c ∈ calls t, ∃ i, Instance.compile dates c.format c.fresh = .ok i ∧
      configure c.configs i = .ok c.inst)
    (schedule : List Nat) (t : Nat) :
    let th := ((World.initial fun t => (calls t).map fun c =>
      (c.inst, Work.ofEngine env c.inst.appenders c.args)).run genv schedule).threads t
    th.results <+: (calls t).map (fun c => printf dates env c.format c.args) ∧
    (th.Finished → th.results = (calls t).map fun c => printf dates env c.format c.args) := by
  intro th
  have h := C33_calls_do_not_interfere genv (fun t => (calls t).map fun c =>
    (c.inst, Work.ofEngine env c.inst.appenders c.args)) schedule t (by
      intro c hc
      obtain ⟨d, -, rfl⟩ := List.mem_map.1 hc
      exact nonReentrant_ofEngine _ _ _ _)
  have e : ((calls t).map fun c => (c.inst, Work.ofEngine env c.inst.appenders c.args)).map
      (fun c => result c.2) = (calls t).map fun c => printf dates env c.format c.args := by
    rw [List.map_map]
    apply List.map_congr_left
    intro c hc
    obtain ⟨i, hi, hconf⟩ := hinst t c hc
    simp only [Function.comp]
    rw [result_ofEngine, configure_appenders _ _ _ hconf]
    unfold Instance.compile at hi
    unfold printf
    cases hcomp : Compiler.compile dates c.format with
    | error e => rw [hcomp] at hi; cases hi
    | ok apps =>
      rw [hcomp] at hi
      simp only [bind_ok] at hi ⊢
      split_ifs at hi with hbig
      cases hi
      rfl
  rw [e] at h
  exact h

/-- Each configuration call returns the same object when there is nothing to change, otherwise an object
with exactly that setting changed; a capacity that is not positive is rejected. -/
theorem C35_configuration (i : Instance) (fresh fresh' : Nat) (c : Int) :
    (i.cached = true → i.enableThreadLocalCache fresh = i) ∧
    (i.cached = false →
      i.enableThreadLocalCache fresh = { i with id := fresh, cached := true }) ∧
    (i.enableThreadLocalCache fresh).enableThreadLocalCache fresh' = i.enableThreadLocalCache fresh ∧
    (c ≤ 0 → i.setStringBuilderInitialCapacity c fresh = .error .illegalArgument) ∧
    (0 < c → c = i.capacity → i.setStringBuilderInitialCapacity c fresh = .ok i) ∧
    (0 < c → c ≠ i.capacity → i.setStringBuilderInitialCapacity c fresh
      = .ok { i with id := fresh, capacity := c.toNat }) ∧
    (∀ j, i.setStringBuilderInitialCapacity c fresh = .ok j →
      j.setStringBuilderInitialCapacity c fresh' = .ok j) := by
  refine ⟨?_, ?_, ?_, ?_, ?_, ?_, ?_⟩
  · intro h; simp [Instance.enableThreadLocalCache, h]
  · intro h; simp [Instance.enableThreadLocalCache, h]
  · unfold Instance.enableThreadLocalCache
    split_ifs <;> simp_all
  · intro h; simp [Instance.setStringBuilderInitialCapacity]; omega
  · intro h h'; simp [Instance.setStringBuilderInitialCapacity, h, h'.symm]
  · intro h h'
    simp only [Instance.setStringBuilderInitialCapacity]
    rw [if_pos h, if_neg (by omega)]
  · intro j hj
    unfold Instance.setStringBuilderInitialCapacity at hj ⊢
    split_ifs at hj with h1 h2
    · simp only [Except.ok.injEq] at hj
      subst hj
      simp [h1, h2]
    · simp only [Except.ok.injEq] at hj
      subst hj
      rw [if_pos h1, if_pos]
      simp only [Int.toNat_of_nonneg (by omega : 0 ≤ c)]

/-- Formatting with the compiled instance: the initial capacity is one and a half times the length, at
least 16; a format too long for that is refused by an `ArithmeticException`. -/
theorem C35_initial_capacity (dates : DateSyntax) (format : JStr) (fresh : Nat) (i : Instance)
    (h : Instance.compile dates format fresh = .ok i) :
    i.cached = false ∧ 16 ≤ i.capacity ∧ format.length ≤ i.capacity ∧
    (i.capacity : Int) ≤ intMax := by
  unfold Instance.compile at h
  cases hcomp : Compiler.compile dates format with
  | error e => rw [hcomp] at h; cases h
  | ok apps =>
    rw [hcomp] at h
    simp only [bind_ok] at h
    split_ifs at h with hbig
    cases h
    refine ⟨rfl, ?_, ?_, ?_⟩
    · simp only []; omega
    · simp only []; omega
    · simp only []; push_cast at hbig ⊢; omega

/-- An instance configured twice, used by two threads. -/
example : ∃ i j, Instance.compile ⟨fun _ => true⟩ (js! "x=%d") 1 = .ok i ∧
    configure [.cache 2, .capacity 100 3, .cache 4] i = .ok j ∧ j.cached = true ∧ j.capacity = 100 ∧
    j.id = 3 := by
  refine ⟨_, _, rfl, rfl, rfl, rfl, rfl⟩

end FastPrintf
