/-
Formatting calls on threads: the builder a call writes to is not touched by any other call, as long as
no call is made on a cached instance in the middle of a call on the same instance by the same thread.
-/
import Verif.Model.Instance
import Mathlib.Tactic.Linarith

namespace FastPrintf

namespace Spec

/-- What a call returns when it is alone in the world: the texts it appends, one after the other; nested
calls likewise. `acc` is what has been appended already. -/
def resultFrom : Work → JStr → Res JStr
  | .done, acc => .ok acc
  | .fail e, _ => .error e
  | .emit s next, acc => resultFrom next (acc ++ s)
  | .call _ body next, acc => resultFrom (next (resultFrom body [])) acc

/-- What a call returns when it is alone in the world. -/
def result (w : Work) : Res JStr := resultFrom w []

/-- The instances with a thread-local builder that a call on `f` makes busy. -/
def busyWith (f : Instance) (busy : List Nat) : List Nat := if f.cached then f.id :: busy else busy

/-- No nested call is made on an instance that has a thread-local builder and is busy. -/
def NonReentrant : Work → List Nat → Prop
  | .done, _ => True
  | .fail _, _ => True
  | .emit _ next, busy => NonReentrant next busy
  | .call f body next, busy =>
    (f.cached = true → f.id ∉ busy) ∧ NonReentrant body (busyWith f busy) ∧
      NonReentrant (next (resultFrom body [])) busy

end Spec

open Spec

/-- The builders of the calls in progress, innermost first. -/
def Thread.refs (th : Thread) : List Nat :=
  (match th.active with | none => [] | some (r, _) => [r]) ++ th.waiting.map (·.1)

/-- The builders a thread can reach. -/
def Owns (t : Nat) (th : Thread) (m : Memory) (r : Nat) : Prop :=
  r ∈ th.refs ∨ ∃ id, m.cache id t = some r

/-- What a thread's action may do to the memory: `own` are the references it can reach before. -/
structure Local (t : Nat) (own : Nat → Prop) (m m' : Memory) : Prop where
  others : ∀ id t', t' ≠ t → m'.cache id t' = m.cache id t'
  mono : m.next ≤ m'.next
  heap : ∀ r, r < m.next → ¬ own r → m'.heap r = m.heap r
  row : ∀ id r, m'.cache id t = some r →
    m.cache id t = some r ∨ (m.next ≤ r ∧ r < m'.next)

theorem acquire_local {t : Nat} {own : Nat → Prop} {m : Memory} (f : Instance)
    (h : ∀ id r, m.cache id t = some r → own r) :
    Local t own m (m.acquire f t).2 ∧
      ((own (m.acquire f t).1 ∧ m.cache f.id t = some (m.acquire f t).1) ∨
       (m.next ≤ (m.acquire f t).1 ∧ (m.acquire f t).1 < (m.acquire f t).2.next)) := by
  unfold Memory.acquire
  by_cases hc : f.cached = true
  · rw [if_pos hc]
    unfold Memory.getLocal
    cases hl : m.cache f.id t with
    | some r =>
      simp only []
      split_ifs with hb
      · refine ⟨⟨?_, ?_, ?_, ?_⟩, .inr ⟨?_, ?_⟩⟩
        · intro id t' ht
          simp [Memory.alloc, Memory.setLocal, ht]
        · simp [Memory.alloc, Memory.setLocal]
        · intro r' hr _
          have : r' ≠ m.next := by omega
          simp [Memory.alloc, Memory.setLocal, this]
        · intro id r' hr
          simp only [Memory.alloc, Memory.setLocal, and_true] at hr ⊢
          split_ifs at hr with hid
          · right; simp only [Option.some.injEq] at hr; omega
          · exact .inl hr
        · simp [Memory.alloc]
        · simp [Memory.alloc, Memory.setLocal]
      · refine ⟨⟨?_, ?_, ?_, ?_⟩, .inl ⟨h _ _ hl, rfl⟩⟩
        · intro id t' ht; rfl
        · exact le_refl _
        · intro r' hr ho
          have : r' ≠ r := by rintro rfl; exact ho (h _ _ hl)
          simp [Memory.write, this]
        · intro id r' hr; exact .inl hr
    | none =>
      simp only []
      split_ifs with hb
      · exfalso
        have := hb.1
        simp [Memory.alloc, Memory.setLocal, MAX_RETAINED] at this
      · refine ⟨⟨?_, ?_, ?_, ?_⟩, .inr ⟨?_, ?_⟩⟩
        · intro id t' ht
          simp [Memory.alloc, Memory.setLocal, Memory.write, ht]
        · simp [Memory.alloc, Memory.setLocal, Memory.write]
        · intro r' hr _
          have : r' ≠ m.next := by omega
          simp [Memory.alloc, Memory.setLocal, Memory.write, this]
        · intro id r' hr
          simp only [Memory.alloc, Memory.setLocal, Memory.write, and_true] at hr ⊢
          split_ifs at hr with hid
          · right; simp only [Option.some.injEq] at hr; omega
          · exact .inl hr
        · simp [Memory.alloc]
        · simp [Memory.alloc, Memory.setLocal, Memory.write]
  · rw [if_neg hc]
    refine ⟨⟨?_, ?_, ?_, ?_⟩, .inr ⟨?_, ?_⟩⟩
    · intro id t' ht; rfl
    · simp [Memory.alloc]
    · intro r' hr _
      have : r' ≠ m.next := by omega
      simp [Memory.alloc, this]
    · intro id r' hr; exact .inl hr
    · simp [Memory.alloc]
    · simp [Memory.alloc]

theorem finish_refs (th : Thread) (res : Res JStr) : ∀ r ∈ (th.finish res).refs, r ∈ th.refs := by
  intro r hr
  unfold Thread.finish at hr
  cases hw : th.waiting with
  | nil =>
    simp [hw, Thread.refs] at hr
  | cons a ws =>
    obtain ⟨r0, k⟩ := a
    simp [hw, Thread.refs] at hr
    simp only [Thread.refs, hw, List.map_cons, List.mem_append, List.mem_cons, List.mem_map]
    rcases hr with rfl | ⟨b, hb⟩
    · exact .inr (.inl rfl)
    · exact .inr (.inr ⟨(r, b), hb, rfl⟩)

/-- A step of a thread only touches builders it owns or creates, and its own thread-local values. -/
theorem step_local (env : GrowthEnv) (t : Nat) (th : Thread) (m : Memory) :
    Local t (Owns t th m) m (th.step env t m).2 ∧
    ∀ r, Owns t (th.step env t m).1 (th.step env t m).2 r →
      Owns t th m r ∨ (m.next ≤ r ∧ r < (th.step env t m).2.next) := by
  have hown : ∀ id r, m.cache id t = some r → Owns t th m r := fun id r h => .inr ⟨id, h⟩
  have triv : ∀ th' : Thread, (∀ r ∈ th'.refs, r ∈ th.refs) →
      Local t (Owns t th m) m m ∧
      ∀ r, Owns t th' m r → Owns t th m r ∨ (m.next ≤ r ∧ r < m.next) := by
    intro th' h
    refine ⟨⟨fun _ _ _ => rfl, le_refl _, fun _ _ _ => rfl, fun _ _ h => .inl h⟩, ?_⟩
    rintro r (hr | hr)
    · exact .inl (.inl (h r hr))
    · exact .inl (.inr hr)
  unfold Thread.step
  cases ha : th.active with
  | none =>
    cases ht : th.todo with
    | nil => exact triv th (fun _ h => h)
    | cons c rest =>
      obtain ⟨f, w⟩ := c
      obtain ⟨hl, hr⟩ := acquire_local f hown
      refine ⟨hl, ?_⟩
      rintro r (h | ⟨id, h⟩)
      · simp only [Thread.refs, List.mem_append, List.mem_singleton] at h
        rcases h with rfl | h
        · rcases hr with ⟨h, -⟩ | h
          · exact .inl h
          · exact .inr h
        · exact .inl (.inl (by simp only [Thread.refs, ha, List.nil_append]; exact h))
      · rcases hl.row id r h with h | h
        · exact .inl (.inr ⟨id, h⟩)
        · exact .inr h
  | some p =>
    obtain ⟨r0, w⟩ := p
    have hr0 : r0 ∈ th.refs := by simp [Thread.refs, ha]
    cases w with
    | done => exact triv _ (finish_refs th _)
    | fail e => exact triv _ (finish_refs th _)
    | emit s k =>
      refine ⟨⟨fun _ _ _ => rfl, le_refl _, ?_, fun _ _ h => .inl h⟩, ?_⟩
      · intro r hr ho
        have : r ≠ r0 := by rintro rfl; exact ho (.inl hr0)
        simp [Memory.append, Memory.write, this]
      · rintro r (h | h)
        · refine .inl (.inl ?_)
          simpa [Thread.refs, ha] using h
        · exact .inl (.inr h)
    | call f body k =>
      obtain ⟨hl, hr⟩ := acquire_local f hown
      refine ⟨hl, ?_⟩
      rintro r (h | ⟨id, h⟩)
      · simp only [Thread.refs, List.map_cons, List.mem_append, List.mem_cons, List.not_mem_nil,
          or_false] at h
        rcases h with rfl | rfl | h
        · rcases hr with ⟨h, -⟩ | h
          · exact .inl h
          · exact .inr h
        · exact .inl (.inl hr0)
        · exact .inl (.inl (by simp only [Thread.refs, ha, List.mem_append]; exact .inr h))
      · rcases hl.row id r h with h | h
        · exact .inl (.inr ⟨id, h⟩)
        · exact .inr h

/-- No builder is reachable from two threads, and all reachable builders exist. -/
structure Separated (w : World) : Prop where
  disjoint : ∀ t t' r, Owns t (w.threads t) w.mem r → Owns t' (w.threads t') w.mem r → t = t'
  exists_ : ∀ t r, Owns t (w.threads t) w.mem r → r < w.mem.next

theorem Separated.initial (calls : Nat → List (Instance × Work)) :
    Separated (World.initial calls) := by
  constructor <;> simp [Owns, Thread.refs, World.initial, Memory.initial]

/-- The step of thread `t` as seen from thread `t'`. -/
theorem owns_other {env : GrowthEnv} {w : World} {t t' r : Nat} (h : t' ≠ t) :
    Owns t' ((w.step env t).threads t') (w.step env t).mem r ↔ Owns t' (w.threads t') w.mem r := by
  have hl := (step_local env t (w.threads t) w.mem).1
  simp only [Owns, World.step, if_neg h, hl.others _ _ h]

theorem owns_self {env : GrowthEnv} {w : World} {t r : Nat}
    (h : Owns t ((w.step env t).threads t) (w.step env t).mem r) :
    Owns t (w.threads t) w.mem r ∨ (w.mem.next ≤ r ∧ r < (w.step env t).mem.next) := by
  simp only [World.step, if_true] at h
  exact (step_local env t (w.threads t) w.mem).2 r h

theorem Separated.step {env : GrowthEnv} {w : World} (h : Separated w) (t : Nat) :
    Separated (w.step env t) := by
  have hl := (step_local env t (w.threads t) w.mem).1
  have hm : w.mem.next ≤ (w.step env t).mem.next := hl.mono
  constructor
  · intro a b r ha hb
    by_cases hat : a = t <;> by_cases hbt : b = t
    · omega
    · subst hat
      rw [owns_other hbt] at hb
      rcases owns_self ha with ha | ha
      · exact h.disjoint _ _ _ ha hb
      · have := h.exists_ _ _ hb; omega
    · subst hbt
      rw [owns_other hat] at ha
      rcases owns_self hb with hb | hb
      · exact h.disjoint _ _ _ ha hb
      · have := h.exists_ _ _ ha; omega
    · rw [owns_other hat] at ha
      rw [owns_other hbt] at hb
      exact h.disjoint _ _ _ ha hb
  · intro a r ha
    by_cases hat : a = t
    · subst hat
      rcases owns_self ha with ha | ha
      · have := h.exists_ _ _ ha; omega
      · exact ha.2
    · rw [owns_other hat] at ha
      have := h.exists_ _ _ ha; omega

/-- What the outer calls return once the innermost one returned `res`. -/
def outerResult (heap : Nat → Builder) : Res JStr → List (Nat × (Res JStr → Work)) → Res JStr
  | res, [] => res
  | res, (r, k) :: ws => outerResult heap (resultFrom (k res) (heap r).text) ws

/-- The results of all the calls of a thread, given the state they are in. -/
def Thread.expected (th : Thread) (heap : Nat → Builder) : List (Res JStr) :=
  th.results ++
  (match th.active with
    | none => []
    | some (r, w) => [outerResult heap (resultFrom w (heap r).text) th.waiting]) ++
  th.todo.map fun c => result c.2

/-- The outer calls are not re-entrant: `os` tells which instance with a thread-local builder each of
them is a call of. -/
def OuterOk (heap : Nat → Builder) :
    Res JStr → List (Nat × (Res JStr → Work)) → List (Option Nat) → Prop
  | _, [], _ => True
  | res, (r, k) :: ws, os =>
    NonReentrant (k res) (os.filterMap id) ∧
      OuterOk heap (resultFrom (k res) (heap r).text) ws os.tail

def owner (f : Instance) : Option Nat := if f.cached then some f.id else none

theorem busyWith_owner (f : Instance) (os : List (Option Nat)) :
    busyWith f (os.filterMap id) = (owner f :: os).filterMap id := by
  unfold busyWith owner
  by_cases h : f.cached = true
  · rw [if_pos h, if_pos h]; simp
  · rw [if_neg h, if_neg h]; simp

/-- How the builders of the calls in progress and the thread-local values of one thread relate. -/
structure Arranged (t : Nat) (m : Memory) (rs : List Nat) (os : List (Option Nat)) : Prop where
  len : rs.length = os.length
  nodup : rs.Nodup
  bound : ∀ r ∈ rs, r < m.next
  rowBound : ∀ id r, m.cache id t = some r → r < m.next
  inj : ∀ id id' r, m.cache id t = some r → m.cache id' t = some r → id = id'
  tied : ∀ id r o, m.cache id t = some r → (r, o) ∈ rs.zip os → o = some id

/-- The state of one thread. -/
structure ThreadOk (t : Nat) (th : Thread) (m : Memory) (all : List (Res JStr)) : Prop where
  idle : th.active = none → th.waiting = []
  ok : ∃ os, Arranged t m th.refs os ∧
    (∀ r w, th.active = some (r, w) → NonReentrant w (os.filterMap id) ∧
      OuterOk m.heap (resultFrom w (m.heap r).text) th.waiting os.tail)
  todo : ∀ c ∈ th.todo, NonReentrant c.2 (busyWith c.1 [])
  expected : th.expected m.heap = all

theorem outerResult_congr {h h' : Nat → Builder} (res : Res JStr)
    (ws : List (Nat × (Res JStr → Work))) (e : ∀ p ∈ ws, h' p.1 = h p.1) :
    outerResult h' res ws = outerResult h res ws := by
  induction ws generalizing res with
  | nil => rfl
  | cons p ws ih =>
    obtain ⟨r, k⟩ := p
    simp only [outerResult]
    rw [e (r, k) (by simp)]
    exact ih _ (fun q hq => e q (by simp [hq]))

theorem outerOk_congr {h h' : Nat → Builder} (res : Res JStr)
    (ws : List (Nat × (Res JStr → Work))) (os : List (Option Nat)) (e : ∀ p ∈ ws, h' p.1 = h p.1) :
    OuterOk h' res ws os ↔ OuterOk h res ws os := by
  induction ws generalizing res os with
  | nil => simp [OuterOk]
  | cons p ws ih =>
    obtain ⟨r, k⟩ := p
    simp only [OuterOk]
    rw [e (r, k) (by simp), ih _ _ (fun q hq => e q (by simp [hq]))]

/-- Getting a builder for a call that is not re-entrant. -/
theorem acquire_arranged {t : Nat} {m : Memory} {rs : List Nat} {os : List (Option Nat)}
    (h : Arranged t m rs os) (f : Instance) (hf : f.cached = true → some f.id ∉ os) :
    Arranged t (m.acquire f t).2 ((m.acquire f t).1 :: rs) (owner f :: os) ∧
    ((m.acquire f t).2.heap (m.acquire f t).1).text = [] ∧
    ∀ r ∈ rs, (m.acquire f t).2.heap r = m.heap r := by
  have notin : ∀ r, m.cache f.id t = some r → f.cached = true → r ∉ rs := by
    intro r hr hc hin
    obtain ⟨i, hi, rfl⟩ := List.getElem_of_mem hin
    have hi' : i < os.length := h.len ▸ hi
    have hz : (rs[i], os[i]) ∈ rs.zip os := by
      rw [List.mem_iff_getElem]
      exact ⟨i, by simp; omega, by simp⟩
    have := h.tied _ _ _ hr hz
    exact hf hc (this ▸ List.getElem_mem hi')
  unfold Memory.acquire
  by_cases hc : f.cached = true
  · rw [if_pos hc]
    have ho : owner f = some f.id := by simp [owner, hc]
    -- a fresh builder stored in the thread-local variable
    have fresh : ∀ cap, Arranged t ((m.alloc cap).2.setLocal f.id t m.next) (m.next :: rs)
        (owner f :: os) := by
      intro cap
      refine ⟨by simp [h.len], ?_, ?_, ?_, ?_, ?_⟩
      · rw [List.nodup_cons]
        exact ⟨fun hin => by have := h.bound _ hin; omega, h.nodup⟩
      · intro r hr
        simp only [Memory.alloc, Memory.setLocal]
        rcases List.mem_cons.1 hr with rfl | hr
        · omega
        · have := h.bound _ hr; omega
      · intro id r hr
        simp only [Memory.alloc, Memory.setLocal, and_true] at hr ⊢
        split_ifs at hr
        · simp only [Option.some.injEq] at hr; omega
        · have := h.rowBound _ _ hr; omega
      · intro id id' r hr hr'
        simp only [Memory.alloc, Memory.setLocal, and_true] at hr hr'
        split_ifs at hr hr' with h1 h2 h2
        · omega
        · simp only [Option.some.injEq] at hr; have := h.rowBound _ _ hr'; omega
        · simp only [Option.some.injEq] at hr'; have := h.rowBound _ _ hr; omega
        · exact h.inj _ _ _ hr hr'
      · intro id r o hr hz
        simp only [Memory.alloc, Memory.setLocal, and_true] at hr
        rw [List.zip_cons_cons, List.mem_cons] at hz
        split_ifs at hr with h1
        · simp only [Option.some.injEq] at hr
          subst hr
          rcases hz with hz | hz
          · simp only [Prod.mk.injEq] at hz; rw [hz.2, ho, h1]
          · have := h.bound _ (List.of_mem_zip hz).1; omega
        · rcases hz with hz | hz
          · simp only [Prod.mk.injEq] at hz
            have := h.rowBound _ _ hr; omega
          · exact h.tied _ _ _ hr hz
    unfold Memory.getLocal
    cases hl : m.cache f.id t with
    | some r =>
      simp only []
      split_ifs with hb
      · refine ⟨fresh _, ?_, ?_⟩
        · simp [Memory.alloc, Memory.setLocal]
        · intro r' hr'
          have : r' ≠ m.next := by have := h.bound _ hr'; omega
          simp [Memory.alloc, Memory.setLocal, this]
      · have hn := notin r hl hc
        refine ⟨⟨by simp [h.len], ?_, ?_, h.rowBound, h.inj, ?_⟩, ?_, ?_⟩
        · rw [List.nodup_cons]; exact ⟨hn, h.nodup⟩
        · intro r' hr'
          rcases List.mem_cons.1 hr' with rfl | hr'
          · exact h.rowBound _ _ hl
          · exact h.bound _ hr'
        · intro id r' o hr' hz
          rw [List.zip_cons_cons, List.mem_cons] at hz
          rcases hz with hz | hz
          · simp only [Prod.mk.injEq] at hz
            rw [hz.1] at hr'
            rw [hz.2, ho, h.inj _ _ _ hl hr']
          · exact h.tied _ _ _ hr' hz
        · simp only [Memory.write, if_true, Builder.ensureCapacity]
          split_ifs <;> rfl
        · intro r' hr'
          have : r' ≠ r := by rintro rfl; exact hn hr'
          simp [Memory.write, this]
    | none =>
      simp only []
      split_ifs with hb
      · exfalso
        have := hb.1
        simp [Memory.alloc, Memory.setLocal, MAX_RETAINED] at this
      · have hf := fresh 16
        refine ⟨⟨hf.len, hf.nodup, hf.bound, hf.rowBound, hf.inj, hf.tied⟩, ?_, ?_⟩
        · simp only [Memory.write, if_true, Builder.ensureCapacity]
          split_ifs <;> rfl
        · intro r' hr'
          have : r' ≠ m.next := by have := h.bound _ hr'; omega
          simp [Memory.alloc, Memory.setLocal, Memory.write, this]
  · rw [if_neg hc]
    have ho : owner f = none := by simp [owner, hc]
    refine ⟨⟨by simp [h.len], ?_, ?_, ?_, h.inj, ?_⟩, ?_, ?_⟩
    · rw [List.nodup_cons]
      exact ⟨fun hin => by have := h.bound _ hin; simp [Memory.alloc] at this, h.nodup⟩
    · intro r hr
      simp only [Memory.alloc] at hr ⊢
      rcases List.mem_cons.1 hr with rfl | hr
      · omega
      · have := h.bound _ hr; omega
    · intro id r hr
      have := h.rowBound _ _ hr
      simp only [Memory.alloc]; omega
    · intro id r o hr hz
      rw [List.zip_cons_cons, List.mem_cons] at hz
      rcases hz with hz | hz
      · simp only [Prod.mk.injEq, Memory.alloc] at hz
        have := h.rowBound _ _ hr; omega
      · exact h.tied _ _ _ hr hz
    · simp [Memory.alloc]
    · intro r' hr'
      have : r' ≠ m.next := by have := h.bound _ hr'; omega
      simp [Memory.alloc, this]

theorem ThreadOk.initial (t : Nat) (calls : List (Instance × Work))
    (h : ∀ c ∈ calls, NonReentrant c.2 (busyWith c.1 [])) :
    ThreadOk t ⟨none, [], calls, []⟩ Memory.initial (calls.map fun c => result c.2) := by
  refine ⟨fun _ => rfl, ⟨[], ⟨by simp [Thread.refs], by simp [Thread.refs], by simp [Thread.refs], ?_, ?_, ?_⟩, ?_⟩,
    h, by simp [Thread.expected]⟩
  · simp [Memory.initial]
  · simp [Memory.initial]
  · simp [Memory.initial]
  · simp

/-- A call in progress ends. -/
theorem ThreadOk.finish {t : Nat} {th : Thread} {m : Memory} {all : List (Res JStr)}
    (h : ThreadOk t th m all) {r : Nat} {w : Work} (ha : th.active = some (r, w)) (res : Res JStr)
    (hres : resultFrom w (m.heap r).text = res) : ThreadOk t (th.finish res) m all := by
  obtain ⟨os, harr, hact⟩ := h.ok
  obtain ⟨-, hout⟩ := hact r w ha
  rw [hres] at hout
  have hexp := h.expected
  simp only [Thread.expected, ha, hres] at hexp
  unfold Thread.finish
  cases hw : th.waiting with
  | nil =>
    rw [hw] at hexp
    refine ⟨fun _ => rfl.trans (by simpa using hw), ⟨[], ?_, by simp⟩, h.todo, ?_⟩
    · refine ⟨?_, ?_, ?_, harr.rowBound, harr.inj, ?_⟩ <;> simp [Thread.refs, hw]
    · simp only [Thread.expected]
      rw [← hexp]
      simp [outerResult]
  | cons p ws =>
    obtain ⟨r1, k⟩ := p
    rw [hw] at hexp hout
    simp only [OuterOk] at hout
    have hrefs : th.refs = r :: r1 :: ws.map (·.1) := by simp [Thread.refs, ha, hw]
    rw [hrefs] at harr
    rcases os with _ | ⟨o, os⟩
    · exact absurd harr.len (by simp)
    · refine ⟨by simp, ⟨os, ?_, ?_⟩, h.todo, ?_⟩
      · have e : ({ th with active := some (r1, k res), waiting := ws } : Thread).refs
            = r1 :: ws.map (·.1) := by simp [Thread.refs]
        rw [e]
        refine ⟨by have := harr.len; simp at this ⊢; exact this, (List.nodup_cons.1 harr.nodup).2,
          fun x hx => harr.bound x (by simp at hx ⊢; exact .inr hx), harr.rowBound, harr.inj, ?_⟩
        intro id x o' hx hz
        refine harr.tied id x o' hx ?_
        rw [List.zip_cons_cons]
        exact List.mem_cons_of_mem _ hz
      · intro r' w' he
        simp only [Option.some.injEq, Prod.mk.injEq] at he
        obtain ⟨rfl, rfl⟩ := he
        exact hout
      · simp only [Thread.expected]
        rw [← hexp]
        simp [outerResult]

/-- A thread's own step. -/
theorem ThreadOk.step {env : GrowthEnv} {t : Nat} {th : Thread} {m : Memory} {all : List (Res JStr)}
    (h : ThreadOk t th m all) :
    ThreadOk t (th.step env t m).1 (th.step env t m).2 all := by
  obtain ⟨os, harr, hact⟩ := h.ok
  have hexp := h.expected
  unfold Thread.step
  cases ha : th.active with
  | none =>
    have hw := h.idle ha
    cases ht : th.todo with
    | nil => exact h
    | cons c rest =>
      obtain ⟨f, w⟩ := c
      have hrefs : th.refs = [] := by simp [Thread.refs, ha, hw]
      rw [hrefs] at harr
      have hos : os = [] := by have := harr.len; simpa using this.symm
      subst hos
      obtain ⟨hA, htext, -⟩ := acquire_arranged harr f (by simp)
      have hn := h.todo (f, w) (by simp [ht])
      simp only []
      refine ⟨by simp, ⟨[owner f], ?_, ?_⟩, fun c hc => h.todo c (by simp [ht, hc]), ?_⟩
      · have e : ∀ r, ({ th with active := some (r, w), todo := rest } : Thread).refs = [r] := by
          intro r; simp [Thread.refs, hw]
        rw [e]
        exact hA
      · intro r' w' he
        simp only [Option.some.injEq, Prod.mk.injEq] at he
        obtain ⟨rfl, rfl⟩ := he
        refine ⟨?_, ?_⟩
        · rw [← busyWith_owner f []]; exact hn
        · rw [hw]; trivial
      · rw [← hexp]
        simp only [Thread.expected, ha, ht, hw, outerResult]
        rw [htext]
        simp [result]
  | some p =>
    obtain ⟨r, w⟩ := p
    obtain ⟨hnr, hout⟩ := hact r w ha
    simp only [Thread.expected, ha] at hexp
    have hrefs : th.refs = r :: th.waiting.map (·.1) := by simp [Thread.refs, ha]
    have hnd := harr.nodup
    rw [hrefs, List.nodup_cons] at hnd
    cases w with
    | done => exact h.finish ha _ rfl
    | fail e => exact h.finish ha _ rfl
    | emit s k =>
      simp only []
      have hsame : ∀ p ∈ th.waiting, (m.append env r s).heap p.1 = m.heap p.1 := by
        intro p hp
        have : p.1 ≠ r := by rintro e; exact hnd.1 (e ▸ List.mem_map_of_mem hp)
        simp [Memory.append, Memory.write, this]
      have htext : ((m.append env r s).heap r).text = (m.heap r).text ++ s := by
        simp [Memory.append, Memory.write]
      refine ⟨by simp, ⟨os, ?_, ?_⟩, h.todo, ?_⟩
      · have e : ({ th with active := some (r, k) } : Thread).refs = th.refs := by
          simp [Thread.refs, ha]
        rw [e]
        exact ⟨harr.len, harr.nodup, harr.bound, harr.rowBound, harr.inj, harr.tied⟩
      · intro r' w' he
        simp only [Option.some.injEq, Prod.mk.injEq] at he
        obtain ⟨rfl, rfl⟩ := he
        refine ⟨hnr, ?_⟩
        rw [htext, outerOk_congr _ _ _ hsame]
        exact hout
      · simp only [Thread.expected]
        rw [htext, outerResult_congr _ _ hsame]
        exact hexp
    | call f body k =>
      simp only [NonReentrant] at hnr
      obtain ⟨hA, htext, hsame⟩ := acquire_arranged harr f (fun hc hin =>
        hnr.1 hc (by rw [List.mem_filterMap]; exact ⟨_, hin, rfl⟩))
      simp only []
      have hsame' : ∀ p ∈ th.waiting, (m.acquire f t).2.heap p.1 = m.heap p.1 :=
        fun p hp => hsame p.1 (by rw [hrefs]; exact List.mem_cons_of_mem _ (List.mem_map_of_mem hp))
      have hsamer := hsame r (by rw [hrefs]; simp)
      refine ⟨by simp, ⟨owner f :: os, ?_, ?_⟩, h.todo, ?_⟩
      · have e : ∀ x, ({ th with active := some (x, body), waiting := (r, k) :: th.waiting }
            : Thread).refs = x :: th.refs := by
          intro x; simp [Thread.refs, ha]
        rw [e]
        exact hA
      · intro r' w' he
        simp only [Option.some.injEq, Prod.mk.injEq] at he
        obtain ⟨rfl, rfl⟩ := he
        refine ⟨by rw [← busyWith_owner]; exact hnr.2.1, ?_⟩
        rw [htext]
        simp only [List.tail_cons, OuterOk]
        refine ⟨hnr.2.2, ?_⟩
        rw [hsamer, outerOk_congr _ _ _ hsame']
        exact hout
      · simp only [Thread.expected]
        rw [htext]
        simp only [outerResult]
        rw [hsamer, outerResult_congr _ _ hsame']
        exact hexp

/-- A step of another thread. -/
theorem ThreadOk.other {env : GrowthEnv} {w : World} {t t' : Nat} {all : List (Res JStr)}
    (hs : Separated w) (h : ThreadOk t' (w.threads t') w.mem all) (hne : t' ≠ t) :
    ThreadOk t' ((w.step env t).threads t') (w.step env t).mem all := by
  have hl := (step_local env t (w.threads t) w.mem).1
  have hth : (w.step env t).threads t' = w.threads t' := by simp [World.step, hne]
  have hrow : ∀ id, (w.step env t).mem.cache id t' = w.mem.cache id t' :=
    fun id => hl.others id t' hne
  have hmono : w.mem.next ≤ (w.step env t).mem.next := hl.mono
  have hheap : ∀ r ∈ (w.threads t').refs, (w.step env t).mem.heap r = w.mem.heap r := by
    intro r hr
    have hown : Owns t' (w.threads t') w.mem r := .inl hr
    exact hl.heap r (hs.exists_ _ _ hown) (fun ho => hne (hs.disjoint _ _ _ hown ho))
  rw [hth]
  obtain ⟨os, harr, hact⟩ := h.ok
  have hwait : ∀ p ∈ (w.threads t').waiting, (w.step env t).mem.heap p.1 = w.mem.heap p.1 := by
    intro p hp
    refine hheap _ ?_
    simp only [Thread.refs, List.mem_append, List.mem_map]
    exact .inr ⟨p, hp, rfl⟩
  refine ⟨h.idle, ⟨os, ?_, ?_⟩, h.todo, ?_⟩
  · refine ⟨harr.len, harr.nodup, fun r hr => lt_of_lt_of_le (harr.bound r hr) hmono, ?_, ?_, ?_⟩
    · intro id r hr; rw [hrow] at hr; exact lt_of_lt_of_le (harr.rowBound id r hr) hmono
    · intro id id' r hr hr'; rw [hrow] at hr hr'; exact harr.inj _ _ _ hr hr'
    · intro id r o hr hz; rw [hrow] at hr; exact harr.tied _ _ _ hr hz
  · intro r k ha
    have hr : (w.step env t).mem.heap r = w.mem.heap r := hheap _ (by simp [Thread.refs, ha])
    obtain ⟨h1, h2⟩ := hact r k ha
    refine ⟨h1, ?_⟩
    rw [hr, outerOk_congr _ _ _ hwait]
    exact h2
  · rw [← h.expected]
    unfold Thread.expected
    cases ha : (w.threads t').active with
    | none => rfl
    | some p =>
      obtain ⟨r, k⟩ := p
      have hr : (w.step env t).mem.heap r = w.mem.heap r := hheap _ (by simp [Thread.refs, ha])
      simp only []
      rw [hr, outerResult_congr _ _ hwait]

theorem run_ok {env : GrowthEnv} {t : Nat} {all : List (Res JStr)} (schedule : List Nat) :
    ∀ w : World, Separated w → ThreadOk t (w.threads t) w.mem all →
      Separated (w.run env schedule) ∧
      ThreadOk t ((w.run env schedule).threads t) (w.run env schedule).mem all := by
  induction schedule with
  | nil => intro w hs h; exact ⟨hs, h⟩
  | cons x xs ih =>
    intro w hs h
    refine ih _ (hs.step x) ?_
    by_cases hx : t = x
    · subst hx
      have := h.step (env := env)
      simpa [World.step] using this
    · exact h.other hs hx

end FastPrintf
