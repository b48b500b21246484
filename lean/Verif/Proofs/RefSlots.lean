/-
What stays true of the heap and of what code outside the package holds, whatever it calls.
-/
import Verif.Spec.RefSlots

namespace FastPrintf
open Spec RefSlots

/-- What stays true: references are below the next one, the two slots of the class are as loaded, the marker has not
been handed out and only `PRIMITIVE` holds it; a slot holds what has been handed out. -/
structure Sound (w : World) : Prop where
  low : 3 ≤ w.heap.next
  prim : w.heap.value primitive = some (some marker)
  nul : w.heap.value null = some none
  below : ∀ s v, w.heap.value s = some v → s < w.heap.next
  kept : ∀ x ∈ w.known, x < w.heap.next
  hidden : marker ∉ w.known
  held : ∀ s x, w.heap.value s = some (some x) → s ≠ primitive → x ∈ w.known
  nulls : ∀ s, w.heap.value s = some none → s = null

theorem Sound.start : Sound World.start where
  low := by decide
  prim := by decide
  nul := by decide
  below := by
    intro s v h
    simp only [World.start, loaded, Heap.value, List.lookup_cons, List.lookup_nil, primitive, null] at h
    split at h
    · rename_i h1; have := beq_iff_eq.1 h1; subst this; decide
    · split at h
      · rename_i h1; have := beq_iff_eq.1 h1; subst this; decide
      · cases h
  kept := by intro x hx; cases hx
  hidden := by intro h; cases h
  held := by
    intro s x h hs
    simp only [World.start, loaded, Heap.value, List.lookup_cons, List.lookup_nil, primitive, null] at h hs
    split at h
    · rename_i h1; exact absurd (beq_iff_eq.1 h1) hs
    · split at h <;> cases h
  nulls := by
    intro s h
    simp only [World.start, loaded, Heap.value, List.lookup_cons, List.lookup_nil, primitive, null] at h ⊢
    split at h
    · cases h
    · split at h
      · rename_i h1; exact beq_iff_eq.1 h1
      · cases h

theorem value_create (h : Heap) (v : Option Nat) (s : Nat) :
    (h.create v).2.value s = if s = h.next then some v else h.value s := by
  unfold Heap.create Heap.value
  rw [List.lookup_cons]
  by_cases e : s = h.next
  · rw [if_pos e, beq_iff_eq.2 e]
  · rw [if_neg e]
    have : (s == h.next) = false := by simpa using e
    rw [this]

/-- The marker is in no slot that has been handed out but `PRIMITIVE`. -/
theorem Sound.isPrimitive {w : World} (k : Sound w) (s : Nat) :
    RefSlots.isPrimitive w.heap s = decide (s = primitive) := by
  unfold RefSlots.isPrimitive
  by_cases h : s = primitive
  · rw [beq_iff_eq.2 h, Bool.true_or, decide_eq_true h]
  · have h1 : (s == primitive) = false := by simpa using h
    have h2 : w.heap.value s ≠ some (some marker) := fun hv => k.hidden (k.held s _ hv h)
    rw [h1, Bool.false_or, decide_eq_false h]
    simpa using h2

/-- Handing out a reference that is not the marker keeps everything. -/
theorem Sound.hand {w : World} (k : Sound w) (x : Nat) (hx : x < w.heap.next) (hm : x ≠ marker) :
    Sound (World.hand w.heap w.known (some x)).2 where
  low := k.low
  prim := k.prim
  nul := k.nul
  below := k.below
  kept := by
    intro y hy
    rcases List.mem_cons.1 hy with rfl | hy
    · exact hx
    · exact k.kept y hy
  hidden := by
    intro h
    rcases List.mem_cons.1 h with h | h
    · exact hm h.symm
    · exact k.hidden h
  held := fun s y h hs => List.mem_cons_of_mem _ (k.held s y h hs)
  nulls := k.nulls

theorem Sound.hand_null {w : World} (k : Sound w) : Sound (World.hand w.heap w.known none).2 := k

/-- A new object of another class. -/
theorem Sound.fresh {w : World} (k : Sound w) : Sound { w with heap := { w.heap with next := w.heap.next + 1 } } where
  low := Nat.le_succ_of_le k.low
  prim := k.prim
  nul := k.nul
  below := fun s v h => Nat.lt_succ_of_lt (k.below s v h)
  kept := fun x hx => Nat.lt_succ_of_lt (k.kept x hx)
  hidden := k.hidden
  held := k.held
  nulls := k.nulls

/-- A new slot for something handed out. -/
theorem Sound.create {w : World} (k : Sound w) {x : Nat} (hx : x ∈ w.known) :
    Sound { w with heap := (w.heap.create (some x)).2 } where
  low := Nat.le_succ_of_le k.low
  prim := by
    show (w.heap.create (some x)).2.value primitive = _
    rw [value_create, if_neg (by have := k.low; unfold primitive; omega), k.prim]
  nul := by
    show (w.heap.create (some x)).2.value null = _
    rw [value_create, if_neg (by have := k.low; unfold null; omega), k.nul]
  below := by
    intro s v h
    replace h : (w.heap.create (some x)).2.value s = some v := h
    show s < w.heap.next + 1
    rw [value_create] at h
    by_cases e : s = w.heap.next
    · omega
    · rw [if_neg e] at h; exact Nat.lt_succ_of_lt (k.below s v h)
  kept := fun y hy => Nat.lt_succ_of_lt (k.kept y hy)
  hidden := k.hidden
  held := by
    intro s y h hs
    replace h : (w.heap.create (some x)).2.value s = some (some y) := h
    show y ∈ w.known
    rw [value_create] at h
    by_cases e : s = w.heap.next
    · rw [if_pos e] at h
      have : x = y := Option.some.inj (Option.some.inj h)
      exact this ▸ hx
    · rw [if_neg e] at h; exact k.held s y h hs
  nulls := by
    intro s h
    replace h : (w.heap.create (some x)).2.value s = some none := h
    rw [value_create] at h
    by_cases e : s = w.heap.next
    · rw [if_pos e] at h; cases h
    · rw [if_neg e] at h; exact k.nulls s h

/-- What later calls leave alone: slots keep their value, and what has been handed out stays so. -/
structure Later (w w' : World) : Prop where
  same : ∀ s v, w.heap.value s = some v → w'.heap.value s = some v
  more : ∀ x ∈ w.known, x ∈ w'.known

theorem Later.refl (w : World) : Later w w := ⟨fun _ _ h => h, fun _ h => h⟩
theorem Later.trans {a b c : World} (h : Later a b) (g : Later b c) : Later a c :=
  ⟨fun s v e => g.same s v (h.same s v e), fun x e => g.more x (h.more x e)⟩

theorem step_sound {w w' : World} {c : Call} {a : Answer} (k : Sound w) (h : w.step c = some (a, w')) :
    Sound w' ∧ Later w w' := by
  have h3 := k.low
  cases c with
  | newObject =>
    cases h
    exact ⟨k.fresh.hand w.heap.next (Nat.lt_succ_self _) (by unfold marker; omega), fun _ _ e => e,
      fun x hx => List.mem_cons_of_mem _ hx⟩
  | ofPrimitive =>
    cases h
    exact ⟨k.hand _ (by unfold primitive; omega) (by decide), fun _ _ e => e, fun x hx => List.mem_cons_of_mem _ hx⟩
  | ofNull =>
    cases h
    exact ⟨k.hand _ (by unfold null; omega) (by decide), fun _ _ e => e, fun x hx => List.mem_cons_of_mem _ hx⟩
  | of value =>
    unfold World.step at h
    by_cases hv : ∀ x ∈ value, x ∈ w.known
    · dsimp only at h
      rw [if_pos hv] at h
      cases value with
      | none =>
        cases h
        exact ⟨k.hand null (by unfold null; omega) (by decide), fun _ _ e => e,
          fun x hx => List.mem_cons_of_mem _ hx⟩
      | some x =>
        cases h
        refine ⟨(k.create (hv x rfl)).hand w.heap.next (Nat.lt_succ_self _) (by unfold marker; omega), fun s v e => ?_,
          fun x hx => List.mem_cons_of_mem _ hx⟩
        show (w.heap.create (some x)).2.value s = _
        rw [value_create, if_neg (by have := k.below s v e; omega), e]
    · dsimp only at h
      rw [if_neg hv] at h; cases h
  | isPrimitive s =>
    unfold World.step at h
    dsimp only at h
    split at h
    · cases h; exact ⟨k, Later.refl w⟩
    · cases h
  | get s =>
    unfold World.step at h
    dsimp only at h
    split at h
    · rename_i hs
      by_cases hp : s = primitive
      · have : RefSlots.get w.heap s = none := by
          unfold RefSlots.get; rw [k.isPrimitive, decide_eq_true hp, if_pos rfl]
        rw [this] at h
        cases h; exact ⟨k, Later.refl w⟩
      · have : RefSlots.get w.heap s = w.heap.value s := by
          unfold RefSlots.get; rw [k.isPrimitive, decide_eq_false hp]; rfl
        rw [this] at h
        rcases hv : w.heap.value s with _ | _ | x
        · rw [hv] at hs; cases hs.2
        · rw [hv] at h; cases h
          exact ⟨k, fun _ _ e => e, fun _ e => e⟩
        · rw [hv] at h; cases h
          have hx := k.held s x hv hp
          exact ⟨k.hand x (k.kept x hx) (fun e => k.hidden (e ▸ hx)), fun _ _ e => e,
            fun y hy => List.mem_cons_of_mem _ hy⟩
    · cases h

theorem run_sound : ∀ (cs : List Call) {w w' : World}, Sound w → w.run cs = some w' → Sound w' ∧ Later w w'
  | [], w, w', k, h => by cases h; exact ⟨k, Later.refl w⟩
  | c :: cs, w, w', k, h => by
    unfold World.run at h
    rcases hs : w.step c with _ | ⟨a, w1⟩
    · rw [hs] at h; cases h
    · rw [hs] at h
      have h1 := step_sound k hs
      have h2 := run_sound cs h1.1 h
      exact ⟨h2.1, h1.2.trans h2.2⟩

theorem reached {cs : List Call} {w : World} (h : World.start.run cs = some w) : Sound w :=
  (run_sound cs Sound.start h).1

theorem answers_isPrimitive {w : World} (k : Sound w) {s : Nat} (hs : s ∈ w.known) {v : Option Nat}
    (hv : w.heap.value s = some v) :
    (w.step (.isPrimitive s)).map Prod.fst = some (.truth (decide (s = primitive))) := by
  unfold World.step
  dsimp only
  rw [if_pos ⟨hs, by rw [hv]; rfl⟩, k.isPrimitive]
  rfl

theorem answers_get {w : World} (k : Sound w) {s : Nat} (hs : s ∈ w.known) {v : Option Nat}
    (hv : w.heap.value s = some v) (hp : s ≠ primitive) :
    (w.step (.get s)).map Prod.fst = some (.reference v) := by
  unfold World.step RefSlots.get
  dsimp only
  rw [if_pos ⟨hs, by rw [hv]; rfl⟩, k.isPrimitive, decide_eq_false hp, hv]
  rfl

theorem answers_primitive {w : World} (k : Sound w) (hs : primitive ∈ w.known) : AnswersAs w primitive .primitive := by
  refine ⟨answers_isPrimitive k hs k.prim, ?_⟩
  unfold World.step RefSlots.get
  dsimp only
  rw [if_pos ⟨hs, by rw [k.prim]; rfl⟩, k.isPrimitive]
  rfl

theorem answers_null {w : World} (k : Sound w) (hs : null ∈ w.known) : AnswersAs w null .null :=
  ⟨answers_isPrimitive k hs k.nul, answers_get k hs k.nul (by decide)⟩

theorem answers_object {w : World} (k : Sound w) {s x : Nat} (hs : s ∈ w.known) (hv : w.heap.value s = some (some x))
    (hp : s ≠ primitive) : AnswersAs w s (.object x) :=
  ⟨by rw [answers_isPrimitive k hs hv, decide_eq_false hp], answers_get k hs hv hp⟩

end FastPrintf
