/-
C115: a slot stands for ever for what it was made for, and no calls make another one primitive.
-/
import Verif.Proofs.RefSlots

namespace FastPrintf
open Spec RefSlots

/-- **C115.**  Whatever has been called before, `ofPrimitive()` gives one and the same slot, and whatever is called
afterwards it is primitive and refuses `get()`. -/
theorem C115_primitive : ∃ p, ∀ cs w, World.start.run cs = some w →
    ∃ w', w.step .ofPrimitive = some (.reference (some p), w') ∧
      ∀ cs' w'', w'.run cs' = some w'' → AnswersAs w'' p .primitive := by
  refine ⟨primitive, fun cs w h => ⟨_, rfl, fun cs' w'' h' => ?_⟩⟩
  have k1 := (step_sound (c := .ofPrimitive) (reached h) rfl).1
  have k2 := run_sound cs' k1 h'
  exact answers_primitive k2.1 (k2.2.more _ (List.mem_cons_self ..))

/-- **C115.**  `ofNull()` and `of(null)` give one and the same slot, which holds null. -/
theorem C115_null : ∃ n, ∀ cs w, World.start.run cs = some w → ∀ c, c = .ofNull ∨ c = .of none →
    ∃ w', w.step c = some (.reference (some n), w') ∧
      ∀ cs' w'', w'.run cs' = some w'' → AnswersAs w'' n .null := by
  refine ⟨null, fun cs w h c hc => ?_⟩
  have hs : ∃ w', w.step c = some (.reference (some null), w') ∧ null ∈ w'.known := by
    rcases hc with rfl | rfl
    · exact ⟨_, rfl, List.mem_cons_self ..⟩
    · refine ⟨(World.hand w.heap w.known (some null)).2, ?_, List.mem_cons_self ..⟩
      unfold World.step
      dsimp only
      rw [if_pos (by intro x hx; cases hx)]
      rfl
  obtain ⟨w', e, hk⟩ := hs
  refine ⟨w', e, fun cs' w'' h' => ?_⟩
  have k1 := (step_sound (reached h) e).1
  have k2 := run_sound cs' k1 h'
  exact answers_null k2.1 (k2.2.more _ hk)

/-- **C115.**  `of(x)`, for any object `x` that code outside the package can have, gives a slot that nobody has, and
whatever is called afterwards this one holds `x` itself and is not primitive. -/
theorem C115_object (cs : List Call) (w : World) (h : World.start.run cs = some w) (x : Nat) (hx : x ∈ w.known) :
    ∃ s w', w.step (.of (some x)) = some (.reference (some s), w') ∧ s ∉ w.known ∧
      ∀ cs' w'', w'.run cs' = some w'' → AnswersAs w'' s (.object x) := by
  have k := reached h
  have e : w.step (.of (some x)) = some (World.hand (w.heap.create (some x)).2 w.known (some w.heap.next)) := by
    unfold World.step
    dsimp only
    rw [if_pos (by intro y hy; cases hy; exact hx)]
    rfl
  refine ⟨w.heap.next, _, e, fun hm => absurd (k.kept _ hm) (Nat.lt_irrefl _), fun cs' w'' h' => ?_⟩
  have k1 := (step_sound k e).1
  have k2 := run_sound cs' k1 h'
  refine answers_object k2.1 (k2.2.more _ (List.mem_cons_self ..)) (k2.2.same _ _ ?_) ?_
  · show (w.heap.create (some x)).2.value w.heap.next = _
    rw [value_create, if_pos rfl]
  · have := k.low
    unfold primitive; omega

/-- **C115.**  So every slot that code outside the package can have stands for just one thing, and the one that
`ofPrimitive()` gives is the only primitive one. -/
theorem C115_each (cs : List Call) (w : World) (h : World.start.run cs = some w) (s : Nat)
    (hs : (w.step (.isPrimitive s)).isSome) :
    (∃ d, AnswersAs w s d ∧ ∀ d', AnswersAs w s d' → d' = d) ∧
      (AnswersAs w s .primitive ↔ (w.step .ofPrimitive).map Prod.fst = some (.reference (some s))) ∧
      (AnswersAs w s .null ↔ (w.step .ofNull).map Prod.fst = some (.reference (some s))) ∧
      ∀ x, AnswersAs w s (.object x) → x ∈ w.known := by
  have k := reached h
  have hk : s ∈ w.known ∧ (w.heap.value s).isSome := by
    unfold World.step at hs
    dsimp only at hs
    by_cases hc : s ∈ w.known ∧ (w.heap.value s).isSome
    · exact hc
    · rw [if_neg hc] at hs
      cases hs
  have hp : (w.step .ofPrimitive).map Prod.fst = some (.reference (some primitive)) := rfl
  have hn : (w.step .ofNull).map Prod.fst = some (.reference (some null)) := rfl
  rw [hp, hn]
  by_cases e : s = primitive
  · subst e
    have a := answers_primitive k hk.1
    refine ⟨⟨.primitive, a, fun d hd => ?_⟩, ⟨fun _ => rfl, fun _ => a⟩, ⟨fun b => ?_, fun b => ?_⟩, fun x b => ?_⟩
    · cases d with
      | primitive => rfl
      | null => exact absurd (a.1.symm.trans hd.1) (by decide)
      | object x => exact absurd (a.1.symm.trans hd.1) (by decide)
    · exact absurd (a.1.symm.trans b.1) (by decide)
    · exact absurd b (by decide)
    · exact absurd (a.1.symm.trans b.1) (by decide)
  · rcases hv : w.heap.value s with _ | _ | x
    · rw [hv] at hk; cases hk.2
    · have := k.nulls s hv
      subst this
      have a := answers_null k hk.1
      refine ⟨⟨.null, a, fun d hd => ?_⟩, ⟨fun b => ?_, fun b => ?_⟩, ⟨fun _ => rfl, fun _ => a⟩, fun x b => ?_⟩
      · cases d with
        | primitive => exact absurd (a.1.symm.trans hd.1) (by decide)
        | null => rfl
        | object x => exact absurd (a.2.symm.trans hd.2) (by simp)
      · exact absurd (a.1.symm.trans b.1) (by decide)
      · exact absurd b (by decide)
      · exact absurd (a.2.symm.trans b.2) (by simp)
    · have a := answers_object k hk.1 hv e
      have hne : s ≠ null := by
        rintro rfl
        rw [k.nul] at hv; cases hv
      refine ⟨⟨.object x, a, fun d hd => ?_⟩, ⟨fun b => ?_, fun b => ?_⟩, ⟨fun b => ?_, fun b => ?_⟩, fun y b => ?_⟩
      · cases d with
        | primitive => exact absurd (a.1.symm.trans hd.1) (by decide)
        | null => exact absurd (a.2.symm.trans hd.2) (by simp)
        | object y => have := a.2.symm.trans hd.2; simp only [Option.some.injEq, Answer.reference.injEq] at this; rw [this]
      · exact absurd (a.1.symm.trans b.1) (by decide)
      · simp only [Option.some.injEq, Answer.reference.injEq] at b; exact absurd b.symm e
      · exact absurd (a.2.symm.trans b.2) (by simp)
      · simp only [Option.some.injEq, Answer.reference.injEq] at b; exact absurd b.symm hne
      · have := a.2.symm.trans b.2
        simp only [Option.some.injEq, Answer.reference.injEq] at this
        exact this ▸ k.held s x hv e

/-- A run in which code makes an object, slots for it, for null, for a primitive, and a slot for a slot. -/
example : ((World.start.run [.newObject, .of (some 3), .of none, .ofPrimitive, .of (some 1), .get 5, .get 4]).map
    World.known) = some [3, 1, 5, 1, 2, 4, 3] := by decide

/-- Nobody can make a slot for the marker: the call cannot be written. -/
example : World.start.run [.newObject, .ofPrimitive, .of (some marker)] = none := by rfl

/-- A slot for the primitive slot is not primitive. -/
example : ∃ w, World.start.run [.ofPrimitive, .of (some 1)] = some w ∧ AnswersAs w 3 (.object 1) ∧
    AnswersAs w 1 .primitive := ⟨_, rfl, ⟨by decide, by decide⟩, by decide, by decide⟩

end FastPrintf
