/-
Ropes as arguments: a consistent rope, and a slice of one, is read like a string with its text.
-/
import Verif.Spec.Readings
import Verif.Proofs.Seq
import Verif.Model.Args

namespace FastPrintf
open Spec

theorem Seq.charAt_zero {q : Seq} (h : q.Sane) {c : JChar} {r : JStr} (ht : q.text = c :: r) :
    0 < q.length ∧ q.charAt 0 = .ok c := by
  have h0 := h.length_nonneg
  have hp : 0 < q.length := by
    rcases Int.lt_or_eq_of_le h0 with h1 | h1
    · exact h1
    · rw [h.text_of_length_zero h1.symm] at ht; cases ht
  refine ⟨hp, ?_⟩
  have loop : ∀ es : List Atomic, (∀ a ∈ es, a.WF) → es.flatMap Atomic.text = c :: r →
      Seq.charAtLoop es 0 = .ok c := by
    intro es he ht
    rw [Seq.charAtLoop_ok es he 0 (by rw [ht]; simp), ht]; rfl
  cases q with
  | atom a =>
    simp only [Seq.text] at ht
    simp only [Seq.charAt]
    rw [Atomic.charAt_ok h (i := 0) (by rw [ht]; simp), ht]; rfl
  | concat l r n k =>
    simp only [Seq.charAt, Seq.leaves_ok h, checkPositionIndex_ok ⟨le_refl 0, hp⟩, bind_ok]
    exact loop _ (Seq.flat_wf h) (by rw [Seq.flat_text]; exact ht)
  | array es n =>
    simp only [Seq.charAt, Seq.leaves_ok h, checkPositionIndex_ok ⟨le_refl 0, hp⟩, bind_ok]
    exact loop _ (Seq.flat_wf h) (by rw [Seq.flat_text]; exact ht)

/-- A rope whose leaves are consistent has its text, if it has a length only with a text. -/
theorem Spec.RopeText.of_sane {q : Seq} (h : q.Sane) (h0 : q.text = [] → q.length = 0) : RopeText q q.text :=
  ⟨Seq.toStr_ok h, h0, fun _ _ ht => Seq.charAt_zero h ht⟩

theorem Spec.RopeText.of_wf {q : Seq} (h : q.WF) : RopeText q q.text :=
  .of_sane h.sane fun h0 => by rw [h.length_text, h0]; rfl

/-- The traits of such a rope are those of a string with the same text, apart from the rope itself. -/
theorem Spec.RopeText.traits {q : Seq} {s : JStr} (h : RopeText q s) (jdk : JdkEnv) (ref : RefSlot) :
    seqTraits jdk q ref = charSequenceTraits jdk s (.ok q) ref := by
  unfold seqTraits
  rw [h.text]
  simp only [bind_ok]
  have hc : (if q.length ≥ 1 then q.charAt 0 else .error (.printf (.wrongType .emptyToChar))) =
      (charSequenceTraits jdk s (.ok q) ref).asChar := by
    cases s with
    | nil => rw [h.empty rfl]; rfl
    | cons c r =>
      obtain ⟨h1, h2⟩ := h.first c r rfl
      rw [if_pos (by omega), h2]; rfl
  rw [hc]; rfl

end FastPrintf
