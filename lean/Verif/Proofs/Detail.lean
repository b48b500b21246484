/-
Exceptions with their messages, compared with the model without them.
-/
import Verif.Spec.Detail
import Verif.Props.Complaints
import Verif.Proofs.Slices

namespace FastPrintf
open Spec

namespace Detail

theorem forget_lift {α : Type} (r : Res α) : forget (lift r) = r := by cases r <;> rfl

theorem forget_bind {α β : Type} (r : Out α) (f : α → Out β) :
    forget (r >>= f) = forget r >>= fun a => forget (f a) := by cases r <;> rfl

theorem forget_pure {α : Type} (a : α) : forget (pure a : Out α) = .ok a := rfl

theorem says_null (name : JStr) :
    Messages.lenientFormat (some (js! "Argument '%s' cannot be null")) (some [.text name]) = nullMessage name := by
  rw [template_one (p := js! "Argument '") (q := js! "' cannot be null") (by decide)]; rfl

theorem says_index (i n : Int) :
    IndexMessage i n (Messages.lenientFormat (some (js! "index: %s, size: %s")) (some [num i, num n])) := by
  have : Messages.lenientFormat (some (js! "index: %s, size: %s")) (some [num i, num n]) =
      js! "index: " ++ intToString i ++ js! ", size: " ++ intToString n := by
    rw [C43_message, show Spec.pieces (js! "index: %s, size: %s") = [js! "index: ", js! ", size: ", []] by decide]
    simp [Spec.weave, num, Spec.shown, Spec.brackets]
  rw [this]
  exact .mk (decimalText_intToString _) (decimalText_intToString _)

theorem says_bounds (i j n : Int) :
    BoundsMessage i j n
      (Messages.lenientFormat (some (js! "start: %s, end: %s, size: %s")) (some [num i, num j, num n])) := by
  have : Messages.lenientFormat (some (js! "start: %s, end: %s, size: %s")) (some [num i, num j, num n]) =
      js! "start: " ++ intToString i ++ js! ", end: " ++ intToString j ++ js! ", size: " ++ intToString n := by
    rw [C43_message, show Spec.pieces (js! "start: %s, end: %s, size: %s") =
      [js! "start: ", js! ", end: ", js! ", size: ", []] by decide]
    simp [Spec.weave, num, Spec.shown, Spec.brackets]
  rw [this]
  exact .mk (decimalText_intToString _) (decimalText_intToString _) (decimalText_intToString _)

/-! ### The checks -/

theorem checkNotNull_none {α β : Type} (name : JStr) (f : α → Out β) :
    RefusesNull (checkNotNull none name >>= f) name := by
  unfold RefusesNull checkNotNull
  rw [says_null]; rfl

theorem checkNotNull_some {α : Type} (a : α) (name : JStr) : checkNotNull (some a) name = .ok a := rfl

theorem checkArgument_false {β : Type} {c : Bool} (hc : c = false) (message : JStr) (f : Unit → Out β) :
    RefusesArgument (checkArgument c message >>= f) message := by
  subst hc
  unfold RefusesArgument checkArgument
  rw [template_none]; rfl

theorem index_err {β : Type} {i n : Int} (h : ¬ (0 ≤ i ∧ i < n)) (f : Unit → Out β) :
    RefusesIndex (checkPositionIndex i n >>= f) i n := by
  refine ⟨_, says_index i n, ?_⟩
  unfold checkPositionIndex
  rw [if_pos (by omega)]; rfl

theorem bounds_err {β : Type} {i j n : Int} (h : ¬ (0 ≤ i ∧ i ≤ j ∧ j ≤ n)) (f : Unit → Out β) :
    RefusesBounds (checkPositionIndexes i j n >>= f) i j n := by
  refine ⟨_, says_bounds i j n, ?_⟩
  unfold checkPositionIndexes
  rw [if_pos (by omega)]; rfl

theorem forget_index (i n : Int) : forget (checkPositionIndex i n) = FastPrintf.checkPositionIndex i n := by
  by_cases h : 0 ≤ i ∧ i < n
  · rw [FastPrintf.checkPositionIndex_ok h]; unfold checkPositionIndex; rw [if_neg (by omega)]; rfl
  · rw [FastPrintf.checkPositionIndex_err h]; unfold checkPositionIndex; rw [if_pos (by omega)]; rfl

theorem forget_bounds (i j n : Int) : forget (checkPositionIndexes i j n) = FastPrintf.checkPositionIndexes i j n := by
  by_cases h : 0 ≤ i ∧ i ≤ j ∧ j ≤ n
  · rw [FastPrintf.checkPositionIndexes_ok h]; unfold checkPositionIndexes; rw [if_neg (by omega)]; rfl
  · rw [FastPrintf.checkPositionIndexes_err h]; unfold checkPositionIndexes; rw [if_pos (by omega)]; rfl

theorem forget_cached (out : JStr) (n : Nat) : forget (getCachedString out n) = Atomic.getCachedString out n := by
  unfold getCachedString buildEagerly Atomic.getCachedString
  by_cases h : n = out.length
  · rw [if_neg (by simpa using h), if_pos h]; rfl
  · rw [if_pos (by simpa using h), if_neg h]; rfl

theorem forget_wrapRange (s : JStr) (i j : Int) : forget (wrapRange (some s) i j) = Atomic.wrapRange s i j := by
  unfold wrapRange Atomic.wrapRange
  rw [checkNotNull_some]
  show forget (checkPositionIndexes i j s.length >>= _) = _
  rw [forget_bind, forget_bounds]
  congr 1
  funext _
  by_cases h1 : i = j
  · simp only [if_pos h1]; rfl
  · simp only [if_neg h1]
    by_cases h2 : j = i + 1
    · simp only [if_pos h2, forget_bind, forget_lift]; rfl
    · simp only [if_neg h2]; rfl

/-! ### The sequences -/

theorem forget_leafCharAt (a : Atomic) (i : Int) : forget (leafCharAt a i) = a.charAt i := by
  cases a with
  | empty => rfl
  | repeated c n => rw [leafCharAt, Atomic.charAt, forget_bind, forget_index]; rfl
  | strView s st n up =>
    rw [leafCharAt, Atomic.charAt, forget_bind, forget_index]
    congr 1; funext _; rw [forget_bind, forget_lift]; rfl
  | charArray s st n up =>
    rw [leafCharAt, Atomic.charAt, forget_bind, forget_index]
    congr 1; funext _; rw [forget_bind, forget_lift]; rfl
  | lazy out n =>
    rw [leafCharAt, Atomic.charAt, forget_bind, forget_index]
    congr 1; funext _; rw [forget_bind, forget_cached]; congr 1; funext _; rw [forget_lift]
  | failing out n e => rw [leafCharAt, Atomic.charAt, forget_bind, forget_index]; rfl

theorem forget_leafSub (a : Atomic) (i j : Int) : forget (leafSubSequence a i j) = a.subSequence i j := by
  have view : ∀ (s : JStr) (st n : Nat) (up : Bool) (k : Atomic),
      forget (do
        checkPositionIndexes i j n
        if i = j then return .empty
        if j = i + 1 then return .ch (Atomic.caseOf up (← lift (charAtRaw s (st + i.toNat))))
        return k) =
      (do
        FastPrintf.checkPositionIndexes i j n
        if i = j then return .empty
        if j = i + 1 then return .ch (Atomic.caseOf up (← charAtRaw s (st + i.toNat)))
        return k : Res Atomic) := by
    intro s st n up k
    rw [forget_bind, forget_bounds]
    congr 1; funext _
    by_cases h1 : i = j
    · simp only [if_pos h1]; rfl
    · simp only [if_neg h1]
      by_cases h2 : j = i + 1
      · simp only [if_pos h2]; rw [forget_bind, forget_lift]; rfl
      · simp only [if_neg h2]; rfl
  cases a with
  | empty => rw [leafSubSequence, Atomic.subSequence]; split_ifs <;> rfl
  | repeated c n =>
    rw [leafSubSequence, Atomic.subSequence, forget_bind, forget_bounds]
    congr 1; funext _; split_ifs <;> rfl
  | strView s st n up => exact view s st n up _
  | charArray s st n up => exact view s st n up _
  | lazy out n =>
    rw [leafSubSequence, Atomic.subSequence, forget_bind, forget_bounds]
    congr 1; funext _; rw [forget_bind, forget_cached]; congr 1; funext _; rw [forget_wrapRange]
  | failing out n e => rw [leafSubSequence, Atomic.subSequence, forget_bind, forget_bounds]; rfl

theorem forget_charAtLoop (es : List Atomic) (i : Int) : forget (charAtLoop es i) = Seq.charAtLoop es i := by
  induction es generalizing i with
  | nil => rfl
  | cons a es ih =>
    rw [charAtLoop, Seq.charAtLoop]
    split_ifs
    · exact forget_leafCharAt a i
    · exact ih _

theorem forget_charAt (q : Seq) (i : Int) : forget (charAt q i) = q.charAt i := by
  have go : forget (checkPositionIndex i q.length >>= fun _ => lift q.leaves >>= fun es => charAtLoop es i) =
      (FastPrintf.checkPositionIndex i q.length >>= fun _ => q.leaves >>= fun es => Seq.charAtLoop es i) := by
    rw [forget_bind, forget_index]
    congr 1; funext _; rw [forget_bind, forget_lift]; congr 1; funext _; rw [forget_charAtLoop]
  cases q with
  | atom a => exact forget_leafCharAt a i
  | concat l r n k => exact go
  | array es n => exact go

theorem forget_subLoop (es : List Atomic) (i j : Int) (buf : List Atomic) :
    forget (subLoop es i j buf) = Seq.subLoop es i j buf := by
  induction es generalizing i j buf with
  | nil => rfl
  | cons a es ih =>
    rw [subLoop, Seq.subLoop]
    by_cases h1 : i < a.length
    · rw [if_pos h1, if_pos h1]
      by_cases h2 : j ≤ a.length
      · rw [if_pos h2, if_pos h2, forget_bind, forget_leafSub]; rfl
      · rw [if_neg h2, if_neg h2, forget_bind, forget_leafSub]
        congr 1; funext _; exact ih _ _ _
    · rw [if_neg h1, if_neg h1]; exact ih _ _ _

/-- `subSequence` of a composite. -/
theorem sub_composite {q : Seq} (h : ∀ a, q ≠ .atom a) (i j : Int) :
    subSequence q i j = (checkPositionIndexes i j q.length >>= fun _ =>
      if i = j then .ok .empty
      else if i = 0 ∧ j = q.length then .ok q
      else lift q.leaves >>= fun es => subLoop es i j [] >>= fun r =>
        match r.1 with
        | [] => .error ⟨.assertion, .absent⟩
        | [a] => .ok (.atom a)
        | buffer => .ok (.array buffer (r.2.2 - r.2.1))) := by
  cases q with
  | atom a => exact absurd rfl (h a)
  | concat l r n k => rw [subSequence]; rfl; simp
  | array es n => rw [subSequence]; rfl; simp

theorem forget_sub (q : Seq) (i j : Int) : forget (subSequence q i j) = q.subSequence i j := by
  by_cases ha : ∃ a, q = .atom a
  · obtain ⟨a, rfl⟩ := ha
    rw [subSequence, Seq.subSequence, forget_bind, forget_leafSub]; rfl
  · have hat : ∀ a, q ≠ .atom a := fun a h => ha ⟨a, h⟩
    rw [sub_composite hat, Own.library_subSequence_composite hat, forget_bind, forget_bounds]
    congr 1; funext _
    split_ifs
    · rfl
    · rfl
    · rw [forget_bind, forget_lift]
      congr 1; funext es
      rw [forget_bind, forget_subLoop]
      congr 1; funext r
      obtain ⟨b, s, e⟩ := r
      match b with
      | [] => rfl
      | [a] => rfl
      | a :: b :: l => rfl

theorem lift_forget_of_ok {α : Type} {r : Out α} {a : α} (h : forget r = .ok a) : r = .ok a := by
  cases r with
  | ok b => exact congrArg _ (Except.ok.inj h)
  | error t => cases h

theorem charAt_err {q : Seq} (he : q ≠ .atom .empty) {i : Int} (h : ¬ (0 ≤ i ∧ i < q.length)) :
    RefusesIndex (charAt q i) i q.length := by
  cases q with
  | atom a =>
    have hl := h
    change ¬ (0 ≤ i ∧ i < a.length) at hl
    show RefusesIndex (leafCharAt a i) i a.length
    cases a with
    | empty => exact absurd rfl he
    | repeated c n => exact index_err hl _
    | strView s st n up => exact index_err hl _
    | charArray s st n up => exact index_err hl _
    | lazy out n => exact index_err hl _
    | failing out n e => exact index_err hl _
  | concat l r n k => exact index_err h _
  | array es n => exact index_err h _

theorem sub_err {q : Seq} (he : q ≠ .atom .empty) {i j : Int} (h : ¬ (0 ≤ i ∧ i ≤ j ∧ j ≤ q.length)) :
    RefusesBounds (subSequence q i j) i j q.length := by
  by_cases ha : ∃ a, q = .atom a
  · obtain ⟨a, rfl⟩ := ha
    have hl := h
    change ¬ (0 ≤ i ∧ i ≤ j ∧ j ≤ a.length) at hl
    have key : RefusesBounds (leafSubSequence a i j) i j a.length := by
      cases a with
      | empty => exact absurd rfl he
      | repeated c n => exact bounds_err hl _
      | strView s st n up => exact bounds_err hl _
      | charArray s st n up => exact bounds_err hl _
      | lazy out n => exact bounds_err hl _
      | failing out n e => exact bounds_err hl _
    obtain ⟨m, m1, m2⟩ := key
    exact ⟨m, m1, by rw [subSequence, m2]; rfl⟩
  · have hat : ∀ a, q ≠ .atom a := fun a h => ha ⟨a, h⟩
    rw [sub_composite hat]
    exact bounds_err h _

end Detail
end FastPrintf
