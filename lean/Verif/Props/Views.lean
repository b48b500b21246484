/-
Property theorems about sequences over arrays that are changed afterwards: C73.
-/
import Verif.Model.Views
import Verif.Props.Cache
import Verif.Props.Rope

namespace FastPrintf
open Spec

/-- Java arrays keep their length. -/
def SameLengths (h h' : Heap) : Prop := ∀ r, (h' r).length = (h r).length

/-- A view inside its array. -/
def ViewLeaf.Inside (h : Heap) : ViewLeaf → Prop
  | .other a => a.WF
  | .view ref st n _ => st + n ≤ (h ref).length

theorem ViewLeaf.Inside.wf {h : Heap} {v : ViewLeaf} (hv : v.Inside h) : (v.now h).WF := by
  cases v with
  | other a => exact hv
  | view ref st n up => exact hv

theorem ViewLeaf.Inside.later {h h' : Heap} {v : ViewLeaf} (hv : v.Inside h)
    (hs : SameLengths h h') : v.Inside h' := by
  cases v with
  | other a => exact hv
  | view ref st n up => show st + n ≤ _; rw [hs]; exact hv

/-- Writing one cell keeps all lengths. -/
theorem Heap.write_lengths (h : Heap) (ref i : Nat) (c : JChar) : SameLengths h (h.write ref i c) := by
  intro r; unfold Heap.write; split <;> simp

/-- **C73.** With the arrays at rest the model with references is the model with contents: looking up
the contents commutes with slicing and upper-casing. -/
theorem C73_at_rest (h : Heap) (v : ViewLeaf) (i j : Int) :
    (v.subSequence h i j).map (·.now h) = (v.now h).subSequence i j ∧
    v.upperCase.map (·.now h) = (v.now h).upperCase := by
  cases v with
  | other a =>
    constructor
    · simp only [ViewLeaf.subSequence, ViewLeaf.now]
      cases a.subSequence i j <;> rfl
    · simp only [ViewLeaf.upperCase, ViewLeaf.now]
      cases a.upperCase <;> rfl
  | view ref st n up =>
    refine ⟨?_, rfl⟩
    simp only [ViewLeaf.subSequence, ViewLeaf.now, Atomic.subSequence]
    cases checkPositionIndexes i j n with
    | error e => rfl
    | ok _ =>
      simp only [bind_ok]
      by_cases h1 : i = j
      · rw [if_pos h1, if_pos h1]; rfl
      · rw [if_neg h1, if_neg h1]
        by_cases h2 : j = i + 1
        · rw [if_pos h2, if_pos h2]
          cases charAtRaw (h ref) (st + i.toNat) <;> rfl
        · rw [if_neg h2, if_neg h2]; rfl

/-- **C73.** The bounds check of `forArray(ch, start, length)`, done with a sum that may overflow,
accepts exactly the ranges inside the array. -/
theorem C73_range (h : Heap) (ref : Nat) (start length : Int) (h1 : intMin ≤ start ∧ start ≤ intMax)
    (h2 : intMin ≤ length ∧ length ≤ intMax) (h3 : ((h ref).length : Int) ≤ intMax) :
    (ViewLeaf.forArrayRange h ref start length).map (·.now h) =
      Atomic.forArrayRange (h ref) start length := by
  have key : checkPositionIndexes start (wrap32 (start + length)) (h ref).length =
      checkPositionIndexes start (start + length) (h ref).length := by
    have hb := Int.bmod_def (start + length) (2 ^ 32)
    simp only [intMin, intMax] at *
    unfold checkPositionIndexes wrap32
    congr 1
    apply propext
    omega
  simp only [ViewLeaf.forArrayRange, Atomic.forArrayRange, key]
  cases checkPositionIndexes start (start + length) (h ref).length <;> rfl

/-- **C73 (views).** A slice of two or more characters and an upper-cased sequence are views: whatever
is written to the array afterwards, the slice shows what slicing the changed sequence would show. -/
theorem C73_view (h h' : Heap) (hs : SameLengths h h') (ref st n : Nat) (up : Bool) (i j : Int)
    (hv : (ViewLeaf.view ref st n up).Inside h) (hij : 0 ≤ i ∧ i + 2 ≤ j ∧ j ≤ n) :
    (∃ w, (ViewLeaf.view ref st n up).subSequence h i j = .ok w ∧ (w.now h').WF ∧
      (w.now h').text =
        Spec.sub ((ViewLeaf.view ref st n up).now h').text i.toNat j.toNat) ∧
    (∃ w, (ViewLeaf.view ref st n up).upperCase = .ok w ∧ (w.now h').WF ∧
      (w.now h').text = ((ViewLeaf.view ref st n up).now h').text.map Spec.upper) := by
  have hv' := hv.later hs
  have hw := hv'.wf
  have hlen : (((ViewLeaf.view ref st n up).now h').text.length : Int) = n := by
    have := Atomic.length_text hw
    rw [← this]; rfl
  constructor
  · refine ⟨.view ref (st + i.toNat) (j - i).toNat up, ?_, ?_⟩
    · simp only [ViewLeaf.subSequence]
      rw [checkPositionIndexes_ok (by omega), bind_ok, if_neg (by omega), if_neg (by omega)]
      rfl
    · obtain ⟨b, h1, h2, h3⟩ := Atomic.subSequence_ok (i := i) (j := j) hw (by omega)
      have : (ViewLeaf.view ref st n up |>.now h').subSequence i j =
          .ok (.charArray (h' ref) (st + i.toNat) (j - i).toNat up) := by
        simp only [ViewLeaf.now, Atomic.subSequence]
        rw [checkPositionIndexes_ok (by omega), bind_ok, if_neg (by omega), if_neg (by omega)]
        rfl
      rw [this] at h1
      cases h1
      exact ⟨h2, h3⟩
  · obtain ⟨b, h1, h2, h3⟩ := Atomic.upperCase_ok hw
    refine ⟨.view ref st n true, rfl, ?_⟩
    cases h1
    exact ⟨h2, h3⟩

/-- **C73 (snapshots).** A slice of one character or none is a snapshot: what is written to the array
afterwards does not reach it. -/
theorem C73_snapshot (h h' : Heap) (ref st n : Nat) (up : Bool) (i j : Int)
    (hv : (ViewLeaf.view ref st n up).Inside h) (hij : 0 ≤ i ∧ i ≤ j ∧ j ≤ i + 1 ∧ j ≤ n) :
    ∃ w, (ViewLeaf.view ref st n up).subSequence h i j = .ok w ∧
      w.now h' = w.now h ∧
      (w.now h').text = Spec.sub ((ViewLeaf.view ref st n up).now h).text i.toNat j.toNat := by
  have hw := hv.wf
  have hlen : (((ViewLeaf.view ref st n up).now h).text.length : Int) = n := by
    have := Atomic.length_text hw
    rw [← this]; rfl
  obtain ⟨b, h1, h2, h3⟩ := Atomic.subSequence_ok (i := i) (j := j) hw (by omega)
  have hr := (C73_at_rest h (.view ref st n up) i j).1
  rw [h1] at hr
  cases hsub : (ViewLeaf.view ref st n up).subSequence h i j with
  | error e => rw [hsub] at hr; cases hr
  | ok w =>
    rw [hsub] at hr
    have hwb : w.now h = b := by injection hr
    have hother : ∃ a, w = .other a := by
      simp only [ViewLeaf.subSequence] at hsub
      rw [checkPositionIndexes_ok (by omega), bind_ok] at hsub
      by_cases he : i = j
      · rw [if_pos he] at hsub; cases hsub; exact ⟨_, rfl⟩
      · rw [if_neg he, if_pos (by omega)] at hsub
        cases hc : charAtRaw (h ref) (st + i.toNat) with
        | error e => rw [hc] at hsub; cases hsub
        | ok c => rw [hc] at hsub; cases hsub; exact ⟨_, rfl⟩
    obtain ⟨a, rfl⟩ := hother
    have hab : a = b := hwb
    subst hab
    exact ⟨_, rfl, rfl, h3⟩

/-- **C73 (equality looks at the present).** Two views are equal exactly if their characters are the
same now. -/
theorem C73_equals (h : Heap) (r st n r' st' n' : Nat) (up up' : Bool)
    (hv : (ViewLeaf.view r st n up).Inside h) (hv' : (ViewLeaf.view r' st' n' up').Inside h) :
    Atomic.arrayEquals ((ViewLeaf.view r st n up).now h) ((ViewLeaf.view r' st' n' up').now h) false =
      .ok (decide (((ViewLeaf.view r st n up).now h).text =
        ((ViewLeaf.view r' st' n' up').now h).text)) :=
  C57_equals _ _ hv.wf hv'.wf false (by simp) ⟨_, _, _, _, rfl⟩ ⟨_, _, _, _, rfl⟩

/-- **C73 (the hash code looks at the past).** The first call that finds a non-zero hash code fixes it:
before, the calls return the hash code of the string of the moment, which is 0; from then on they all
return that value, whatever is written to the array. -/
theorem C73_hash (ref st n : Nat) (up : Bool) (hs : List Heap)
    (hin : ∀ h ∈ hs, (ViewLeaf.view ref st n up).Inside h) :
    ViewLeaf.hashCodes ref st n up 0#32 hs = .ok
      (let now := hs.map fun h => stringHash ((ViewLeaf.view ref st n up).now h).text
       now.takeWhile (· = 0#32) ++
        List.replicate (now.length - (now.takeWhile (· = 0#32)).length)
          ((now.find? (· ≠ 0#32)).getD 0#32)) := by
  have filled : ∀ (hs : List Heap) (f : BitVec 32), f ≠ 0#32 →
      ViewLeaf.hashCodes ref st n up f hs = .ok (List.replicate hs.length f) := by
    intro hs
    induction hs with
    | nil => intro f _; rfl
    | cons h hs ih =>
      intro f hf
      simp only [ViewLeaf.hashCodes, ViewLeaf.hashCode]
      rw [if_neg hf, bind_ok]
      simp only [ih f hf, bind_ok]
      rfl
  induction hs with
  | nil => rfl
  | cons h hs ih =>
    have ih := ih (fun x hx => hin x (List.mem_cons_of_mem _ hx))
    have hh := C57_hash (h ref) st n up (hin h (by simp)).wf
    simp only [ViewLeaf.hashCodes, ViewLeaf.hashCode]
    rw [if_pos trivial, hh, bind_ok]
    simp only [pure_eq_ok, bind_ok]
    by_cases h0 : stringHash ((ViewLeaf.view ref st n up).now h).text = 0#32
    · have h0' : stringHash (Atomic.charArray (h ref) st n up).text = 0#32 := h0
      rw [h0', ih]
      simp [ViewLeaf.now, h0']
    · have h0' : stringHash (Atomic.charArray (h ref) st n up).text ≠ 0#32 := h0
      rw [filled hs _ h0']
      simp [ViewLeaf.now, h0', List.replicate_succ]

/-- **C73, negated claim.** Equal sequences need not have equal hash codes: ask the hash code of a view
of `"ab"`, write `x` over the `a`, and compare with a fresh view of the same array. -/
theorem C73_stale :
    ∃ (h h' : Heap) (v : ViewLeaf), SameLengths h h' ∧ v = ViewLeaf.view 0 0 2 false ∧
      Atomic.arrayEquals (v.now h') (v.now h') false = .ok true ∧
      ViewLeaf.hashCodes 0 0 2 false 0#32 [h, h'] = .ok [3105#32, 3105#32] ∧
      ViewLeaf.hashCodes 0 0 2 false 0#32 [h'] = .ok [3818#32] := by
  refine ⟨fun _ => js! "ab", Heap.write (fun _ => js! "ab") 0 0 (ch! 'x'), _,
    Heap.write_lengths _ _ _ _, rfl, ?_, ?_, ?_⟩ <;> decide

/-- A slice of two characters follows the array, a slice of one does not. -/
example :
    let h : Heap := fun _ => js! "abcd"
    let h' := h.write 0 1 (ch! 'X')
    let v := ViewLeaf.forArray h 0
    (do let w ← v.subSequence h 1 3; (w.now h').toStr) = .ok (js! "Xc") ∧
    (do let w ← v.subSequence h 1 2; (w.now h').toStr) = .ok (js! "b") ∧
    (do let w ← v.upperCase; (w.now h').toStr) = .ok (js! "AXCD") := by decide

/-- An overflowing range is refused. -/
example : ViewLeaf.forArrayRange (fun _ => js! "abcd") 0 2 2147483647 = .error .indexOutOfBounds := by
  decide

end FastPrintf
